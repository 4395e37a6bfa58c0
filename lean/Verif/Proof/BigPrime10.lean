import Verif.Proof.BigPrime09

/-! Certificates for prime numbers of 11000 bits. The files import one another so that they are not checked at the same time, which would take much memory. -/

namespace Verif.Proof

theorem prime_15990389544335831625 : (bigPrime 15990389544335831625).Prime := bigPrime_of_check 15990389544335831625 2 7 (by decide +kernel)
theorem prime_179273549744745981525 : (bigPrime 179273549744745981525).Prime := bigPrime_of_check 179273549744745981525 2 7 (by decide +kernel)
theorem prime_555382217989278225 : (bigPrime 555382217989278225).Prime := bigPrime_of_check 555382217989278225 2 5 (by decide +kernel)

end Verif.Proof
