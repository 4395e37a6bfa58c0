import Verif.Proof.BigPrime15

/-! Certificates for prime numbers of 11000 bits. The files import one another so that they are not checked at the same time, which would take much memory. -/

namespace Verif.Proof

theorem prime_42167172207785625 : (bigPrime 42167172207785625).Prime := bigPrime_of_check 42167172207785625 2 3 (by decide +kernel)
theorem prime_3215291625 : (bigPrime 3215291625).Prime := bigPrime_of_check 3215291625 2 5 (by decide +kernel)
theorem prime_87837830149001205 : (bigPrime 87837830149001205).Prime := bigPrime_of_check 87837830149001205 2 3 (by decide +kernel)

end Verif.Proof
