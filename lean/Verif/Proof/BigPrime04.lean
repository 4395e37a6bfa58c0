import Verif.Proof.BigPrime03

/-! Certificates for prime numbers of 11000 bits. The files import one another so that they are not checked at the same time, which would take much memory. -/

namespace Verif.Proof

theorem prime_5120743974250905 : (bigPrime 5120743974250905).Prime := bigPrime_of_check 5120743974250905 2 5 (by decide +kernel)
theorem prime_1571503518089505 : (bigPrime 1571503518089505).Prime := bigPrime_of_check 1571503518089505 2 3 (by decide +kernel)
theorem prime_477816882896925 : (bigPrime 477816882896925).Prime := bigPrime_of_check 477816882896925 2 7 (by decide +kernel)

end Verif.Proof
