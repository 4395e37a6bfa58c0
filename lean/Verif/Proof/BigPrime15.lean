import Verif.Proof.BigPrime14

/-! Certificates for prime numbers of 11000 bits. The files import one another so that they are not checked at the same time, which would take much memory. -/

namespace Verif.Proof

theorem prime_286020215105625 : (bigPrime 286020215105625).Prime := bigPrime_of_check 286020215105625 2 5 (by decide +kernel)
theorem prime_45873468090259425 : (bigPrime 45873468090259425).Prime := bigPrime_of_check 45873468090259425 2 9 (by decide +kernel)
theorem prime_14997910217074785 : (bigPrime 14997910217074785).Prime := bigPrime_of_check 14997910217074785 2 3 (by decide +kernel)

end Verif.Proof
