import Verif.Proof.BigPrime05

/-! Certificates for prime numbers of 11000 bits. The files import one another so that they are not checked at the same time, which would take much memory. -/

namespace Verif.Proof

theorem prime_1497130472534697 : (bigPrime 1497130472534697).Prime := bigPrime_of_check 1497130472534697 2 5 (by decide +kernel)
theorem prime_2328936090552225 : (bigPrime 2328936090552225).Prime := bigPrime_of_check 2328936090552225 2 7 (by decide +kernel)
theorem prime_25635334623793125 : (bigPrime 25635334623793125).Prime := bigPrime_of_check 25635334623793125 2 7 (by decide +kernel)

end Verif.Proof
