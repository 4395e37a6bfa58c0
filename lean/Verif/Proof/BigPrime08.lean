import Verif.Proof.BigPrime07

/-! Certificates for prime numbers of 11000 bits. The files import one another so that they are not checked at the same time, which would take much memory. -/

namespace Verif.Proof

theorem prime_40537248610438125 : (bigPrime 40537248610438125).Prime := bigPrime_of_check 40537248610438125 2 13 (by decide +kernel)
theorem prime_253477917 : (bigPrime 253477917).Prime := bigPrime_of_check 253477917 2 3 (by decide +kernel)
theorem prime_465400617346665 : (bigPrime 465400617346665).Prime := bigPrime_of_check 465400617346665 2 5 (by decide +kernel)

end Verif.Proof
