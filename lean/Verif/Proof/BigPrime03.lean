import Verif.Proof.BigPrime02

/-! Certificates for prime numbers of 11000 bits. The files import one another so that they are not checked at the same time, which would take much memory. -/

namespace Verif.Proof

theorem prime_35883789919745625 : (bigPrime 35883789919745625).Prime := bigPrime_of_check 35883789919745625 2 5 (by decide +kernel)
theorem prime_9969371118952245 : (bigPrime 9969371118952245).Prime := bigPrime_of_check 9969371118952245 2 8 (by decide +kernel)
theorem prime_591248626925781825 : (bigPrime 591248626925781825).Prime := bigPrime_of_check 591248626925781825 2 3 (by decide +kernel)

end Verif.Proof
