import Verif.Proof.BigPrime12

/-! Certificates for prime numbers of 11000 bits. The files import one another so that they are not checked at the same time, which would take much memory. -/

namespace Verif.Proof

theorem prime_5516684392795861910625 : (bigPrime 5516684392795861910625).Prime := bigPrime_of_check 5516684392795861910625 2 8 (by decide +kernel)
theorem prime_539306084774090205 : (bigPrime 539306084774090205).Prime := bigPrime_of_check 539306084774090205 2 8 (by decide +kernel)
theorem prime_3642709140596898356985 : (bigPrime 3642709140596898356985).Prime := bigPrime_of_check 3642709140596898356985 2 3 (by decide +kernel)

end Verif.Proof
