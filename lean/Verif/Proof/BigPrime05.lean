import Verif.Proof.BigPrime04

/-! Certificates for prime numbers of 11000 bits. The files import one another so that they are not checked at the same time, which would take much memory. -/

namespace Verif.Proof

theorem prime_219204155795625 : (bigPrime 219204155795625).Prime := bigPrime_of_check 219204155795625 2 9 (by decide +kernel)
theorem prime_6446033534674305 : (bigPrime 6446033534674305).Prime := bigPrime_of_check 6446033534674305 2 3 (by decide +kernel)
theorem prime_1029653779353524325 : (bigPrime 1029653779353524325).Prime := bigPrime_of_check 1029653779353524325 2 7 (by decide +kernel)

end Verif.Proof
