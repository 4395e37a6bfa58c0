import Verif.Proof.BigPrime11

/-! Certificates for prime numbers of 11000 bits. The files import one another so that they are not checked at the same time, which would take much memory. -/

namespace Verif.Proof

theorem prime_19053431289117225 : (bigPrime 19053431289117225).Prime := bigPrime_of_check 19053431289117225 2 7 (by decide +kernel)
theorem prime_228279109905 : (bigPrime 228279109905).Prime := bigPrime_of_check 228279109905 2 3 (by decide +kernel)
theorem prime_336188224853105625 : (bigPrime 336188224853105625).Prime := bigPrime_of_check 336188224853105625 2 5 (by decide +kernel)

end Verif.Proof
