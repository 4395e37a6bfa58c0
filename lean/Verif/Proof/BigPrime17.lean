import Verif.Proof.BigPrime16

/-! Certificates for prime numbers of 11000 bits. The files import one another so that they are not checked at the same time, which would take much memory. -/

namespace Verif.Proof

theorem prime_10006865374791285 : (bigPrime 10006865374791285).Prime := bigPrime_of_check 10006865374791285 2 9 (by decide +kernel)
theorem prime_2269930227775835625 : (bigPrime 2269930227775835625).Prime := bigPrime_of_check 2269930227775835625 2 5 (by decide +kernel)
theorem prime_1986392262681059805 : (bigPrime 1986392262681059805).Prime := bigPrime_of_check 1986392262681059805 2 3 (by decide +kernel)

end Verif.Proof
