import Verif.Proof.BigPrime

/-! Certificates for prime numbers of 11000 bits. The files import one another so that they are not checked at the same time, which would take much memory. -/

namespace Verif.Proof

theorem prime_252541414125 : (bigPrime 252541414125).Prime := bigPrime_of_check 252541414125 2 5 (by decide +kernel)
theorem prime_31926553884225 : (bigPrime 31926553884225).Prime := bigPrime_of_check 31926553884225 2 8 (by decide +kernel)
theorem prime_2279777244868202625 : (bigPrime 2279777244868202625).Prime := bigPrime_of_check 2279777244868202625 2 5 (by decide +kernel)

end Verif.Proof
