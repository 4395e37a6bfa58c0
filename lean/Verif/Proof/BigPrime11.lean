import Verif.Proof.BigPrime10

/-! Certificates for prime numbers of 11000 bits. The files import one another so that they are not checked at the same time, which would take much memory. -/

namespace Verif.Proof

theorem prime_11245227981135773625 : (bigPrime 11245227981135773625).Prime := bigPrime_of_check 11245227981135773625 2 3 (by decide +kernel)
theorem prime_37325672408393265897 : (bigPrime 37325672408393265897).Prime := bigPrime_of_check 37325672408393265897 2 7 (by decide +kernel)
theorem prime_8436840142437 : (bigPrime 8436840142437).Prime := bigPrime_of_check 8436840142437 2 3 (by decide +kernel)

end Verif.Proof
