import Verif.Proof.BigPrime13

/-! Certificates for prime numbers of 11000 bits. The files import one another so that they are not checked at the same time, which would take much memory. -/

namespace Verif.Proof

theorem prime_46435563820470825 : (bigPrime 46435563820470825).Prime := bigPrime_of_check 46435563820470825 2 5 (by decide +kernel)
theorem prime_29169952281893548125 : (bigPrime 29169952281893548125).Prime := bigPrime_of_check 29169952281893548125 2 5 (by decide +kernel)
theorem prime_24124534263262125 : (bigPrime 24124534263262125).Prime := bigPrime_of_check 24124534263262125 2 8 (by decide +kernel)

end Verif.Proof
