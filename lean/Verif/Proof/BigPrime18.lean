import Verif.Proof.BigPrime17

/-! Certificates for prime numbers of 11000 bits. The files import one another so that they are not checked at the same time, which would take much memory. -/

namespace Verif.Proof

theorem prime_9122508647294105188125 : (bigPrime 9122508647294105188125).Prime := bigPrime_of_check 9122508647294105188125 2 3 (by decide +kernel)

end Verif.Proof
