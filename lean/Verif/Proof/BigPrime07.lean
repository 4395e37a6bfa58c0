import Verif.Proof.BigPrime06

/-! Certificates for prime numbers of 11000 bits. The files import one another so that they are not checked at the same time, which would take much memory. -/

namespace Verif.Proof

theorem prime_778606113285 : (bigPrime 778606113285).Prime := bigPrime_of_check 778606113285 2 5 (by decide +kernel)
theorem prime_597966789272057205 : (bigPrime 597966789272057205).Prime := bigPrime_of_check 597966789272057205 2 3 (by decide +kernel)
theorem prime_5081767780517522325 : (bigPrime 5081767780517522325).Prime := bigPrime_of_check 5081767780517522325 2 7 (by decide +kernel)

end Verif.Proof
