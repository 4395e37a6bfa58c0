import Verif.Proof.BigPrime01

/-! Certificates for prime numbers of 11000 bits. The files import one another so that they are not checked at the same time, which would take much memory. -/

namespace Verif.Proof

theorem prime_10863859104945 : (bigPrime 10863859104945).Prime := bigPrime_of_check 10863859104945 2 7 (by decide +kernel)
theorem prime_96781955103204525 : (bigPrime 96781955103204525).Prime := bigPrime_of_check 96781955103204525 2 3 (by decide +kernel)
theorem prime_35535249108090356625 : (bigPrime 35535249108090356625).Prime := bigPrime_of_check 35535249108090356625 2 3 (by decide +kernel)

end Verif.Proof
