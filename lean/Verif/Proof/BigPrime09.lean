import Verif.Proof.BigPrime08

/-! Certificates for prime numbers of 11000 bits. The files import one another so that they are not checked at the same time, which would take much memory. -/

namespace Verif.Proof

theorem prime_2208064338362929111065 : (bigPrime 2208064338362929111065).Prime := bigPrime_of_check 2208064338362929111065 2 3 (by decide +kernel)
theorem prime_245505166733777135810625 : (bigPrime 245505166733777135810625).Prime := bigPrime_of_check 245505166733777135810625 2 5 (by decide +kernel)
theorem prime_32080531947769305 : (bigPrime 32080531947769305).Prime := bigPrime_of_check 32080531947769305 2 5 (by decide +kernel)

end Verif.Proof
