import Verif.Lemmas.RfcCert6
import Verif.Lemmas.Setup

/-!
# The RFC 3526 prime of 3072 bits is a safe prime
-/

set_option autoImplicit false

namespace MscPoc

theorem modp3072Q_eq : modp3072Q = RfcCert.n66 := by decide +kernel

/-- `(p - 1) / 2` is prime. -/
theorem modp3072Q_prime : modp3072Q.Prime := modp3072Q_eq ▸ RfcCert.n66_prime

/-- `p` is prime. -/
theorem modp3072_isPrime : modp3072.Prime := modp3072_prime modp3072Q_prime

end MscPoc
