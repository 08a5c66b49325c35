import Verif.Model.GoBase

/-!
# Opening a ballot with public numbers only
-/

set_option autoImplicit false

namespace MscPoc

/-- `(u, v)` is an ElGamal ciphertext of `m` modulo `P` for the generator 2 and the private key 13, the two numbers that
main.go:68 and main.go:71 spell out -/
def OpensTo (P : ℕ) (u v : Int) (m : ℕ) : Prop := 2 ^ m * u ^ 13 % (P : Int) = v

end MscPoc
