import Verif.Model.Ristretto

/-!
# What the encoding of a Ristretto255 element is
-/

set_option autoImplicit false

namespace MscPoc

/-- value of bytes, the least significant first -/
def leVal : Bytes → Nat
  | [] => 0
  | b :: bs => b.toNat + 256 * leVal bs

/-- the bytes encode the element that the point stands for: they are the 32 bytes of a reduced, even `s`, and one of the four
points of the class, with `x` and `x y` even and `y` not 0, has `s² (1 + y) = 1 - y` -/
def Encodes (b : Bytes) (P : WPoint) : Prop :=
  b.length = 32 ∧ leVal b < r255P ∧ leVal b % 2 = 0 ∧
  ∃ Q : WPoint, Q.x < r255P ∧ Q.y < r255P ∧
    ((Q.y : Int) ^ 2 - (Q.x : Int) ^ 2 - (1 + (r255D : Int) * (Q.x : Int) ^ 2 * (Q.y : Int) ^ 2)) % r255P = 0 ∧
    edEqual P Q = true ∧ Q.x % 2 = 0 ∧ Q.x * Q.y % r255P % 2 = 0 ∧ Q.y ≠ 0 ∧
    (((leVal b : Int) ^ 2 * (1 + Q.y) - (1 - Q.y)) % r255P = 0)

end MscPoc
