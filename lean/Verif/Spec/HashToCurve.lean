import Mathlib.Algebra.Field.ZMod
import Mathlib.Algebra.Group.Even
import Verif.Model.Points

/-!
# What RFC 9380 asks of the simplified SWU map

Stated in the field, without reference to the functions of the model.
-/

set_option autoImplicit false

namespace MscPoc

/-- RFC 9380, section 6.6.2, for `y² = x³ - 3x + b` over the field of `p` elements: `P` is the image of `u`. -/
structure Sswu (p : ℕ) [Fact p.Prime] (b Z : ZMod p) (u : ℕ) (P : WPoint) : Prop where
  /-- the abscissa is `x₁` if that is one of the curve, else `Z u² x₁` -/
  x : ∃ x1 : ZMod p,
    (Z ^ 2 * (u : ZMod p) ^ 4 + Z * (u : ZMod p) ^ 2 = 0 → x1 = b / (Z * (-3))) ∧
    (Z ^ 2 * (u : ZMod p) ^ 4 + Z * (u : ZMod p) ^ 2 ≠ 0 →
      x1 = -b / (-3) * (1 + 1 / (Z ^ 2 * (u : ZMod p) ^ 4 + Z * (u : ZMod p) ^ 2))) ∧
    (IsSquare (x1 ^ 3 - 3 * x1 + b) → (P.x : ZMod p) = x1) ∧
    (¬ IsSquare (x1 ^ 3 - 3 * x1 + b) → (P.x : ZMod p) = Z * (u : ZMod p) ^ 2 * x1)
  x_lt : P.x < p
  y_lt : P.y < p
  /-- the point is on the curve -/
  eq : (P.y : ZMod p) ^ 2 = (P.x : ZMod p) ^ 3 - 3 * (P.x : ZMod p) + b
  /-- the sign of the ordinate is that of `u` -/
  sgn : P.y % 2 = u % 2

end MscPoc
