import Mathlib.Algebra.Field.ZMod
import Mathlib.Algebra.Group.Even
import Verif.Model.Points

/-!
# What hashing to secp256k1 is
-/

set_option autoImplicit false

namespace MscPoc

/-- decimal numeral -/
def numeral (n : ℕ) : Bytes := (Nat.toDigits 10 n).map fun c => UInt8.ofNat c.toNat

/-- The `i`-th number is the digest of the numeral `i` followed by the message, read as a two's complement. -/
def IsCandidate (dig : Bytes → Bytes) (m : Bytes) (i : ℕ) (x : ZMod k1P) : Prop :=
  ∃ d : Bytes, d = dig (numeral i ++ m) ∧
    x = (setBytes d : ZMod k1P) - (if 2 * setBytes d ≥ 256 ^ d.length then (256 : ZMod k1P) ^ d.length else 0)

/-- `(x, y)` is the first point found: no earlier number is the abscissa of a point, and of the two ordinates the one that is a
square is taken. -/
structure FirstPoint (dig : Bytes → Bytes) (m : Bytes) (i x y : ℕ) : Prop where
  x_lt : x < k1P
  y_lt : y < k1P
  cand : IsCandidate dig m i x
  on : (y : ZMod k1P) ^ 2 = (x : ZMod k1P) ^ 3 + 7
  root : IsSquare (y : ZMod k1P)
  first : ∀ j < i, ∀ x' : ZMod k1P, IsCandidate dig m j x' → ¬ IsSquare (x' ^ 3 + 7)

end MscPoc
