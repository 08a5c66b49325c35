import Verif.Spec.Vec
import Mathlib.Algebra.Ring.Defs

/-!
# Specification side of the range proof
-/

set_option autoImplicit false

namespace MscPoc

/-- `(1, y, y², …, y^(n-1))` -/
def pows {F : Type} [Monoid F] (y : F) (n : ℕ) : List F := (List.range n).map (fun i => y ^ i)

/-- `δ(y,z) = (z - z²)⟨1,yⁿ⟩ - z³⟨1,2ⁿ⟩` -/
def deltaSpec {F : Type} [CommRing F] (n : ℕ) (y z : F) : F :=
  (z - z ^ 2) * (pows y n).sum - z ^ 3 * (pows (2 : F) n).sum

end MscPoc
