import Verif.Model.Rand

/-!
# Specification: how many bytes a draw reads
-/

set_option autoImplicit false

namespace MscPoc

/-- numbers below `max` fill `k` bytes -/
def Blocks (max : Int) (k : ℕ) : Prop := 0 < k ∧ (256 : Int) ^ (k - 1) < max ∧ max ≤ 256 ^ k

/-- On `used` the computation reads every byte and nothing after it, whatever comes after it, and returns `a`. -/
def Draw.Uses {α : Type} (x : Draw α) (used : Bytes) (a : α) : Prop := ∀ rest, x (used ++ rest) = .done (a, rest)

end MscPoc
