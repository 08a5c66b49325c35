import Verif.Model.HeapProve

/-!
# Specification: how many group elements a computation creates

Every call of `Element()`, `Identity()` or `Generator()` of a group creates one element; `next` of the heap counts them.
-/

set_option autoImplicit false

namespace MscPoc

/-- the number of elements a computation creates on a heap is related to its result by `K`, whenever it does not panic -/
def Creates {E α : Type} (m : HM E α) (K : α → ℕ → Prop) : Prop :=
  ∀ h a h', m h = some (a, h') → ∃ d, h'.next = h.next + d ∧ K a d

/-- the same for both heaps -/
def Creates2 {E₁ E₂ α : Type} (m : HM2 E₁ E₂ α) (K : α → ℕ → ℕ → Prop) : Prop :=
  ∀ h a h', m h = some (a, h') → ∃ d e, h'.1.next = h.1.next + d ∧ h'.2.next = h.2.next + e ∧ K a d e

end MscPoc
