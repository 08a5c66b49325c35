import Verif.Spec.BallotExtract
import Verif.Spec.BpExtractC

/-!
# Knowledge extractor of a whole ballot, with repaired range proofs
-/

set_option autoImplicit false

namespace MscPoc

/-- as `ballotExtract`, with the extractor of the repaired range proofs -/
def ballotExtractC {F₁ F₂ : Type} [Field F₁] [Field F₂] [DecidableEq F₂] {E : Type} {k : ℕ} (lo hi : ℕ) (p p' : SigmaAns)
    (T₁ T₂ : BpTreeC E F₂ k) : BallotExtracted F₁ F₂ :=
  match T₁.extract, T₂.extract with
  | .relation w, _ => .relation w
  | _, .relation w => .relation w
  | .opening v₁ r₁ _ _ _, .opening v₂ r₂ _ _ _ => ballotMerge lo hi p p' v₁ r₁ v₂ r₂

end MscPoc
