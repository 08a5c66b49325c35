import Verif.Spec.BpExtract

/-!
# Knowledge extractor of a whole ballot

Scalars only: the answers of two accepted vote proofs with one first move, and the openings found by the extractor of the range
proofs (`Spec/BpExtract.lean`).
-/

set_option autoImplicit false

namespace MscPoc

/-- the challenge and the answers of a vote proof -/
structure SigmaAns where
  c : Int
  z : Int
  sp : Int
  s1 : Int
  s2 : Int

/-- What an extractor finds. -/
inductive BallotExtracted (F₁ F₂ : Type) where
  /-- a relation between the generators of the range proofs -/
  | relation (w : GComb F₂)
  /-- openings `v₁, r₁` and `v₂, r₂` of the two range-proof commitments, plaintext and randomness of the ciphertext -/
  | plaintext (v₁ r₁ v₂ r₂ : F₂) (x s : F₁)

section
variable {F₁ F₂ : Type} [Field F₁] [Field F₂] [DecidableEq F₂]

/-- the openings the vote proof gives are `(z-z')/(c-c')` shifted by the ends of the range; compared with other openings of the same
commitments they agree, or give a relation between `G` and `H` -/
def ballotMerge (lo hi : ℕ) (p p' : SigmaAns) (v₁ r₁ v₂ r₂ : F₂) : BallotExtracted F₁ F₂ :=
  let d : F₂ := ((p.c - p'.c : Int) : F₂)
  let dz : F₂ := ((p.z - p'.z : Int) : F₂)
  let a₁ := d * (v₁ + lo) - dz
  let a₂ := d * (hi - v₂) - dz
  if a₁ ≠ 0 then .relation ((a₁, d * r₁ - ((p.s1 - p'.s1 : Int) : F₂), 0), 0, 0)
  else if a₂ ≠ 0 then .relation ((a₂, -(d * r₂) - ((p.s2 - p'.s2 : Int) : F₂), 0), 0, 0)
  else .plaintext v₁ r₁ v₂ r₂ (((p.z - p'.z : Int) : F₁) / ((p.c - p'.c : Int) : F₁))
    (((p.sp - p'.sp : Int) : F₁) / ((p.c - p'.c : Int) : F₁))

/-- the whole extractor -/
def ballotExtract {E : Type} {k : ℕ} (lo hi : ℕ) (p p' : SigmaAns) (T₁ T₂ : BpTree E F₂ k) : BallotExtracted F₁ F₂ :=
  match T₁.extract, T₂.extract with
  | .relation w, _ => .relation w
  | _, .relation w => .relation w
  | .opening v₁ r₁ _ _ _, .opening v₂ r₂ _ _ _ => ballotMerge lo hi p p' v₁ r₁ v₂ r₂

end

end MscPoc
