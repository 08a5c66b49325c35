import Verif.Model.VoteProof
import Verif.Spec.Lawful
import Verif.Lemmas.Vec
import Verif.Lemmas.Bytes

/-!
# The sigma proof: model equations
-/

set_option autoImplicit false

namespace MscPoc

section
variable {E₁ E₂ : Type}

/-- The three group checks of `Verify`, once every scalar is present. -/
def sigmaChecks (pp : ProofParams E₁ E₂) (pf : SigmaProof E₁ E₂) (comm : VerCommitments E₁ E₂) (Z c Sp Sq1 Sq2 : Int) :
    Bool :=
  pp.GFF.I.isEqual (pp.GFF.I.mulGen Sp) (pp.GFF.I.add (pp.GFF.I.mul comm.Y c) pf.W) &&
  sigmaPedersenCheck Z Sp c pf.Kp comm.Xp pp.GFF &&
  sigmaPedersenCheck Z Sq1 c pf.Kq1 comm.Xq1 pp.GEC &&
  sigmaPedersenCheck Z Sq2 c pf.Kq2 comm.Xq2 pp.GEC

theorem sigma_verify_reject_z (sha : Bytes → Bytes) (pf : SigmaProof E₁ E₂) (comm : VerCommitments E₁ E₂) {Z : Int}
    (hZ : pf.Z = some Z) (hz : pf.Params.zOk Z = false) : pf.verify sha comm = some false := by
  unfold SigmaProof.verify
  runs hZ
  rw [if_pos (by simp [hz])]

/-- body after the range check of `z` -/
theorem sigma_verify_step (sha : Bytes → Bytes) (pf : SigmaProof E₁ E₂) (comm : VerCommitments E₁ E₂) {Z ch c : Int}
    (hZ : pf.Z = some Z) (hz : pf.Params.zOk Z = true)
    (hch : getFSChallenge sha pf.Params.GFF.I pf.Params.GEC.I pf.W pf.Kp pf.Kq1 pf.Kq2 pf.Params.Bc = some ch)
    (hc : pf.Challenge = some c) :
    pf.verify sha comm = if ch ≠ c then some false else (do
      let Sp ← pf.Sp
      let l := pf.Params.GFF.I.mulGen Sp
      let r := pf.Params.GFF.I.mul comm.Y c
      let r := pf.Params.GFF.I.add r pf.W
      if !pf.Params.GFF.I.isEqual l r then some false
      else if !sigmaPedersenCheck Z Sp c pf.Kp comm.Xp pf.Params.GFF then some false
      else
        let Sq1 ← pf.Sq1
        if !sigmaPedersenCheck Z Sq1 c pf.Kq1 comm.Xq1 pf.Params.GEC then some false
        else
          let Sq2 ← pf.Sq2
          if !sigmaPedersenCheck Z Sq2 c pf.Kq2 comm.Xq2 pf.Params.GEC then some false
          else some true) := by
  unfold SigmaProof.verify
  runs hZ
  rw [if_neg (by simp [hz])]
  runs hch
  runs hc
  rfl

/-- all scalars present -/
theorem sigma_verify_full (sha : Bytes → Bytes) (pf : SigmaProof E₁ E₂) (comm : VerCommitments E₁ E₂)
    {Z ch c Sp Sq1 Sq2 : Int} (hZ : pf.Z = some Z)
    (hch : getFSChallenge sha pf.Params.GFF.I pf.Params.GEC.I pf.W pf.Kp pf.Kq1 pf.Kq2 pf.Params.Bc = some ch)
    (hc : pf.Challenge = some c) (h1 : pf.Sp = some Sp) (h2 : pf.Sq1 = some Sq1) (h3 : pf.Sq2 = some Sq2) :
    pf.verify sha comm = some (pf.Params.zOk Z && decide (ch = c) && sigmaChecks pf.Params pf comm Z c Sp Sq1 Sq2) := by
  cases hz : pf.Params.zOk Z with
  | false => simpa using sigma_verify_reject_z sha pf comm hZ hz
  | true =>
    rw [sigma_verify_step sha pf comm hZ hz hch hc]
    by_cases hcc : ch = c
    · rw [if_neg (by simp [hcc])]
      runs h1
      dsimp only
      unfold sigmaChecks
      cases a1 : pf.Params.GFF.I.isEqual (pf.Params.GFF.I.mulGen Sp)
          (pf.Params.GFF.I.add (pf.Params.GFF.I.mul comm.Y c) pf.W)
      · rw [if_pos (by simp)]; simp
      rw [if_neg (by simp)]
      cases a2 : sigmaPedersenCheck Z Sp c pf.Kp comm.Xp pf.Params.GFF
      · rw [if_pos (by simp)]; simp
      rw [if_neg (by simp)]
      runs h2
      cases a3 : sigmaPedersenCheck Z Sq1 c pf.Kq1 comm.Xq1 pf.Params.GEC
      · rw [if_pos (by simp)]; simp
      rw [if_neg (by simp)]
      runs h3
      cases a4 : sigmaPedersenCheck Z Sq2 c pf.Kq2 comm.Xq2 pf.Params.GEC
      · rw [if_pos (by simp)]; simp
      rw [if_neg (by simp)]
      simp [hcc]
    · rw [if_pos hcc]; simp [hcc]

theorem bind_some_false {α : Type} {X : Option α} {f : α → Option Bool} (h : (X >>= f) = some true) :
    ∃ a, X = some a ∧ f a = some true := Option.bind_eq_some_iff.mp h

/-- What acceptance means, with no assumption on the groups. -/
theorem sigma_verify_iff (sha : Bytes → Bytes) (pf : SigmaProof E₁ E₂) (comm : VerCommitments E₁ E₂) :
    pf.verify sha comm = some true ↔ ∃ Z c Sp Sq1 Sq2 : Int,
      pf.Z = some Z ∧ pf.Challenge = some c ∧ pf.Sp = some Sp ∧ pf.Sq1 = some Sq1 ∧ pf.Sq2 = some Sq2 ∧
      pf.Params.zOk Z = true ∧
      getFSChallenge sha pf.Params.GFF.I pf.Params.GEC.I pf.W pf.Kp pf.Kq1 pf.Kq2 pf.Params.Bc = some c ∧
      sigmaChecks pf.Params pf comm Z c Sp Sq1 Sq2 = true := by
  constructor
  · intro h
    cases hZ : pf.Z with
    | none => unfold SigmaProof.verify at h; rw [hZ] at h; exact absurd h (by simp)
    | some Z =>
    cases hz : pf.Params.zOk Z with
    | false => rw [sigma_verify_reject_z sha pf comm hZ hz] at h; exact absurd h (by simp)
    | true =>
    cases hch : getFSChallenge sha pf.Params.GFF.I pf.Params.GEC.I pf.W pf.Kp pf.Kq1 pf.Kq2 pf.Params.Bc with
    | none =>
      unfold SigmaProof.verify at h
      rw [hZ] at h
      rw [bind_step rfl, if_neg (by simp [hz]), hch] at h
      exact absurd h (by simp)
    | some ch =>
    cases hc : pf.Challenge with
    | none =>
      unfold SigmaProof.verify at h
      rw [hZ] at h
      rw [bind_step rfl, if_neg (by simp [hz]), hch, bind_step rfl, hc] at h
      exact absurd h (by simp)
    | some c =>
    have h0 := h
    rw [sigma_verify_step sha pf comm hZ hz hch hc] at h
    by_cases hcc : ch = c
    swap
    · rw [if_pos hcc] at h; exact absurd h (by simp)
    rw [if_neg (by simp [hcc])] at h
    unbind h with Sp h1
    dsimp only at h
    split at h
    · exact absurd h (by simp)
    split at h
    · exact absurd h (by simp)
    unbind h with Sq1 h2
    split at h
    · exact absurd h (by simp)
    unbind h with Sq2 h3
    rw [sigma_verify_full sha pf comm hZ hch hc h1 h2 h3, hz, hcc] at h0
    subst hcc
    exact ⟨Z, ch, Sp, Sq1, Sq2, rfl, rfl, h1, h2, h3, hz, rfl, by simpa using h0⟩
  · rintro ⟨Z, c, Sp, Sq1, Sq2, hZ, hc, h1, h2, h3, hz, hch, hk⟩
    rw [sigma_verify_full sha pf comm hZ hch hc h1 h2 h3, hz, hk]
    simp

end

/-- the challenge is non-negative -/
theorem getFSChallenge_nonneg {E₁ E₂ : Type} {sha : Bytes → Bytes} {G₁ : Grp E₁} {G₂ : Grp E₂} {w Kp : E₁} {Kq1 Kq2 : E₂}
    {b : UInt16} {c : Int} (h : getFSChallenge sha G₁ G₂ w Kp Kq1 Kq2 b = some c) : 0 ≤ c := by
  unfold getFSChallenge at h
  unbind h with s e
  simp only [Option.some.injEq] at h
  omega

end MscPoc
