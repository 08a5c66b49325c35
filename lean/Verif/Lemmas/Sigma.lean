import Verif.Lemmas.SigmaModel
import Verif.Lemmas.Basic
import Verif.Toy

/-!
# The sigma proof over lawful groups
-/

set_option autoImplicit false

namespace MscPoc

section
variable {E : Type} {q : ℕ} {M : Type} [AddCommGroup M] [Module (ZMod q) M]

theorem V_vpCommit {gp : GroupParams E} (L : Lawful gp.I q M) (hH : L.V gp.H) (m r : Int) : L.V (vpCommit m r gp) :=
  L.V_add (L.V_mulGen _) (L.V_mul _ hH)

theorem den_vpCommit {gp : GroupParams E} (L : Lawful gp.I q M) (hH : L.V gp.H) (m r : Int) :
    L.den (vpCommit m r gp) = (m : ZMod q) • L.g + (r : ZMod q) • L.den gp.H := by
  simp only [vpCommit]
  rw [L.den_add (L.V_mulGen _) (L.V_mul _ hH), L.den_mulGen, L.den_mul _ hH]

theorem pedersenCheck_iff {gp : GroupParams E} (L : Lawful gp.I q M) (hH : L.V gp.H) {k x : E} (hk : L.V k) (hx : L.V x)
    (z s c : Int) : sigmaPedersenCheck z s c k x gp = true ↔
      (z : ZMod q) • L.g + (s : ZMod q) • L.den gp.H = (c : ZMod q) • L.den x + L.den k := by
  unfold sigmaPedersenCheck
  dsimp only
  rw [L.isEqual_iff (V_vpCommit L hH z s) (L.V_add (L.V_mul _ hx) hk), den_vpCommit L hH, L.den_add (L.V_mul _ hx) hk,
    L.den_mul _ hx]

end

section
variable {E₁ E₂ : Type} {q₁ q₂ : ℕ} {M₁ M₂ : Type} [AddCommGroup M₁] [Module (ZMod q₁) M₁] [AddCommGroup M₂]
  [Module (ZMod q₂) M₂]

/-- the group equations checked by `Verify` -/
structure SigmaEqs (pp : ProofParams E₁ E₂) (L₁ : Lawful pp.GFF.I q₁ M₁) (L₂ : Lawful pp.GEC.I q₂ M₂)
    (pf : SigmaProof E₁ E₂) (comm : VerCommitments E₁ E₂) (Z c Sp Sq1 Sq2 : Int) : Prop where
  eqY : (Sp : ZMod q₁) • L₁.g = (c : ZMod q₁) • L₁.den comm.Y + L₁.den pf.W
  eqXp : (Z : ZMod q₁) • L₁.g + (Sp : ZMod q₁) • L₁.den pp.GFF.H = (c : ZMod q₁) • L₁.den comm.Xp + L₁.den pf.Kp
  eqXq1 : (Z : ZMod q₂) • L₂.g + (Sq1 : ZMod q₂) • L₂.den pp.GEC.H = (c : ZMod q₂) • L₂.den comm.Xq1 + L₂.den pf.Kq1
  eqXq2 : (Z : ZMod q₂) • L₂.g + (Sq2 : ZMod q₂) • L₂.den pp.GEC.H = (c : ZMod q₂) • L₂.den comm.Xq2 + L₂.den pf.Kq2

/-- every group element in sight is legal -/
structure SigmaLegal (pp : ProofParams E₁ E₂) (L₁ : Lawful pp.GFF.I q₁ M₁) (L₂ : Lawful pp.GEC.I q₂ M₂)
    (pf : SigmaProof E₁ E₂) (comm : VerCommitments E₁ E₂) : Prop where
  H₁ : L₁.V pp.GFF.H
  H₂ : L₂.V pp.GEC.H
  W : L₁.V pf.W
  Kp : L₁.V pf.Kp
  Kq1 : L₂.V pf.Kq1
  Kq2 : L₂.V pf.Kq2
  Y : L₁.V comm.Y
  Xp : L₁.V comm.Xp
  Xq1 : L₂.V comm.Xq1
  Xq2 : L₂.V comm.Xq2

theorem sigmaChecks_iff (pp : ProofParams E₁ E₂) (L₁ : Lawful pp.GFF.I q₁ M₁) (L₂ : Lawful pp.GEC.I q₂ M₂)
    (pf : SigmaProof E₁ E₂) (comm : VerCommitments E₁ E₂) (hl : SigmaLegal pp L₁ L₂ pf comm) (Z c Sp Sq1 Sq2 : Int) :
    sigmaChecks pp pf comm Z c Sp Sq1 Sq2 = true ↔ SigmaEqs pp L₁ L₂ pf comm Z c Sp Sq1 Sq2 := by
  unfold sigmaChecks
  simp only [Bool.and_eq_true]
  rw [pedersenCheck_iff L₁ hl.H₁ hl.Kp hl.Xp, pedersenCheck_iff L₂ hl.H₂ hl.Kq1 hl.Xq1,
    pedersenCheck_iff L₂ hl.H₂ hl.Kq2 hl.Xq2, L₁.isEqual_iff (L₁.V_mulGen _) (L₁.V_add (L₁.V_mul _ hl.Y) hl.W),
    L₁.den_add (L₁.V_mul _ hl.Y) hl.W, L₁.den_mul _ hl.Y, L₁.den_mulGen]
  exact ⟨fun h => ⟨h.1.1.1, h.1.1.2, h.1.2, h.2⟩, fun h => ⟨⟨⟨h.eqY, h.eqXp⟩, h.eqXq1⟩, h.eqXq2⟩⟩

/-- what one successful iteration of the abort loop computes -/
theorem sigmaAttempt_done {sha : Bytes → Bytes} {pp : ProofParams E₁ E₂} {secret rp rq1 rq2 : Int} {s : SigmaSample}
    {NF NE : Int} (hF : pp.GFF.N = some NF) (hE : pp.GEC.N = some NE) {c : Int}
    (hc : getFSChallenge sha pp.GFF.I pp.GEC.I (pp.GFF.I.mulGen s.tp) (vpCommit (s.k % NF) s.tp pp.GFF)
      (vpCommit (s.k % NF) s.tq1 pp.GEC) (vpCommit (s.k % NF) s.tq2 pp.GEC) pp.Bc = some c) :
    sigmaAttempt sha pp secret rp rq1 rq2 s =
      if pp.zOk (s.k + c * secret) = true then
        some (some { W := pp.GFF.I.mulGen s.tp, Kp := vpCommit (s.k % NF) s.tp pp.GFF,
                     Kq1 := vpCommit (s.k % NF) s.tq1 pp.GEC, Kq2 := vpCommit (s.k % NF) s.tq2 pp.GEC,
                     Challenge := some c, Z := some (s.k + c * secret), Sp := some ((s.tp + c * rp) % NF),
                     Sq1 := some ((s.tq1 + c * rq1) % NE), Sq2 := some ((s.tq2 + c * rq2) % NE), Params := pp })
      else some none := by
  unfold sigmaAttempt
  runs hF
  runs hE
  dsimp only
  runs hc
  cases hz : pp.zOk (s.k + c * secret) with
  | false => rw [if_pos (by simp), if_neg (by simp)]
  | true => rw [if_neg (by simp), if_pos rfl]

theorem sigmaAttempt_none {sha : Bytes → Bytes} {pp : ProofParams E₁ E₂} {secret rp rq1 rq2 : Int} {s : SigmaSample}
    {NF NE : Int} (hF : pp.GFF.N = some NF) (hE : pp.GEC.N = some NE)
    (hc : getFSChallenge sha pp.GFF.I pp.GEC.I (pp.GFF.I.mulGen s.tp) (vpCommit (s.k % NF) s.tp pp.GFF)
      (vpCommit (s.k % NF) s.tq1 pp.GEC) (vpCommit (s.k % NF) s.tq2 pp.GEC) pp.Bc = none) :
    sigmaAttempt sha pp secret rp rq1 rq2 s = none := by
  unfold sigmaAttempt
  runs hF
  runs hE
  dsimp only
  rw [hc]
  rfl

/-- `Prove` returns exactly the first non-aborted attempt. -/
theorem sigmaProve_done_iff {sha : Bytes → Bytes} {pp : ProofParams E₁ E₂} {secret rp rq1 rq2 : Int}
    (tape : List SigmaSample) (pf : SigmaProof E₁ E₂) :
    sigmaProve sha pp secret rp rq1 rq2 tape = .done pf ↔
      ∃ pre s post, tape = pre ++ s :: post ∧ (∀ x ∈ pre, sigmaAttempt sha pp secret rp rq1 rq2 x = some none) ∧
        sigmaAttempt sha pp secret rp rq1 rq2 s = some (some pf) := by
  induction tape with
  | nil => simp [sigmaProve]
  | cons s tape ih =>
    unfold sigmaProve
    cases hs : sigmaAttempt sha pp secret rp rq1 rq2 s with
    | none =>
      simp only [reduceCtorEq, false_iff]
      rintro ⟨pre, s', post, h1, h2, h3⟩
      cases pre with
      | nil => simp only [List.nil_append, List.cons.injEq] at h1; rw [← h1.1, hs] at h3; simp at h3
      | cons x pre =>
        simp only [List.cons_append, List.cons.injEq] at h1
        have := h2 x (by simp)
        rw [← h1.1, hs] at this
        simp at this
    | some r =>
      cases r with
      | none =>
        simp only
        rw [ih]
        constructor
        · rintro ⟨pre, s', post, h1, h2, h3⟩
          refine ⟨s :: pre, s', post, by simp [h1], ?_, h3⟩
          intro x hx
          rcases List.mem_cons.mp hx with rfl | hx
          · exact hs
          · exact h2 x hx
        · rintro ⟨pre, s', post, h1, h2, h3⟩
          cases pre with
          | nil => simp only [List.nil_append, List.cons.injEq] at h1; rw [← h1.1, hs] at h3; simp at h3
          | cons x pre =>
            simp only [List.cons_append, List.cons.injEq] at h1
            exact ⟨pre, s', post, h1.2, fun y hy => h2 y (by simp [hy]), h3⟩
      | some r =>
        simp only [Outcome.done.injEq]
        constructor
        · rintro rfl
          exact ⟨[], s, tape, rfl, by simp, hs⟩
        · rintro ⟨pre, s', post, h1, h2, h3⟩
          cases pre with
          | nil => simp only [List.nil_append, List.cons.injEq] at h1; rw [← h1.1, hs] at h3; simpa using h3
          | cons x pre =>
            simp only [List.cons_append, List.cons.injEq] at h1
            have := h2 x (by simp)
            rw [← h1.1, hs] at this
            simp at this

theorem sigmaProve_running_iff {sha : Bytes → Bytes} {pp : ProofParams E₁ E₂} {secret rp rq1 rq2 : Int}
    (tape : List SigmaSample) :
    sigmaProve sha pp secret rp rq1 rq2 tape = .running ↔
      ∀ x ∈ tape, sigmaAttempt sha pp secret rp rq1 rq2 x = some none := by
  induction tape with
  | nil => simp [sigmaProve]
  | cons s tape ih =>
    unfold sigmaProve
    cases hs : sigmaAttempt sha pp secret rp rq1 rq2 s with
    | none => simp [hs]
    | some r => cases r with
      | none => simp [hs, ih]
      | some r => simp [hs]

theorem zOk_iff (pp : ProofParams E₁ E₂) (z : Int) : pp.zOk z = true ↔ pp.zLowerBound ≤ z ∧ z < pp.zUpperBound := by
  unfold ProofParams.zOk
  rw [Bool.not_eq_true', Bool.or_eq_false_iff]
  simp

/-- parameters as `Setup` makes them -/
theorem vpSetup_ok {lenSecret : UInt8} {lenChallenge groupOrderLog rangeLo rangeHi : UInt16}
    {AP : AlgebraicParams E₁ E₂} {pp : ProofParams E₁ E₂}
    (h : vpSetup lenSecret lenChallenge groupOrderLog rangeLo rangeHi AP = .ok pp) :
    pp.Bx = lenSecret ∧ pp.Bc = lenChallenge ∧ pp.Bg = groupOrderLog ∧ pp.RangeLo = rangeLo ∧ pp.RangeHi = rangeHi ∧
    pp.GFF = AP.GFF ∧ pp.GEC = AP.GEC ∧
    lenSecret.toNat + lenChallenge.toNat + 2 ≤ groupOrderLog.toNat ∧
    pp.Bb = (groupOrderLog.toNat : Int) - 1 - lenSecret.toNat - lenChallenge.toNat ∧
    pp.bxbc = lenSecret.toNat + lenChallenge.toNat ∧
    pp.zLowerBound = 2 ^ (lenSecret.toNat + lenChallenge.toNat) ∧
    pp.zUpperBound = 2 ^ (groupOrderLog.toNat - 1) := by
  unfold vpSetup at h
  dsimp only at h
  split at h
  · exact absurd h (by simp)
  · rename_i hb
    simp only [Except.ok.injEq] at h
    subst h
    have hg := groupOrderLog.toNat_lt
    have hx := lenSecret.toNat_lt
    have hbx : (lenSecret.toUInt16 + lenChallenge).toNat = lenSecret.toNat + lenChallenge.toNat := by
      rw [UInt16.toNat_add, UInt8.toNat_toUInt16]
      apply Nat.mod_eq_of_lt
      omega
    refine ⟨rfl, rfl, rfl, rfl, rfl, rfl, rfl, by omega, rfl, hbx, ?_, ?_⟩
    · simp only [ProofParams.zLowerBound, ProofParams.bxbc]
      rw [hbx]
    · simp only [ProofParams.zUpperBound, ProofParams.bxbc]
      rw [hbx]
      congr 1
      omega

end
end MscPoc
