import Verif.Lemmas.Sigma
import Mathlib.Tactic.LinearCombination
import Mathlib.Tactic.Module
import Mathlib.Algebra.Order.Interval.Finset.Basic
import Mathlib.Data.Int.Interval
import Mathlib.Algebra.Field.ZMod

/-!
# C27–C35 — the vote proof (sigma protocol across groups)
-/

set_option autoImplicit false

namespace MscPoc

section
variable {E₁ E₂ : Type} {q₁ q₂ : ℕ} {M₁ M₂ : Type} [AddCommGroup M₁] [Module (ZMod q₁) M₁] [AddCommGroup M₂]
  [Module (ZMod q₂) M₂]

/-! ## C27 -/

/-- **C27** `Setup` succeeds exactly when the lengths fit. -/
theorem C27_setup_iff (lenSecret : UInt8) (lenChallenge groupOrderLog rangeLo rangeHi : UInt16)
    (AP : AlgebraicParams E₁ E₂) :
    (∃ pp, vpSetup lenSecret lenChallenge groupOrderLog rangeLo rangeHi AP = .ok pp) ↔
      lenSecret.toNat + lenChallenge.toNat + 2 ≤ groupOrderLog.toNat := by
  unfold vpSetup
  dsimp only
  split
  · simp; omega
  · simp; omega

/-- C27: what the parameters of a successful `Setup` look like; `Bx+Bc` did not wrap in 16 bits. -/
theorem C27_setup_fields {lenSecret : UInt8} {lenChallenge groupOrderLog rangeLo rangeHi : UInt16}
    {AP : AlgebraicParams E₁ E₂} {pp : ProofParams E₁ E₂}
    (h : vpSetup lenSecret lenChallenge groupOrderLog rangeLo rangeHi AP = .ok pp) :
    pp.Bx = lenSecret ∧ pp.Bc = lenChallenge ∧ pp.Bg = groupOrderLog ∧ pp.RangeLo = rangeLo ∧ pp.RangeHi = rangeHi ∧
    pp.GFF = AP.GFF ∧ pp.GEC = AP.GEC ∧ 1 ≤ pp.Bb ∧
    (pp.Bx.toUInt16 + pp.Bc).toNat = pp.Bx.toNat + pp.Bc.toNat ∧
    (pp.Bx.toNat : Int) + pp.Bc.toNat + pp.Bb = pp.Bg.toNat - 1 ∧
    pp.zLowerBound = 2 ^ (pp.Bx.toNat + pp.Bc.toNat) ∧ pp.zUpperBound = 2 ^ (pp.Bg.toNat - 1) ∧
    2 * pp.zLowerBound ≤ pp.zUpperBound := by
  obtain ⟨h1, h2, h3, h4, h5, h6, h7, h8, h9, h10, h11, h12⟩ := vpSetup_ok h
  refine ⟨h1, h2, h3, h4, h5, h6, h7, by omega, ?_, ?_, ?_, ?_, ?_⟩
  · rw [h1, h2]; unfold ProofParams.bxbc at h10; rw [h1, h2] at h10; exact h10
  · rw [h1, h2, h3]; omega
  · rw [h1, h2, h11]
  · rw [h3, h12]
  · rw [h11, h12, ← pow_succ']
    exact pow_le_pow_right₀ (by norm_num) (by omega)

/-- C27: the election's lengths (16, 224, 256) are accepted, and one bit less than needed is refused. -/
example : (16 : UInt8).toNat + (224 : UInt16).toNat + 2 ≤ (256 : UInt16).toNat ∧
    ¬ ((16 : UInt8).toNat + (224 : UInt16).toNat + 2 ≤ (241 : UInt16).toNat) := by decide

/-! ## C28 -/

/-- **C28** The challenge is the number formed by the first `Bc/8` digest bytes; it lies in `[0, 2^Bc)`, and asking for
more than 32 bytes panics. -/
theorem C28_challenge (sha : Bytes → Bytes) (hsha : ∀ m, (sha m).length = 32) (G₁ : Grp E₁) (G₂ : Grp E₂) (w Kp : E₁)
    (Kq1 Kq2 : E₂) (Bc : UInt16) :
    (getFSChallenge sha G₁ G₂ w Kp Kq1 Kq2 Bc = none ↔ 264 ≤ Bc.toNat) ∧
    ∀ c, getFSChallenge sha G₁ G₂ w Kp Kq1 Kq2 Bc = some c →
      c = setBytes ((sha (G₁.str w ++ G₁.str Kp ++ G₂.str Kq1 ++ G₂.str Kq2)).take (Bc.toNat / 8)) ∧
      0 ≤ c ∧ c < 256 ^ (Bc.toNat / 8) ∧ c < 2 ^ Bc.toNat := by
  have hl := hsha (fsTranscript G₁ G₂ w Kp Kq1 Kq2)
  unfold getFSChallenge sliceTo
  rw [hl]
  by_cases hb : Bc.toNat / 8 ≤ 32
  · rw [if_pos hb]
    refine ⟨by simp; omega, ?_⟩
    intro c hc
    simp only [Option.bind_eq_bind, Option.bind_some, Option.some.injEq] at hc
    have hlt := setBytes_lt ((sha (fsTranscript G₁ G₂ w Kp Kq1 Kq2)).take (Bc.toNat / 8))
    rw [List.length_take, hl, Nat.min_eq_left hb] at hlt
    have hle : 256 ^ (Bc.toNat / 8) ≤ 2 ^ Bc.toNat := by
      rw [show 256 = 2 ^ 8 by norm_num, ← pow_mul]
      exact Nat.pow_le_pow_right (by norm_num) (by omega)
    refine ⟨hc.symm, by omega, ?_, ?_⟩
    · rw [← hc]; exact_mod_cast hlt
    · rw [← hc]; exact_mod_cast lt_of_lt_of_le hlt hle
  · rw [if_neg hb]
    refine ⟨by simp; omega, by simp⟩

/-- C28: a 32-byte "hash" with two leading bytes 1 and 2, 16-bit challenge. -/
example : getFSChallenge (fun _ => 1 :: 2 :: List.replicate 30 7) (toyGrp 101) (toyGrp 103) 1 2 3 4 16 = some 258 ∧
    getFSChallenge (fun _ => 1 :: 2 :: List.replicate 30 7) (toyGrp 101) (toyGrp 103) 1 2 3 4 264 = none := by
  decide +kernel

/-! ## C29 -/

/-- the statement belonging to a witness: what `castVote` passes to the verifier -/
def statementOf (pp : ProofParams E₁ E₂) (x rp rq1 rq2 : Int) : VerCommitments E₁ E₂ where
  Y := pp.GFF.I.mulGen rp
  Xp := vpCommit x rp pp.GFF
  Xq1 := vpCommit x rq1 pp.GEC
  Xq2 := vpCommit x rq2 pp.GEC

/-- **C29** Completeness for any secret: masks in the sampled range, upper bound at most the order of the first group. -/
theorem C29_sigma_complete (sha : Bytes → Bytes) (pp : ProofParams E₁ E₂)
    (L₁ : Lawful pp.GFF.I q₁ M₁) (L₂ : Lawful pp.GEC.I q₂ M₂) (hN₁ : pp.GFF.N = some (q₁ : Int))
    (hN₂ : pp.GEC.N = some (q₂ : Int)) (hH₁ : L₁.V pp.GFF.H) (hH₂ : L₂.V pp.GEC.H)
    (hU : pp.zUpperBound ≤ q₁) (secret rp rq1 rq2 : Int) (tape : List SigmaSample)
    (hk : ∀ s ∈ tape, 0 ≤ s.k ∧ s.k < pp.zUpperBound) (pf : SigmaProof E₁ E₂)
    (h : sigmaProve sha pp secret rp rq1 rq2 tape = .done pf) :
    pf.verify sha (statementOf pp secret rp rq1 rq2) = some true := by
  obtain ⟨pre, s, post, htape, _, hs⟩ := (sigmaProve_done_iff tape pf).mp h
  obtain ⟨hk0, hk1⟩ := hk s (by simp [htape])
  have hmod : s.k % (q₁ : Int) = s.k := Int.emod_eq_of_lt hk0 (lt_of_lt_of_le hk1 hU)
  cases hc : getFSChallenge sha pp.GFF.I pp.GEC.I (pp.GFF.I.mulGen s.tp) (vpCommit (s.k % q₁) s.tp pp.GFF)
      (vpCommit (s.k % q₁) s.tq1 pp.GEC) (vpCommit (s.k % q₁) s.tq2 pp.GEC) pp.Bc with
  | none => rw [sigmaAttempt_none hN₁ hN₂ hc] at hs; exact absurd hs (by simp)
  | some c =>
  rw [sigmaAttempt_done hN₁ hN₂ hc] at hs
  split at hs
  swap
  · exact absurd hs (by simp)
  rename_i hz
  simp only [Option.some.injEq] at hs
  subst hs
  refine (sigma_verify_iff _ _ _).mpr ⟨_, _, _, _, _, rfl, rfl, rfl, rfl, rfl, hz, hc, ?_⟩
  rw [sigmaChecks_iff pp L₁ L₂]
  · constructor
    · simp only [statementOf]
      rw [cast_emod, L₁.den_mulGen, L₁.den_mulGen]
      push_cast; module
    · simp only [statementOf]
      rw [cast_emod, den_vpCommit L₁ hH₁, den_vpCommit L₁ hH₁, cast_emod]
      push_cast; module
    · simp only [statementOf]
      rw [cast_emod, den_vpCommit L₂ hH₂, den_vpCommit L₂ hH₂, hmod]
      push_cast; module
    · simp only [statementOf]
      rw [cast_emod, den_vpCommit L₂ hH₂, den_vpCommit L₂ hH₂, hmod]
      push_cast; module
  · exact ⟨hH₁, hH₂, L₁.V_mulGen _, V_vpCommit L₁ hH₁ _ _, V_vpCommit L₂ hH₂ _ _, V_vpCommit L₂ hH₂ _ _, L₁.V_mulGen _,
      V_vpCommit L₁ hH₁ _ _, V_vpCommit L₂ hH₂ _ _, V_vpCommit L₂ hH₂ _ _⟩

/-- C29 for the parameters of a successful `Setup`. -/
theorem C29_setup_complete (sha : Bytes → Bytes) {lenSecret : UInt8} {lenChallenge Bg rangeLo rangeHi : UInt16}
    {AP : AlgebraicParams E₁ E₂} {pp : ProofParams E₁ E₂} (hpp : vpSetup lenSecret lenChallenge Bg rangeLo rangeHi AP = .ok pp)
    (L₁ : Lawful pp.GFF.I q₁ M₁) (L₂ : Lawful pp.GEC.I q₂ M₂) (hN₁ : pp.GFF.N = some (q₁ : Int))
    (hN₂ : pp.GEC.N = some (q₂ : Int)) (hH₁ : L₁.V pp.GFF.H) (hH₂ : L₂.V pp.GEC.H)
    (hU : 2 ^ (Bg.toNat - 1) ≤ q₁) (secret rp rq1 rq2 : Int) (tape : List SigmaSample)
    (hk : ∀ s ∈ tape, 0 ≤ s.k ∧ s.k < 2 ^ (Bg.toNat - 1)) (pf : SigmaProof E₁ E₂)
    (h : sigmaProve sha pp secret rp rq1 rq2 tape = .done pf) :
    pf.verify sha (statementOf pp secret rp rq1 rq2) = some true := by
  obtain ⟨_, _, _, _, _, _, _, _, _, _, _, h12⟩ := vpSetup_ok hpp
  refine C29_sigma_complete sha pp L₁ L₂ hN₁ hN₂ hH₁ hH₂ ?_ secret rp rq1 rq2 tape ?_ pf h
  · rw [h12]; exact_mod_cast hU
  · rw [h12]; exact hk

end

/-- a concrete instance: challenge 8 bits, secret 1 bit, curve order 1031 (11 bits), first group of order `q` -/
def exPP (q : ℕ) : ProofParams Int Int where
  Bx := 1
  Bc := 8
  Bg := 11
  Bb := 1
  RangeLo := 0
  RangeHi := 1
  GFF := ⟨1, 5, some q, some 7, toyGrp q⟩
  GEC := ⟨1, 9, some 1031, some 1031, toyGrp 1031⟩

/-- 32 bytes depending on the input -/
def exSha3 (m : Bytes) : Bytes :=
  (m.foldl (fun acc d => 3 * acc + d) 17) :: List.replicate 31 0

def exTape : List SigmaSample := [⟨30, 4, 5, 6⟩, ⟨600, 7, 8, 9⟩, ⟨700, 1, 2, 3⟩]

/-- C29: the hypotheses are met by a run that aborts once and then succeeds. -/
example : vpSetup 1 8 11 0 1 ⟨(exPP 2039).GFF, (exPP 2039).GEC⟩ = .ok (exPP 2039) ∧
    (∃ pf, sigmaProve exSha3 (exPP 2039) 1 20 30 40 exTape = .done pf ∧ pf.Z = some 664 ∧
      pf.verify exSha3 (statementOf (exPP 2039) 1 20 30 40) = some true) ∧
    (exPP 2039).zUpperBound ≤ 2039 ∧ (∀ s ∈ exTape, 0 ≤ s.k ∧ s.k < (exPP 2039).zUpperBound) ∧
    (toyLawful 2039).V (exPP 2039).GFF.H ∧ (toyLawful 1031).V (exPP 2039).GEC.H := by
  refine ⟨rfl, ?_, by decide +kernel, by decide +kernel, ⟨by decide, by decide⟩, ⟨by decide, by decide⟩⟩
  exact ⟨_, rfl, by decide +kernel, by decide +kernel⟩

/-- C29: the bound on the first group's order is needed, because `Prove` reduces the curve mask modulo `GFF.N`: with a
first group of order 1009 < 2^10 an honest proof is rejected. -/
theorem C29_bound_needed : ∃ pf, sigmaProve exSha3 (exPP 1009) 0 20 30 40 [⟨1020, 7, 8, 9⟩] = .done pf ∧
    pf.verify exSha3 (statementOf (exPP 1009) 0 20 30 40) = some false :=
  ⟨_, rfl, by decide +kernel⟩

section
variable {E₁ E₂ : Type} {q₁ q₂ : ℕ} {M₁ M₂ : Type} [AddCommGroup M₁] [Module (ZMod q₁) M₁] [AddCommGroup M₂]
  [Module (ZMod q₂) M₂]

/-! ## C30 -/

/-- The challenge and response of one attempt, written out. -/
def attemptResponse (sha : Bytes → Bytes) (pp : ProofParams E₁ E₂) (NF secret : Int) (s : SigmaSample) : Option (Int × Int) :=
  (getFSChallenge sha pp.GFF.I pp.GEC.I (pp.GFF.I.mulGen s.tp) (vpCommit (s.k % NF) s.tp pp.GFF)
      (vpCommit (s.k % NF) s.tq1 pp.GEC) (vpCommit (s.k % NF) s.tq2 pp.GEC) pp.Bc).map fun c => (c, s.k + c * secret)

/-- **C30** The loop returns the first attempt whose `z` lies in the interval, having discarded all earlier ones. -/
theorem C30_first_in_range (sha : Bytes → Bytes) (pp : ProofParams E₁ E₂) {NF NE : Int} (hF : pp.GFF.N = some NF)
    (hE : pp.GEC.N = some NE) (secret rp rq1 rq2 : Int) (tape : List SigmaSample) :
    (∀ pf, sigmaProve sha pp secret rp rq1 rq2 tape = .done pf ↔
      ∃ pre s post c z, tape = pre ++ s :: post ∧
        (∀ x ∈ pre, ∃ c' z', attemptResponse sha pp NF secret x = some (c', z') ∧
          ¬ (pp.zLowerBound ≤ z' ∧ z' < pp.zUpperBound)) ∧
        attemptResponse sha pp NF secret s = some (c, z) ∧ pp.zLowerBound ≤ z ∧ z < pp.zUpperBound ∧
        pf = { W := pp.GFF.I.mulGen s.tp, Kp := vpCommit (s.k % NF) s.tp pp.GFF,
               Kq1 := vpCommit (s.k % NF) s.tq1 pp.GEC, Kq2 := vpCommit (s.k % NF) s.tq2 pp.GEC,
               Challenge := some c, Z := some z, Sp := some ((s.tp + c * rp) % NF),
               Sq1 := some ((s.tq1 + c * rq1) % NE), Sq2 := some ((s.tq2 + c * rq2) % NE), Params := pp }) ∧
    (sigmaProve sha pp secret rp rq1 rq2 tape = .running ↔
      ∀ s ∈ tape, ∃ c z, attemptResponse sha pp NF secret s = some (c, z) ∧
        ¬ (pp.zLowerBound ≤ z ∧ z < pp.zUpperBound)) := by
  have abort : ∀ s, sigmaAttempt sha pp secret rp rq1 rq2 s = some none ↔
      ∃ c z, attemptResponse sha pp NF secret s = some (c, z) ∧ ¬ (pp.zLowerBound ≤ z ∧ z < pp.zUpperBound) := by
    intro s
    unfold attemptResponse
    cases hc : getFSChallenge sha pp.GFF.I pp.GEC.I (pp.GFF.I.mulGen s.tp) (vpCommit (s.k % NF) s.tp pp.GFF)
        (vpCommit (s.k % NF) s.tq1 pp.GEC) (vpCommit (s.k % NF) s.tq2 pp.GEC) pp.Bc with
    | none => rw [sigmaAttempt_none hF hE hc]; simp
    | some c =>
      rw [sigmaAttempt_done hF hE hc, ← ite_not, Option.map_some]
      constructor
      · intro h
        split at h
        · rename_i hz
          rw [zOk_iff] at hz
          exact ⟨_, _, rfl, hz⟩
        · exact absurd h (by simp)
      · rintro ⟨c', z', h1, h2⟩
        simp only [Option.some.injEq, Prod.mk.injEq] at h1
        rw [if_pos]
        rw [zOk_iff, h1.2]; exact h2
  have done : ∀ s pf, sigmaAttempt sha pp secret rp rq1 rq2 s = some (some pf) ↔
      ∃ c z, attemptResponse sha pp NF secret s = some (c, z) ∧ pp.zLowerBound ≤ z ∧ z < pp.zUpperBound ∧
        pf = { W := pp.GFF.I.mulGen s.tp, Kp := vpCommit (s.k % NF) s.tp pp.GFF,
               Kq1 := vpCommit (s.k % NF) s.tq1 pp.GEC, Kq2 := vpCommit (s.k % NF) s.tq2 pp.GEC,
               Challenge := some c, Z := some z, Sp := some ((s.tp + c * rp) % NF),
               Sq1 := some ((s.tq1 + c * rq1) % NE), Sq2 := some ((s.tq2 + c * rq2) % NE), Params := pp } := by
    intro s pf
    unfold attemptResponse
    cases hc : getFSChallenge sha pp.GFF.I pp.GEC.I (pp.GFF.I.mulGen s.tp) (vpCommit (s.k % NF) s.tp pp.GFF)
        (vpCommit (s.k % NF) s.tq1 pp.GEC) (vpCommit (s.k % NF) s.tq2 pp.GEC) pp.Bc with
    | none => rw [sigmaAttempt_none hF hE hc]; simp
    | some c =>
      rw [sigmaAttempt_done hF hE hc, Option.map_some]
      constructor
      · intro h
        split at h
        · rename_i hz
          rw [zOk_iff] at hz
          simp only [Option.some.injEq] at h
          exact ⟨_, _, rfl, hz.1, hz.2, h.symm⟩
        · exact absurd h (by simp)
      · rintro ⟨c', z', h1, h2, h3, h4⟩
        simp only [Option.some.injEq, Prod.mk.injEq] at h1
        obtain ⟨rfl, rfl⟩ := h1
        rw [if_pos ((zOk_iff pp _).mpr ⟨h2, h3⟩), h4]
  constructor
  · intro pf
    rw [sigmaProve_done_iff]
    constructor
    · rintro ⟨pre, s, post, h1, h2, h3⟩
      obtain ⟨c, z, h4, h5, h6, h7⟩ := (done s pf).mp h3
      exact ⟨pre, s, post, c, z, h1, fun x hx => (abort x).mp (h2 x hx), h4, h5, h6, h7⟩
    · rintro ⟨pre, s, post, c, z, h1, h2, h4, h5, h6, h7⟩
      exact ⟨pre, s, post, h1, fun x hx => (abort x).mpr (h2 x hx), (done s pf).mpr ⟨c, z, h4, h5, h6, h7⟩⟩
  · rw [sigmaProve_running_iff]
    exact forall₂_congr fun s _ => abort s

/-- C30: a released response is always inside the interval. -/
theorem C30_released_in_range (sha : Bytes → Bytes) (pp : ProofParams E₁ E₂) {NF NE : Int} (hF : pp.GFF.N = some NF)
    (hE : pp.GEC.N = some NE) (secret rp rq1 rq2 : Int) (tape : List SigmaSample) (pf : SigmaProof E₁ E₂)
    (h : sigmaProve sha pp secret rp rq1 rq2 tape = .done pf) :
    ∃ z, pf.Z = some z ∧ pp.zLowerBound ≤ z ∧ z < pp.zUpperBound := by
  obtain ⟨_, _, _, _, z, _, _, _, h1, h2, rfl⟩ := ((C30_first_in_range sha pp hF hE secret rp rq1 rq2 tape).1 pf).mp h
  exact ⟨z, rfl, h1, h2⟩

/-- C30: the first sample of `exTape` aborts, alone it leaves the loop running. -/
example : (∃ c z, attemptResponse exSha3 (exPP 2039) 2039 1 ⟨30, 4, 5, 6⟩ = some (c, z) ∧ z < (exPP 2039).zLowerBound) ∧
    (∃ c z, attemptResponse exSha3 (exPP 2039) 2039 1 ⟨600, 7, 8, 9⟩ = some (c, z) ∧ (exPP 2039).zLowerBound ≤ z ∧
      z < (exPP 2039).zUpperBound) :=
  ⟨⟨_, _, rfl, by decide +kernel⟩, ⟨_, _, rfl, by decide +kernel, by decide +kernel⟩⟩

/-! ## C31 -/

/-- **C31** Exactly one mask in the sampling range leads to each released `z`, whatever the secret. -/
theorem C31_unique_mask (pp : ProofParams E₁ E₂) (c secret : Int) (h0 : 0 ≤ c * secret) (h1 : c * secret ≤ pp.zLowerBound)
    (z : Int) (hz : pp.zLowerBound ≤ z ∧ z < pp.zUpperBound) :
    ∃! k, (0 ≤ k ∧ k < pp.zUpperBound) ∧ k + c * secret = z :=
  ⟨z - c * secret, ⟨⟨by omega, by omega⟩, by ring⟩, fun k hk => by omega⟩

/-- C31: hence the number of accepted masks is the same for every secret (and challenge). -/
theorem C31_accepted_masks (pp : ProofParams E₁ E₂) (c secret : Int) (h0 : 0 ≤ c * secret)
    (h1 : c * secret ≤ pp.zLowerBound) :
    ((Finset.Ico 0 pp.zUpperBound).filter (fun k => pp.zOk (k + c * secret) = true)).card =
      (pp.zUpperBound - pp.zLowerBound).toNat := by
  have : (Finset.Ico 0 pp.zUpperBound).filter (fun k => pp.zOk (k + c * secret) = true) =
      Finset.Ico (pp.zLowerBound - c * secret) (pp.zUpperBound - c * secret) := by
    ext k
    simp only [Finset.mem_filter, Finset.mem_Ico, zOk_iff]
    omega
  rw [this, Int.card_Ico]
  congr 1
  ring

/-- C31: above the lower bound the property is lost: fewer masks are accepted and the least `z` is never released. -/
theorem C31_bound_needed (pp : ProofParams E₁ E₂) (c secret : Int) (h1 : pp.zLowerBound < c * secret)
    (hU : pp.zLowerBound < pp.zUpperBound) :
    ((Finset.Ico 0 pp.zUpperBound).filter (fun k => pp.zOk (k + c * secret) = true)).card <
      (pp.zUpperBound - pp.zLowerBound).toNat ∧
    ∀ k, 0 ≤ k → k + c * secret ≠ pp.zLowerBound := by
  constructor
  · have : (Finset.Ico 0 pp.zUpperBound).filter (fun k => pp.zOk (k + c * secret) = true) ⊆
        Finset.Ico 0 (pp.zUpperBound - c * secret) := by
      intro k
      simp only [Finset.mem_filter, Finset.mem_Ico, zOk_iff]
      omega
    have hc := Finset.card_le_card this
    rw [Int.card_Ico] at hc
    omega
  · intro k hk; omega

/-- C31: the bound holds for every `Bx`-bit secret and every challenge below `2^Bc` (parameters from `Setup`). -/
theorem C31_setup_bound {lenSecret : UInt8} {lenChallenge Bg rangeLo rangeHi : UInt16}
    {AP : AlgebraicParams E₁ E₂} {pp : ProofParams E₁ E₂} (hpp : vpSetup lenSecret lenChallenge Bg rangeLo rangeHi AP = .ok pp)
    (c secret : Int) (hc : 0 ≤ c ∧ c < 2 ^ lenChallenge.toNat) (hx : 0 ≤ secret ∧ secret < 2 ^ lenSecret.toNat) :
    0 ≤ c * secret ∧ c * secret ≤ pp.zLowerBound := by
  obtain ⟨_, _, _, _, _, _, _, _, _, _, h11, _⟩ := vpSetup_ok hpp
  refine ⟨mul_nonneg hc.1 hx.1, ?_⟩
  rw [h11, pow_add, mul_comm c]
  exact mul_le_mul hx.2.le hc.2.le hc.1 (by positivity)

example : (0 : Int) ≤ 200 * 1 ∧ 200 * 1 ≤ (exPP 2039).zLowerBound ∧ (exPP 2039).zLowerBound < 600 ∧
    600 < (exPP 2039).zUpperBound := by decide +kernel

/-! ## C32 -/

/-- **C32** Acceptance is exactly: interval, hash, and the four group equations. -/
theorem C32_verify_spec (sha : Bytes → Bytes) (pf : SigmaProof E₁ E₂) (comm : VerCommitments E₁ E₂)
    (L₁ : Lawful pf.Params.GFF.I q₁ M₁) (L₂ : Lawful pf.Params.GEC.I q₂ M₂) (hl : SigmaLegal pf.Params L₁ L₂ pf comm) :
    pf.verify sha comm = some true ↔ ∃ Z c Sp Sq1 Sq2 : Int,
      pf.Z = some Z ∧ pf.Challenge = some c ∧ pf.Sp = some Sp ∧ pf.Sq1 = some Sq1 ∧ pf.Sq2 = some Sq2 ∧
      (2 ^ (pf.Params.Bx.toUInt16 + pf.Params.Bc).toNat ≤ Z ∧
        Z < 2 ^ ((pf.Params.Bx.toUInt16 + pf.Params.Bc).toNat + pf.Params.Bb).toNat) ∧
      (sliceTo (sha (pf.Params.GFF.I.str pf.W ++ pf.Params.GFF.I.str pf.Kp ++ pf.Params.GEC.I.str pf.Kq1 ++
        pf.Params.GEC.I.str pf.Kq2)) (pf.Params.Bc.toNat / 8)).map (fun d => (setBytes d : Int)) = some c ∧
      (Sp : ZMod q₁) • L₁.g = (c : ZMod q₁) • L₁.den comm.Y + L₁.den pf.W ∧
      (Z : ZMod q₁) • L₁.g + (Sp : ZMod q₁) • L₁.den pf.Params.GFF.H = (c : ZMod q₁) • L₁.den comm.Xp + L₁.den pf.Kp ∧
      (Z : ZMod q₂) • L₂.g + (Sq1 : ZMod q₂) • L₂.den pf.Params.GEC.H =
        (c : ZMod q₂) • L₂.den comm.Xq1 + L₂.den pf.Kq1 ∧
      (Z : ZMod q₂) • L₂.g + (Sq2 : ZMod q₂) • L₂.den pf.Params.GEC.H =
        (c : ZMod q₂) • L₂.den comm.Xq2 + L₂.den pf.Kq2 := by
  have hfs : ∀ c : Int, getFSChallenge sha pf.Params.GFF.I pf.Params.GEC.I pf.W pf.Kp pf.Kq1 pf.Kq2 pf.Params.Bc = some c ↔
      (sliceTo (sha (pf.Params.GFF.I.str pf.W ++ pf.Params.GFF.I.str pf.Kp ++ pf.Params.GEC.I.str pf.Kq1 ++
        pf.Params.GEC.I.str pf.Kq2)) (pf.Params.Bc.toNat / 8)).map (fun d => (setBytes d : Int)) = some c := by
    intro c
    unfold getFSChallenge fsTranscript
    cases sliceTo (sha (pf.Params.GFF.I.str pf.W ++ pf.Params.GFF.I.str pf.Kp ++ pf.Params.GEC.I.str pf.Kq1 ++
        pf.Params.GEC.I.str pf.Kq2)) (pf.Params.Bc.toNat / 8) <;> simp
  rw [sigma_verify_iff]
  constructor
  · rintro ⟨Z, c, Sp, Sq1, Sq2, hZ, hc, h1, h2, h3, hz, hch, hk⟩
    have e := (sigmaChecks_iff pf.Params L₁ L₂ pf comm hl Z c Sp Sq1 Sq2).mp hk
    exact ⟨Z, c, Sp, Sq1, Sq2, hZ, hc, h1, h2, h3, (zOk_iff _ _).mp hz, (hfs c).mp hch, e.eqY, e.eqXp, e.eqXq1, e.eqXq2⟩
  · rintro ⟨Z, c, Sp, Sq1, Sq2, hZ, hc, h1, h2, h3, hz, hch, e1, e2, e3, e4⟩
    exact ⟨Z, c, Sp, Sq1, Sq2, hZ, hc, h1, h2, h3, (zOk_iff _ _).mpr hz, (hfs c).mpr hch,
      (sigmaChecks_iff pf.Params L₁ L₂ pf comm hl Z c Sp Sq1 Sq2).mpr ⟨e1, e2, e3, e4⟩⟩

/-- C32: changing any single response of the accepted example makes it rejected. -/
example : ∃ pf, sigmaProve exSha3 (exPP 2039) 1 20 30 40 exTape = .done pf ∧
    pf.verify exSha3 (statementOf (exPP 2039) 1 20 30 40) = some true ∧
    { pf with Z := some 739 }.verify exSha3 (statementOf (exPP 2039) 1 20 30 40) = some false ∧
    { pf with Sp := some 1 }.verify exSha3 (statementOf (exPP 2039) 1 20 30 40) = some false ∧
    { pf with Sq2 := some 1 }.verify exSha3 (statementOf (exPP 2039) 1 20 30 40) = some false ∧
    pf.verify exSha3 (statementOf (exPP 2039) 0 20 30 40) = some false :=
  ⟨_, rfl, by decide +kernel, by decide +kernel, by decide +kernel, by decide +kernel, by decide +kernel⟩

/-! ## C33, C34 -/

/-- Two accepted proofs with the same first move and parameters, for the same statement.  The hash functions may differ:
with one hash function the challenges would be equal. -/
structure Fork (sha sha' : Bytes → Bytes) (pf pf' : SigmaProof E₁ E₂) (comm : VerCommitments E₁ E₂) : Prop where
  acc : pf.verify sha comm = some true
  acc' : pf'.verify sha' comm = some true
  params : pf'.Params = pf.Params
  W : pf'.W = pf.W
  Kp : pf'.Kp = pf.Kp
  Kq1 : pf'.Kq1 = pf.Kq1
  Kq2 : pf'.Kq2 = pf.Kq2

/-- the data of a fork and the differences of its equations -/
theorem Fork.diff {sha sha' : Bytes → Bytes} {pf pf' : SigmaProof E₁ E₂} {comm : VerCommitments E₁ E₂}
    (f : Fork sha sha' pf pf' comm) (L₁ : Lawful pf.Params.GFF.I q₁ M₁) (L₂ : Lawful pf.Params.GEC.I q₂ M₂)
    (hl : SigmaLegal pf.Params L₁ L₂ pf comm) :
    ∃ z c sp s1 s2 z' c' sp' s1' s2' : Int,
      (pf.Z = some z ∧ pf.Challenge = some c ∧ pf.Sp = some sp ∧ pf.Sq1 = some s1 ∧ pf.Sq2 = some s2) ∧
      (pf'.Z = some z' ∧ pf'.Challenge = some c' ∧ pf'.Sp = some sp' ∧ pf'.Sq1 = some s1' ∧ pf'.Sq2 = some s2') ∧
      (pf.Params.zLowerBound ≤ z ∧ z < pf.Params.zUpperBound) ∧
      (pf.Params.zLowerBound ≤ z' ∧ z' < pf.Params.zUpperBound) ∧
      getFSChallenge sha pf.Params.GFF.I pf.Params.GEC.I pf.W pf.Kp pf.Kq1 pf.Kq2 pf.Params.Bc = some c ∧
      getFSChallenge sha' pf.Params.GFF.I pf.Params.GEC.I pf.W pf.Kp pf.Kq1 pf.Kq2 pf.Params.Bc = some c' ∧
      ((c - c' : Int) : ZMod q₁) • L₁.den comm.Y = ((sp - sp' : Int) : ZMod q₁) • L₁.g ∧
      ((c - c' : Int) : ZMod q₁) • L₁.den comm.Xp =
        ((z - z' : Int) : ZMod q₁) • L₁.g + ((sp - sp' : Int) : ZMod q₁) • L₁.den pf.Params.GFF.H ∧
      ((c - c' : Int) : ZMod q₂) • L₂.den comm.Xq1 =
        ((z - z' : Int) : ZMod q₂) • L₂.g + ((s1 - s1' : Int) : ZMod q₂) • L₂.den pf.Params.GEC.H ∧
      ((c - c' : Int) : ZMod q₂) • L₂.den comm.Xq2 =
        ((z - z' : Int) : ZMod q₂) • L₂.g + ((s2 - s2' : Int) : ZMod q₂) • L₂.den pf.Params.GEC.H := by
  obtain ⟨a, a', h1, h2, h3, h4, h5⟩ := f
  obtain ⟨W', Kp', Kq1', Kq2', C', Z', Sp', S1', S2', P'⟩ := pf'
  simp only at h1 h2 h3 h4 h5
  subst h1 h2 h3 h4 h5
  obtain ⟨z, c, sp, s1, s2, hZ, hc, hp, hq1, hq2, hz, hch, hk⟩ := (sigma_verify_iff _ _ _).mp a
  obtain ⟨z', c', sp', s1', s2', hZ', hc', hp', hq1', hq2', hz', hch', hk'⟩ := (sigma_verify_iff _ _ _).mp a'
  have e := (sigmaChecks_iff pf.Params L₁ L₂ pf comm hl z c sp s1 s2).mp hk
  have hl' : SigmaLegal pf.Params L₁ L₂ ⟨pf.W, pf.Kp, pf.Kq1, pf.Kq2, C', Z', Sp', S1', S2', pf.Params⟩ comm :=
    ⟨hl.H₁, hl.H₂, hl.W, hl.Kp, hl.Kq1, hl.Kq2, hl.Y, hl.Xp, hl.Xq1, hl.Xq2⟩
  have e' := (sigmaChecks_iff pf.Params L₁ L₂ _ comm hl' z' c' sp' s1' s2').mp hk'
  refine ⟨z, c, sp, s1, s2, z', c', sp', s1', s2', ⟨hZ, hc, hp, hq1, hq2⟩, ⟨hZ', hc', hp', hq1', hq2'⟩,
    (zOk_iff _ _).mp hz, (zOk_iff _ _).mp hz', hch, hch', ?_, ?_, ?_, ?_⟩
  · push_cast
    linear_combination (norm := module) e'.eqY - e.eqY
  · push_cast
    linear_combination (norm := module) e'.eqXp - e.eqXp
  · push_cast
    linear_combination (norm := module) e'.eqXq1 - e.eqXq1
  · push_cast
    linear_combination (norm := module) e'.eqXq2 - e.eqXq2

theorem smul_cancel {q : ℕ} [Fact q.Prime] {M : Type} [AddCommGroup M] [Module (ZMod q) M] {a : ZMod q} (ha : a ≠ 0)
    {x y : M} (h : a • x = y) : x = a⁻¹ • y := by
  rw [← h, smul_smul, inv_mul_cancel₀ ha, one_smul]

/-- **C33** Special soundness: a fork with challenges different modulo both orders opens all four commitments. -/
theorem C33_special_soundness {sha sha' : Bytes → Bytes} {pf pf' : SigmaProof E₁ E₂} {comm : VerCommitments E₁ E₂}
    (f : Fork sha sha' pf pf' comm) [Fact q₁.Prime] [Fact q₂.Prime] (L₁ : Lawful pf.Params.GFF.I q₁ M₁)
    (L₂ : Lawful pf.Params.GEC.I q₂ M₂) (hl : SigmaLegal pf.Params L₁ L₂ pf comm)
    {c c' z z' sp sp' s1 s1' s2 s2' : Int} (hc : pf.Challenge = some c) (hc' : pf'.Challenge = some c')
    (hz : pf.Z = some z) (hz' : pf'.Z = some z') (hsp : pf.Sp = some sp) (hsp' : pf'.Sp = some sp')
    (hs1 : pf.Sq1 = some s1) (hs1' : pf'.Sq1 = some s1') (hs2 : pf.Sq2 = some s2) (hs2' : pf'.Sq2 = some s2')
    (hne₁ : ((c - c' : Int) : ZMod q₁) ≠ 0) (hne₂ : ((c - c' : Int) : ZMod q₂) ≠ 0) :
    L₁.den comm.Y = (((sp - sp' : Int) : ZMod q₁) / ((c - c' : Int) : ZMod q₁)) • L₁.g ∧
    L₁.den comm.Xp = (((z - z' : Int) : ZMod q₁) / ((c - c' : Int) : ZMod q₁)) • L₁.g +
      (((sp - sp' : Int) : ZMod q₁) / ((c - c' : Int) : ZMod q₁)) • L₁.den pf.Params.GFF.H ∧
    L₂.den comm.Xq1 = (((z - z' : Int) : ZMod q₂) / ((c - c' : Int) : ZMod q₂)) • L₂.g +
      (((s1 - s1' : Int) : ZMod q₂) / ((c - c' : Int) : ZMod q₂)) • L₂.den pf.Params.GEC.H ∧
    L₂.den comm.Xq2 = (((z - z' : Int) : ZMod q₂) / ((c - c' : Int) : ZMod q₂)) • L₂.g +
      (((s2 - s2' : Int) : ZMod q₂) / ((c - c' : Int) : ZMod q₂)) • L₂.den pf.Params.GEC.H := by
  obtain ⟨z0, c0, sp0, s10, s20, z1, c1, sp1, s11, s21, ⟨a1, a2, a3, a4, a5⟩, ⟨b1, b2, b3, b4, b5⟩, _, _, _, _, e1, e2, e3,
    e4⟩ := f.diff L₁ L₂ hl
  rw [hz] at a1; rw [hc] at a2; rw [hsp] at a3; rw [hs1] at a4; rw [hs2] at a5
  rw [hz'] at b1; rw [hc'] at b2; rw [hsp'] at b3; rw [hs1'] at b4; rw [hs2'] at b5
  cases a1; cases a2; cases a3; cases a4; cases a5; cases b1; cases b2; cases b3; cases b4; cases b5
  refine ⟨?_, ?_, ?_, ?_⟩
  · rw [smul_cancel hne₁ e1, smul_smul, div_eq_inv_mul]
  · rw [smul_cancel hne₁ e2, smul_add, smul_smul, smul_smul, div_eq_inv_mul, div_eq_inv_mul]
  · rw [smul_cancel hne₂ e3, smul_add, smul_smul, smul_smul, div_eq_inv_mul, div_eq_inv_mul]
  · rw [smul_cancel hne₂ e4, smul_add, smul_smul, smul_smul, div_eq_inv_mul, div_eq_inv_mul]

/-- **C34** The integer argument: if `Xq1` opens to a `Bx`-bit `x`, then either the fork yields a non-trivial relation
between `G` and `H` on the curve, or `z - z' = (c - c') x` over the integers and the ciphertext encrypts `x`. -/
theorem C34_cross_group {sha sha' : Bytes → Bytes} (hsha : ∀ m, (sha m).length = 32) (hsha' : ∀ m, (sha' m).length = 32)
    {pf pf' : SigmaProof E₁ E₂} {comm : VerCommitments E₁ E₂} (f : Fork sha sha' pf pf' comm)
    {lenSecret : UInt8} {lenChallenge Bg rangeLo rangeHi : UInt16} {AP : AlgebraicParams E₁ E₂}
    (hpp : vpSetup lenSecret lenChallenge Bg rangeLo rangeHi AP = .ok pf.Params)
    [Fact q₁.Prime] (L₁ : Lawful pf.Params.GFF.I q₁ M₁)
    (L₂ : Lawful pf.Params.GEC.I q₂ M₂) (hl : SigmaLegal pf.Params L₁ L₂ pf comm)
    (hBg : 2 ^ (Bg.toNat - 1) ≤ q₂) (hq₁ : 2 ^ lenChallenge.toNat ≤ q₁)
    (x r : Int) (hx : 0 ≤ x ∧ x < 2 ^ lenSecret.toNat)
    (hopen : L₂.den comm.Xq1 = (x : ZMod q₂) • L₂.g + (r : ZMod q₂) • L₂.den pf.Params.GEC.H)
    (hne : pf.Challenge ≠ pf'.Challenge) :
    ∃ z z' c c' s1 s1' : Int, pf.Z = some z ∧ pf'.Z = some z' ∧ pf.Challenge = some c ∧ pf'.Challenge = some c' ∧
      pf.Sq1 = some s1 ∧ pf'.Sq1 = some s1' ∧
      ((((((c - c') * x - (z - z') : Int) : ZMod q₂) ≠ 0) ∧
        (((c - c') * x - (z - z') : Int) : ZMod q₂) • L₂.g +
          (((c - c') * r - (s1 - s1') : Int) : ZMod q₂) • L₂.den pf.Params.GEC.H = 0) ∨
       (z - z' = (c - c') * x ∧ ∃ s : ZMod q₁, L₁.den comm.Y = s • L₁.g ∧
        L₁.den comm.Xp = (x : ZMod q₁) • L₁.g + s • L₁.den pf.Params.GFF.H)) := by
  obtain ⟨z, c, sp, s1, s2, z', c', sp', s1', s2', ⟨a1, a2, a3, a4, a5⟩, ⟨b1, b2, b3, b4, b5⟩, hz, hz', hch, hch', e1, e2, e3,
    e4⟩ := f.diff L₁ L₂ hl
  obtain ⟨_, g2, g3, _, _, _, _, g8, _, _, g11, g12⟩ := vpSetup_ok hpp
  refine ⟨z, z', c, c', s1, s1', a1, b1, a2, b2, a4, b4, ?_⟩
  obtain ⟨_, c0, _, c1⟩ := (C28_challenge sha hsha _ _ _ _ _ _ _).2 c hch
  obtain ⟨_, d0, _, d1⟩ := (C28_challenge sha' hsha' _ _ _ _ _ _ _).2 c' hch'
  rw [g2] at c1 d1
  rw [g11, g12, pow_add] at hz hz'
  have hcc : c ≠ c' := by
    rintro rfl
    exact hne (by rw [a2, b2])
  obtain ⟨B, hB⟩ : ∃ B : Int, (2 : Int) ^ lenChallenge.toNat = B := ⟨_, rfl⟩
  obtain ⟨X, hX⟩ : ∃ X : Int, (2 : Int) ^ lenSecret.toNat = X := ⟨_, rfl⟩
  obtain ⟨U, hUeq⟩ : ∃ U : Int, (2 : Int) ^ (Bg.toNat - 1) = U := ⟨_, rfl⟩
  have hUq : U ≤ q₂ := by rw [← hUeq]; exact_mod_cast hBg
  have hBq : B ≤ q₁ := by rw [← hB]; exact_mod_cast hq₁
  rw [hB] at c1 d1
  rw [hX] at hx
  rw [hX, hB, hUeq] at hz hz'
  by_cases hrel : (((c - c') * x - (z - z') : Int) : ZMod q₂) = 0
  · right
    have hint : (c - c') * x - (z - z') = 0 := by
      apply Int.eq_zero_of_abs_lt_dvd ((ZMod.intCast_zmod_eq_zero_iff_dvd _ q₂).mp hrel)
      have h1 : |c - c'| ≤ B - 1 := by rw [abs_le]; omega
      have h2 : |(c - c') * x| ≤ (B - 1) * (X - 1) := by
        rw [abs_mul]
        have : |x| ≤ X - 1 := by rw [abs_le]; omega
        exact mul_le_mul h1 this (abs_nonneg _) (by omega)
      have h3 : |z - z'| < U - X * B := by rw [abs_lt]; omega
      have h4 : (B - 1) * (X - 1) < X * B := by nlinarith
      have h5 := abs_sub ((c - c') * x) (z - z')
      omega
    have hint' : z - z' = (c - c') * x := by omega
    refine ⟨hint', ?_⟩
    have hne₁ : ((c - c' : Int) : ZMod q₁) ≠ 0 := by
      intro h0
      have := Int.eq_zero_of_abs_lt_dvd ((ZMod.intCast_zmod_eq_zero_iff_dvd _ q₁).mp h0)
        (by rw [abs_lt]; omega)
      omega
    refine ⟨((c - c' : Int) : ZMod q₁)⁻¹ * ((sp - sp' : Int) : ZMod q₁), ?_, ?_⟩
    · rw [smul_cancel hne₁ e1, smul_smul]
    · rw [smul_cancel hne₁ e2, smul_add, smul_smul, smul_smul, hint', Int.cast_mul, inv_mul_cancel_left₀ hne₁]
  · left
    refine ⟨hrel, ?_⟩
    rw [hopen] at e3
    push_cast at e3 ⊢
    linear_combination (norm := module) e3

/-- C33, C34: a fork on the toy instance: the same masks answered under two constant hash functions. -/
example : ∃ pf pf', sigmaProve (fun _ => List.replicate 32 3) (exPP 2039) 1 20 30 40 [⟨600, 7, 8, 9⟩] = .done pf ∧
    sigmaProve (fun _ => List.replicate 32 200) (exPP 2039) 1 20 30 40 [⟨600, 7, 8, 9⟩] = .done pf' ∧
    Fork (fun _ => List.replicate 32 3) (fun _ => List.replicate 32 200) pf pf' (statementOf (exPP 2039) 1 20 30 40) ∧
    pf.Challenge ≠ pf'.Challenge ∧ 2 ^ ((11 : UInt16).toNat - 1) ≤ 1031 ∧ 2 ^ (8 : UInt16).toNat ≤ 2039 :=
  ⟨_, _, rfl, rfl, ⟨by decide +kernel, by decide +kernel, rfl, rfl, rfl, rfl, rfl⟩, by decide +kernel, by decide, by decide⟩

/-! ## C35 -/

/-- The first move a simulator computes from the statement, the challenge and freely chosen responses. -/
def simulate (pp : ProofParams E₁ E₂) (comm : VerCommitments E₁ E₂) (c z sp s1 s2 : Int) : SigmaProof E₁ E₂ where
  W := pp.GFF.I.sub (pp.GFF.I.mulGen sp) (pp.GFF.I.mul comm.Y c)
  Kp := pp.GFF.I.sub (vpCommit z sp pp.GFF) (pp.GFF.I.mul comm.Xp c)
  Kq1 := pp.GEC.I.sub (vpCommit z s1 pp.GEC) (pp.GEC.I.mul comm.Xq1 c)
  Kq2 := pp.GEC.I.sub (vpCommit z s2 pp.GEC) (pp.GEC.I.mul comm.Xq2 c)
  Challenge := some c
  Z := some z
  Sp := some sp
  Sq1 := some s1
  Sq2 := some s2
  Params := pp

/-- **C35** Simulation without a witness: for any statement, any digest the hash is programmed to and any responses with
`z` in the interval, the simulated proof is accepted. -/
theorem C35_simulator (pp : ProofParams E₁ E₂) (L₁ : Lawful pp.GFF.I q₁ M₁) (L₂ : Lawful pp.GEC.I q₂ M₂)
    (hH₁ : L₁.V pp.GFF.H) (hH₂ : L₂.V pp.GEC.H) (comm : VerCommitments E₁ E₂) (hY : L₁.V comm.Y) (hXp : L₁.V comm.Xp)
    (hX1 : L₂.V comm.Xq1) (hX2 : L₂.V comm.Xq2) (digest : Bytes) (hd : pp.Bc.toNat / 8 ≤ digest.length)
    (z sp s1 s2 : Int) (hz : pp.zLowerBound ≤ z ∧ z < pp.zUpperBound) :
    (simulate pp comm (setBytes (digest.take (pp.Bc.toNat / 8))) z sp s1 s2).verify (fun _ => digest) comm = some true := by
  refine (sigma_verify_iff _ _ _).mpr ⟨z, _, sp, s1, s2, rfl, rfl, rfl, rfl, rfl, (zOk_iff _ _).mpr hz, ?_, ?_⟩
  · have hs : sliceTo digest (pp.Bc.toNat / 8) = some (digest.take (pp.Bc.toNat / 8)) := if_pos hd
    unfold getFSChallenge
    exact bind_step hs _
  · refine (sigmaChecks_iff pp L₁ L₂ _ comm ?_ z _ sp s1 s2).mpr ?_
    · exact ⟨hH₁, hH₂, L₁.V_sub (L₁.V_mulGen _) (L₁.V_mul _ hY), L₁.V_sub (V_vpCommit L₁ hH₁ _ _) (L₁.V_mul _ hXp),
        L₂.V_sub (V_vpCommit L₂ hH₂ _ _) (L₂.V_mul _ hX1), L₂.V_sub (V_vpCommit L₂ hH₂ _ _) (L₂.V_mul _ hX2), hY, hXp, hX1,
        hX2⟩
    · constructor
      · simp only [simulate]
        rw [L₁.den_sub (L₁.V_mulGen _) (L₁.V_mul _ hY), L₁.den_mul _ hY, L₁.den_mulGen]; abel
      · simp only [simulate]
        rw [L₁.den_sub (V_vpCommit L₁ hH₁ _ _) (L₁.V_mul _ hXp), L₁.den_mul _ hXp, den_vpCommit L₁ hH₁]; abel
      · simp only [simulate]
        rw [L₂.den_sub (V_vpCommit L₂ hH₂ _ _) (L₂.V_mul _ hX1), L₂.den_mul _ hX1, den_vpCommit L₂ hH₂]; abel
      · simp only [simulate]
        rw [L₂.den_sub (V_vpCommit L₂ hH₂ _ _) (L₂.V_mul _ hX2), L₂.den_mul _ hX2, den_vpCommit L₂ hH₂]; abel

/-- the sampling space of one attempt -/
def Sampled (pp : ProofParams E₁ E₂) (q₁ q₂ : ℕ) (s : SigmaSample) : Prop :=
  (0 ≤ s.k ∧ s.k < pp.zUpperBound) ∧ (0 ≤ s.tp ∧ s.tp < q₁) ∧ (0 ≤ s.tq1 ∧ s.tq1 < q₂) ∧ (0 ≤ s.tq2 ∧ s.tq2 < q₂)

/-- legal transcripts with reduced responses -/
def ReducedTranscript (pp : ProofParams E₁ E₂) (L₁ : Lawful pp.GFF.I q₁ M₁) (L₂ : Lawful pp.GEC.I q₂ M₂)
    (pf : SigmaProof E₁ E₂) : Prop :=
  pf.Params = pp ∧ L₁.V pf.W ∧ L₁.V pf.Kp ∧ L₂.V pf.Kq1 ∧ L₂.V pf.Kq2 ∧
  (∃ sp, pf.Sp = some sp ∧ 0 ≤ sp ∧ sp < q₁) ∧ (∃ s, pf.Sq1 = some s ∧ 0 ≤ s ∧ s < q₂) ∧
  (∃ s, pf.Sq2 = some s ∧ 0 ≤ s ∧ s < q₂)

theorem emod_sub_cancel {q : ℕ} {a b t : Int} (h0 : 0 ≤ t) (h1 : t < q) (h : a % q = (t + b) % q) : (a - b) % q = t := by
  rw [Int.sub_emod, h, ← Int.sub_emod, add_sub_cancel_right, Int.emod_eq_of_lt h0 h1]

/-- C35: perfect honest-verifier zero knowledge.  For a fixed challenge (hash programmed to one digest) and a witness with
`0 ≤ c x ≤ 2^(Bx+Bc)`, the prover's samples with released `z` correspond one to one to the accepted reduced transcripts;
the latter set does not depend on the witness.  Elements are assumed to have unique representations. -/
theorem C35_hvzk (pp : ProofParams E₁ E₂) (L₁ : Lawful pp.GFF.I q₁ M₁) (L₂ : Lawful pp.GEC.I q₂ M₂)
    (inj₁ : ∀ {a b}, L₁.V a → L₁.V b → L₁.den a = L₁.den b → a = b)
    (inj₂ : ∀ {a b}, L₂.V a → L₂.V b → L₂.den a = L₂.den b → a = b)
    (hq₁ : 0 < q₁) (hq₂ : 0 < q₂) (hN₁ : pp.GFF.N = some (q₁ : Int)) (hN₂ : pp.GEC.N = some (q₂ : Int))
    (hH₁ : L₁.V pp.GFF.H) (hH₂ : L₂.V pp.GEC.H) (hU : pp.zUpperBound ≤ q₁)
    (digest : Bytes) (hd : pp.Bc.toNat / 8 ≤ digest.length) (x rp rq1 rq2 : Int)
    (h0 : 0 ≤ (setBytes (digest.take (pp.Bc.toNat / 8)) : Int) * x)
    (h1 : (setBytes (digest.take (pp.Bc.toNat / 8)) : Int) * x ≤ pp.zLowerBound) (pf : SigmaProof E₁ E₂) :
    (pf.verify (fun _ => digest) (statementOf pp x rp rq1 rq2) = some true ∧ ReducedTranscript pp L₁ L₂ pf) ↔
      ∃! s, Sampled pp q₁ q₂ s ∧ sigmaAttempt (fun _ => digest) pp x rp rq1 rq2 s = some (some pf) := by
  obtain ⟨c, hcdef⟩ : ∃ c : Int, (setBytes (digest.take (pp.Bc.toNat / 8)) : Int) = c := ⟨_, rfl⟩
  rw [hcdef] at h0 h1
  have hch : ∀ w Kp Kq1 Kq2, getFSChallenge (fun _ => digest) pp.GFF.I pp.GEC.I w Kp Kq1 Kq2 pp.Bc = some c := by
    intro w Kp Kq1 Kq2
    unfold getFSChallenge sliceTo
    rw [if_pos hd, ← hcdef]
    rfl
  have att : ∀ s, sigmaAttempt (fun _ => digest) pp x rp rq1 rq2 s = _ := fun s =>
    sigmaAttempt_done hN₁ hN₂ (hch _ _ _ _)
  constructor
  · rintro ⟨hv, hP, vW, vKp, vK1, vK2, ⟨sp, hsp, sp0, sp1⟩, ⟨s1, hs1, s10, s11⟩, ⟨s2, hs2, s20, s21⟩⟩
    obtain ⟨Z, c', Sp, Sq1, Sq2, hZ, hc, k1, k2, k3, hz, hc', hk⟩ := (sigma_verify_iff _ _ _).mp hv
    obtain ⟨W, Kp, Kq1, Kq2, C, Z', Sp', S1', S2', P'⟩ := pf
    simp only at hP vW vKp vK1 vK2 hsp hs1 hs2 hZ hc k1 k2 k3 hz hc' hk
    subst hP
    rw [hch] at hc'
    cases hc'
    rw [hsp] at k1; rw [hs1] at k2; rw [hs2] at k3
    cases k1; cases k2; cases k3
    subst hZ hc hsp hs1 hs2
    have leg : SigmaLegal P' L₁ L₂ ⟨W, Kp, Kq1, Kq2, some c, some Z, some sp, some s1, some s2, P'⟩
        (statementOf P' x rp rq1 rq2) :=
      ⟨hH₁, hH₂, vW, vKp, vK1, vK2, L₁.V_mulGen _, V_vpCommit L₁ hH₁ _ _, V_vpCommit L₂ hH₂ _ _, V_vpCommit L₂ hH₂ _ _⟩
    have e := (sigmaChecks_iff P' L₁ L₂ _ _ leg _ _ _ _ _).mp hk
    have hz' := (zOk_iff _ _).mp hz
    have q1p : (0 : Int) < q₁ := by exact_mod_cast hq₁
    have q2p : (0 : Int) < q₂ := by exact_mod_cast hq₂
    obtain ⟨eY, eXp, eX1, eX2⟩ := e
    simp only [statementOf, den_vpCommit L₁ hH₁, den_vpCommit L₂ hH₂, L₁.den_mulGen] at eY eXp eX1 eX2
    refine ⟨⟨Z - c * x, (sp - c * rp) % q₁, (s1 - c * rq1) % q₂, (s2 - c * rq2) % q₂⟩, ⟨?_, ?_⟩, ?_⟩
    · refine ⟨⟨by simp only; omega, by simp only; omega⟩, ⟨Int.emod_nonneg _ q1p.ne', Int.emod_lt_of_pos _ q1p⟩,
        ⟨Int.emod_nonneg _ q2p.ne', Int.emod_lt_of_pos _ q2p⟩, ⟨Int.emod_nonneg _ q2p.ne', Int.emod_lt_of_pos _ q2p⟩⟩
    · rw [att]
      dsimp only
      have hkm : (Z - c * x) % (q₁ : Int) = Z - c * x := Int.emod_eq_of_lt (by omega) (by omega)
      rw [sub_add_cancel, if_pos hz, hkm]
      simp only [Option.some.injEq, SigmaProof.mk.injEq, true_and, and_true]
      have red : ∀ {q : ℕ} {a b : Int}, 0 ≤ a → a < q → ((a - b) % (q : Int) + b) % q = a := by
        intro q a b ha hb
        rw [Int.emod_add_emod, sub_add_cancel, Int.emod_eq_of_lt ha hb]
      refine ⟨inj₁ (L₁.V_mulGen _) vW ?_, inj₁ (V_vpCommit L₁ hH₁ _ _) vKp ?_, inj₂ (V_vpCommit L₂ hH₂ _ _) vK1 ?_,
        inj₂ (V_vpCommit L₂ hH₂ _ _) vK2 ?_, red sp0 sp1, red s10 s11, red s20 s21⟩
      · rw [L₁.den_mulGen, cast_emod]; push_cast
        linear_combination (norm := module) eY
      · rw [den_vpCommit L₁ hH₁, cast_emod]; push_cast
        linear_combination (norm := module) eXp
      · rw [den_vpCommit L₂ hH₂, cast_emod]; push_cast
        linear_combination (norm := module) eX1
      · rw [den_vpCommit L₂ hH₂, cast_emod]; push_cast
        linear_combination (norm := module) eX2
    · rintro ⟨k, tp, t1, t2⟩ ⟨⟨⟨_, _⟩, ⟨b1, b2⟩, ⟨c1, c2⟩, ⟨d1, d2⟩⟩, hs⟩
      rw [att] at hs
      split at hs
      swap
      · exact absurd hs (by simp)
      simp only [Option.some.injEq, SigmaProof.mk.injEq] at hs
      obtain ⟨-, -, -, -, -, f6, f7, f8, f9, -⟩ := hs
      simp only [SigmaSample.mk.injEq]
      refine ⟨by omega, ?_, ?_, ?_⟩
      · exact (emod_sub_cancel b1 b2 (by rw [← f7, Int.emod_emod_of_dvd _ (dvd_refl _)])).symm
      · exact (emod_sub_cancel c1 c2 (by rw [← f8, Int.emod_emod_of_dvd _ (dvd_refl _)])).symm
      · exact (emod_sub_cancel d1 d2 (by rw [← f9, Int.emod_emod_of_dvd _ (dvd_refl _)])).symm
  · rintro ⟨s, ⟨⟨⟨hk0, hk1⟩, -⟩, hs⟩, -⟩
    refine ⟨?_, ?_⟩
    · refine C29_sigma_complete (fun _ => digest) pp L₁ L₂ hN₁ hN₂ hH₁ hH₂ hU x rp rq1 rq2 [s] ?_ pf ?_
      · intro t ht
        rw [List.mem_singleton] at ht
        subst ht
        exact ⟨hk0, hk1⟩
      · exact (sigmaProve_done_iff [s] pf).mpr ⟨[], s, [], rfl, by simp, hs⟩
    · rw [att] at hs
      split at hs
      swap
      · exact absurd hs (by simp)
      simp only [Option.some.injEq] at hs
      subst hs
      have q1p : (0 : Int) < q₁ := by exact_mod_cast hq₁
      have q2p : (0 : Int) < q₂ := by exact_mod_cast hq₂
      exact ⟨rfl, L₁.V_mulGen _, V_vpCommit L₁ hH₁ _ _, V_vpCommit L₂ hH₂ _ _, V_vpCommit L₂ hH₂ _ _,
        ⟨_, rfl, Int.emod_nonneg _ q1p.ne', Int.emod_lt_of_pos _ q1p⟩,
        ⟨_, rfl, Int.emod_nonneg _ q2p.ne', Int.emod_lt_of_pos _ q2p⟩,
        ⟨_, rfl, Int.emod_nonneg _ q2p.ne', Int.emod_lt_of_pos _ q2p⟩⟩

/-- C35: hypotheses on the toy instance (unique representations, bounds). -/
example : (∀ {a b : Int}, (toyLawful 2039).V a → (toyLawful 2039).V b → (toyLawful 2039).den a = (toyLawful 2039).den b →
      a = b) ∧ (exPP 2039).Bc.toNat / 8 ≤ (List.replicate 32 (3 : UInt8)).length ∧
    (setBytes ((List.replicate 32 3).take ((exPP 2039).Bc.toNat / 8)) : Int) * 1 ≤ (exPP 2039).zLowerBound ∧
    Sampled (exPP 2039) 2039 1031 ⟨600, 7, 8, 9⟩ := by
  refine ⟨fun {a b} ha hb h => (toy_eq_iff 2039 ha hb).mpr h, by decide +kernel, by decide +kernel, ?_⟩
  refine ⟨⟨by decide +kernel, by decide +kernel⟩, ⟨by decide +kernel, by decide +kernel⟩, ⟨by decide +kernel, by decide +kernel⟩,
    ⟨by decide +kernel, by decide +kernel⟩⟩

end
end MscPoc
