import Verif.Model.Main
import Verif.Props.Setup
import Verif.Props.Ballot
import Verif.Props.Curve

/-!
# C54 — casting terminates without panic; the benchmark driver reports success
-/

set_option autoImplicit false

namespace MscPoc

variable {E₁ E₂ E : Type} {q₁ q₂ q : ℕ} {M₁ M₂ M : Type} [AddCommGroup M₁] [Module (ZMod q₁) M₁] [AddCommGroup M₂]
  [Module (ZMod q₂) M₂] [AddCommGroup M] [Module (ZMod q) M]

/-- no digest is a zero divisor modulo the group order: for a prime order, no digest is a multiple of it -/
def DigestsOK (sha : Bytes → Bytes) (N : Int) : Prop := ∀ b, Int.gcd (setBytes (sha b) : ℕ) N = 1

theorem patch_id {sha : Bytes → Bytes} {N : Int} (h : DigestsOK sha N) : patchSha sha N = sha := by
  funext b
  unfold patchSha
  rw [if_pos (h b)]

/-- No challenge of this run of the range prover is a zero divisor: the run, with such challenges replaced by 1, has none. -/
def RangeRunOK (sha : Bytes → Bytes) (params : BPParams E) (rnd : BPRand) (v : Int) : Prop :=
  ∀ pf g, bpProve (patchSha sha params.GP.N) params rnd v = some (.ok (pf, g)) → ChallengesOK sha pf

/-- Then the range prover returns a proof. -/
theorem bpProve_total (params : BPParams E) (L : Lawful params.GP q M) (k : ℕ) (hO : ParamsOK params L k)
    (Uu : E) (eU : params.GP.mapToGroup SEEDU = some Uu)
    (sha : Bytes → Bytes) (rnd : BPRand) (lsL : rnd.sL.length = 2 ^ k)
    (lsR : rnd.sR.length = 2 ^ k) (v : Int) (hs : RangeRunOK sha params rnd v) :
    ∃ pf, bpProve sha params rnd v = some (.ok (pf, rnd.gamma)) := by
  obtain ⟨pf, h, h'⟩ := C18_bp_prover_total params L k hO Uu eU sha rnd lsL lsR v
  exact ⟨pf, h' (hs _ _ h)⟩

/-- no challenge of either range proof of this vote is a zero divisor -/
def CastRunOK (sha : Bytes → Bytes) (pp : PublicParams E₁ E₂) (rnd : CastRand) : Prop :=
  ∀ choice, drawChoice pp rnd.rChoice = some choice →
    RangeRunOK sha pp.BPParams rnd.bp1 ((choice - pp.candidateMin).toNat : Int) ∧
    RangeRunOK sha pp.BPParams rnd.bp2 ((pp.candidateMax - choice).toNat : Int)

theorem DigestsOK.range {sha : Bytes → Bytes} {params : BPParams E} (h : DigestsOK sha params.GP.N)
    (L : Lawful params.GP q M) (k : ℕ) (hO : ParamsOK params L k) (rnd : BPRand) (lsL : rnd.sL.length = 2 ^ k)
    (lsR : rnd.sR.length = 2 ^ k) (v : Int) : RangeRunOK sha params rnd v := by
  intro pf g hp
  rw [patch_id h] at hp
  have e := (bpProve_exact params L k hO sha rnd lsL lsR v g pf hp).2.2.1
  unfold ChallengesOK
  dsimp only
  rw [e]
  exact ⟨h _, h _, fun c _ => h _, fun p _ => h _⟩

/-- One attempt of the sigma prover never panics; with a mask away from both ends of the range it releases a proof. -/
theorem sigmaAttempt_safe (sha : Bytes → Bytes) (hsha : ∀ m, (sha m).length = 32) (pp : ProofParams E₁ E₂) {NF NE : Int}
    (hF : pp.GFF.N = some NF) (hE : pp.GEC.N = some NE) (hBc : pp.Bc.toNat < 264)
    (secret rp rq1 rq2 : Int) (h0 : 0 ≤ secret) (s : SigmaSample) :
    (∃ r, sigmaAttempt sha pp secret rp rq1 rq2 s = some r) ∧
    (pp.zLowerBound ≤ s.k → s.k + 2 ^ pp.Bc.toNat * secret < pp.zUpperBound →
      ∃ pf, sigmaAttempt sha pp secret rp rq1 rq2 s = some (some pf)) := by
  obtain ⟨c1, c2⟩ := C28_challenge sha hsha pp.GFF.I pp.GEC.I (pp.GFF.I.mulGen s.tp) (vpCommit (s.k % NF) s.tp pp.GFF)
    (vpCommit (s.k % NF) s.tq1 pp.GEC) (vpCommit (s.k % NF) s.tq2 pp.GEC) pp.Bc
  obtain ⟨c, hc⟩ := Option.ne_none_iff_exists'.mp (fun h => absurd (c1.mp h) (by omega))
  obtain ⟨_, c3, _, c4⟩ := c2 c hc
  unfold sigmaAttempt
  simp only [hF, hE, hc, Option.bind_eq_bind, Option.bind_some]
  constructor
  · split <;> exact ⟨_, rfl⟩
  · intro h1 h2
    have hz : pp.zOk (s.k + c * secret) = true := by
      rw [zOk_iff]
      have : c * secret ≤ 2 ^ pp.Bc.toNat * secret := mul_le_mul_of_nonneg_right c4.le h0
      have := mul_nonneg c3 h0
      omega
    rw [hz]
    exact ⟨_, rfl⟩

theorem sigmaProve_safe (sha : Bytes → Bytes) (pp : ProofParams E₁ E₂) (secret rp rq1 rq2 : Int) (tape : List SigmaSample)
    (h : ∀ s ∈ tape, ∃ r, sigmaAttempt sha pp secret rp rq1 rq2 s = some r) :
    sigmaProve sha pp secret rp rq1 rq2 tape ≠ .panic ∧
    ((∃ s ∈ tape, ∃ pf, sigmaAttempt sha pp secret rp rq1 rq2 s = some (some pf)) →
      ∃ pf, sigmaProve sha pp secret rp rq1 rq2 tape = .done pf) := by
  induction tape with
  | nil => simp [sigmaProve]
  | cons s tape ih =>
    obtain ⟨r, hr⟩ := h s (by simp)
    obtain ⟨i1, i2⟩ := ih fun s hs => h s (by simp [hs])
    cases r with
    | some pf => simp [sigmaProve, hr]
    | none =>
      simp only [sigmaProve, hr]
      refine ⟨i1, ?_⟩
      rintro ⟨s', hs', pf, hpf⟩
      rcases List.mem_cons.mp hs' with rfl | hm
      · rw [hr] at hpf; simp at hpf
      · exact i2 ⟨s', hm, pf, hpf⟩

/-- the random draws of one `castVote` lie in the ranges they are drawn from -/
structure CastDrawn (bits : ℕ) (rnd : CastRand) : Prop where
  choice : 0 ≤ rnd.rChoice ∧ rnd.rChoice < 1899
  lens : rnd.bp1.sL.length = 16 ∧ rnd.bp1.sR.length = 16 ∧ rnd.bp2.sL.length = 16 ∧ rnd.bp2.sR.length = 16
  masks : ∀ s ∈ rnd.tape, 0 ≤ s.k ∧ s.k < 2 ^ (bits - 1)

/-- a mask at least `2^240` away from both ends of the range it is drawn from -/
def SafeMask (bits : ℕ) (k : Int) : Prop := 2 ^ 240 ≤ k ∧ k < 2 ^ (bits - 1) - 2 ^ 240

/-- **C54** Casting does not panic unless a challenge of the run is a zero divisor, and completes as soon as the tape holds one
safe mask. -/
theorem C54_cast_completes (sha : Bytes → Bytes) (hsha : ∀ m, (sha m).length = 32) (nan64 : BitVec 64)
    (C : Grp E) (N bits : ℕ) (Bb : Int) (hr : (N, bits, Bb) ∈ curveTable)
    {M : Type} [AddCommGroup M] [Module (ZMod N) M] (L₂ : Lawful C N M)
    (hmap : ∀ s, SetupSeed 16 s → ∃ e, C.mapToGroup s = some e ∧ L₂.V e) :
    ∃ pp, setup nan64 C = some (.ok pp) ∧ (∀ rnd : CastRand, CastDrawn bits rnd → CastRunOK sha pp rnd →
      castVote sha pp rnd ≠ .panic ∧
      ((∃ s ∈ rnd.tape, SafeMask bits s.k) → ∃ ballot, castVote sha pp rnd = .done ballot)) ∧
      (DigestsOK sha N → ∀ rnd : CastRand, CastDrawn bits rnd → CastRunOK sha pp rnd) := by
  obtain ⟨D, L₁, L, hD, dep, ok⟩ := C47_legal nan64 C N bits Bb hr L₂ hmap
  have hN : D.bp.GP.N = N := by show D.EC.N = N; rw [L.N_eq]
  refine ⟨D.pp, hD, fun rnd hd hrun => ?_, fun hs rnd hd => ?_⟩
  swap
  · refine fun choice _ => ⟨?_, ?_⟩
    · exact DigestsOK.range (hN ▸ hs) L 4 ok.bp _ hd.lens.1 hd.lens.2.1 _
    · exact DigestsOK.range (hN ▸ hs) L 4 ok.bp _ hd.lens.2.2.1 hd.lens.2.2.2 _
  obtain ⟨choice, hc, hcv, _, hlt, _⟩ := C40_choice_range D.pp (by show D.lo < D.hi; rw [dep.lo, dep.hi]; decide) rnd.rChoice
    (by show _ ∧ _ < (((D.hi - D.lo).toNat : ℕ) : Int); rw [dep.lo, dep.hi]; exact hd.choice)
  unfold castVote castChoice
  rw [hc]
  dsimp only
  have hN1 : ¬ D.FF.N - 1 ≤ 0 := by
    have h1 : D.FF.N = modp3072Q := by rw [dep.FF]; rfl
    have h2 : 2 ≤ modp3072Q := modp3072Q_prime.two_le
    omega
  have henc : encryptVote D.pp.FFGroupParams.I D.pp.EGPK choice rnd.rEnc = some (_, rnd.rEnc + 1) := if_neg hN1
  rw [henc]
  dsimp only
  obtain ⟨Uu, eU, _⟩ := hmap SEEDU (Or.inr (Or.inl rfl))
  have eU' : D.bp.GP.mapToGroup SEEDU = some Uu := by show D.EC.mapToGroup SEEDU = _; rw [dep.EC]; exact eU
  obtain ⟨run1, run2⟩ := hrun choice hc
  obtain ⟨b1, e1⟩ := bpProve_total D.bp L 4 ok.bp Uu eU' sha rnd.bp1 hd.lens.1 hd.lens.2.1
    ((choice - D.pp.candidateMin).toNat : Int) run1
  obtain ⟨b2, e2⟩ := bpProve_total D.bp L 4 ok.bp Uu eU' sha rnd.bp2 hd.lens.2.2.1 hd.lens.2.2.2
    ((D.pp.candidateMax - choice).toNat : Int) run2
  have e1' : bpProve sha D.pp.BPParams rnd.bp1 ((choice - D.pp.candidateMin).toNat : Int) = _ := e1
  have e2' : bpProve sha D.pp.BPParams rnd.bp2 ((D.pp.candidateMax - choice).toNat : Int) = _ := e2
  rw [e1', e2']
  dsimp only
  have eN : D.pp.ECGroupParams.N = some D.EC.N := rfl
  rw [eN]
  dsimp only
  have hB : D.pp.RPParams.Bc.toNat = 224 := by show D.Bc.toNat = 224; rw [dep.Bc]; rfl
  have hat := sigmaAttempt_safe sha hsha D.pp.RPParams (NF := D.FF.N) (NE := D.EC.N) rfl rfl (by rw [hB]; norm_num)
    (choice.toNat : Int) (rnd.rEnc + 1) rnd.bp1.gamma (D.EC.N - rnd.bp2.gamma) (by positivity)
  obtain ⟨p1, p2⟩ := sigmaProve_safe sha D.pp.RPParams (choice.toNat : Int) (rnd.rEnc + 1) rnd.bp1.gamma
    (D.EC.N - rnd.bp2.gamma) rnd.tape fun s _ => (hat s).1
  constructor
  · split
    · simp
    · rename_i h; exact absurd h p1
    · simp
  · rintro ⟨s, hm, hk⟩
    obtain ⟨pf, hpf⟩ := p2 ⟨s, hm, (hat s).2 (by rw [show D.pp.RPParams.zLowerBound = 2 ^ 240 from dep.zLower]; exact hk.1) (by
      rw [show D.pp.RPParams.zUpperBound = 2 ^ (bits - 1) from dep.zUpper, hB]
      have hx : (choice.toNat : Int) < 2 ^ 16 := by exact_mod_cast choice.toNat_lt
      have : (2 : Int) ^ 224 * choice.toNat < 2 ^ 240 := by
        calc (2 : Int) ^ 224 * choice.toNat < 2 ^ 224 * 2 ^ 16 := by gcongr
          _ = 2 ^ 240 := by norm_num
      have := hk.2
      omega)⟩
    rw [hpf]
    exact ⟨_, rfl⟩

/-- **C54** At most `2^241` of the `2^(bits-1)` masks are unsafe. -/
theorem C54_unsafe_masks (bits : ℕ) (hb : 242 ≤ bits) :
    ((Finset.Ico (0 : Int) (2 ^ (bits - 1))).filter fun k => ¬ (2 ^ 240 ≤ k ∧ k < 2 ^ (bits - 1) - 2 ^ 240)).card = 2 ^ 241 := by
  have hle : (2 : Int) ^ 241 ≤ 2 ^ (bits - 1) := pow_le_pow_right₀ (by norm_num) (by omega)
  have h240 : (2 : Int) ^ 241 = 2 * 2 ^ 240 := by norm_num
  have : (Finset.Ico (0 : Int) (2 ^ (bits - 1))).filter (fun k => ¬ (2 ^ 240 ≤ k ∧ k < 2 ^ (bits - 1) - 2 ^ 240)) =
      Finset.Ico 0 (2 ^ 240) ∪ Finset.Ico (2 ^ (bits - 1) - 2 ^ 240) (2 ^ (bits - 1)) := by
    ext k
    simp only [Finset.mem_filter, Finset.mem_union, Finset.mem_Ico]
    have : (0 : Int) < 2 ^ 240 := by positivity
    omega
  rw [this, Finset.card_union_of_disjoint, Int.card_Ico, Int.card_Ico]
  · have : (2 : Int) ^ (bits - 1) - (2 ^ (bits - 1) - 2 ^ 240) = 2 ^ 240 := by ring
    rw [this]
    norm_num
    decide +kernel
  · rw [Finset.disjoint_left]
    intro k h1 h2
    rw [Finset.mem_Ico] at h1 h2
    omega

theorem runGroup_ok {sha : Bytes → Bytes} {nan64 : BitVec 64} {C : Grp E} {rnds : List CastRand} {pp : PublicParams Int E}
    (h : setup nan64 C = some (.ok pp)) : runGroup sha nan64 C rnds =
      (match benchLoop sha pp rnds true with
      | .running => .running
      | .panic => .panic
      | .done success => .done (.formed success)) := by
  rw [runGroup, h]
  rfl

theorem runGroup_error {sha : Bytes → Bytes} {nan64 : BitVec 64} {C : Grp E} {rnds : List CastRand} {e : String}
    (h : setup nan64 C = some (.error e)) : runGroup sha nan64 C rnds = .done (.skipped e) := by
  rw [runGroup, h, runSetup]

/-- no challenge of the range proofs of these votes is a zero divisor -/
def RunsOK (sha : Bytes → Bytes) (nan64 : BitVec 64) (C : Grp E) (rnds : List CastRand) : Prop :=
  ∀ pp, setup nan64 C = some (.ok pp) → ∀ rnd ∈ rnds, CastRunOK sha pp rnd

/-- **C54** The driver: for a curve of the table it does not panic unless a challenge of the run is a zero divisor, and never
reports a malformed vote; when every tape holds a safe mask it ends with the report "Votes were correctly formed: true". -/
theorem C54_driver (sha : Bytes → Bytes) (hsha : ∀ m, (sha m).length = 32) (nan64 : BitVec 64)
    (C : Grp E) (N bits : ℕ) (Bb : Int) (hr : (N, bits, Bb) ∈ curveTable)
    {M : Type} [AddCommGroup M] [Module (ZMod N) M] (L₂ : Lawful C N M)
    (hmap : ∀ s, SetupSeed 16 s → ∃ e, C.mapToGroup s = some e ∧ L₂.V e)
    (rnds : List CastRand) (hs : RunsOK sha nan64 C rnds) (hd : ∀ rnd ∈ rnds, CastDrawn bits rnd) :
    runGroup sha nan64 C rnds ≠ .panic ∧
    (∀ r, runGroup sha nan64 C rnds = .done r → r = .formed true) ∧
    ((∀ rnd ∈ rnds, ∃ s ∈ rnd.tape, SafeMask bits s.k) → runGroup sha nan64 C rnds = .done (.formed true)) := by
  obtain ⟨pp, h1, h2, _⟩ := C54_cast_completes sha hsha nan64 C N bits Bb hr L₂ hmap
  obtain ⟨pp', h1', h3⟩ := C47_deployment_accepts sha nan64 C N bits Bb hr L₂ hmap
  obtain rfl : pp' = pp := by
    have h := h1.symm.trans h1'
    simp only [Option.some.injEq, Except.ok.injEq] at h
    exact h.symm
  have key : ∀ rnds : List CastRand, (∀ rnd ∈ rnds, CastDrawn bits rnd) → (∀ rnd ∈ rnds, CastRunOK sha pp' rnd) →
      (benchLoop sha pp' rnds true = .running ∨ benchLoop sha pp' rnds true = .done true) ∧
      ((∀ rnd ∈ rnds, ∃ s ∈ rnd.tape, SafeMask bits s.k) → benchLoop sha pp' rnds true = .done true) := by
    intro rnds
    induction rnds with
    | nil => intro _ _; simp [benchLoop]
    | cons rnd rnds ih =>
      intro hd hs
      obtain ⟨i1, i2⟩ := ih (fun r hr => hd r (by simp [hr])) fun r hr => hs r (by simp [hr])
      obtain ⟨p1, p2⟩ := h2 rnd (hd rnd (by simp)) (hs rnd (by simp))
      have d := hd rnd (by simp)
      cases hc : castVote sha pp' rnd with
      | panic => exact absurd hc p1
      | running =>
        refine ⟨Or.inl (by simp [benchLoop, hc]), fun hsafe => ?_⟩
        obtain ⟨b, hb⟩ := p2 (hsafe rnd (by simp))
        rw [hc] at hb
        simp at hb
      | done b =>
        have hv := h3 rnd b d.choice d.lens d.masks hc
        simp only [benchLoop, hc, hv, List.getElem?_cons_zero, List.getElem?_cons_succ, Bool.and_true]
        exact ⟨i1, fun hsafe => i2 fun r hr => hsafe r (by simp [hr])⟩
  obtain ⟨k1, k2⟩ := key rnds hd (hs _ h1)
  rw [runGroup_ok h1]
  refine ⟨?_, ?_, fun hsafe => by rw [k2 hsafe]⟩
  · rcases k1 with h | h <;> rw [h] <;> simp
  · intro r
    rcases k1 with h | h <;> rw [h] <;> simp
    intro e; exact e.symm

/-- **C54** The hypothesis on the runs holds for every digest function without zero divisors among its values. -/
theorem C54_runs (sha : Bytes → Bytes) (hsha : ∀ m, (sha m).length = 32) (nan64 : BitVec 64)
    (C : Grp E) (N bits : ℕ) (Bb : Int) (hr : (N, bits, Bb) ∈ curveTable)
    {M : Type} [AddCommGroup M] [Module (ZMod N) M] (L₂ : Lawful C N M)
    (hmap : ∀ s, SetupSeed 16 s → ∃ e, C.mapToGroup s = some e ∧ L₂.V e)
    (rnds : List CastRand) (hd : ∀ rnd ∈ rnds, CastDrawn bits rnd) (hs : DigestsOK sha N) : RunsOK sha nan64 C rnds := by
  obtain ⟨pp, h1, _, h2⟩ := C54_cast_completes sha hsha nan64 C N bits Bb hr L₂ hmap
  intro pp' h1' rnd hm
  have h := h1.symm.trans h1'
  simp only [Option.some.injEq, Except.ok.injEq] at h
  rw [← h]
  exact h2 hs rnd (hd rnd hm)

/-- the verdict on one vote: both range proofs hold and the vote proof is judged `x` -/
def Judged (sha : Bytes → Bytes) (rp : ProofParams E₁ E₂) (v : BallotData E₁ E₂) (x : Bool) : Prop :=
  v.BpLower.verify sha = some true ∧ v.BpUpper.verify sha = some true ∧
    v.VoteProof.verify sha (voteCommitments v rp) = some x

theorem judged_iff (sha : Bytes → Bytes) (rp : ProofParams E₁ E₂) (v : BallotData E₁ E₂) (x : Bool) :
    Judged sha rp v x ↔ verifyVote sha v rp = some { result := x, times := [0, 0] } := by
  constructor
  · rintro ⟨a1, a2, a3⟩
    exact verifyVote_true a1 a2 a3
  · intro h
    obtain ⟨_, ht, _⟩ := C46_times sha v rp _ h
    obtain ⟨a1, a2⟩ := ht.mp (by simp)
    refine ⟨a1, a2, ?_⟩
    cases hv : v.VoteProof.verify sha (voteCommitments v rp) with
    | none =>
      exfalso
      unfold verifyVote at h
      rw [a1, bind_step rfl, if_neg (by simp), a2, bind_step rfl, if_neg (by simp), hv] at h
      simp at h
    | some y =>
      rw [verifyVote_true a1 a2 hv] at h
      simp only [Option.some.injEq, VerifyOut.mk.injEq, and_true] at h
      rw [h]

theorem verifyVote_cases (sha : Bytes → Bytes) (rp : ProofParams E₁ E₂) (v : BallotData E₁ E₂) :
    verifyVote sha v rp = none ∨ verifyVote sha v rp = some { result := false, times := [] } ∨
    ∃ x, verifyVote sha v rp = some { result := x, times := [0, 0] } := by
  cases h : verifyVote sha v rp with
  | none => exact Or.inl rfl
  | some out =>
    obtain ⟨_, h2, h3⟩ := C46_times sha v rp out h
    by_cases ht : out.times = []
    · right; left
      have hr := h3 ht
      cases out
      simp only at ht hr
      rw [ht, hr]
    · right; right
      obtain ⟨a1, a2⟩ := h2.mp ht
      cases hv : v.VoteProof.verify sha (voteCommitments v rp) with
      | none =>
        exfalso
        unfold verifyVote at h
        rw [a1, bind_step rfl, if_neg (by simp), a2, bind_step rfl, if_neg (by simp), hv] at h
        simp at h
      | some y => exact ⟨y, by rw [← h, verifyVote_true a1 a2 hv]⟩

/-- **C54** What the benchmark loop computes, whatever the parameters are: it ends with a report exactly when every vote is
cast, every range proof holds and no vote proof panics; the report is the conjunction of the verdicts on the votes.  -/
theorem C54_report (sha : Bytes → Bytes) (pp : PublicParams E₁ E₂) (rnds : List CastRand) (s r : Bool) :
    benchLoop sha pp rnds s = .done r ↔ ∃ (votes : List (BallotData E₁ E₂)) (rs : List Bool),
      List.Forall₂ (fun rnd v => castVote sha pp rnd = .done v) rnds votes ∧
      List.Forall₂ (fun v x => v.BpLower.verify sha = some true ∧ v.BpUpper.verify sha = some true ∧
        v.VoteProof.verify sha (voteCommitments v pp.RPParams) = some x) votes rs ∧
      r = (s && rs.all id) := by
  induction rnds generalizing s with
  | nil =>
    rw [benchLoop, Outcome.done.injEq]
    constructor
    · rintro rfl
      exact ⟨[], [], .nil, .nil, by simp⟩
    · rintro ⟨votes, rs, h1, h2, h3⟩
      rw [List.forall₂_nil_left_iff] at h1
      subst h1
      rw [List.forall₂_nil_left_iff] at h2
      subst h2
      simpa using h3.symm
  | cons rnd rnds ih =>
    rw [benchLoop]
    constructor
    · intro h
      cases hc : castVote sha pp rnd with
      | running => rw [hc] at h; simp at h
      | panic => rw [hc] at h; simp at h
      | done v =>
        rw [hc] at h
        rcases verifyVote_cases sha pp.RPParams v with hv | hv | ⟨x, hv⟩
        · simp [hv] at h
        · simp [hv] at h
        · simp only [hv, List.getElem?_cons_zero, List.getElem?_cons_succ] at h
          obtain ⟨votes, rs, h1, h2, h3⟩ := (ih _).mp h
          exact ⟨v :: votes, x :: rs, .cons hc h1, .cons ((judged_iff sha pp.RPParams v x).mpr hv) h2, by simp [h3, Bool.and_assoc]⟩
    · rintro ⟨votes, rs, h1, h2, h3⟩
      obtain ⟨v, votes', hc, h1', rfl⟩ := List.forall₂_cons_left_iff.mp h1
      obtain ⟨x, rs', hx, h2', rfl⟩ := List.forall₂_cons_left_iff.mp h2
      have hv := (judged_iff sha pp.RPParams v x).mp hx
      simp only [hc, hv, List.getElem?_cons_zero, List.getElem?_cons_succ]
      exact (ih _).mpr ⟨votes', rs', h1', h2', by simp [h3, Bool.and_assoc]⟩

/-- **C54** The benchmark loop panics exactly when some vote, cast after votes that were all judged, fails to be cast with a
panic, has a range proof that does not hold, or has a vote proof whose check panics. -/
theorem C54_crash (sha : Bytes → Bytes) (pp : PublicParams E₁ E₂) (rnds : List CastRand) (s : Bool) :
    benchLoop sha pp rnds s = .panic ↔ ∃ pre rnd post, rnds = pre ++ rnd :: post ∧
      (∃ r, benchLoop sha pp pre true = .done r) ∧
      (castVote sha pp rnd = .panic ∨ ∃ v, castVote sha pp rnd = .done v ∧
        (v.BpLower.verify sha ≠ some true ∨ v.BpUpper.verify sha ≠ some true ∨
          v.VoteProof.verify sha (voteCommitments v pp.RPParams) = none)) := by
  have bad : ∀ v : BallotData E₁ E₂, (v.BpLower.verify sha ≠ some true ∨ v.BpUpper.verify sha ≠ some true ∨
      v.VoteProof.verify sha (voteCommitments v pp.RPParams) = none) ↔
      ¬ ∃ x, verifyVote sha v pp.RPParams = some { result := x, times := [0, 0] } := by
    intro v
    simp only [← judged_iff, Judged]
    constructor
    · rintro h ⟨x, h1, h2, h3⟩
      rcases h with h | h | h
      · exact h h1
      · exact h h2
      · rw [h] at h3; simp at h3
    · intro h
      by_contra hc
      push Not at hc
      obtain ⟨h1, h2, h3⟩ := hc
      obtain ⟨x, hx⟩ := Option.ne_none_iff_exists'.mp h3
      exact h ⟨x, h1, h2, hx⟩
  -- whether the loop ends does not depend on the flag
  have flag : ∀ (l : List CastRand) (b b' : Bool), (∃ r, benchLoop sha pp l b = .done r) → ∃ r, benchLoop sha pp l b' = .done r := by
    intro l b b' ⟨r, hr⟩
    rw [C54_report] at hr
    obtain ⟨votes, rs, h1, h2, _⟩ := hr
    exact ⟨b' && rs.all id, (C54_report _ _ _ _ _).mpr ⟨votes, rs, h1, h2, rfl⟩⟩
  induction rnds generalizing s with
  | nil => simp [benchLoop]
  | cons rnd rnds ih =>
    rw [benchLoop]
    constructor
    · intro h
      cases hc : castVote sha pp rnd with
      | running => rw [hc] at h; simp at h
      | panic => exact ⟨[], rnd, rnds, rfl, ⟨true, rfl⟩, Or.inl hc⟩
      | done v =>
        rw [hc] at h
        rcases verifyVote_cases sha pp.RPParams v with hv | hv | ⟨x, hv⟩
        · exact ⟨[], rnd, rnds, rfl, ⟨true, rfl⟩, Or.inr ⟨v, hc, (bad v).mpr (by rintro ⟨x, hx⟩; rw [hv] at hx; simp at hx)⟩⟩
        · exact ⟨[], rnd, rnds, rfl, ⟨true, rfl⟩, Or.inr ⟨v, hc, (bad v).mpr (by rintro ⟨x, hx⟩; rw [hv] at hx; simp at hx)⟩⟩
        · simp only [hv, List.getElem?_cons_zero, List.getElem?_cons_succ] at h
          obtain ⟨pre, r, post, e, hp, hb⟩ := (ih _).mp h
          refine ⟨rnd :: pre, r, post, by rw [e]; rfl, ?_, hb⟩
          rw [benchLoop]
          simp only [hc, hv, List.getElem?_cons_zero, List.getElem?_cons_succ]
          exact flag pre _ _ hp
    · rintro ⟨pre, r, post, e, hp, hb⟩
      cases pre with
      | nil =>
        rw [List.nil_append, List.cons.injEq] at e
        obtain ⟨rfl, rfl⟩ := e
        rcases hb with hb | ⟨v, hc, hb⟩
        · rw [hb]
        · rw [hc]
          rw [bad] at hb
          rcases verifyVote_cases sha pp.RPParams v with hv | hv | hv
          · simp [hv]
          · simp [hv]
          · exact absurd hv hb
      | cons a pre =>
        rw [List.cons_append, List.cons.injEq] at e
        obtain ⟨rfl, rfl⟩ := e
        obtain ⟨b, hp⟩ := hp
        rw [benchLoop] at hp
        cases hc : castVote sha pp rnd with
        | running => rw [hc] at hp; simp at hp
        | panic => rfl
        | done v =>
          rw [hc] at hp
          rcases verifyVote_cases sha pp.RPParams v with hv | hv | ⟨x, hv⟩
          · simp [hv]
          · simp [hv]
          · simp only [hv, List.getElem?_cons_zero, List.getElem?_cons_succ] at hp ⊢
            exact (ih _).mpr ⟨pre, r, post, rfl, flag pre _ _ ⟨b, hp⟩, hb⟩

/-- **C54** A group whose order is too short is skipped with the error of `voteproof.Setup`. -/
theorem C54_skipped (sha : Bytes → Bytes) (nan64 : BitVec 64) (C : Grp E)
    (hmap : ∀ s, SetupSeed 16 s → ∃ e, C.mapToGroup s = some e)
    (hb : bitLen C.N < 242) (rnds : List CastRand) :
    runGroup sha nan64 C rnds = .done (.skipped "inconsistent parameter choice") := by
  exact runGroup_error ((C47_setup nan64 C hmap (by omega)).2 hb)

/-- **C54** P-256 and P-384, without hypotheses about the group. -/
theorem C54_curves (sha : Bytes → Bytes) (hsha : ∀ m, (sha m).length = 32) (nan64 : BitVec 64)
    (C : CirclCurve) (bits : ℕ) (hC : StdRow C bits) (hash : ∀ s, SetupSeed 16 s → (C.hash s).Valid C.c)
    (rnds : List CastRand) (hs : RunsOK sha nan64 (circlGrp C) rnds) (hd : ∀ rnd ∈ rnds, CastDrawn bits rnd) :
    runGroup sha nan64 (circlGrp C) rnds ≠ .panic ∧
    (∀ r, runGroup sha nan64 (circlGrp C) rnds = .done r → r = .formed true) ∧
    ((∀ rnd ∈ rnds, ∃ s ∈ rnd.tape, SafeMask bits s.k) → runGroup sha nan64 (circlGrp C) rnds = .done (.formed true)) := by
  have ok := stdCircl_ord hC.circl
  have := ok.fact'
  let := ok.module
  obtain ⟨Bb, hr, _⟩ := hC.table
  exact C54_driver sha hsha nan64 (circlGrp C) C.n bits Bb hr ok.lawful
    (fun s hs => ⟨_, rfl, (wLegal_iff _ _).mpr (hash s hs)⟩) rnds hs hd

/-- The hypotheses on digests and masks hold: the constant digest 0…01, and a mask in the middle of the range. -/
example : (∀ m : Bytes, ((fun _ => List.replicate 31 0 ++ [1] : Bytes → Bytes) m).length = 32) ∧
    DigestsOK (fun _ => List.replicate 31 0 ++ [1]) p256N ∧ SafeMask 256 (2 ^ 254) ∧
    CastDrawn 256 ⟨5, 9, ⟨1, 2, List.replicate 16 3, List.replicate 16 4, 5, 6, 7⟩,
      ⟨1, 2, List.replicate 16 3, List.replicate 16 4, 5, 6, 7⟩, [⟨7, 1, 2, 3⟩, ⟨2 ^ 254, 1, 2, 3⟩]⟩ := by
  refine ⟨fun _ => rfl, fun _ => by
    show Int.gcd (setBytes (List.replicate 31 0 ++ [1]) : ℕ) p256N = 1
    decide +kernel, ⟨by norm_num, by norm_num⟩, ⟨by decide, by decide, ?_⟩⟩
  intro s hs
  simp only [List.mem_cons, List.not_mem_nil, or_false] at hs
  rcases hs with rfl | rfl <;> norm_num

end MscPoc
