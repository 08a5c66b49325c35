import Verif.Props.Hiding
import Verif.Props.WeakFS
import Verif.Props.HashToCurve

/-!
# C74 — a ballot reveals nothing about the vote but its ciphertext

The ballot carries a ciphertext, two range proofs and a vote proof.  A simulator that is given the ciphertext and the challenge, but
neither the choice nor the encryption randomness, makes range proofs for 0 and a vote proof from random responses.  Every ballot
comes from as many draws of the simulator as draws of the voter.
-/

set_option autoImplicit false

namespace MscPoc

section
variable {E₁ E₂ : Type} {q₁ q₂ : ℕ} {M₁ M₂ : Type} [AddCommGroup M₁] [Module (ZMod q₁) M₁] [AddCommGroup M₂]
  [Module (ZMod q₂) M₂]

/-- the voter's draws: two range proofs and the released attempt of the vote proof -/
structure VoterDraw where
  bp1 : BPRand
  bp2 : BPRand
  s : SigmaSample

/-- the simulator's draws: two range proofs and the responses of the vote proof -/
structure SimDraw where
  bp1 : BPRand
  bp2 : BPRand
  z : Int
  sp : Int
  s1 : Int
  s2 : Int

/-- The simulator: range proofs for 0, and the first move that fits the responses.  It is not given the choice. -/
def simBallot (sha : Bytes → Bytes) (D : Election E₁ E₂) (ct : Ciphertext E₁) (c : Int) (t : SimDraw) :
    Option (BallotData E₁ E₂) :=
  match bpProve sha D.bp t.bp1 0, bpProve sha D.bp t.bp2 0 with
  | some (.ok (pf₁, _)), some (.ok (pf₂, _)) =>
    some
      { Ballot := ct, BpLower := pf₁, BpUpper := pf₂,
        VoteProof := simulate D.rp
          { Y := ct.U, Xp := ct.V, Xq1 := D.EC.add (D.EC.mulGen (D.lo.toNat : Int)) pf₁.V,
            Xq2 := D.EC.add (D.EC.mulGen (D.hi.toNat : Int)) (D.EC.mul pf₂.V (-1)) } c t.z t.sp t.s1 t.s2 }
  | _, _ => none

/-- the voter's draws that end in the ballot `b`, for the choice and encryption randomness given -/
def voterRuns (sha : Bytes → Bytes) (D : Election E₁ E₂) (choice : UInt16) (rEnc : Int) (b : BallotData E₁ E₂) : Set VoterDraw :=
  {t | t.bp1.Drawn D.n D.EC.N ∧ t.bp2.Drawn D.n D.EC.N ∧ (0 ≤ t.s.k ∧ t.s.k < D.rp.zUpperBound) ∧
    (0 ≤ t.s.tp ∧ t.s.tp < D.FF.N) ∧ (0 ≤ t.s.tq1 ∧ t.s.tq1 < D.EC.N) ∧ (0 ≤ t.s.tq2 ∧ t.s.tq2 < D.EC.N) ∧
    castChoice sha D.pp choice ⟨0, rEnc, t.bp1, t.bp2, [t.s]⟩ = .done b}

/-- the simulator's draws that end in the ballot `b` -/
def simRuns (sha : Bytes → Bytes) (D : Election E₁ E₂) (c : Int) (b : BallotData E₁ E₂) : Set SimDraw :=
  {t | t.bp1.Drawn D.n D.EC.N ∧ t.bp2.Drawn D.n D.EC.N ∧ (D.rp.zLowerBound ≤ t.z ∧ t.z < D.rp.zUpperBound) ∧
    (0 ≤ t.sp ∧ t.sp < D.FF.N) ∧ (0 ≤ t.s1 ∧ t.s1 < D.EC.N) ∧ (0 ≤ t.s2 ∧ t.s2 < D.EC.N) ∧
    simBallot sha D b.Ballot c t = some b}

/-- the samples of an attempt that releases `pf`, for any hash: exactly one if `pf` is accepted and reduced, else none -/
theorem sigma_draws (sha : Bytes → Bytes) (pp : ProofParams E₁ E₂) (L₁ : Lawful pp.GFF.I q₁ M₁) (L₂ : Lawful pp.GEC.I q₂ M₂)
    (inj₁ : ∀ {a b}, L₁.V a → L₁.V b → L₁.den a = L₁.den b → a = b)
    (inj₂ : ∀ {a b}, L₂.V a → L₂.V b → L₂.den a = L₂.den b → a = b)
    (hq₁ : 0 < q₁) (hq₂ : 0 < q₂) (hN₁ : pp.GFF.N = some (q₁ : Int)) (hN₂ : pp.GEC.N = some (q₂ : Int))
    (hH₁ : L₁.V pp.GFF.H) (hH₂ : L₂.V pp.GEC.H) (hU : pp.zUpperBound ≤ q₁) (x rp rq1 rq2 : Int) (pf : SigmaProof E₁ E₂) (c : Int)
    (hch : getFSChallenge sha pp.GFF.I pp.GEC.I pf.W pf.Kp pf.Kq1 pf.Kq2 pp.Bc = some c)
    (h0 : 0 ≤ c * x) (h1 : c * x ≤ pp.zLowerBound) :
    ((pf.verify sha (statementOf pp x rp rq1 rq2) = some true ∧ ReducedTranscript pp L₁ L₂ pf) →
      ∃! s, Sampled pp q₁ q₂ s ∧ sigmaAttempt sha pp x rp rq1 rq2 s = some (some pf)) ∧
    ∀ s, Sampled pp q₁ q₂ s → sigmaAttempt sha pp x rp rq1 rq2 s = some (some pf) →
      pf.verify sha (statementOf pp x rp rq1 rq2) = some true ∧ ReducedTranscript pp L₁ L₂ pf := by
  have fields : ∀ s, sigmaAttempt sha pp x rp rq1 rq2 s = some (some pf) →
      pf.Z = some (s.k + c * x) ∧ pf.Sp = some ((s.tp + c * rp) % q₁) ∧ pf.Sq1 = some ((s.tq1 + c * rq1) % q₂) ∧
      pf.Sq2 = some ((s.tq2 + c * rq2) % q₂) ∧ pf.Params = pp ∧ pf.W = pp.GFF.I.mulGen s.tp ∧
      pf.Kp = vpCommit (s.k % q₁) s.tp pp.GFF ∧ pf.Kq1 = vpCommit (s.k % q₁) s.tq1 pp.GEC ∧
      pf.Kq2 = vpCommit (s.k % q₁) s.tq2 pp.GEC := by
    intro s hs
    cases hc : getFSChallenge sha pp.GFF.I pp.GEC.I (pp.GFF.I.mulGen s.tp) (vpCommit (s.k % q₁) s.tp pp.GFF)
        (vpCommit (s.k % q₁) s.tq1 pp.GEC) (vpCommit (s.k % q₁) s.tq2 pp.GEC) pp.Bc with
    | none => rw [sigmaAttempt_none hN₁ hN₂ hc] at hs; exact absurd hs (by simp)
    | some c' =>
      rw [sigmaAttempt_done hN₁ hN₂ hc] at hs
      split at hs
      swap
      · exact absurd hs (by simp)
      simp only [Option.some.injEq] at hs
      subst hs
      rw [hc] at hch
      injection hch with hch
      subst hch
      exact ⟨rfl, rfl, rfl, rfl, rfl, rfl, rfl, rfl, rfl⟩
  have q1p : (0 : Int) < q₁ := by exact_mod_cast hq₁
  have q2p : (0 : Int) < q₂ := by exact_mod_cast hq₂
  constructor
  · rintro ⟨hv, hP, vW, vKp, vK1, vK2, ⟨sp, hsp, sp0, sp1⟩, ⟨s1, hs1, s10, s11⟩, ⟨s2, hs2, s20, s21⟩⟩
    obtain ⟨Z, c', Sp, Sq1, Sq2, hZ, hc, k1, k2, k3, hz, hc', hk⟩ := (sigma_verify_iff _ _ _).mp hv
    refine existsUnique_of_exists_of_unique ?_ ?_
    swap
    · rintro ⟨k, tp, t1, t2⟩ ⟨k', tp', t1', t2'⟩ ⟨⟨⟨_, _⟩, ⟨b1, b2⟩, ⟨c1, c2⟩, ⟨d1, d2⟩⟩, hs⟩
        ⟨⟨⟨_, _⟩, ⟨b1', b2'⟩, ⟨c1', c2'⟩, ⟨d1', d2'⟩⟩, hs'⟩
      obtain ⟨f1, f2, f3, f4, -⟩ := fields _ hs
      obtain ⟨g1, g2, g3, g4, -⟩ := fields _ hs'
      rw [f1] at g1; rw [f2] at g2; rw [f3] at g3; rw [f4] at g4
      simp only [Option.some.injEq] at g1 g2 g3 g4
      have red : ∀ {q : ℕ} {a b t : Int}, 0 ≤ a → a < q → 0 ≤ b → b < q → (a + t) % (q : Int) = (b + t) % q → a = b := by
        intro q a b t ha ha' hb hb' h
        have := emod_sub_cancel (a := a + t) (b := t) hb hb' h
        rwa [add_sub_cancel_right, Int.emod_eq_of_lt ha ha'] at this
      simp only [SigmaSample.mk.injEq]
      dsimp only at g1 g2 g3 g4 b1 b2 c1 c2 d1 d2 b1' b2' c1' c2' d1' d2'
      exact ⟨by omega, red b1 b2 b1' b2' g2, red c1 c2 c1' c2' g3, red d1 d2 d1' d2' g4⟩
    obtain ⟨W, Kp, Kq1, Kq2, C, Z', Sp', S1', S2', P'⟩ := pf
    simp only at hP vW vKp vK1 vK2 hsp hs1 hs2 hZ hc k1 k2 k3 hz hc' hk hch
    subst hP
    rw [hch] at hc'
    cases hc'
    rw [hsp] at k1; rw [hs1] at k2; rw [hs2] at k3
    cases k1; cases k2; cases k3
    subst hZ hc hsp hs1 hs2
    have leg : SigmaLegal P' L₁ L₂ ⟨W, Kp, Kq1, Kq2, some c, some Z, some sp, some s1, some s2, P'⟩
        (statementOf P' x rp rq1 rq2) :=
      ⟨hH₁, hH₂, vW, vKp, vK1, vK2, L₁.V_mulGen _, V_vpCommit L₁ hH₁ _ _, V_vpCommit L₂ hH₂ _ _, V_vpCommit L₂ hH₂ _ _⟩
    have e := (sigmaChecks_iff P' L₁ L₂ _ _ leg _ _ _ _ _).mp hk
    have hz' := (zOk_iff _ _).mp hz
    obtain ⟨eY, eXp, eX1, eX2⟩ := e
    simp only [statementOf, den_vpCommit L₁ hH₁, den_vpCommit L₂ hH₂, L₁.den_mulGen] at eY eXp eX1 eX2
    have hkm : (Z - c * x) % (q₁ : Int) = Z - c * x := Int.emod_eq_of_lt (by omega) (by omega)
    have e1 : P'.GFF.I.mulGen ((sp - c * rp) % q₁) = W := inj₁ (L₁.V_mulGen _) vW (by
      rw [L₁.den_mulGen, cast_emod]; push_cast
      linear_combination (norm := module) eY)
    have e2 : vpCommit (Z - c * x) ((sp - c * rp) % q₁) P'.GFF = Kp := inj₁ (V_vpCommit L₁ hH₁ _ _) vKp (by
      rw [den_vpCommit L₁ hH₁, cast_emod]; push_cast
      linear_combination (norm := module) eXp)
    have e3 : vpCommit (Z - c * x) ((s1 - c * rq1) % q₂) P'.GEC = Kq1 := inj₂ (V_vpCommit L₂ hH₂ _ _) vK1 (by
      rw [den_vpCommit L₂ hH₂, cast_emod]; push_cast
      linear_combination (norm := module) eX1)
    have e4 : vpCommit (Z - c * x) ((s2 - c * rq2) % q₂) P'.GEC = Kq2 := inj₂ (V_vpCommit L₂ hH₂ _ _) vK2 (by
      rw [den_vpCommit L₂ hH₂, cast_emod]; push_cast
      linear_combination (norm := module) eX2)
    refine ⟨⟨Z - c * x, (sp - c * rp) % q₁, (s1 - c * rq1) % q₂, (s2 - c * rq2) % q₂⟩, ?_, ?_⟩
    · exact ⟨⟨by simp only; omega, by simp only; omega⟩, ⟨Int.emod_nonneg _ q1p.ne', Int.emod_lt_of_pos _ q1p⟩,
        ⟨Int.emod_nonneg _ q2p.ne', Int.emod_lt_of_pos _ q2p⟩, ⟨Int.emod_nonneg _ q2p.ne', Int.emod_lt_of_pos _ q2p⟩⟩
    · rw [sigmaAttempt_done hN₁ hN₂ (c := c)]
      · dsimp only
        rw [sub_add_cancel, if_pos hz, hkm, e1, e2, e3, e4]
        have red : ∀ {q : ℕ} {a b : Int}, 0 ≤ a → a < q → ((a - b) % (q : Int) + b) % q = a := by
          intro q a b ha hb
          rw [Int.emod_add_emod, sub_add_cancel, Int.emod_eq_of_lt ha hb]
        rw [red sp0 sp1, red s10 s11, red s20 s21]
      · dsimp only
        rw [hkm, e1, e2, e3, e4]
        exact hch
  · rintro s ⟨⟨hk0, hk1⟩, -⟩ hs
    refine ⟨?_, ?_⟩
    · refine C29_sigma_complete sha pp L₁ L₂ hN₁ hN₂ hH₁ hH₂ hU x rp rq1 rq2 [s] ?_ pf ?_
      · intro t ht
        rw [List.mem_singleton] at ht
        subst ht
        exact ⟨hk0, hk1⟩
      · exact (sigmaProve_done_iff [s] pf).mpr ⟨[], s, [], rfl, by simp, hs⟩
    · obtain ⟨_, f2, f3, f4, f5, f6, f7, f8, f9⟩ := fields s hs
      exact ⟨f5, f6 ▸ L₁.V_mulGen _, f7 ▸ V_vpCommit L₁ hH₁ _ _, f8 ▸ V_vpCommit L₂ hH₂ _ _, f9 ▸ V_vpCommit L₂ hH₂ _ _,
        ⟨_, f2, Int.emod_nonneg _ q1p.ne', Int.emod_lt_of_pos _ q1p⟩,
        ⟨_, f3, Int.emod_nonneg _ q2p.ne', Int.emod_lt_of_pos _ q2p⟩,
        ⟨_, f4, Int.emod_nonneg _ q2p.ne', Int.emod_lt_of_pos _ q2p⟩⟩

/-- the responses from which the simulator makes `pf`: exactly one choice if `pf` is accepted and reduced, else none -/
theorem sim_draws (sha : Bytes → Bytes) (pp : ProofParams E₁ E₂) (L₁ : Lawful pp.GFF.I q₁ M₁) (L₂ : Lawful pp.GEC.I q₂ M₂)
    (inj₁ : ∀ {a b}, L₁.V a → L₁.V b → L₁.den a = L₁.den b → a = b)
    (inj₂ : ∀ {a b}, L₂.V a → L₂.V b → L₂.den a = L₂.den b → a = b)
    (hH₁ : L₁.V pp.GFF.H) (hH₂ : L₂.V pp.GEC.H) (comm : VerCommitments E₁ E₂) (hY : L₁.V comm.Y) (hXp : L₁.V comm.Xp)
    (hX1 : L₂.V comm.Xq1) (hX2 : L₂.V comm.Xq2) (pf : SigmaProof E₁ E₂) (c : Int)
    (hch : getFSChallenge sha pp.GFF.I pp.GEC.I pf.W pf.Kp pf.Kq1 pf.Kq2 pp.Bc = some c) :
    (pf.verify sha comm = some true ∧ ReducedTranscript pp L₁ L₂ pf) ↔
      ∃ z sp s1 s2 : Int, (pp.zLowerBound ≤ z ∧ z < pp.zUpperBound) ∧ (0 ≤ sp ∧ sp < q₁) ∧ (0 ≤ s1 ∧ s1 < q₂) ∧
        (0 ≤ s2 ∧ s2 < q₂) ∧ simulate pp comm c z sp s1 s2 = pf := by
  constructor
  · rintro ⟨hv, hP, vW, vKp, vK1, vK2, ⟨sp, hsp, sp0, sp1⟩, ⟨s1, hs1, s10, s11⟩, ⟨s2, hs2, s20, s21⟩⟩
    obtain ⟨Z, c', Sp, Sq1, Sq2, hZ, hc, k1, k2, k3, hz, hc', hk⟩ := (sigma_verify_iff _ _ _).mp hv
    obtain ⟨W, Kp, Kq1, Kq2, C, Z', Sp', S1', S2', P'⟩ := pf
    simp only at hP vW vKp vK1 vK2 hsp hs1 hs2 hZ hc k1 k2 k3 hz hc' hk hch
    subst hP
    rw [hch] at hc'
    cases hc'
    rw [hsp] at k1; rw [hs1] at k2; rw [hs2] at k3
    cases k1; cases k2; cases k3
    subst hZ hc hsp hs1 hs2
    obtain ⟨eY, eXp, eX1, eX2⟩ := (sigmaChecks_iff P' L₁ L₂ _ comm
      ⟨hH₁, hH₂, vW, vKp, vK1, vK2, hY, hXp, hX1, hX2⟩ _ _ _ _ _).mp hk
    refine ⟨Z, sp, s1, s2, (zOk_iff _ _).mp hz, ⟨sp0, sp1⟩, ⟨s10, s11⟩, ⟨s20, s21⟩, ?_⟩
    unfold simulate
    simp only [SigmaProof.mk.injEq, and_true]
    refine ⟨inj₁ (L₁.V_sub (L₁.V_mulGen _) (L₁.V_mul _ hY)) vW ?_,
      inj₁ (L₁.V_sub (V_vpCommit L₁ hH₁ _ _) (L₁.V_mul _ hXp)) vKp ?_,
      inj₂ (L₂.V_sub (V_vpCommit L₂ hH₂ _ _) (L₂.V_mul _ hX1)) vK1 ?_,
      inj₂ (L₂.V_sub (V_vpCommit L₂ hH₂ _ _) (L₂.V_mul _ hX2)) vK2 ?_⟩
    · rw [L₁.den_sub (L₁.V_mulGen _) (L₁.V_mul _ hY), L₁.den_mul _ hY, L₁.den_mulGen, eY]; abel
    · rw [L₁.den_sub (V_vpCommit L₁ hH₁ _ _) (L₁.V_mul _ hXp), L₁.den_mul _ hXp, den_vpCommit L₁ hH₁, eXp]; abel
    · rw [L₂.den_sub (V_vpCommit L₂ hH₂ _ _) (L₂.V_mul _ hX1), L₂.den_mul _ hX1, den_vpCommit L₂ hH₂, eX1]; abel
    · rw [L₂.den_sub (V_vpCommit L₂ hH₂ _ _) (L₂.V_mul _ hX2), L₂.den_mul _ hX2, den_vpCommit L₂ hH₂, eX2]; abel
  · rintro ⟨z, sp, s1, s2, hz, b1, b2, b3, rfl⟩
    have v1 : L₁.V (simulate pp comm c z sp s1 s2).W := L₁.V_sub (L₁.V_mulGen _) (L₁.V_mul _ hY)
    have v2 : L₁.V (simulate pp comm c z sp s1 s2).Kp := L₁.V_sub (V_vpCommit L₁ hH₁ _ _) (L₁.V_mul _ hXp)
    have v3 : L₂.V (simulate pp comm c z sp s1 s2).Kq1 := L₂.V_sub (V_vpCommit L₂ hH₂ _ _) (L₂.V_mul _ hX1)
    have v4 : L₂.V (simulate pp comm c z sp s1 s2).Kq2 := L₂.V_sub (V_vpCommit L₂ hH₂ _ _) (L₂.V_mul _ hX2)
    refine ⟨?_, rfl, v1, v2, v3, v4, ⟨sp, rfl, b1⟩, ⟨s1, rfl, b2⟩, ⟨s2, rfl, b3⟩⟩
    refine (sigma_verify_iff _ _ _).mpr ⟨z, c, sp, s1, s2, rfl, rfl, rfl, rfl, rfl, (zOk_iff _ _).mpr hz, hch, ?_⟩
    refine (sigmaChecks_iff pp L₁ L₂ _ comm ⟨hH₁, hH₂, v1, v2, v3, v4, hY, hXp, hX1, hX2⟩ z c sp s1 s2).mpr ?_
    constructor
    · simp only [simulate]
      rw [L₁.den_sub (L₁.V_mulGen _) (L₁.V_mul _ hY), L₁.den_mul _ hY, L₁.den_mulGen]; abel
    · simp only [simulate]
      rw [L₁.den_sub (V_vpCommit L₁ hH₁ _ _) (L₁.V_mul _ hXp), L₁.den_mul _ hXp, den_vpCommit L₁ hH₁]; abel
    · simp only [simulate]
      rw [L₂.den_sub (V_vpCommit L₂ hH₂ _ _) (L₂.V_mul _ hX1), L₂.den_mul _ hX1, den_vpCommit L₂ hH₂]; abel
    · simp only [simulate]
      rw [L₂.den_sub (V_vpCommit L₂ hH₂ _ _) (L₂.V_mul _ hX2), L₂.den_mul _ hX2, den_vpCommit L₂ hH₂]; abel

/-- a set whose projection to `R` has exactly one point in each fibre has as many elements as `R` -/
theorem ncard_fibres {α β : Type} (S : Set α) (R : Set β) (f : α → β) (hf : ∀ a ∈ S, f a ∈ R)
    (h : ∀ r ∈ R, ∃! a, a ∈ S ∧ f a = r) (hR : R.Finite) : S.Finite ∧ S.ncard = R.ncard := by
  have hi : ∀ a b, a ∈ S → b ∈ S → f a = f b → a = b := fun a b ha hb e => (h (f b) (hf b hb)).unique ⟨ha, e⟩ ⟨hb, rfl⟩
  refine ⟨Set.Finite.of_injOn (f := f) hf (fun a ha b hb e => hi a b ha hb e) hR, Set.ncard_congr (fun a _ => f a) hf ?_ ?_⟩
  · intro a b ha hb e
    exact hi a b ha hb e
  · intro r hr
    obtain ⟨a, ⟨ha, e⟩, _⟩ := h r hr
    exact ⟨a, ha, e⟩

theorem castChoice_single {sha : Bytes → Bytes} {D : Election E₁ E₂} {choice : UInt16} {rEnc : Int} {bp1 bp2 : BPRand}
    {s : SigmaSample} {b : BallotData E₁ E₂} {rp : Int} (hct : encryptVote D.FF D.PK choice rEnc = some (b.Ballot, rp)) :
    castChoice sha D.pp choice ⟨0, rEnc, bp1, bp2, [s]⟩ = .done b ↔
      bpProve sha D.bp bp1 ((choice - D.lo).toNat : Int) = some (.ok (b.BpLower, bp1.gamma)) ∧
      bpProve sha D.bp bp2 ((D.hi - choice).toNat : Int) = some (.ok (b.BpUpper, bp2.gamma)) ∧
      sigmaAttempt sha D.rp (choice.toNat : Int) rp bp1.gamma (D.EC.N - bp2.gamma) s = some (some b.VoteProof) := by
  have single : ∀ (g1 g2 : Int) (pf : SigmaProof E₁ E₂), sigmaProve sha D.rp (choice.toNat : Int) rp g1 g2 [s] = .done pf ↔
      sigmaAttempt sha D.rp (choice.toNat : Int) rp g1 g2 s = some (some pf) := by
    intro g1 g2 pf
    rw [sigmaProve_done_iff]
    constructor
    · rintro ⟨pre, t, post, e, _, h⟩
      have : pre = [] ∧ t = s := by
        cases pre with
        | nil => simp only [List.nil_append, List.cons.injEq] at e; exact ⟨rfl, e.1.symm⟩
        | cons a l => simp at e
      rwa [this.2] at h
    · intro h
      exact ⟨[], s, [], rfl, by simp, h⟩
  have hct' : encryptVote D.pp.FFGroupParams.I D.pp.EGPK choice rEnc = some (b.Ballot, rp) := hct
  have hN : D.pp.ECGroupParams.N = some D.EC.N := rfl
  unfold castChoice
  dsimp only
  rw [hct', hN]
  dsimp only
  constructor
  · intro h
    split at h
    · cases h
    · cases h
    rename_i p1 g1 e1
    split at h
    · cases h
    · cases h
    rename_i p2 g2 e2
    split at h
    · cases h
    · cases h
    rename_i pf e3
    injection h with h
    obtain ⟨hg1, _⟩ := (bpProve_iff _ _ _ _ _ _).mp e1
    obtain ⟨hg2, _⟩ := (bpProve_iff _ _ _ _ _ _).mp e2
    subst hg1 hg2
    rw [← h]
    exact ⟨e1, e2, (single _ _ _).mp e3⟩
  · rintro ⟨e1, e2, e3⟩
    have e1' : bpProve sha D.pp.BPParams bp1 ((choice - D.pp.candidateMin).toNat : Int) = some (.ok (b.BpLower, bp1.gamma)) := e1
    have e2' : bpProve sha D.pp.BPParams bp2 ((D.pp.candidateMax - choice).toNat : Int) = some (.ok (b.BpUpper, bp2.gamma)) := e2
    have e3' : sigmaProve sha D.pp.RPParams (choice.toNat : Int) rp bp1.gamma (D.EC.N - bp2.gamma) [s] = .done b.VoteProof :=
      (single _ _ _).mpr e3
    rw [e1']
    dsimp only
    rw [e2']
    dsimp only
    rw [e3']

/-- the statement the server checks the vote proof against, for range proofs that `Prove` returned -/
theorem comm_statement (D : Election E₁ E₂) (L₁ : Lawful D.FF q₁ M₁) (L₂ : Lawful D.EC q₂ M₂) (k : ℕ) (ok : D.OK L₁ L₂ k)
    (inj₁ : ∀ {a b}, L₁.V a → L₁.V b → L₁.den a = L₁.den b → a = b)
    (inj₂ : ∀ {a b}, L₂.V a → L₂.V b → L₂.den a = L₂.den b → a = b)
    (choice : UInt16) (rEnc : Int) (b : BallotData E₁ E₂) (rp : Int)
    (hct : encryptVote D.FF D.PK choice rEnc = some (b.Ballot, rp)) (g1 g2 : Int)
    (v1 : L₂.V b.BpLower.V) (v2 : L₂.V b.BpUpper.V)
    (d1 : L₂.den b.BpLower.V = ((choice.toNat - D.lo.toNat : Int) : ZMod q₂) • L₂.g + (g1 : ZMod q₂) • L₂.den D.H)
    (d2 : L₂.den b.BpUpper.V = ((D.hi.toNat - choice.toNat : Int) : ZMod q₂) • L₂.g + (g2 : ZMod q₂) • L₂.den D.H) :
    voteCommitments b D.rp = statementOf D.rp (choice.toNat : Int) rp g1 (D.EC.N - g2) := by
  obtain ⟨x1, y1⟩ := D.Xq1_den L₂ b v1
  obtain ⟨x2, y2⟩ := D.Xq2_den L₂ b v2
  have vH : L₂.V D.H := ok.bp.H
  have hN : D.EC.N = (q₂ : Int) := L₂.N_eq
  have e3 : (voteCommitments b D.rp).Xq1 = vpCommit (choice.toNat : Int) g1 D.gec := by
    refine inj₂ x1 (V_vpCommit (gp := D.gec) L₂ vH _ _) ?_
    rw [y1, d1]
    refine Eq.trans ?_ (den_vpCommit (gp := D.gec) L₂ vH _ _).symm
    change _ = (((choice.toNat : Int)) : ZMod q₂) • L₂.g + (g1 : ZMod q₂) • L₂.den D.H
    push_cast; module
  have e4 : (voteCommitments b D.rp).Xq2 = vpCommit (choice.toNat : Int) (D.EC.N - g2) D.gec := by
    refine inj₂ x2 (V_vpCommit (gp := D.gec) L₂ vH _ _) ?_
    rw [y2, d2]
    refine Eq.trans ?_ (den_vpCommit (gp := D.gec) L₂ vH _ _).symm
    change _ = (((choice.toNat : Int)) : ZMod q₂) • L₂.g + ((D.EC.N - g2 : Int) : ZMod q₂) • L₂.den D.H
    rw [hN]
    push_cast
    rw [ZMod.natCast_self]
    module
  unfold encryptVote at hct
  split at hct
  · cases hct
  simp only [Option.some.injEq, Prod.mk.injEq] at hct
  obtain ⟨hb, hr⟩ := hct
  have e1 : (voteCommitments b D.rp).Y = D.FF.mulGen rp := by
    change b.Ballot.U = _
    rw [← hb, ← hr]
  have e2 : (voteCommitments b D.rp).Xp = vpCommit (choice.toNat : Int) rp D.gff := by
    change b.Ballot.V = _
    rw [← hb, ← hr]
    refine inj₁ (L₁.V_add (L₁.V_mulGen _) (L₁.V_mul _ ok.pk)) (V_vpCommit (gp := D.gff) L₁ ok.pk _ _) ?_
    rw [L₁.den_add (L₁.V_mulGen _) (L₁.V_mul _ ok.pk), L₁.den_mulGen, L₁.den_mul _ ok.pk]
    exact (den_vpCommit (gp := D.gff) L₁ ok.pk _ _).symm
  generalize voteCommitments b D.rp = w at e1 e2 e3 e4 ⊢
  obtain ⟨Y, Xp, X1, X2⟩ := w
  dsimp only at e1 e2 e3 e4
  rw [e1, e2, e3, e4]
  rfl

/-- **C74** For every choice of the range and every ballot with the ciphertext of that choice: as many draws of the voter as draws of
the simulator end in this ballot.  Needs: the curve order prime, one representation per element, `H` a generator of the curve, and the last
challenges of the two range proofs not zero modulo the order. -/
theorem C74_simulated [Fact q₂.Prime] (sha : Bytes → Bytes) (hsha : ∀ m, (sha m).length = 32) (D : Election E₁ E₂)
    (L₁ : Lawful D.FF q₁ M₁) (L₂ : Lawful D.EC q₂ M₂) (k : ℕ) (ok : D.OK L₁ L₂ k) (hq₁ : 0 < q₁)
    (inj₁ : ∀ {a b}, L₁.V a → L₁.V b → L₁.den a = L₁.den b → a = b)
    (inj₂ : ∀ {a b}, L₂.V a → L₂.V b → L₂.den a = L₂.den b → a = b)
    (hgen : ∀ m : M₂, ∃ c : ZMod q₂, c • L₂.den D.H = m)
    (hz : 2 ^ D.Bc.toNat * (D.hi.toNat : Int) ≤ D.rp.zLowerBound) (hw : D.hi.toNat - D.lo.toNat < 2 ^ 2 ^ k)
    (choice : UInt16) (hlo : D.lo ≤ choice) (hhi : choice ≤ D.hi) (rEnc : Int) (b : BallotData E₁ E₂) (rp : Int)
    (hct : encryptVote D.FF D.PK choice rEnc = some (b.Ballot, rp)) (c : Int)
    (hc : getFSChallenge sha D.FF D.EC b.VoteProof.W b.VoteProof.Kp b.VoteProof.Kq1 b.VoteProof.Kq2 D.Bc = some c)
    (hx1 : ¬ D.EC.N ∣ roundChallenge sha D.EC b.BpLower.T1 b.BpLower.T2)
    (hx2 : ¬ D.EC.N ∣ roundChallenge sha D.EC b.BpUpper.T1 b.BpUpper.T2) :
    (voterRuns sha D choice rEnc b).Finite ∧ (simRuns sha D c b).Finite ∧
    (voterRuns sha D choice rEnc b).ncard = (simRuns sha D c b).ncard := by
  have hq₂ : 0 < q₂ := (Fact.out : q₂.Prime).pos
  have vH : L₂.V D.H := ok.bp.H
  have hn : D.n = 2 ^ k := ok.bp.N
  have hl : D.lo.toNat ≤ choice.toNat := UInt16.le_iff_toNat_le.mp hlo
  have hh : choice.toNat ≤ D.hi.toNat := UInt16.le_iff_toNat_le.mp hhi
  have s1 : ((choice - D.lo).toNat : Int) = choice.toNat - D.lo.toNat := by
    rw [UInt16.toNat_sub_of_le _ _ hlo]; omega
  have s2 : ((D.hi - choice).toNat : Int) = D.hi.toNat - choice.toNat := by
    rw [UInt16.toNat_sub_of_le _ _ hhi]; omega
  have r1 : (0 : Int) ≤ choice.toNat - D.lo.toNat ∧ (choice.toNat - D.lo.toNat : Int) < 2 ^ D.bp.N := by
    refine ⟨by omega, ?_⟩
    change _ < (2 : Int) ^ D.n
    rw [hn]; zify at hw; omega
  have r2 : (0 : Int) ≤ D.hi.toNat - choice.toNat ∧ (D.hi.toNat - choice.toNat : Int) < 2 ^ D.bp.N := by
    refine ⟨by omega, ?_⟩
    change _ < (2 : Int) ^ D.n
    rw [hn]; zify at hw; omega
  have r0 : (0 : Int) ≤ 0 ∧ (0 : Int) < 2 ^ D.bp.N := ⟨le_refl _, by positivity⟩
  obtain ⟨F1, N1⟩ := C53_hiding D.bp L₂ k ok.bp inj₂ hgen sha b.BpLower hx1 _ 0 r1 r0
  obtain ⟨F2, N2⟩ := C53_hiding D.bp L₂ k ok.bp inj₂ hgen sha b.BpUpper hx2 _ 0 r2 r0
  obtain ⟨G1, -⟩ := C53_hiding D.bp L₂ k ok.bp inj₂ hgen sha b.BpLower hx1 0 0 r0 r0
  obtain ⟨G2, -⟩ := C53_hiding D.bp L₂ k ok.bp inj₂ hgen sha b.BpUpper hx2 0 0 r0 r0
  obtain ⟨-, c0, -, c1⟩ := (C28_challenge sha hsha D.FF D.EC b.VoteProof.W b.VoteProof.Kp b.VoteProof.Kq1 b.VoteProof.Kq2
    D.Bc).2 c hc
  have hcx : 0 ≤ c * (choice.toNat : Int) ∧ c * (choice.toNat : Int) ≤ D.rp.zLowerBound := by
    refine ⟨by positivity, le_trans (mul_le_mul c1.le (by exact_mod_cast hh) (by positivity) (by positivity)) hz⟩
  -- the commitments of the range proofs, for any run
  have com : ∀ (v : Int) (pf : BulletProof E₂) (r : BPRand), r ∈ runsTo sha D.bp v pf → L₂.V pf.V ∧
      L₂.den pf.V = (v : ZMod q₂) • L₂.g + (r.gamma : ZMod q₂) • L₂.den D.H := by
    intro v pf r hr
    obtain ⟨_, hV, _⟩ := bpProve_exact D.bp L₂ k ok.bp sha r (hr.1.lenL.trans hn) (hr.1.lenR.trans hn) _ _ _ hr.2
    rw [hV]
    exact ⟨L₂.V_pedersen vH _ _, L₂.den_pedersen vH _ _⟩
  have hN₁ : D.rp.GFF.N = some (q₁ : Int) := congrArg some L₁.N_eq
  have hN₂ : D.rp.GEC.N = some (q₂ : Int) := congrArg some L₂.N_eq
  have n1 : D.FF.N = (q₁ : Int) := L₁.N_eq
  have n2 : D.EC.N = (q₂ : Int) := L₂.N_eq
  have vU : L₁.V b.Ballot.U ∧ L₁.V b.Ballot.V := by
    unfold encryptVote at hct
    split at hct
    · cases hct
    simp only [Option.some.injEq, Prod.mk.injEq] at hct
    rw [← hct.1]
    exact ⟨L₁.V_mulGen _, L₁.V_add (L₁.V_mulGen _) (L₁.V_mul _ ok.pk)⟩
  -- the voter's draws
  have memV : ∀ t : VoterDraw, t ∈ voterRuns sha D choice rEnc b ↔
      t.bp1 ∈ runsTo sha D.bp (choice.toNat - D.lo.toNat) b.BpLower ∧ t.bp2 ∈ runsTo sha D.bp (D.hi.toNat - choice.toNat) b.BpUpper ∧
      Sampled D.rp q₁ q₂ t.s ∧ sigmaAttempt sha D.rp (choice.toNat : Int) rp t.bp1.gamma (D.EC.N - t.bp2.gamma) t.s =
        some (some b.VoteProof) := by
    intro t
    unfold voterRuns runsTo Sampled
    rw [Set.mem_ofPred_eq, castChoice_single hct, s1, s2, n1]
    simp only [n2, Set.mem_ofPred_eq]
    change _ ↔ (t.bp1.Drawn D.n D.EC.N ∧ _) ∧ (t.bp2.Drawn D.n D.EC.N ∧ _) ∧ _
    rw [n2]
    tauto
  have memS : ∀ t : SimDraw, t ∈ simRuns sha D c b ↔
      t.bp1 ∈ runsTo sha D.bp 0 b.BpLower ∧ t.bp2 ∈ runsTo sha D.bp 0 b.BpUpper ∧
      (D.rp.zLowerBound ≤ t.z ∧ t.z < D.rp.zUpperBound) ∧ (0 ≤ t.sp ∧ t.sp < q₁) ∧ (0 ≤ t.s1 ∧ t.s1 < q₂) ∧
      (0 ≤ t.s2 ∧ t.s2 < q₂) ∧ simulate D.rp (voteCommitments b D.rp) c t.z t.sp t.s1 t.s2 = b.VoteProof := by
    intro t
    have key : simBallot sha D b.Ballot c t = some b ↔
        bpProve sha D.bp t.bp1 0 = some (.ok (b.BpLower, t.bp1.gamma)) ∧
        bpProve sha D.bp t.bp2 0 = some (.ok (b.BpUpper, t.bp2.gamma)) ∧
        simulate D.rp (voteCommitments b D.rp) c t.z t.sp t.s1 t.s2 = b.VoteProof := by
      unfold simBallot
      constructor
      · intro h
        split at h
        swap
        · cases h
        rename_i p1 g1 p2 g2 e1 e2
        injection h with h
        obtain ⟨hg1, _⟩ := (bpProve_iff _ _ _ _ _ _).mp e1
        obtain ⟨hg2, _⟩ := (bpProve_iff _ _ _ _ _ _).mp e2
        subst hg1 hg2
        have w1 : p1 = b.BpLower := congrArg BallotData.BpLower h
        have w2 : p2 = b.BpUpper := congrArg BallotData.BpUpper h
        have w3 := congrArg BallotData.VoteProof h
        subst w1 w2
        exact ⟨e1, e2, w3⟩
      · rintro ⟨e1, e2, e3⟩
        rw [e1, e2]
        dsimp only
        change some (BallotData.mk b.Ballot b.BpLower b.BpUpper (simulate D.rp (voteCommitments b D.rp) c t.z t.sp t.s1 t.s2)) = some b
        rw [e3]
    unfold simRuns runsTo
    rw [Set.mem_ofPred_eq, key, n1]
    simp only [n2, Set.mem_ofPred_eq]
    change _ ↔ (t.bp1.Drawn D.n D.EC.N ∧ _) ∧ (t.bp2.Drawn D.n D.EC.N ∧ _) ∧ _
    rw [n2]
    tauto
  -- the fibres
  have fibV : ∀ a1 ∈ runsTo sha D.bp (choice.toNat - D.lo.toNat) b.BpLower,
      ∀ a2 ∈ runsTo sha D.bp (D.hi.toNat - choice.toNat) b.BpUpper,
      ((b.VoteProof.verify sha (voteCommitments b D.rp) = some true ∧ ReducedTranscript D.rp L₁ L₂ b.VoteProof) →
        ∃! s, Sampled D.rp q₁ q₂ s ∧ sigmaAttempt sha D.rp (choice.toNat : Int) rp a1.gamma (D.EC.N - a2.gamma) s =
          some (some b.VoteProof)) ∧
      ∀ s, Sampled D.rp q₁ q₂ s → sigmaAttempt sha D.rp (choice.toNat : Int) rp a1.gamma (D.EC.N - a2.gamma) s =
          some (some b.VoteProof) →
        b.VoteProof.verify sha (voteCommitments b D.rp) = some true ∧ ReducedTranscript D.rp L₁ L₂ b.VoteProof := by
    intro a1 h1 a2 h2
    obtain ⟨v1, d1⟩ := com _ _ _ h1
    obtain ⟨v2, d2⟩ := com _ _ _ h2
    rw [comm_statement D L₁ L₂ k ok inj₁ inj₂ choice rEnc b rp hct a1.gamma a2.gamma v1 v2 d1 d2]
    exact sigma_draws sha D.rp L₁ L₂ inj₁ inj₂ hq₁ hq₂ hN₁ hN₂ ok.pk vH ok.mask _ _ _ _ _ c hc hcx.1 hcx.2
  have fibS : ∀ a1 ∈ runsTo sha D.bp 0 b.BpLower, ∀ a2 ∈ runsTo sha D.bp 0 b.BpUpper,
      ((b.VoteProof.verify sha (voteCommitments b D.rp) = some true ∧ ReducedTranscript D.rp L₁ L₂ b.VoteProof) ↔
        ∃ z sp s1 s2 : Int, (D.rp.zLowerBound ≤ z ∧ z < D.rp.zUpperBound) ∧ (0 ≤ sp ∧ sp < q₁) ∧ (0 ≤ s1 ∧ s1 < q₂) ∧
          (0 ≤ s2 ∧ s2 < q₂) ∧ simulate D.rp (voteCommitments b D.rp) c z sp s1 s2 = b.VoteProof) := by
    intro a1 h1 a2 h2
    obtain ⟨x1, _⟩ := D.Xq1_den L₂ b (com _ _ _ h1).1
    obtain ⟨x2, _⟩ := D.Xq2_den L₂ b (com _ _ _ h2).1
    exact sim_draws sha D.rp L₁ L₂ inj₁ inj₂ ok.pk vH _ vU.1 vU.2 x1 x2 _ c hc
  by_cases hA : b.VoteProof.verify sha (voteCommitments b D.rp) = some true ∧ ReducedTranscript D.rp L₁ L₂ b.VoteProof
  · have cV : (voterRuns sha D choice rEnc b).Finite ∧ (voterRuns sha D choice rEnc b).ncard =
        (runsTo sha D.bp (choice.toNat - D.lo.toNat) b.BpLower ×ˢ runsTo sha D.bp (D.hi.toNat - choice.toNat) b.BpUpper).ncard := by
      refine ncard_fibres _ _ (fun t => (t.bp1, t.bp2)) (fun t ht => ⟨((memV t).mp ht).1, ((memV t).mp ht).2.1⟩) ?_ (F1.prod F2)
      rintro ⟨a1, a2⟩ ⟨h1, h2⟩
      obtain ⟨s, hs, us⟩ := (fibV a1 h1 a2 h2).1 hA
      refine ⟨⟨a1, a2, s⟩, ⟨(memV _).mpr ⟨h1, h2, hs⟩, rfl⟩, ?_⟩
      rintro ⟨t1, t2, t3⟩ ⟨ht, e⟩
      simp only [Prod.mk.injEq] at e
      obtain ⟨rfl, rfl⟩ := e
      rw [us t3 ((memV _).mp ht).2.2]
    have cS : (simRuns sha D c b).Finite ∧ (simRuns sha D c b).ncard = (runsTo sha D.bp 0 b.BpLower ×ˢ runsTo sha D.bp 0 b.BpUpper).ncard := by
      refine ncard_fibres _ _ (fun t => (t.bp1, t.bp2)) (fun t ht => ⟨((memS t).mp ht).1, ((memS t).mp ht).2.1⟩) ?_ (G1.prod G2)
      rintro ⟨a1, a2⟩ ⟨h1, h2⟩
      obtain ⟨z, sp, s1, s2, hs⟩ := (fibS a1 h1 a2 h2).mp hA
      refine ⟨⟨a1, a2, z, sp, s1, s2⟩, ⟨(memS _).mpr ⟨h1, h2, hs⟩, rfl⟩, ?_⟩
      rintro ⟨t1, t2, z', sp', s1', s2'⟩ ⟨ht, e⟩
      simp only [Prod.mk.injEq] at e
      obtain ⟨rfl, rfl⟩ := e
      obtain ⟨_, _, _, _, _, _, e⟩ := (memS _).mp ht
      have e := e.trans hs.2.2.2.2.symm
      simp only [simulate, SigmaProof.mk.injEq, Option.some.injEq] at e
      obtain ⟨-, -, -, -, -, e6, e7, e8, e9, -⟩ := e
      rw [e6, e7, e8, e9]
    refine ⟨cV.1, cS.1, ?_⟩
    rw [cV.2, cS.2, Set.ncard_prod, Set.ncard_prod, N1, N2]
  · have eV : voterRuns sha D choice rEnc b = ∅ := by
      rw [Set.eq_empty_iff_forall_notMem]
      intro t ht
      obtain ⟨h1, h2, h3, h4⟩ := (memV t).mp ht
      exact hA ((fibV _ h1 _ h2).2 _ h3 h4)
    have eS : simRuns sha D c b = ∅ := by
      rw [Set.eq_empty_iff_forall_notMem]
      intro t ht
      obtain ⟨h1, h2, h3⟩ := (memS t).mp ht
      exact hA ((fibS _ h1 _ h2).mpr ⟨_, _, _, _, h3⟩)
    rw [eV, eS]
    simp

/-- **C74** So whatever ballot the voter casts, the simulator makes it too from some draws, and conversely the voter casts whatever the
simulator makes. -/
theorem C74_same_ballots [Fact q₂.Prime] (sha : Bytes → Bytes) (hsha : ∀ m, (sha m).length = 32) (D : Election E₁ E₂)
    (L₁ : Lawful D.FF q₁ M₁) (L₂ : Lawful D.EC q₂ M₂) (k : ℕ) (ok : D.OK L₁ L₂ k) (hq₁ : 0 < q₁)
    (inj₁ : ∀ {a b}, L₁.V a → L₁.V b → L₁.den a = L₁.den b → a = b)
    (inj₂ : ∀ {a b}, L₂.V a → L₂.V b → L₂.den a = L₂.den b → a = b)
    (hgen : ∀ m : M₂, ∃ c : ZMod q₂, c • L₂.den D.H = m)
    (hz : 2 ^ D.Bc.toNat * (D.hi.toNat : Int) ≤ D.rp.zLowerBound) (hw : D.hi.toNat - D.lo.toNat < 2 ^ 2 ^ k)
    (choice : UInt16) (hlo : D.lo ≤ choice) (hhi : choice ≤ D.hi) (rEnc : Int) (b : BallotData E₁ E₂) (rp : Int)
    (hct : encryptVote D.FF D.PK choice rEnc = some (b.Ballot, rp)) (c : Int)
    (hc : getFSChallenge sha D.FF D.EC b.VoteProof.W b.VoteProof.Kp b.VoteProof.Kq1 b.VoteProof.Kq2 D.Bc = some c)
    (hx1 : ¬ D.EC.N ∣ roundChallenge sha D.EC b.BpLower.T1 b.BpLower.T2)
    (hx2 : ¬ D.EC.N ∣ roundChallenge sha D.EC b.BpUpper.T1 b.BpUpper.T2) :
    (voterRuns sha D choice rEnc b).Nonempty ↔ (simRuns sha D c b).Nonempty := by
  obtain ⟨f1, f2, e⟩ := C74_simulated sha hsha D L₁ L₂ k ok hq₁ inj₁ inj₂ hgen hz hw choice hlo hhi rEnc b rp hct c hc hx1 hx2
  rw [← Set.ncard_pos f1, ← Set.ncard_pos f2, e]

end

/-- The hypotheses hold for a ballot that the voter casts: candidates 3 to 9, choice 5. -/
example : (Nat.Prime 8209 ∧ spElection.OK (toyLawful 16381) (toyLawful 8209) 2) ∧
    (∀ {a b : Int}, (toyLawful 8209).V a → (toyLawful 8209).V b → (toyLawful 8209).den a = (toyLawful 8209).den b → a = b) ∧
    (∀ m : ZMod 8209, ∃ c : ZMod 8209, c • (toyLawful 8209).den spElection.H = m) ∧
    2 ^ spElection.Bc.toNat * (spElection.hi.toNat : Int) ≤ spElection.rp.zLowerBound ∧
    (match castChoice exSha3 spElection.pp 5 ⟨0, 76, exRnd, exRnd, [⟨5000, 7, 8, 9⟩]⟩ with
      | .done b =>
        (match encryptVote spElection.FF spElection.PK 5 76 with
          | some (ct, _) => decide (ct.U = b.Ballot.U ∧ ct.V = b.Ballot.V)
          | none => false) &&
        (getFSChallenge exSha3 spElection.FF spElection.EC b.VoteProof.W b.VoteProof.Kp b.VoteProof.Kq1 b.VoteProof.Kq2
          spElection.Bc).isSome &&
        decide (roundChallenge exSha3 spElection.EC b.BpLower.T1 b.BpLower.T2 % 8209 ≠ 0 ∧
          roundChallenge exSha3 spElection.EC b.BpUpper.T1 b.BpUpper.T2 % 8209 ≠ 0)
      | _ => false) = true := by
  refine ⟨⟨by norm_num, spElection_ok⟩, ?_, ?_, by decide +kernel, by decide +kernel⟩
  · intro a b ha hb e
    exact int_eq_of_cast (q := 8209) ha hb e
  · intro m
    refine ⟨m * 4691, ?_⟩
    show m * 4691 * ((7 : Int) : ZMod 8209) = m
    rw [mul_assoc]
    have : (4691 : ZMod 8209) * ((7 : Int) : ZMod 8209) = 1 := by decide +kernel
    rw [this, mul_one]

/-- **C74** On P-256 and P-384 with the parameters `setup` returns: for every choice from 101 to 2000 and every ballot with its
ciphertext, the voter's draws and the simulator's are equally many. -/
theorem C74_deployed (nan64 : BitVec 64) {C : CirclCurve} {bits : ℕ} {H U : WPoint} {Gg Hh : List WPoint}
    (row : RealRow C bits H U Gg Hh) :
    ∃ D : Election Int WPoint, setup nan64 (circlGrp C) = some (.ok D.pp) ∧
      ∀ (sha : Bytes → Bytes), (∀ m, (sha m).length = 32) →
      ∀ (choice : UInt16), 101 ≤ choice → choice ≤ 2000 →
      ∀ (rEnc rp : Int) (b : BallotData Int WPoint), encryptVote (modPGrp rfcGroup) 8192 choice rEnc = some (b.Ballot, rp) →
      ∀ c : Int, getFSChallenge sha (modPGrp rfcGroup) (circlGrp C) b.VoteProof.W b.VoteProof.Kp b.VoteProof.Kq1 b.VoteProof.Kq2 224 =
        some c →
      ¬ (C.n : Int) ∣ roundChallenge sha (circlGrp C) b.BpLower.T1 b.BpLower.T2 →
      ¬ (C.n : Int) ∣ roundChallenge sha (circlGrp C) b.BpUpper.T1 b.BpUpper.T2 →
      (voterRuns sha D choice rEnc b).Finite ∧ (simRuns sha D c b).Finite ∧
      (voterRuns sha D choice rEnc b).ncard = (simRuns sha D c b).ncard := by
  obtain ⟨Bb, hr, _⟩ := row.std.table
  have ok := stdCircl_ord row.std.circl
  have := ok.fact'
  have : Fact C.n.Prime := ⟨ok.n_prime⟩
  let _ := ok.module
  obtain ⟨D, hD, dep, _⟩ := C47_curves nan64 (circlGrp C) (fun s _ => ⟨_, rfl⟩) C.n bits Bb hr rfl
  obtain ⟨L₁, L, hok, eV, eD⟩ := deployed_legal (circlGrp C) D C.n bits Bb hr ok.lawful
    (seeds_legal fun s _ => ⟨_, rfl, (wLegal_iff _ _).mpr (row.valid s)⟩) dep
  have hV : ∀ a, L.V a → WLegal C.c a := fun a h => by rw [eV] at h; exact h
  have hden : ∀ a, L.den a = wDen C.c a := fun a => by rw [eD]; rfl
  have hH : D.H = H := by
    rw [← row.vals.1]
    exact (Option.some.inj dep.H).symm
  have hd : wDen C.c D.H ≠ 0 := by
    intro e
    have h0 : D.H = ⟨0, 0⟩ := wDen_inj ok.noroot ok.two_ne (hV _ hok.bp.H) (Or.inl rfl) (e.trans wDen_zero.symm)
    exact row.distinct.2 (by rw [← h0, hH]; simp)
  have hlo : D.lo = 101 := dep.lo
  have hhi : D.hi = 2000 := dep.hi
  refine ⟨D, hD, fun sha hsha choice h1 h2 rEnc rp b hct c hc hx1 hx2 => ?_⟩
  refine C74_simulated sha hsha D L₁ L 4 hok modp3072Q_prime.pos ?_ ?_ ?_ ?_ ?_ choice (hlo ▸ h1) (hhi ▸ h2) rEnc b rp ?_ c ?_ ?_ ?_
  · intro x y hx hy e
    have := (L₁.isEqual_iff hx hy).mpr e
    rw [dep.FF] at this
    have h : (x == y) = true := this
    exact eq_of_beq h
  · intro x y hx hy e
    rw [hden, hden] at e
    exact wDen_inj ok.noroot ok.two_ne (hV _ hx) (hV _ hy) e
  · intro m
    obtain ⟨j, _, e⟩ := sw_cyclic ok.n_prime ok.card _ hd m
    refine ⟨j, ?_⟩
    rw [e, hden]
    exact Nat.cast_smul_eq_nsmul (ZMod C.n) j (wDen C.c D.H)
  · rw [dep.zLower, dep.Bc, hhi]; decide +kernel
  · rw [hlo, hhi]; decide
  · rw [dep.FF, dep.PK]; exact hct
  · rw [dep.FF, dep.EC, dep.Bc]; exact hc
  · rw [dep.EC]; exact hx1
  · rw [dep.EC]; exact hx2

end MscPoc
