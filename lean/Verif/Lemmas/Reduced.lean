import Verif.Spec.Reduced
import Verif.Lemmas.Legal
import Verif.Props.Sigma

/-!
# The numbers of honest proofs are reduced
-/

set_option autoImplicit false

namespace MscPoc

theorem inRange_mod (x : Int) {q : Int} (hq : 0 < q) : InRange 0 q (some (x % q)) :=
  ⟨_, rfl, Int.emod_nonneg _ hq.ne', Int.emod_lt_of_pos _ hq⟩

theorem scalarProductGo_range {N : Int} (hN : 0 < N) : ∀ (a b : List Int) (acc : Int), 0 ≤ acc → acc < N →
    0 ≤ scalarProductGo N a b acc ∧ scalarProductGo N a b acc < N
  | [], b, acc, h1, h2 => by rw [scalarProductGo]; exact ⟨h1, h2⟩; simp
  | _ :: _, [], acc, h1, h2 => by rw [scalarProductGo]; exact ⟨h1, h2⟩; simp
  | x :: a, y :: b, acc, h1, h2 => by
    rw [scalarProductGo]
    exact scalarProductGo_range hN a b _ (Int.emod_nonneg _ hN.ne') (Int.emod_lt_of_pos _ hN)

theorem scalarProduct_range {N : Int} (hN : 0 < N) {a b : List Int} {r : Int} (h : scalarProduct a b N = some r) :
    0 ≤ r ∧ r < N := by
  unfold scalarProduct at h
  split at h
  · exact absurd h (by simp)
  simp only [Option.some.injEq] at h
  subst h
  exact scalarProductGo_range hN a b 0 (le_refl _) hN

theorem vectorAdd_range {N : Int} (hN : 0 < N) (a b : List Int) : ∀ x ∈ vectorAdd a b N, 0 ≤ x ∧ x < N := by
  intro x hx
  by_cases h : a.length = b.length
  · rw [vectorAdd_eq h] at hx
    obtain ⟨i, hi, rfl⟩ := List.getElem_of_mem hx
    rw [List.getElem_zipWith]
    exact ⟨Int.emod_nonneg _ hN.ne', Int.emod_lt_of_pos _ hN⟩
  · simp [vectorAdd, vectorAddE, h, dropErr] at hx

section
variable {E E₁ E₂ : Type}

theorem bip_range (sha : Bytes → Bytes) (GP : Grp E) (hN : 0 < GP.N) : ∀ (n : ℕ) (a b : List Int) (g h : List E) (u P : E)
    (Ls Rs : List E) (pa pb : Int) (LL RR : List E), (∀ x ∈ a, 0 ≤ x ∧ x < GP.N) → (∀ x ∈ b, 0 ≤ x ∧ x < GP.N) →
    computeBipRecursive sha GP a b g h u P n Ls Rs = some (pa, pb, LL, RR) → (0 ≤ pa ∧ pa < GP.N) ∧ (0 ≤ pb ∧ pb < GP.N) := by
  intro n
  induction n using Nat.strong_induction_on with
  | _ n ih =>
  intro a b g h u P Ls Rs pa pb LL RR ha hb hc
  rw [computeBipRecursive] at hc
  split at hc
  · unbind hc with x ex
    unbind hc with y ey
    simp only [Option.some.injEq, Prod.mk.injEq] at hc
    obtain ⟨rfl, rfl, -, -⟩ := hc
    exact ⟨ha _ (List.mem_of_getElem? ex), hb _ (List.mem_of_getElem? ey)⟩
  · split at hc
    · exact absurd hc (by simp)
    · unbind hc with a1 e1
      unbind hc with a2 e2
      unbind hc with a3 e3
      unbind hc with a4 e4
      unbind hc with a5 e5
      unbind hc with a6 e6
      unbind hc with a7 e7
      unbind hc with a8 e8
      unbind hc with a9 e9
      unbind hc with a10 e10
      unbind hc with a11 e11
      unbind hc with a12 e12
      unbind hc with a13 e13
      unbind hc with a14 e14
      unbind hc with a15 e15
      unbind hc with a16 e16
      unbind hc with a17 e17
      exact ih (n / 2) (by omega) _ _ _ _ _ _ _ _ _ _ _ _ (vectorAdd_range hN _ _) (vectorAdd_range hN _ _) hc

theorem proveInnerProduct_range (sha : Bytes → Bytes) {a b : List Int} {P : E} {c : Int} {params : IPParams E} {pf : IPProof E}
    (hN : 0 < params.GP.N) (ha : ∀ x ∈ a, 0 ≤ x ∧ x < params.GP.N) (hb : ∀ x ∈ b, 0 ≤ x ∧ x < params.GP.N)
    (h : proveInnerProduct sha a b P c params = some (.ok pf)) :
    pf.Cc = some c ∧ InRange 0 params.GP.N pf.A ∧ InRange 0 params.GP.N pf.B ∧ pf.Params = params := by
  unfold proveInnerProduct at h
  split at h
  · exact absurd h (by simp)
  unbind h with x ex
  obtain ⟨⟨PP, ux⟩, hPP⟩ : ∃ y, computePP P c x params = y := ⟨_, rfl⟩
  rw [hPP] at h
  dsimp only at h
  unbind h with r er
  obtain ⟨pa, pb, LL, RR⟩ := r
  simp only [Option.some.injEq, Except.ok.injEq] at h
  subst h
  obtain ⟨h1, h2⟩ := bip_range sha params.GP hN _ _ _ _ _ _ _ _ _ _ _ _ _ ha hb er
  exact ⟨rfl, ⟨_, rfl, h1⟩, ⟨_, rfl, h2⟩, rfl⟩

/-- the numbers of a range proof are reduced, and its inner-product proof uses the given generators and the group -/
theorem proveFrom_reduced (params : BPParams E) (hN : 0 < params.GP.N) (sha : Bytes → Bytes) (rnd : BPRand) (V : E)
    (aL aR : List Int) (pf : BulletProof E) (h : proveFrom sha params rnd V aL aR = some (.ok pf)) :
    pf.Reduced params.GP.N ∧ pf.InnerProductProof.Params.Gg = params.Gg := by
  unfold proveFrom at h
  unbind h with A eA
  unbind h with S eS
  unbind h with aLb eLb
  unbind h with aRb eRb
  unbind h with t1l et1l
  unbind h with t1r et1r
  unbind h with t2 et2
  unbind h with th eth
  unbind h with hp ehp
  unbind h with ipp eipp
  cases ipp with
  | error e => simp at h
  | ok ipp =>
  dsimp only at h
  unbind h with cm ecm
  unbind h with ipr eipr
  cases ipr with
  | error e => simp at h
  | ok ip =>
  simp only [Option.some.injEq, Except.ok.injEq] at h
  have hpar : ipp.GP = params.GP ∧ ipp.Gg = params.Gg := by
    unfold setupInnerProduct at eipp
    split at eipp
    · simp at eipp
    · simp only [Option.bind_eq_bind, Option.bind_some] at eipp
      unbind eipp with Uu eU
      simp only [Option.some.injEq, Except.ok.injEq] at eipp
      subst eipp
      exact ⟨rfl, rfl⟩
  obtain ⟨h1, h2, h3, h4⟩ := proveInnerProduct_range sha (by rw [hpar.1]; exact hN) (by rw [hpar.1]; exact vectorAdd_range hN _ _)
    (by rw [hpar.1]; exact vectorAdd_range hN _ _) eipr
  rw [hpar.1] at h2 h3
  subst h
  exact ⟨⟨inRange_mod _ hN, inRange_mod _ hN, ⟨_, rfl, scalarProduct_range hN eth⟩, ⟨_, h1, scalarProduct_range hN eth⟩, h2, h3⟩,
    by rw [h4]; exact hpar.2⟩

theorem bpProve_reduced (params : BPParams E) (hN : 0 < params.GP.N) (sha : Bytes → Bytes) (rnd : BPRand) (v g : Int)
    (pf : BulletProof E) (h : bpProve sha params rnd v = some (.ok (pf, g))) :
    pf.Reduced params.GP.N ∧ pf.InnerProductProof.Params.Gg = params.Gg := by
  obtain ⟨_, h⟩ := (bpProve_iff sha params rnd v pf g).mp h
  exact proveFrom_reduced params hN sha rnd _ _ _ pf h

theorem sigmaProve_reduced (sha : Bytes → Bytes) (hsha : ∀ m, (sha m).length = 32) (pp : ProofParams E₁ E₂) {q₁ q₂ : Int}
    (hq₁ : 0 < q₁) (hq₂ : 0 < q₂) (hN₁ : pp.GFF.N = some q₁) (hN₂ : pp.GEC.N = some q₂)
    (secret rp rq1 rq2 : Int) (tape : List SigmaSample) (pf : SigmaProof E₁ E₂)
    (h : sigmaProve sha pp secret rp rq1 rq2 tape = .done pf) :
    pf.Reduced q₁ q₂ pp.zLowerBound pp.zUpperBound pp.Bc.toNat := by
  obtain ⟨pre, s, post, htape, _, hs⟩ := (sigmaProve_done_iff tape pf).mp h
  cases hc : getFSChallenge sha pp.GFF.I pp.GEC.I (pp.GFF.I.mulGen s.tp) (vpCommit (s.k % q₁) s.tp pp.GFF)
      (vpCommit (s.k % q₁) s.tq1 pp.GEC) (vpCommit (s.k % q₁) s.tq2 pp.GEC) pp.Bc with
  | none => rw [sigmaAttempt_none hN₁ hN₂ hc] at hs; exact absurd hs (by simp)
  | some c =>
  rw [sigmaAttempt_done hN₁ hN₂ hc] at hs
  split at hs
  swap
  · exact absurd hs (by simp)
  rename_i hz
  simp only [Option.some.injEq] at hs
  subst hs
  obtain ⟨_, h0, _, h2⟩ := (C28_challenge sha hsha _ _ _ _ _ _ _).2 c hc
  refine ⟨⟨_, rfl, h0, h2⟩, ⟨_, rfl, ?_⟩, inRange_mod _ hq₁, inRange_mod _ hq₂, inRange_mod _ hq₂⟩
  simpa [ProofParams.zOk] using hz

/-- the numbers of a ballot built by the voter code are reduced -/
theorem castChoice_reduced (sha : Bytes → Bytes) (hsha : ∀ m, (sha m).length = 32) (D : Election E₁ E₂) (hq₁ : 0 < D.FF.N)
    (hq₂ : 0 < D.EC.N) (choice : UInt16) (rnd : CastRand)
    (ballot : BallotData E₁ E₂) (h : castChoice sha D.pp choice rnd = .done ballot) :
    ballot.Reduced D.FF.N D.EC.N D.rp.zLowerBound D.rp.zUpperBound D.Bc.toNat ∧
    ballot.BpLower.InnerProductProof.Params.Gg = D.Gg ∧ ballot.BpUpper.InnerProductProof.Params.Gg = D.Gg := by
  unfold castChoice at h
  cases henc : encryptVote D.pp.FFGroupParams.I D.pp.EGPK choice rnd.rEnc with
  | none => rw [henc] at h; exact absurd h (by simp)
  | some enc =>
  obtain ⟨ct, rp⟩ := enc
  rw [henc] at h
  dsimp only at h
  cases hb1 : bpProve sha D.pp.BPParams rnd.bp1 ((choice - D.pp.candidateMin).toNat : Int) with
  | none => rw [hb1] at h; exact absurd h (by simp)
  | some r1 =>
  cases r1 with
  | error e => rw [hb1] at h; exact absurd h (by simp)
  | ok r1 =>
  obtain ⟨pf1, rq1⟩ := r1
  rw [hb1] at h
  dsimp only at h
  cases hb2 : bpProve sha D.pp.BPParams rnd.bp2 ((D.pp.candidateMax - choice).toNat : Int) with
  | none => rw [hb2] at h; exact absurd h (by simp)
  | some r2 =>
  cases r2 with
  | error e => rw [hb2] at h; exact absurd h (by simp)
  | ok r2 =>
  obtain ⟨pf2, rq2⟩ := r2
  rw [hb2] at h
  dsimp only at h
  have hN : D.pp.ECGroupParams.N = some D.EC.N := rfl
  rw [hN] at h
  dsimp only at h
  cases hs : sigmaProve sha D.pp.RPParams (choice.toNat : Int) rp rq1 (D.EC.N - rq2) rnd.tape with
  | running => rw [hs] at h; exact absurd h (by simp)
  | panic => rw [hs] at h; exact absurd h (by simp)
  | done sp =>
  rw [hs] at h
  simp only [Outcome.done.injEq] at h
  subst h
  obtain ⟨o1, p1⟩ := bpProve_reduced D.bp hq₂ sha rnd.bp1 _ rq1 pf1 hb1
  obtain ⟨o2, p2⟩ := bpProve_reduced D.bp hq₂ sha rnd.bp2 _ rq2 pf2 hb2
  exact ⟨⟨o1, o2, sigmaProve_reduced sha hsha D.rp hq₁ hq₂ rfl rfl _ _ _ _ _ sp hs⟩, p1, p2⟩

end
end MscPoc
