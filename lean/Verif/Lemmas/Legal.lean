import Verif.Props.Vote
import Verif.Lemmas.Marshal

/-!
# Honest ballots consist of legal elements
-/

set_option autoImplicit false

namespace MscPoc

section
variable {E : Type} {q : ℕ} {M : Type} [AddCommGroup M] [Module (ZMod q) M]

theorem ipp_legal {GP : Grp E} (L : Lawful GP q M) (sha : Bytes → Bytes) (k : ℕ) (a b : List Int) (P : E) (c : Int)
    (params : IPParams E) (pf : IPProof E) (hGP : params.GP = GP)
    (ha : a.length = 2 ^ k) (hb : b.length = 2 ^ k) (hg : params.Gg.length = 2 ^ k) (hh : params.Hh.length = 2 ^ k)
    (vg : ∀ e ∈ params.Gg, L.V e) (vh : ∀ e ∈ params.Hh, L.V e) (vu : L.V params.Uu) (vP : L.V P)
    (hp : proveInnerProduct sha a b P c params = some (.ok pf)) :
    IPProofOk L.V pf ∧ pf.Params = params ∧ pf.L.length = k := by
  subst hGP
  unfold proveInnerProduct at hp
  rw [if_neg (by omega)] at hp
  simp only [hashIP_eq, hg, hh, le_refl, if_true, Option.bind_eq_bind, Option.bind_some, computePP, ha,
    Option.bind_eq_some_iff] at hp
  obtain ⟨⟨pa, pb, LL, RR⟩, hrec, hp⟩ := hp
  simp only [Option.some.injEq, Except.ok.injEq] at hp
  subst hp
  have vux := L.V_mul (ippChallenge sha params.GP params.Gg params.Hh P c) vu
  obtain ⟨Ls, Rs, hLL, hRR, lL, lR, vLs, vRs, _⟩ :=
    L.bip_complete sha k a b params.Gg params.Hh _ _ P [] [] pa pb LL RR ha hb hg hh vg vh vux vP hrec
  simp only [List.nil_append] at hLL hRR
  subst hLL hRR
  exact ⟨⟨vP, vLs, vRs, by rw [lL, lR], ⟨vg, vh, vu, by rw [hg, hh]⟩⟩, rfl, lL⟩

theorem commitInnerProduct_legal {GP : Grp E} (L : Lawful GP q M) {g h : List E} {a b : List Int} {C : E}
    (vg : ∀ e ∈ g, L.V e) (vh : ∀ e ∈ h, L.V e) (hc : commitInnerProduct GP g h a b = some C) : L.V C := by
  unfold commitInnerProduct at hc
  unbind hc with x e1
  unbind hc with y e2
  simp only [Option.some.injEq] at hc
  subst hc
  exact L.V_add (L.vectorExp_spec vg e1).2.1 (L.vectorExp_spec vh e2).2.1

theorem proveFrom_legal (params : BPParams E) (L : Lawful params.GP q M) (k : ℕ) (hO : ParamsOK params L k) (vG : L.V params.G)
    (sha : Bytes → Bytes) (rnd : BPRand) (V : E) (vV : L.V V) (aL aR : List Int) (pf : BulletProof E)
    (lL : aL.length = 2 ^ k) (lR : aR.length = 2 ^ k) (lsL : rnd.sL.length = 2 ^ k) (lsR : rnd.sR.length = 2 ^ k)
    (h : proveFrom sha params rnd V aL aR = some (.ok pf)) :
    BPOk L.V pf ∧ pf.Params = params ∧ pf.InnerProductProof.Params.GP = params.GP ∧ pf.InnerProductProof.L.length = k := by
  have hN := hO.N
  unfold proveFrom at h
  unbind h with A eA
  unbind h with S eS
  simp only [hashBP_fst, hashBP_snd] at h
  obtain ⟨yi, hyi⟩ : ∃ y, roundChallenge sha params.GP A S = y := ⟨_, rfl⟩
  rw [hyi] at h
  unbind h with aLb eLb
  unbind h with aRb eRb
  obtain ⟨_, eLb⟩ := sliceTo_spec eLb
  obtain ⟨_, eRb⟩ := sliceTo_spec eRb
  rw [hN, List.take_of_length_le (by omega)] at eLb eRb
  subst eLb eRb
  unbind h with t1l et1l
  unbind h with t1r et1r
  unbind h with t2 et2
  obtain ⟨xi, hxi⟩ : ∃ x, roundChallenge sha params.GP (pedersenCommit params.GP ((t1l + t1r) % params.GP.N) rnd.tau1 params.H)
    (pedersenCommit params.GP t2 rnd.tau2 params.H) = x := ⟨_, rfl⟩
  rw [hxi] at h
  have l1 : (vectorAddConst aLb (-yi) params.GP.N).length = (vectorScalarMul rnd.sL xi params.GP.N).length := by
    simp [vectorAddConst, vectorScalarMul, lL, lsL]
  have lbl : (vectorAdd (vectorAddConst aLb (-yi) params.GP.N) (vectorScalarMul rnd.sL xi params.GP.N) params.GP.N).length
      = 2 ^ k := by
    rw [vectorAdd_eq l1]; simp [vectorAddConst, vectorScalarMul, lL, lsL]
  have l2 : (vectorCopy yi params.N).length = aRb.length := by simp [vectorCopy, hN, lR]
  have l3 : (vectorAdd (vectorCopy yi params.N) aRb params.GP.N).length = (vectorScalarMul rnd.sR xi params.GP.N).length := by
    rw [vectorAdd_eq l2]; simp [vectorCopy, hN, lR, vectorScalarMul, lsR]
  have l4 : (powerOf yi params.N params.GP.N).length = (vectorAdd (vectorAdd (vectorCopy yi params.N) aRb params.GP.N)
      (vectorScalarMul rnd.sR xi params.GP.N) params.GP.N).length := by
    rw [vectorAdd_eq l3, vectorAdd_eq l2]; simp [powerOf_length, vectorCopy, vectorScalarMul, hN, lR, lsR]
  have l5 : (vectorMul (powerOf yi params.N params.GP.N)
    (vectorAdd (vectorAdd (vectorCopy yi params.N) aRb params.GP.N) (vectorScalarMul rnd.sR xi params.GP.N) params.GP.N)
    params.GP.N).length = (vectorScalarMul (powerOf 2 params.N params.GP.N) (yi * yi) params.GP.N).length := by
    rw [vectorMul_eq l4, List.length_zipWith, ← l4]; simp [powerOf_length, vectorScalarMul]
  have lbr : (vectorAdd (vectorMul (powerOf yi params.N params.GP.N)
      (vectorAdd (vectorAdd (vectorCopy yi params.N) aRb params.GP.N) (vectorScalarMul rnd.sR xi params.GP.N) params.GP.N)
      params.GP.N) (vectorScalarMul (powerOf 2 params.N params.GP.N) (yi * yi) params.GP.N) params.GP.N).length = 2 ^ k := by
    rw [vectorAdd_eq l5, List.length_zipWith, l5]; simp [powerOf_length, vectorScalarMul, hN]
  unbind h with th eth
  unbind h with hp ehp
  unbind h with ipp eipp
  have hNpos : ¬ ((params.N : Int) ≤ 0) := by rw [hN]; have := Nat.two_pow_pos k; omega
  unfold setupInnerProduct at eipp
  rw [if_neg hNpos] at eipp
  simp only [Option.bind_eq_bind, Option.bind_some] at eipp
  unbind eipp with Uu eU
  simp only [Option.some.injEq] at eipp
  subst eipp
  simp only at h
  unbind h with cm ecm
  unbind h with ipr eipr
  cases ipr with
  | error e => simp at h
  | ok ip =>
  simp only [Option.some.injEq, Except.ok.injEq] at h
  obtain ⟨npos, lhp, vhp, _⟩ := L.updateGenerators_spec (by rw [hO.lenH, hN]) hO.Hh ehp
  obtain ⟨vA, _⟩ := L.commitVector_spec (by omega) (by omega) (by rw [hO.lenG, hN]) (by rw [hO.lenH, hN]) hO.Gg hO.Hh hO.H eA
  obtain ⟨vS, _⟩ := L.commitVector_spec (by omega) (by omega) (by rw [hO.lenG, hN]) (by rw [hO.lenH, hN]) hO.Gg hO.Hh hO.H eS
  have vcm := commitInnerProduct_legal L hO.Gg vhp ecm
  obtain ⟨okIP, hpar, hlen⟩ := ipp_legal L sha k _ _ cm th _ ip rfl lbl lbr hO.lenG (by simp [lhp, hN]) hO.Gg vhp (hO.U _ eU) vcm eipr
  subst h
  exact ⟨⟨vV, vA, vS, L.V_pedersen hO.H _ _, L.V_pedersen hO.H _ _, okIP, ⟨vG, hO.H, hO.Gg, hO.Hh⟩⟩, rfl, by rw [hpar], hlen⟩

theorem bpProve_legal (params : BPParams E) (L : Lawful params.GP q M) (k : ℕ) (hO : ParamsOK params L k) (vG : L.V params.G)
    (sha : Bytes → Bytes) (rnd : BPRand) (lsL : rnd.sL.length = 2 ^ k) (lsR : rnd.sR.length = 2 ^ k)
    (v g : Int) (pf : BulletProof E) (h : bpProve sha params rnd v = some (.ok (pf, g))) :
    BPOk L.V pf ∧ pf.Params = params ∧ pf.InnerProductProof.Params.GP = params.GP ∧ pf.InnerProductProof.L.length = k := by
  obtain ⟨_, h⟩ := (bpProve_iff sha params rnd v pf g).mp h
  have hlen : (decompose v 2 params.N).length = 2 ^ k := by rw [decompose_length, hO.N]
  exact proveFrom_legal params L k hO vG sha rnd _ (L.V_pedersen hO.H _ _) _ _ pf hlen (by simpa using hlen) lsL lsR h

end

section
variable {E₁ E₂ : Type} {q₁ q₂ : ℕ} {M₁ M₂ : Type} [AddCommGroup M₁] [Module (ZMod q₁) M₁] [AddCommGroup M₂]
  [Module (ZMod q₂) M₂]

theorem sigmaProve_legal (sha : Bytes → Bytes) (pp : ProofParams E₁ E₂)
    (L₁ : Lawful pp.GFF.I q₁ M₁) (L₂ : Lawful pp.GEC.I q₂ M₂) (hN₁ : pp.GFF.N = some (q₁ : Int))
    (hN₂ : pp.GEC.N = some (q₂ : Int)) (hG₁ : L₁.V pp.GFF.G) (hG₂ : L₂.V pp.GEC.G) (hH₁ : L₁.V pp.GFF.H) (hH₂ : L₂.V pp.GEC.H)
    (hBb : -(2 ^ 63) ≤ pp.Bb ∧ pp.Bb < 2 ^ 63) (secret rp rq1 rq2 : Int) (tape : List SigmaSample) (pf : SigmaProof E₁ E₂)
    (h : sigmaProve sha pp secret rp rq1 rq2 tape = .done pf) : SigmaOk L₁.V L₂.V pf ∧ pf.Params = pp := by
  obtain ⟨pre, s, post, htape, _, hs⟩ := (sigmaProve_done_iff tape pf).mp h
  cases hc : getFSChallenge sha pp.GFF.I pp.GEC.I (pp.GFF.I.mulGen s.tp) (vpCommit (s.k % q₁) s.tp pp.GFF)
      (vpCommit (s.k % q₁) s.tq1 pp.GEC) (vpCommit (s.k % q₁) s.tq2 pp.GEC) pp.Bc with
  | none => rw [sigmaAttempt_none hN₁ hN₂ hc] at hs; exact absurd hs (by simp)
  | some c =>
  rw [sigmaAttempt_done hN₁ hN₂ hc] at hs
  split at hs
  swap
  · exact absurd hs (by simp)
  simp only [Option.some.injEq] at hs
  subst hs
  exact ⟨⟨L₁.V_mulGen _, V_vpCommit L₁ hH₁ _ _, V_vpCommit L₂ hH₂ _ _, V_vpCommit L₂ hH₂ _ _, hG₁, hH₁, hG₂, hH₂, hBb⟩, rfl⟩

/-- A ballot built by the voter code is legal and carries the election's parameters. -/
theorem castChoice_legal (sha : Bytes → Bytes) (D : Election E₁ E₂) (L₁ : Lawful D.FF q₁ M₁) (L₂ : Lawful D.EC q₂ M₂) (k : ℕ)
    (ok : D.OK L₁ L₂ k) (vG : L₂.V D.G) (hBb : -(2 ^ 63) ≤ D.Bb ∧ D.Bb < 2 ^ 63) (choice : UInt16) (rnd : CastRand)
    (l1 : rnd.bp1.sL.length = 2 ^ k) (l2 : rnd.bp1.sR.length = 2 ^ k) (l3 : rnd.bp2.sL.length = 2 ^ k)
    (l4 : rnd.bp2.sR.length = 2 ^ k)
    (ballot : BallotData E₁ E₂) (h : castChoice sha D.pp choice rnd = .done ballot) :
    BallotOk L₁.V L₂.V ballot ∧ ballot.BpLower.Params = D.bp ∧ ballot.BpUpper.Params = D.bp ∧
    ballot.BpLower.InnerProductProof.Params.GP = D.EC ∧ ballot.BpUpper.InnerProductProof.Params.GP = D.EC ∧
    ballot.VoteProof.Params = D.rp ∧
    ballot.BpLower.InnerProductProof.L.length = k ∧ ballot.BpUpper.InnerProductProof.L.length = k := by
  unfold castChoice at h
  cases henc : encryptVote D.pp.FFGroupParams.I D.pp.EGPK choice rnd.rEnc with
  | none => rw [henc] at h; exact absurd h (by simp)
  | some enc =>
  obtain ⟨ct, rp⟩ := enc
  rw [henc] at h
  dsimp only at h
  obtain ⟨hrp, vU, vV, dU, dV⟩ := encryptVote_den D.FF L₁ D.PK ok.pk choice rnd.rEnc ct rp henc
  cases hb1 : bpProve sha D.pp.BPParams rnd.bp1 ((choice - D.pp.candidateMin).toNat : Int) with
  | none => rw [hb1] at h; exact absurd h (by simp)
  | some r1 =>
  cases r1 with
  | error e => rw [hb1] at h; exact absurd h (by simp)
  | ok r1 =>
  obtain ⟨pf1, rq1⟩ := r1
  rw [hb1] at h
  dsimp only at h
  cases hb2 : bpProve sha D.pp.BPParams rnd.bp2 ((D.pp.candidateMax - choice).toNat : Int) with
  | none => rw [hb2] at h; exact absurd h (by simp)
  | some r2 =>
  cases r2 with
  | error e => rw [hb2] at h; exact absurd h (by simp)
  | ok r2 =>
  obtain ⟨pf2, rq2⟩ := r2
  rw [hb2] at h
  dsimp only at h
  have hN : D.pp.ECGroupParams.N = some D.EC.N := rfl
  rw [hN] at h
  dsimp only at h
  cases hs : sigmaProve sha D.pp.RPParams (choice.toNat : Int) rp rq1 (D.EC.N - rq2) rnd.tape with
  | running => rw [hs] at h; exact absurd h (by simp)
  | panic => rw [hs] at h; exact absurd h (by simp)
  | done sp =>
  rw [hs] at h
  simp only [Outcome.done.injEq] at h
  subst h
  obtain ⟨o1, p1, g1, n1⟩ := bpProve_legal D.bp L₂ k ok.bp vG sha rnd.bp1 l1 l2 _ rq1 pf1 hb1
  obtain ⟨o2, p2, g2, n2⟩ := bpProve_legal D.bp L₂ k ok.bp vG sha rnd.bp2 l3 l4 _ rq2 pf2 hb2
  obtain ⟨o3, p3⟩ := sigmaProve_legal sha D.rp L₁ L₂ (congrArg some L₁.N_eq) (congrArg some L₂.N_eq) L₁.V_gen L₂.V_gen ok.pk
    ok.bp.H hBb _ _ _ _ _ sp hs
  exact ⟨⟨vU, vV, o1, o2, o3⟩, p1, p2, g1, g2, p3, n1, n2⟩

/-- what transport changes is nothing, when the ballot carries the election's parameters -/
theorem received_eq (D : Election E₁ E₂) (b : BallotData E₁ E₂) (h1 : b.BpLower.Params = D.bp) (h2 : b.BpUpper.Params = D.bp)
    (h3 : b.BpLower.InnerProductProof.Params.GP = D.EC) (h4 : b.BpUpper.InnerProductProof.Params.GP = D.EC)
    (h5 : b.VoteProof.Params = D.rp) : received D.pp b = b := by
  obtain ⟨ct, lo, hi, vp⟩ := b
  obtain ⟨_, _, _, _, _, _, _, _, ⟨_, _, _, _, _, _, ⟨_, _, _, _⟩⟩, _⟩ := lo
  obtain ⟨_, _, _, _, _, _, _, _, ⟨_, _, _, _, _, _, ⟨_, _, _, _⟩⟩, _⟩ := hi
  obtain ⟨_, _, _, _, _, _, _, _, _, _⟩ := vp
  dsimp only at h1 h2 h3 h4 h5
  subst h1 h2 h3 h4 h5
  rfl

end
end MscPoc
