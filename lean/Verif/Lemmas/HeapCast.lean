import Verif.Lemmas.HeapVote

/-!
# Casting, verifying and serving requests on the heaps
-/

set_option autoImplicit false

namespace MscPoc
variable {E₁ E₂ : Type}

namespace Spec2
variable {h : HS E₁ × HS E₂}

theorem verifyVote (sha : Bytes → Bytes) (b : BallotDataH E₁ E₂) (rp : ProofParamsH E₁ E₂) (hb : b.Live h) :
    Spec2 h (HM2.verifyVote sha b rp) (MscPoc.verifyVote sha (b.deref h) (rp.deref h)) (fun _ a b => a = b) := by
  unfold HM2.verifyVote MscPoc.verifyVote
  refine bind (on2 (bpVerify_refines b.GPL sha b.BpLower h.2 hb.2.1)) ?_
  rintro ok _ h1 f1 rfl
  refine ite Iff.rfl (pure rfl) ?_
  have e2 := bpVerify_refines b.GPU sha b.BpUpper h1.2 (hb.mono f1).2.2.1
  rw [b.BpUpper.deref_frame b.GPU f1.2 hb.2.2.1] at e2
  refine bind (on2 e2) ?_
  rintro ok _ h2 f2 rfl
  have f02 := f1.trans f2
  refine ite Iff.rfl (pure rfl) ?_
  have hl : Pt h.2 b.BpLower.V (h.2.el b.BpLower.V) := ⟨hb.2.1 _ (by simp [BulletProofH.ptrs]), rfl⟩
  have hu : Pt h.2 b.BpUpper.V (h.2.el b.BpUpper.V) := ⟨hb.2.2.1 _ (by simp [BulletProofH.ptrs]), rfl⟩
  refine step (on2 (Spec.shiftedCommitments rp.GEC.I b.BpLower.V b.BpUpper.V rp.RangeLo rp.RangeHi (hl.mono2 f02)
    (hu.mono2 f02))) ?_
  rintro X h3 f3 ⟨pX1, pX2⟩
  have f03 := f02.trans f3
  have hY : Pt h.1 b.U (h.1.el b.U) := ⟨hb.1.1, rfl⟩
  have hX : Pt h.1 b.V (h.1.el b.V) := ⟨hb.1.2, rfl⟩
  refine bind (sigmaVerify sha b.VoteProof (b.VoteProof.deref h) { Y := b.U, Xp := b.V, Xq1 := X.1, Xq2 := X.2 }
    (voteCommitments (b.deref h) (rp.deref h)) (hb.2.2.2.mono f03) (SigmaProofH.deref_frame hb.2.2.2 f03) (hY.mono1 f03)
    (hX.mono1 f03) pX1 pX2) ?_
  rintro r _ h4 f4 rfl
  exact pure rfl

end Spec2

/-- the values computed before the abort loop of `castVote` -/
def castHeadV {E₁ E₂ : Type} (sha : Bytes → Bytes) (pp : PublicParams E₁ E₂) (rnd : CastRand) :
    Option ((UInt16 × Ciphertext E₁ × BulletProof E₂ × BulletProof E₂) × Int × Int × Int) :=
  if (pp.candidateMax - pp.candidateMin).toNat = 0 then none
  else do
    let choice := UInt16.ofNat rnd.rChoice.toNat + pp.candidateMin
    let ct ← encryptVote pp.FFGroupParams.I pp.EGPK choice rnd.rEnc
    let r1 ← bpProve sha pp.BPParams rnd.bp1 ((choice - pp.candidateMin).toNat : Int)
    match r1 with
    | .error _ => none
    | .ok (bp1, rq1) => do
      let r2 ← bpProve sha pp.BPParams rnd.bp2 ((pp.candidateMax - choice).toNat : Int)
      match r2 with
      | .error _ => none
      | .ok (bp2, rq2) => do
        let N ← pp.ECGroupParams.N
        some ((choice, ct.1, bp1, bp2), ct.2, rq1, N - rq2)

theorem castVote_split (sha : Bytes → Bytes) (pp : PublicParams E₁ E₂) (rnd : CastRand) :
    castVote sha pp rnd = match castHeadV sha pp rnd with
      | none => .panic
      | some ((choice, ct, bp1, bp2), rp, rq1, rq2inv) =>
        match sigmaProve sha pp.RPParams (choice.toNat : Int) rp rq1 rq2inv rnd.tape with
        | .running => .running
        | .panic => .panic
        | .done p => .done { Ballot := ct, BpLower := bp1, BpUpper := bp2, VoteProof := p } := by
  unfold castVote castHeadV drawChoice
  split_ifs with h0
  · rfl
  · dsimp only
    unfold castChoice
    cases e1 : encryptVote pp.FFGroupParams.I pp.EGPK (UInt16.ofNat rnd.rChoice.toNat + pp.candidateMin) rnd.rEnc with
    | none => rfl
    | some ct =>
      obtain ⟨ct, rp⟩ := ct
      simp only [Option.bind_eq_bind, Option.bind_some]
      cases e2 : bpProve sha pp.BPParams rnd.bp1
          ((UInt16.ofNat rnd.rChoice.toNat + pp.candidateMin - pp.candidateMin).toNat : Int) with
      | none => rfl
      | some r1 =>
        simp only [Option.bind_some]
        rcases r1 with _ | ⟨bp1, rq1⟩
        · rfl
        · dsimp only
          cases e3 : bpProve sha pp.BPParams rnd.bp2
              ((pp.candidateMax - (UInt16.ofNat rnd.rChoice.toNat + pp.candidateMin)).toNat : Int) with
          | none => rfl
          | some r2 =>
            simp only [Option.bind_some]
            rcases r2 with _ | ⟨bp2, rq2⟩
            · rfl
            · dsimp only
              cases pp.ECGroupParams.N <;> rfl

/-- how what is computed before the abort loop is related to the values -/
structure HeadRel (h : HS E₁ × HS E₂) (pp : PublicParamsH E₁ E₂) (h' : HS E₁ × HS E₂)
    (a : (UInt16 × Nat × Nat × BulletProofH × BulletProofH) × Int × Int × Int)
    (b : (UInt16 × Ciphertext E₁ × BulletProof E₂ × BulletProof E₂) × Int × Int × Int) : Prop where
  choice : a.1.1 = b.1.1
  U : Pt h'.1 a.1.2.1 b.1.2.1.U
  nU : h.1.next ≤ a.1.2.1
  V : Pt h'.1 a.1.2.2.1 b.1.2.1.V
  nV : h.1.next ≤ a.1.2.2.1
  lo : BPRel pp.GP h.2 pp.BPParams h'.2 a.1.2.2.2.1 b.1.2.2.1
  up : BPRel pp.GP h.2 pp.BPParams h'.2 a.1.2.2.2.2 b.1.2.2.2
  rest : a.2 = b.2

theorem BPRel.mono {E : Type} {GP : Grp E} {h h1 h' h'' : HS E} {params : BPParamsH} {p : BulletProofH} {v : BulletProof E}
    (r : BPRel GP h1 params h' p v) (f : Fr noW h' h'') (h0 : h.next ≤ h1.next) : BPRel GP h params h'' p v where
  deref := (p.deref_frame GP f r.lt).trans r.deref
  lt := fun q hq => lt_of_lt_of_le (r.lt q hq) f.1
  new := fun q hq => h0.trans (r.new q hq)
  N := r.N
  G := r.G
  H := r.H
  Gg := r.Gg
  Hh := r.Hh
  ipGg := r.ipGg
  ipHh := r.ipHh

namespace Spec2
variable {h : HS E₁ × HS E₂}

theorem castHead (sha : Bytes → Bytes) (pp : PublicParamsH E₁ E₂) (rnd : CastRand) (hl : pp.Live h) :
    Spec2 h (HM2.castHead sha pp rnd) (castHeadV sha (pp.deref h) rnd) (HeadRel h pp) := by
  unfold HM2.castHead castHeadV
  refine ite Iff.rfl panic ?_
  have hE : Pt h.1 pp.EGPK (h.1.el pp.EGPK) := ⟨hl.2.2.1, rfl⟩
  refine bind (on1 (Spec.encryptVote pp.FFGroupParams.I pp.EGPK _ rnd.rEnc hE)) ?_
  rintro ct ctv h1 f1 ⟨⟨nU, pU⟩, ⟨nV, pV⟩, hr⟩
  have hbp1 : ∀ q ∈ pp.BPParams.ptrs, q < h1.2.next := fun q hq => lt_of_lt_of_le (hl.2.2.2.1 q hq) f1.2.1
  have e1 := Spec.bpProve pp.GP sha pp.BPParams rnd.bp1
    ((UInt16.ofNat rnd.rChoice.toNat + pp.candidateMin - pp.candidateMin).toNat : Int) hbp1
  rw [pp.BPParams.deref_frame pp.GP f1.2 hl.2.2.2.1] at e1
  refine bind (on2 e1) ?_
  rintro r1 r1v h2 f2 rr1
  have f02 := f1.trans f2
  rcases r1 with er1 | ⟨bp1, rq1⟩ <;> rcases r1v with er1' | ⟨bp1v, rq1v⟩
  · exact panic
  · exact rr1.elim
  · exact rr1.elim
  · obtain ⟨rb1, rq⟩ := rr1
    have rb1 : BPRel pp.GP h1.2 pp.BPParams h2.2 bp1 bp1v := rb1
    have rq : rq1 = rq1v := rq
    subst rq
    dsimp only
    have hbp2 : ∀ q ∈ pp.BPParams.ptrs, q < h2.2.next := fun q hq => lt_of_lt_of_le (hl.2.2.2.1 q hq) f02.2.1
    have e2 := Spec.bpProve pp.GP sha pp.BPParams rnd.bp2
      ((pp.candidateMax - (UInt16.ofNat rnd.rChoice.toNat + pp.candidateMin)).toNat : Int) hbp2
    rw [pp.BPParams.deref_frame pp.GP f02.2 hl.2.2.2.1] at e2
    refine bind (on2 e2) ?_
    rintro r2 r2v h3 f3 rr2
    rcases r2 with er2 | ⟨bp2, rq2⟩ <;> rcases r2v with er2' | ⟨bp2v, rq2v⟩
    · exact panic
    · exact rr2.elim
    · exact rr2.elim
    · obtain ⟨rb2, rq⟩ := rr2
      have rb2 : BPRel pp.GP h2.2 pp.BPParams h3.2 bp2 bp2v := rb2
      have rq : rq2 = rq2v := rq
      subst rq
      dsimp only
      refine bind lift ?_
      rintro N _ h4 f4 ⟨rfl, rfl⟩
      refine pure ⟨rfl, (pU.mono1 f2).mono1 f3, nU, (pV.mono1 f2).mono1 f3, nV, rb1.mono f3.2 f1.2.1,
        rb2.mono (Fr.refl _ _) f02.2.1, ?_⟩
      dsimp only
      rw [hr]

end Spec2

/-! ## Outcomes -/

/-- a run on the heaps related to a run on values: the same kind of end, no existing cell written -/
def SpecO {α β : Type} (h : HS E₁ × HS E₂) (r : Outcome (α × (HS E₁ × HS E₂))) (o : Outcome β)
    (R : HS E₁ × HS E₂ → α → β → Prop) : Prop :=
  match o with
  | .running => r = .running
  | .panic => r = .panic
  | .done b => ∃ a h', r = .done (a, h') ∧ Fr2 h h' ∧ R h' a b

theorem SpecO.conseq {α β : Type} {h : HS E₁ × HS E₂} {r : Outcome (α × (HS E₁ × HS E₂))} {o : Outcome β}
    {R R' : HS E₁ × HS E₂ → α → β → Prop} (s : SpecO h r o R) (hr : ∀ h' a b, Fr2 h h' → R h' a b → R' h' a b) : SpecO h r o R' := by
  cases o with
  | running => exact s
  | panic => exact s
  | done b => obtain ⟨a, h', e, f, r⟩ := s; exact ⟨a, h', e, f, hr _ _ _ f r⟩

/-- the run started after some steps -/
theorem SpecO.pre {α β : Type} {h h1 : HS E₁ × HS E₂} {r : Outcome (α × (HS E₁ × HS E₂))} {o : Outcome β}
    {R : HS E₁ × HS E₂ → α → β → Prop} (f : Fr2 h h1) (s : SpecO h1 r o R) : SpecO h r o R := by
  cases o with
  | running => exact s
  | panic => exact s
  | done b => obtain ⟨a, h', e, f', r⟩ := s; exact ⟨a, h', e, f.trans f', r⟩

theorem SigmaRel.pre {h h1 h' : HS E₁ × HS E₂} {params : ProofParamsH E₁ E₂} {p : SigmaProofH E₁ E₂} {v : SigmaProof E₁ E₂}
    (f : Fr2 h h1) (r : SigmaRel h1 params h' p v) : SigmaRel h params h' p v where
  deref := r.deref
  live := r.live
  new := ⟨⟨f.1.1.trans r.new.1.1, f.1.1.trans r.new.1.2⟩, f.2.1.trans r.new.2.1, f.2.1.trans r.new.2.2⟩
  params := r.params

theorem sigmaProveH_refines (sha : Bytes → Bytes) (params : ProofParamsH E₁ E₂) (secret rp rq1 rq2 : Int)
    (tape : List SigmaSample) : ∀ h : HS E₁ × HS E₂, params.Live h →
    SpecO h (sigmaProveH sha params secret rp rq1 rq2 tape h) (sigmaProve sha (params.deref h) secret rp rq1 rq2 tape)
      (SigmaRel h params) := by
  induction tape with
  | nil => intro h _; rfl
  | cons s tape ih =>
    intro h hl
    have hs := Spec2.sigmaAttempt sha params secret rp rq1 rq2 s hl
    unfold sigmaProveH sigmaProve
    cases ho : MscPoc.sigmaAttempt sha (params.deref h) secret rp rq1 rq2 s with
    | none =>
      rw [ho] at hs
      have hs : HM2.sigmaAttempt sha params secret rp rq1 rq2 s h = none := hs
      rw [hs]
      rfl
    | some o =>
      rw [ho] at hs
      obtain ⟨a, h', e, f, r⟩ := hs
      rw [e]
      rcases a with _ | p <;> rcases o with _ | v
      · have := ih h' (hl.mono f)
        rw [ProofParamsH.deref_frame hl f] at this
        exact SpecO.pre f (this.conseq (fun _ _ _ _ r => r.pre f))
      · exact r.elim
      · exact r.elim
      · exact ⟨p, h', rfl, f, r⟩

/-- how a ballot made on the heaps is related to the pure one -/
structure BallotRel (h : HS E₁ × HS E₂) (pp : PublicParamsH E₁ E₂) (h' : HS E₁ × HS E₂) (b : BallotDataH E₁ E₂)
    (v : BallotData E₁ E₂) : Prop where
  deref : b.deref h' = v
  live : b.Live h'
  new : h.1.next ≤ b.U ∧ h.1.next ≤ b.V
  lo : BPRel pp.GP h.2 pp.BPParams h'.2 b.BpLower v.BpLower
  up : BPRel pp.GP h.2 pp.BPParams h'.2 b.BpUpper v.BpUpper
  sigma : SigmaRel h pp.RPParams h' b.VoteProof v.VoteProof

theorem castVoteH_refines (sha : Bytes → Bytes) (pp : PublicParamsH E₁ E₂) (rnd : CastRand) (h : HS E₁ × HS E₂)
    (hl : pp.Live h) : SpecO h (castVoteH sha pp rnd h) (castVote sha (pp.deref h) rnd) (BallotRel h pp) := by
  rw [castVote_split]
  unfold castVoteH
  have hs := Spec2.castHead sha pp rnd hl
  cases ho : castHeadV sha (pp.deref h) rnd with
  | none =>
    rw [ho] at hs
    have hs : HM2.castHead sha pp rnd h = none := hs
    rw [hs]
    rfl
  | some b =>
    rw [ho] at hs
    obtain ⟨⟨⟨choice, U, V, bp1, bp2⟩, rp, rq1, rq2⟩, h1, e, f, r⟩ := hs
    obtain ⟨⟨choicev, ct, bp1v, bp2v⟩, rpv, rq1v, rq2v⟩ := b
    have hc : choice = choicev := r.choice
    have hr : (rp, rq1, rq2) = (rpv, rq1v, rq2v) := r.rest
    simp only [Prod.mk.injEq] at hr
    obtain ⟨rfl, rfl, rfl⟩ := hr
    subst hc
    rw [e]
    dsimp only
    have hsp := sigmaProveH_refines sha pp.RPParams (choice.toNat : Int) rp rq1 rq2 rnd.tape h1 (hl.2.2.2.2.mono f)
    rw [ProofParamsH.deref_frame hl.2.2.2.2 f] at hsp
    have hd : (pp.deref h).RPParams = pp.RPParams.deref h := rfl
    rw [hd]
    cases hp : sigmaProve sha (pp.RPParams.deref h) (choice.toNat : Int) rp rq1 rq2 rnd.tape with
    | running =>
      rw [hp] at hsp
      have hsp : sigmaProveH sha pp.RPParams (choice.toNat : Int) rp rq1 rq2 rnd.tape h1 = .running := hsp
      rw [hsp]
      rfl
    | panic =>
      rw [hp] at hsp
      have hsp : sigmaProveH sha pp.RPParams (choice.toNat : Int) rp rq1 rq2 rnd.tape h1 = .panic := hsp
      rw [hsp]
      rfl
    | done pv =>
      rw [hp] at hsp
      obtain ⟨p, h2, e2, f2, r2⟩ := hsp
      rw [e2]
      have lo := r.lo.mono f2.2 (le_refl _)
      have up := r.up.mono f2.2 (le_refl _)
      have pU := r.U.mono1 f2
      have pV := r.V.mono1 f2
      refine ⟨_, h2, rfl, f.trans f2, ⟨?_, ⟨⟨pU.1, pV.1⟩, lo.lt, up.lt, r2.live⟩, ⟨r.nU, r.nV⟩, lo, up, r2.pre f⟩⟩
      unfold BallotDataH.deref
      dsimp only at lo up pU pV ⊢
      rw [pU.2, pV.2, lo.deref, up.deref, r2.deref]

theorem benchLoopH_refines (sha : Bytes → Bytes) (pp : PublicParamsH E₁ E₂) (rnds : List CastRand) :
    ∀ (success : Bool) (h : HS E₁ × HS E₂), pp.Live h →
    SpecO h (benchLoopH sha pp rnds success h) (benchLoop sha (pp.deref h) rnds success) (fun _ a b => a = b) := by
  induction rnds with
  | nil => intro success h _; exact ⟨success, h, rfl, Fr2.refl h, rfl⟩
  | cons rnd rnds ih =>
    intro success h hl
    unfold benchLoopH benchLoop
    have hc := castVoteH_refines sha pp rnd h hl
    cases ho : castVote sha (pp.deref h) rnd with
    | running =>
      rw [ho] at hc
      have hc : castVoteH sha pp rnd h = .running := hc
      rw [hc]; rfl
    | panic =>
      rw [ho] at hc
      have hc : castVoteH sha pp rnd h = .panic := hc
      rw [hc]; rfl
    | done v =>
      rw [ho] at hc
      obtain ⟨b, h1, e1, f1, r1⟩ := hc
      rw [e1]
      dsimp only
      have hv := Spec2.verifyVote sha b pp.RPParams r1.live
      rw [r1.deref, ProofParamsH.deref_frame hl.2.2.2.2 f1] at hv
      have hd : (pp.deref h).RPParams = pp.RPParams.deref h := rfl
      rw [hd]
      cases hvo : verifyVote sha v (pp.RPParams.deref h) with
      | none =>
        rw [hvo] at hv
        have hv : HM2.verifyVote sha b pp.RPParams h1 = none := hv
        rw [hv]; rfl
      | some out =>
        rw [hvo] at hv
        obtain ⟨out', h2, e2, f2, rfl⟩ := hv
        rw [e2]
        dsimp only
        have f02 := f1.trans f2
        have := ih (success && out'.result) h2 (hl.mono f02)
        rw [PublicParamsH.deref_frame hl f02] at this
        cases out'.times[0]? with
        | none => rfl
        | some a =>
          cases out'.times[1]? with
          | none => rfl
          | some b => exact SpecO.pre f02 this

theorem serveH_refines (sha : Bytes → Bytes) (pp : PublicParamsH E₁ E₂) (rs : List Req) :
    ∀ (bs : List (BallotDataH E₁ E₂)) (h : HS E₁ × HS E₂), pp.Live h → (∀ b ∈ bs, b.Live h) →
    SpecO h (serveH sha pp rs bs h) (serve sha (pp.deref h) rs (bs.map (BallotDataH.deref h)))
      (fun h' a b => a.1.map (BallotDataH.deref h') = b.1 ∧ (∀ x ∈ a.1, x.Live h') ∧ a.2 = b.2) := by
  have frame : ∀ (bs : List (BallotDataH E₁ E₂)) (h h' : HS E₁ × HS E₂), (∀ b ∈ bs, b.Live h) → Fr2 h h' →
      bs.map (BallotDataH.deref h') = bs.map (BallotDataH.deref h) := fun bs h h' hb f =>
    List.map_congr_left (fun b hm => BallotDataH.deref_frame (hb b hm) f)
  induction rs with
  | nil => intro bs h _ hb; exact ⟨(bs, []), h, rfl, Fr2.refl h, rfl, hb, rfl⟩
  | cons r rs ih =>
    intro bs h hl hb
    cases r with
    | cast rnd =>
      unfold serveH serve
      have hc := castVoteH_refines sha pp rnd h hl
      cases ho : castVote sha (pp.deref h) rnd with
      | running =>
        rw [ho] at hc
        have hc : castVoteH sha pp rnd h = .running := hc
        rw [hc]; rfl
      | panic =>
        rw [ho] at hc
        have hc : castVoteH sha pp rnd h = .panic := hc
        rw [hc]; rfl
      | done v =>
        rw [ho] at hc
        obtain ⟨b, h1, e1, f1, r1⟩ := hc
        rw [e1]
        dsimp only
        have := ih (bs ++ [b]) h1 (hl.mono f1) (by
          intro x hx
          rcases List.mem_append.mp hx with hx | hx
          · exact (hb x hx).mono f1
          · rw [List.mem_singleton.mp hx]; exact r1.live)
        rw [PublicParamsH.deref_frame hl f1, List.map_append, frame bs h h1 hb f1, List.map_singleton, r1.deref] at this
        exact SpecO.pre f1 this
    | verify i =>
      unfold serveH serve
      rw [List.getElem?_map]
      cases hi : bs[i]? with
      | none => exact ih bs h hl hb
      | some b =>
        have hbl : b.Live h := hb b (List.mem_of_getElem? hi)
        simp only [Option.map_some]
        have hv := Spec2.verifyVote sha b pp.RPParams hbl
        have hd : (pp.deref h).RPParams = pp.RPParams.deref h := rfl
        rw [hd]
        cases hvo : verifyVote sha (b.deref h) (pp.RPParams.deref h) with
        | none =>
          rw [hvo] at hv
          have hv : HM2.verifyVote sha b pp.RPParams h = none := hv
          rw [hv]; rfl
        | some out =>
          rw [hvo] at hv
          obtain ⟨out', h1, e1, f1, rfl⟩ := hv
          rw [e1]
          dsimp only
          have := ih bs h1 (hl.mono f1) (fun x hx => (hb x hx).mono f1)
          rw [PublicParamsH.deref_frame hl f1, frame bs h h1 hb f1] at this
          cases hs : serve sha (pp.deref h) rs (bs.map (BallotDataH.deref h)) with
          | running =>
            rw [hs] at this
            have this : serveH sha pp rs bs h1 = .running := this
            rw [this]; rfl
          | panic =>
            rw [hs] at this
            have this : serveH sha pp rs bs h1 = .panic := this
            rw [this]; rfl
          | done res =>
            rw [hs] at this
            obtain ⟨⟨bs', outs⟩, h2, e2, f2, r2, r3, r4⟩ := this
            rw [e2]
            obtain ⟨rb, ro⟩ := res
            dsimp only at r2 r3 r4 ⊢
            exact ⟨(bs', out' :: outs), h2, rfl, f1.trans f2, r2, r3, by dsimp only; rw [r4]⟩

end MscPoc
