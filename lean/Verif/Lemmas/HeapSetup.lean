import Verif.Model.HeapSetup
import Verif.Lemmas.HeapCast

/-!
# Refinement between the heap model and the pure model: `setup` and the driver
-/

set_option autoImplicit false

namespace MscPoc

variable {E : Type}

/-- the loop of bulletproofs/bp.go:92-95 with values -/
def seedPairs (SP : Grp E) : List ℕ → Option (List E × List E)
  | [] => some ([], [])
  | i :: is => do
    let g ← SP.mapToGroup (seedG i)
    let h ← SP.mapToGroup (seedHh i)
    let r ← seedPairs SP is
    some (g :: r.1, h :: r.2)

/-- alternating or one after the other: the same values -/
theorem seedPairs_eq (SP : Grp E) (is : List ℕ) : seedPairs SP is =
    (is.mapM (fun i => SP.mapToGroup (seedG i))).bind fun gs => (is.mapM (fun i => SP.mapToGroup (seedHh i))).bind fun hs =>
      some (gs, hs) := by
  induction is with
  | nil => rfl
  | cons i is ih =>
    unfold seedPairs
    rw [ih, List.mapM_cons, List.mapM_cons]
    cases SP.mapToGroup (seedG i) with
    | none => rfl
    | some g =>
      cases SP.mapToGroup (seedHh i) with
      | none => cases is.mapM (fun i => SP.mapToGroup (seedG i)) <;> rfl
      | some h =>
        cases is.mapM (fun i => SP.mapToGroup (seedG i)) with
        | none => rfl
        | some gs => cases is.mapM (fun i => SP.mapToGroup (seedHh i)) <;> rfl

/-- the cells `gs`, `hs` hold `v`, are new since `n`, and are all different -/
structure SeedRel (n : ℕ) (h' : HS E) (p : List ℕ × List ℕ) (v : List E × List E) : Prop where
  g : Pts h' p.1 v.1
  h : Pts h' p.2 v.2
  new : ∀ q ∈ p.1 ++ p.2, n ≤ q
  nodup : (p.1 ++ p.2).Nodup

theorem Spec.seedLoop (SP : Grp E) (is : List ℕ) : ∀ h : HS E,
    Spec noW h (HM.seedLoop SP is) (seedPairs SP is) (SeedRel h.next) := by
  induction is with
  | nil => exact fun h => Spec.pure ⟨.nil, .nil, by simp, by simp⟩
  | cons i is ih =>
    intro h
    unfold HM.seedLoop seedPairs
    refine Spec.bind (Spec.newMap SP _) ?_
    rintro g vg h1 f1 ⟨n1, p1⟩
    refine Spec.bind (Spec.newMap SP _) ?_
    rintro k vk h2 f2 ⟨n2, p2⟩
    refine Spec.bind (ih h2) ?_
    rintro ⟨gs, ks⟩ ⟨vgs, vks⟩ h3 f3 r
    obtain ⟨r1, r2, r3, r4⟩ := r
    have p1' := (p1.mono f2 noW.not).mono f3 noW.not
    have p2' := p2.mono f3 noW.not
    have hg := p1.1
    have hk := p2.1
    have l1 := f1.1
    have l2 := f2.1
    dsimp only at r1 r2 r3 r4 ⊢
    have ng : g ∉ gs ++ k :: ks := by
      intro hm
      have : h2.next ≤ g ∨ g = k := by
        simp only [List.mem_append, List.mem_cons] at hm
        rcases hm with hm | rfl | hm
        · exact .inl (r3 g (by simp [hm]))
        · exact .inr rfl
        · exact .inl (r3 g (by simp [hm]))
      omega
    have nk : k ∉ gs ++ ks := by
      intro hm
      have := r3 k hm
      omega
    refine Spec.pure ⟨.cons p1' r1, .cons p2' r2, ?_, ?_⟩
    · dsimp only
      intro q hq
      simp only [List.cons_append, List.mem_cons, List.mem_append] at hq
      rcases hq with rfl | hq | rfl | hq
      · exact n1
      · exact (l1.trans l2).trans (r3 q (by simp [hq]))
      · exact l1.trans n2
      · exact (l1.trans l2).trans (r3 q (by simp [hq]))
    · dsimp only
      rw [List.cons_append, List.nodup_cons]
      refine ⟨ng, ?_⟩
      rw [List.nodup_middle, List.nodup_cons]
      exact ⟨nk, r4⟩

/-- the same error, or related results -/
def ExRel {α β : Type} (R : α → β → Prop) : Except String α → Except String β → Prop
  | .error e, .error e' => e = e'
  | .ok a, .ok b => R a b
  | _, _ => False

/-- the generators allocated by `bulletproofs.Setup` -/
structure BPSetupRel (SP : Grp E) (n : ℕ) (h' : HS E) (p : BPParamsH) (v : BPParams E) : Prop where
  deref : p.deref SP h' = v
  lt : ∀ q ∈ p.ptrs, q < h'.next
  new : ∀ q ∈ p.ptrs, n ≤ q
  nodup : p.ptrs.Nodup

theorem Pts.map_el {h : HS E} {ps : List ℕ} {vs : List E} (a : Pts h ps vs) : ps.map h.el = vs := by
  induction a with
  | nil => rfl
  | cons x _ ih => rw [List.map_cons, x.2, ih]

theorem Spec.bpSetup (nan64 b : BitVec 64) (SP : Grp E) (h : HS E) :
    Spec noW h (HM.bpSetup nan64 b SP) (MscPoc.bpSetup nan64 b SP) (fun h' => ExRel (BPSetupRel SP h.next h')) := by
  unfold HM.bpSetup MscPoc.bpSetup
  cases isPowerOfTwo b with
  | false => exact Spec.pure rfl
  | true =>
    simp only [Bool.not_true, Bool.false_eq_true, if_false]
    refine Spec.step (Spec.newBaseScale SP) ?_
    rintro G h1 f1 ⟨n1, p1⟩
    refine Spec.bind (Spec.newMap SP _) ?_
    rintro H vH h2 f2 ⟨n2, p2⟩
    cases isPowerOfTwo (log2Int64 nan64 b) with
    | false => exact Spec.pure rfl
    | true =>
      simp only [Bool.not_true, Bool.false_eq_true, if_false]
      by_cases c1 : 32 < (log2Int64 nan64 b).toInt
      · rw [if_pos c1, if_pos c1]; exact Spec.pure rfl
      rw [if_neg c1, if_neg c1]
      by_cases c2 : (log2Int64 nan64 b).toInt < 0
      · rw [if_pos c2, if_pos c2]; exact Spec.panic
      rw [if_neg c2, if_neg c2]
      have hs := Spec.seedLoop SP (List.range (log2Int64 nan64 b).toNat) h2
      have key : (do
          let Gg ← mapSeeds SP seedG (log2Int64 nan64 b).toNat
          let Hh ← mapSeeds SP seedHh (log2Int64 nan64 b).toNat
          some (Except.ok (ε := String)
            ({ N := (log2Int64 nan64 b).toNat, G := SP.mulGen 1, H := vH, Gg := Gg, Hh := Hh, GP := SP } : BPParams E))) =
          (seedPairs SP (List.range (log2Int64 nan64 b).toNat)) >>= fun r =>
            some (Except.ok
              ({ N := (log2Int64 nan64 b).toNat, G := SP.mulGen 1, H := vH, Gg := r.1, Hh := r.2, GP := SP } : BPParams E)) := by
        rw [seedPairs_eq]
        unfold mapSeeds
        cases (List.range (log2Int64 nan64 b).toNat).mapM (fun i => SP.mapToGroup (seedG i)) with
        | none => rfl
        | some gs => cases (List.range (log2Int64 nan64 b).toNat).mapM (fun i => SP.mapToGroup (seedHh i)) <;> rfl
      rw [key]
      refine Spec.bind hs ?_
      rintro ⟨gs, ks⟩ ⟨vgs, vks⟩ h3 f3 ⟨r1, r2, r3, r4⟩
      have q1 := (p1.mono f2 noW.not).mono f3 noW.not
      have q2 := p2.mono f3 noW.not
      have hg := p1.1
      have hk := p2.1
      have l1 := f1.1
      have l2 := f2.1
      dsimp only at r1 r2 r3 r4 ⊢
      refine Spec.pure ?_
      refine ⟨?_, ?_, ?_, ?_⟩
      · unfold BPParamsH.deref
        dsimp only
        rw [q1.2, q2.2, r1.map_el, r2.map_el]
      · intro q hq
        simp only [BPParamsH.ptrs, List.mem_cons, List.mem_append] at hq
        rcases hq with rfl | rfl | hq | hq
        · exact q1.1
        · exact q2.1
        · exact r1.lt q hq
        · exact r2.lt q hq
      · intro q hq
        simp only [BPParamsH.ptrs, List.mem_cons] at hq
        rcases hq with rfl | rfl | hq
        · exact n1
        · exact l1.trans n2
        · exact (l1.trans l2).trans (r3 q hq)
      · unfold BPParamsH.ptrs
        dsimp only
        rw [List.nodup_cons, List.nodup_cons]
        refine ⟨?_, ?_, r4⟩
        · intro hm
          rcases List.mem_cons.mp hm with e | hm
          · omega
          · have := r3 G hm; omega
        · intro hm
          have := r3 H hm; omega

/-- `voteproof.Setup` with pointers -/
theorem vpSetupH_refines {E₁ E₂ : Type} (a : UInt8) (b c d e : UInt16) (g₁ : GroupParamsH E₁) (g₂ : GroupParamsH E₂)
    (h : HS E₁ × HS E₂) : ExRel (fun p v => p.deref h = v ∧ p.GFF = g₁ ∧ p.GEC = g₂) (vpSetupH a b c d e g₁ g₂)
      (vpSetup a b c d e { GFF := g₁.deref h.1, GEC := g₂.deref h.2 }) := by
  unfold vpSetupH vpSetup
  dsimp only
  split
  · rfl
  · exact ⟨rfl, rfl, rfl⟩

/-- what `setup` leaves in memory -/
structure SetupRel {E₂ : Type} (h h' : HS Int × HS E₂) (pp : PublicParamsH Int E₂) (v : PublicParams Int E₂) : Prop where
  deref : pp.deref h' = v
  live : pp.Live h'
  new : (∀ q ∈ [pp.FFGroupParams.G, pp.FFGroupParams.H], h.1.next ≤ q) ∧
    ∀ q ∈ pp.ECGroupParams.G :: pp.BPParams.ptrs, h.2.next ≤ q
  nodup : pp.FFGroupParams.G ≠ pp.FFGroupParams.H ∧ (pp.ECGroupParams.G :: pp.BPParams.ptrs).Nodup
  shared : pp.EGPK = pp.FFGroupParams.H ∧ pp.ECGroupParams.H = pp.BPParams.H ∧ pp.RPParams.GFF = pp.FFGroupParams ∧
    pp.RPParams.GEC = pp.ECGroupParams

theorem Spec.generator (GP : Grp E) (h : HS E) :
    Spec noW h (HM.generator GP) (some GP.generator) (fun h' p v => h.next ≤ p ∧ Pt h' p v) :=
  (Spec.alloc _).conseq (by rintro _ _ _ _ ⟨rfl, hp⟩; exact ⟨le_rfl, hp⟩)

theorem Spec2.setup {E₂ : Type} (nan64 : BitVec 64) (C : Grp E₂) (h : HS Int × HS E₂)
    (o : Option (Except String (PublicParams Int E₂))) (ho : MscPoc.setup nan64 C = o) :
    Spec2 h (HM2.setup nan64 C) o (fun h' => ExRel (SetupRel h h')) := by
  subst ho
  unfold HM2.setup MscPoc.setup
  generalize newModPGroup "RFC3526ModPGroup3072" rfc3526Hex "2" = m
  refine Spec2.bind Spec2.lift ?_
  rintro modp _ h0 f0 ⟨rfl, rfl⟩
  refine Spec2.bind (Spec2.on2 (Spec.bpSetup nan64 65536 C h0.2)) ?_
  rintro bp vbp h1 f1 r1
  cases vbp with
  | error e' =>
    cases bp with
    | error e => exact Spec2.pure r1
    | ok bp => exact r1.elim
  | ok vbp =>
    cases bp with
    | error e => exact r1.elim
    | ok bp =>
      have r1 : BPSetupRel C h0.2.next h1.2 bp vbp := r1
      dsimp only
      refine Spec2.step (Spec2.on1 (Spec.generator (modPGrp modp) h1.1)) ?_
      rintro G₁ h2 f2 ⟨n2, p2⟩
      refine Spec2.step (Spec2.on1 (Spec.newBaseScale (modPGrp modp) (s := 13))) ?_
      rintro H₁ h3 f3 ⟨n3, p3⟩
      refine Spec2.step (Spec2.on2 (Spec.generator C h3.2)) ?_
      rintro G₂ h4 f4 ⟨n4, p4⟩
      have f14 := (f2.trans f3).trans f4
      have hlt : ∀ q ∈ bp.ptrs, q < h4.2.next := fun q hq => lt_of_lt_of_le (r1.lt q hq) f14.2.1
      have hbp : bp.deref C h4.2 = vbp := by rw [BPParamsH.deref_frame C bp f14.2 r1.lt, r1.deref]
      have q2 := (p2.mono1 f3).mono1 f4
      have q3 := p3.mono1 f4
      have hH : h4.2.el bp.H = vbp.H := by rw [← hbp]; rfl
      have hHm : bp.H ∈ bp.ptrs := by simp [BPParamsH.ptrs]
      have l1 := f1.1.1
      have l2 := f2.1.1
      have l3 := f3.1.1
      have g1 := p2.1
      have k14 := (f2.trans f3).2.1
      have k1 := f1.2.1
      have hv := vpSetupH_refines 16 224 (UInt16.ofNat (bitLen C.N)) 101 2000
        { I := modPGrp modp, F := some (modPGrp modp).P, N := some (modPGrp modp).N, G := G₁, H := H₁ }
        { I := C, F := some (modPGrp modp).P, N := some C.N, G := G₂, H := bp.H } h4
      simp only [GroupParamsH.deref] at hv
      rw [q2.2, q3.2, p4.2, hH] at hv
      revert hv
      generalize vpSetupH 16 224 (UInt16.ofNat (bitLen C.N)) 101 2000
        { I := modPGrp modp, F := some (modPGrp modp).P, N := some (modPGrp modp).N, G := G₁, H := H₁ }
        ({ I := C, F := some (modPGrp modp).P, N := some C.N, G := G₂, H := bp.H } : GroupParamsH E₂) = x
      generalize vpSetup 16 224 (UInt16.ofNat (bitLen C.N)) 101 2000 _ = y
      intro hv
      cases y with
      | error e' =>
        cases x with
        | error e => exact Spec2.pure hv
        | ok bp => exact hv.elim
      | ok vp =>
        cases x with
        | error e => exact hv.elim
        | ok rp =>
          obtain ⟨d1, d2, d3⟩ := hv
          refine Spec2.pure (SetupRel.mk ?_ ?_ ?_ ?_ ⟨rfl, rfl, d2, d3⟩)
          · unfold PublicParamsH.deref GroupParamsH.deref
            dsimp only
            rw [q2.2, q3.2, p4.2, hH, hbp, d1]
          · refine ⟨⟨q2.1, q3.1⟩, ⟨p4.1, hlt _ hHm⟩, q3.1, hlt, ?_⟩
            unfold ProofParamsH.Live
            dsimp only
            rw [d2, d3]
            exact ⟨⟨q2.1, q3.1⟩, p4.1, hlt _ hHm⟩
          · refine ⟨?_, ?_⟩
            · intro q hq
              simp only [List.mem_cons, List.not_mem_nil, or_false] at hq
              rcases hq with rfl | rfl
              · exact l1.trans n2
              · exact (l1.trans l2).trans n3
            · intro q hq
              rcases List.mem_cons.mp hq with rfl | hq
              · exact (k1.trans k14).trans n4
              · exact r1.new q hq
          · refine ⟨?_, ?_⟩
            · dsimp only
              intro e
              rw [e] at g1
              exact absurd g1 (not_lt.mpr n3)
            · rw [List.nodup_cons]
              refine ⟨fun hm => ?_, r1.nodup⟩
              have := lt_of_lt_of_le (r1.lt _ hm) k14
              exact absurd this (not_lt.mpr n4)

theorem runSetupH_refines {E₂ : Type} (sha : Bytes → Bytes) (rnds : List CastRand) (h : HS Int × HS E₂)
    {m : HM2 Int E₂ (Except String (PublicParamsH Int E₂))} {o : Option (Except String (PublicParams Int E₂))}
    (hs : Spec2 h m o (fun h' => ExRel (SetupRel h h'))) :
    SpecO h (runSetupH sha rnds (m h)) (runSetup sha rnds o) (fun _ a b => a = b) := by
  cases o with
  | none =>
    have hs : m h = none := hs
    rw [hs]; rfl
  | some v =>
    obtain ⟨a, h1, e, f, r⟩ := hs
    rw [e]
    cases v with
    | error e' =>
      cases a with
      | error e => exact ⟨_, h1, rfl, f, congrArg Report.skipped r⟩
      | ok a => exact r.elim
    | ok pp =>
      cases a with
      | error e => exact r.elim
      | ok a =>
        have r : SetupRel h h1 a pp := r
        have hb := benchLoopH_refines sha a rnds true h1 r.live
        rw [r.deref] at hb
        unfold runSetupH runSetup
        dsimp only
        cases hv : benchLoop sha pp rnds true with
        | running =>
          rw [hv] at hb
          have hb : benchLoopH sha a rnds true h1 = .running := hb
          rw [hb]; rfl
        | panic =>
          rw [hv] at hb
          have hb : benchLoopH sha a rnds true h1 = .panic := hb
          rw [hb]; rfl
        | done s =>
          rw [hv] at hb
          obtain ⟨s', h2, e2, f2, rfl⟩ := hb
          rw [e2]
          exact ⟨_, h2, rfl, f.trans f2, rfl⟩

theorem sigmaAbortsH_refines {E₁ E₂ : Type} (sha : Bytes → Bytes) (params : ProofParamsH E₁ E₂) (secret rp rq1 rq2 : Int)
    (tape : List SigmaSample) : ∀ h : HS E₁ × HS E₂, params.Live h →
    sigmaAbortsH sha params secret rp rq1 rq2 tape h = sigmaAborts sha (params.deref h) secret rp rq1 rq2 tape := by
  induction tape with
  | nil => intro h _; rfl
  | cons s tape ih =>
    intro h hl
    have hs := Spec2.sigmaAttempt sha params secret rp rq1 rq2 s hl
    unfold sigmaAbortsH sigmaAborts
    cases ho : MscPoc.sigmaAttempt sha (params.deref h) secret rp rq1 rq2 s with
    | none =>
      rw [ho] at hs
      have hs : HM2.sigmaAttempt sha params secret rp rq1 rq2 s h = none := hs
      rw [hs]
    | some o =>
      rw [ho] at hs
      obtain ⟨a, h', e, f, r⟩ := hs
      rw [e]
      rcases a with _ | p <;> rcases o with _ | v
      · have := ih h' (hl.mono f)
        rw [ProofParamsH.deref_frame hl f] at this
        dsimp only
        rw [this]
      · exact r.elim
      · exact r.elim
      · rfl

theorem castAborts_split {E₁ E₂ : Type} (sha : Bytes → Bytes) (pp : PublicParams E₁ E₂) (rnd : CastRand) :
    castAborts sha pp rnd = match castHeadV sha pp rnd with
      | none => 0
      | some ((choice, _), rp, rq1, rq2inv) =>
        sigmaAborts sha pp.RPParams (choice.toNat : Int) rp rq1 rq2inv rnd.tape := by
  unfold castAborts castHeadV drawChoice
  split_ifs with h0
  · rfl
  · dsimp only
    cases e1 : encryptVote pp.FFGroupParams.I pp.EGPK (UInt16.ofNat rnd.rChoice.toNat + pp.candidateMin) rnd.rEnc with
    | none => rfl
    | some ct =>
      obtain ⟨ct, rp⟩ := ct
      simp only [Option.bind_eq_bind, Option.bind_some]
      cases e2 : bpProve sha pp.BPParams rnd.bp1
          ((UInt16.ofNat rnd.rChoice.toNat + pp.candidateMin - pp.candidateMin).toNat : Int) with
      | none => rfl
      | some r1 =>
        simp only [Option.bind_some]
        rcases r1 with _ | ⟨bp1, rq1⟩
        · rfl
        · dsimp only
          cases e3 : bpProve sha pp.BPParams rnd.bp2
              ((pp.candidateMax - (UInt16.ofNat rnd.rChoice.toNat + pp.candidateMin)).toNat : Int) with
          | none => rfl
          | some r2 =>
            simp only [Option.bind_some]
            rcases r2 with _ | ⟨bp2, rq2⟩
            · rfl
            · dsimp only
              cases pp.ECGroupParams.N <;> rfl

theorem castAbortsH_refines {E₁ E₂ : Type} (sha : Bytes → Bytes) (pp : PublicParamsH E₁ E₂) (rnd : CastRand)
    (h : HS E₁ × HS E₂) (hl : pp.Live h) : castAbortsH sha pp rnd h = castAborts sha (pp.deref h) rnd := by
  rw [castAborts_split]
  unfold castAbortsH
  have hs := Spec2.castHead sha pp rnd hl
  cases ho : castHeadV sha (pp.deref h) rnd with
  | none =>
    rw [ho] at hs
    have hs : HM2.castHead sha pp rnd h = none := hs
    rw [hs]
  | some b =>
    rw [ho] at hs
    obtain ⟨⟨⟨choice, U, V, bp1, bp2⟩, rp, rq1, rq2⟩, h1, e, f, r⟩ := hs
    obtain ⟨⟨choicev, ct, bp1v, bp2v⟩, rpv, rq1v, rq2v⟩ := b
    have hc : choice = choicev := r.choice
    have hr : (rp, rq1, rq2) = (rpv, rq1v, rq2v) := r.rest
    simp only [Prod.mk.injEq] at hr
    obtain ⟨rfl, rfl, rfl⟩ := hr
    subst hc
    rw [e]
    dsimp only
    rw [sigmaAbortsH_refines sha pp.RPParams (choice.toNat : Int) rp rq1 rq2 rnd.tape h1 (hl.2.2.2.2.mono f),
      ProofParamsH.deref_frame hl.2.2.2.2 f]
    rfl

theorem benchAbortsH_refines {E₁ E₂ : Type} (sha : Bytes → Bytes) (pp : PublicParamsH E₁ E₂) (rnds : List CastRand) :
    ∀ h : HS E₁ × HS E₂, pp.Live h → benchAbortsH sha pp rnds h = benchAborts sha (pp.deref h) rnds := by
  induction rnds with
  | nil => intro h _; rfl
  | cons rnd rnds ih =>
    intro h hl
    unfold benchAbortsH benchAborts
    rw [castAbortsH_refines sha pp rnd h hl]
    have hc := castVoteH_refines sha pp rnd h hl
    cases ho : castVote sha (pp.deref h) rnd with
    | running =>
      rw [ho] at hc
      have hc : castVoteH sha pp rnd h = .running := hc
      rw [hc]
    | panic =>
      rw [ho] at hc
      have hc : castVoteH sha pp rnd h = .panic := hc
      rw [hc]
    | done v =>
      rw [ho] at hc
      obtain ⟨b, h1, e1, f1, r1⟩ := hc
      rw [e1]
      dsimp only
      have hv := Spec2.verifyVote sha b pp.RPParams r1.live
      rw [r1.deref, ProofParamsH.deref_frame hl.2.2.2.2 f1] at hv
      have hd : (pp.deref h).RPParams = pp.RPParams.deref h := rfl
      rw [hd]
      cases hvo : verifyVote sha v (pp.RPParams.deref h) with
      | none =>
        rw [hvo] at hv
        have hv : HM2.verifyVote sha b pp.RPParams h1 = none := hv
        rw [hv]
      | some out =>
        rw [hvo] at hv
        obtain ⟨out', h2, e2, f2, rfl⟩ := hv
        rw [e2]
        dsimp only
        have f02 := f1.trans f2
        have := ih h2 (hl.mono f02)
        rw [PublicParamsH.deref_frame hl f02] at this
        cases out'.times[0]? with
        | none => rfl
        | some a =>
          cases out'.times[1]? with
          | none => rfl
          | some b => dsimp only; rw [this]

theorem setupAbortsH_refines {E₂ : Type} (sha : Bytes → Bytes) (rnds : List CastRand) (h : HS Int × HS E₂)
    {m : HM2 Int E₂ (Except String (PublicParamsH Int E₂))} {o : Option (Except String (PublicParams Int E₂))}
    (hs : Spec2 h m o (fun h' => ExRel (SetupRel h h'))) : setupAbortsH sha rnds (m h) = setupAborts sha rnds o := by
  cases o with
  | none =>
    have hs : m h = none := hs
    rw [hs]; rfl
  | some v =>
    obtain ⟨a, h1, e, f, r⟩ := hs
    rw [e]
    cases v with
    | error e' =>
      cases a with
      | error e => rfl
      | ok a => exact r.elim
    | ok pp =>
      cases a with
      | error e => exact r.elim
      | ok a =>
        have r : SetupRel h h1 a pp := r
        show benchAbortsH sha a rnds h1 = benchAborts sha pp rnds
        rw [benchAbortsH_refines sha a rnds h1 r.live, r.deref]

theorem printGroupH_refines {E₂ : Type} (first : Bool) (name : String) (d : Durations) (n : Nat) (h : HS Int × HS E₂)
    (restH : HS Int → List String × Status) (rest : List String × Status) (hrest : ∀ h, restH h = rest)
    {r : Outcome (Report × (HS Int × HS E₂))} {o : Outcome Report} (hs : SpecO h r o (fun _ a b => a = b)) :
    printGroupH first name d n restH r = printGroup first name d n rest o := by
  cases o with
  | running =>
    have hs : r = .running := hs
    rw [hs]; rfl
  | panic =>
    have hs : r = .panic := hs
    rw [hs]; rfl
  | done rep =>
    obtain ⟨rep', h', e, _, rfl⟩ := hs
    rw [e, printGroupH, printGroup, hrest]

section
attribute [local irreducible] SpecO Spec2

theorem runGroupH_refines {E₂ : Type} (sha : Bytes → Bytes) (nan64 : BitVec 64) (C : Grp E₂) (rnds : List CastRand)
    (h : HS Int × HS E₂) (r : Outcome Report) (hr : runGroup sha nan64 C rnds = r) :
    SpecO h (runGroupH sha nan64 C rnds h) r (fun _ a b => a = b) := by
  have key : ∀ o, MscPoc.setup nan64 C = o →
      SpecO h (runSetupH sha rnds (HM2.setup nan64 C h)) (runSetup sha rnds o) (fun _ a b => a = b) :=
    fun o ho => runSetupH_refines sha rnds h (Spec2.setup nan64 C h o ho)
  rw [← hr, runGroup, runGroupH]
  exact key _ (Eq.refl _)

theorem groupAbortsH_refines {E₂ : Type} (sha : Bytes → Bytes) (nan64 : BitVec 64) (C : Grp E₂) (rnds : List CastRand)
    (h : HS Int × HS E₂) : groupAbortsH sha nan64 C rnds h = groupAborts sha nan64 C rnds := by
  have key : ∀ o, MscPoc.setup nan64 C = o →
      setupAbortsH sha rnds (HM2.setup nan64 C h) = setupAborts sha rnds o :=
    fun o ho => setupAbortsH_refines sha rnds h (Spec2.setup nan64 C h o ho)
  rw [groupAborts, groupAbortsH]
  exact key _ (Eq.refl _)

theorem groupsLoopH_refines (sha : Bytes → Bytes) (nan64 : BitVec 64) (rs : List GroupRunH) : ∀ (first : Bool) (h : HS Int),
    groupsLoopH sha nan64 first rs h = groupsLoop sha nan64 first (rs.map GroupRunH.run) := by
  induction rs with
  | nil => intro first h; rw [List.map_nil, groupsLoopH, groupsLoop]
  | cons r rs ih =>
    intro first h
    rw [List.map_cons, groupsLoopH, groupsLoop, groupAbortsH_refines]
    exact printGroupH_refines first r.run.g.name r.run.dur _ (h, r.heap) _ _ (ih false)
      (runGroupH_refines sha nan64 r.run.g r.run.tapes (h, r.heap) _ (Eq.refl _))

end

end MscPoc
