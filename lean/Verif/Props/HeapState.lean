import Verif.Lemmas.HeapCast
import Verif.Props.State
import Verif.Props.Driver

/-!
# C58 — proving, casting and serving requests share elements but change none
-/

set_option autoImplicit false

namespace MscPoc

/-- no cell that was allocated in `h` has another content in `h'` -/
def Unchanged {E : Type} (h h' : HS E) : Prop := h.next ≤ h'.next ∧ ∀ i < h.next, h'.el i = h.el i

/-- which elements a fresh range proof owns, and which it shares with the parameters it was made from -/
structure Ownership {E : Type} (h h' : HS E) (params : BPParamsH) (pf : BulletProofH) : Prop where
  /-- every element it refers to exists -/
  live : ∀ q ∈ pf.ptrs, q < h'.next
  /-- its own elements were allocated by the call -/
  own : ∀ q ∈ [pf.V, pf.A, pf.S, pf.T1, pf.T2, pf.ip.P, pf.ip.Uu] ++ pf.ip.L ++ pf.ip.R ++ pf.ip.Hh.tail, h.next ≤ q
  /-- the rest is shared: the generators, and the first of the updated generators -/
  shared : pf.G = params.G ∧ pf.H = params.H ∧ pf.Gg = params.Gg ∧ pf.Hh = params.Hh ∧ pf.ip.Gg = params.Gg ∧
    pf.ip.Hh.head? = params.Hh.head?

theorem Fr.unchanged {E : Type} {h h' : HS E} (f : Fr noW h h') : Unchanged h h' := ⟨f.1, fun i hi => f.2 i hi noW.not⟩

theorem BPRel.ownership {E : Type} {GP : Grp E} {h h' : HS E} {params : BPParamsH} {p : BulletProofH} {v : BulletProof E}
    (r : BPRel GP h params h' p v) : Ownership h h' params p where
  live := r.lt
  own := fun q hq => r.new q (by simpa [List.mem_append, or_assoc] using hq)
  shared := ⟨r.G, r.H, r.Gg, r.Hh, r.ipGg, r.ipHh⟩

/-- **C58** `bulletproofs.Prove` with its in-place accumulators and shared generators: it panics or returns an error exactly
when the function of the values does; the contents of the proof it returns are the proof the values determine; no element
that existed before is changed. -/
theorem C58_prove {E : Type} (GP : Grp E) (sha : Bytes → Bytes) (params : BPParamsH) (rnd : BPRand) (secret : Int) (h : HS E)
    (hl : ∀ p ∈ params.ptrs, p < h.next) :
    (HM.bpProve GP sha params rnd secret h = none ↔ bpProve sha (params.deref GP h) rnd secret = none) ∧
    (∀ e h', HM.bpProve GP sha params rnd secret h = some (.error e, h') →
      bpProve sha (params.deref GP h) rnd secret = some (.error e) ∧ Unchanged h h') ∧
    ∀ pf gamma h', HM.bpProve GP sha params rnd secret h = some (.ok (pf, gamma), h') →
      bpProve sha (params.deref GP h) rnd secret = some (.ok (pf.deref GP h', gamma)) ∧ Unchanged h h' ∧
      Ownership h h' params pf := by
  have hs := Spec.bpProve GP sha params rnd secret hl
  cases hv : bpProve sha (params.deref GP h) rnd secret with
  | none =>
    rw [hv] at hs
    have hs : HM.bpProve GP sha params rnd secret h = none := hs
    rw [hs]
    simp
  | some r =>
    rw [hv] at hs
    obtain ⟨a, h', e, f, rel⟩ := hs
    rw [e]
    refine ⟨by simp, ?_, ?_⟩
    · rintro er h'' heq
      simp only [Option.some.injEq, Prod.mk.injEq] at heq
      obtain ⟨rfl, rfl⟩ := heq
      cases r with
      | error e' => rw [show er = e' from rel]; exact ⟨rfl, f.unchanged⟩
      | ok b => exact rel.elim
    · rintro pf gamma h'' heq
      simp only [Option.some.injEq, Prod.mk.injEq] at heq
      obtain ⟨rfl, rfl⟩ := heq
      cases r with
      | error e' => exact rel.elim
      | ok b =>
        obtain ⟨b, g⟩ := b
        obtain ⟨r1, r2⟩ := rel
        have r1 : BPRel GP h params h' pf b := r1
        have r2 : gamma = g := r2
        rw [r1.deref, r2]
        exact ⟨rfl, f.unchanged, r1.ownership⟩

variable {E₁ E₂ : Type}

/-- **C58** `castVote` on shared parameters: the same kind of end, the contents of the ballot are the ballot the values
determine, no element that existed before is changed, and the ballot owns its ciphertext and its commitments. -/
theorem C58_cast (sha : Bytes → Bytes) (pp : PublicParamsH E₁ E₂) (rnd : CastRand) (h : HS E₁ × HS E₂) (hl : pp.Live h) :
    (castVoteH sha pp rnd h = .panic ↔ castVote sha (pp.deref h) rnd = .panic) ∧
    (castVoteH sha pp rnd h = .running ↔ castVote sha (pp.deref h) rnd = .running) ∧
    ∀ b h', castVoteH sha pp rnd h = .done (b, h') →
      castVote sha (pp.deref h) rnd = .done (b.deref h') ∧ (Unchanged h.1 h'.1 ∧ Unchanged h.2 h'.2) ∧
      b.Live h' ∧ pp.deref h' = pp.deref h ∧
      (h.1.next ≤ b.U ∧ h.1.next ≤ b.V ∧ h.1.next ≤ b.VoteProof.W ∧ h.1.next ≤ b.VoteProof.Kp ∧
        h.2.next ≤ b.VoteProof.Kq1 ∧ h.2.next ≤ b.VoteProof.Kq2) ∧
      Ownership h.2 h'.2 pp.BPParams b.BpLower ∧ Ownership h.2 h'.2 pp.BPParams b.BpUpper := by
  have hs := castVoteH_refines sha pp rnd h hl
  cases hv : castVote sha (pp.deref h) rnd with
  | running =>
    rw [hv] at hs
    have hs : castVoteH sha pp rnd h = .running := hs
    rw [hs]
    simp
  | panic =>
    rw [hv] at hs
    have hs : castVoteH sha pp rnd h = .panic := hs
    rw [hs]
    simp
  | done v =>
    rw [hv] at hs
    obtain ⟨b, h', e, f, r⟩ := hs
    rw [e]
    refine ⟨by simp, by simp, ?_⟩
    rintro b' h'' heq
    simp only [Outcome.done.injEq, Prod.mk.injEq] at heq
    obtain ⟨rfl, rfl⟩ := heq
    rw [r.deref]
    exact ⟨rfl, ⟨f.1.unchanged, f.2.unchanged⟩, r.live, PublicParamsH.deref_frame hl f,
      ⟨r.new.1, r.new.2, r.sigma.new.1.1, r.sigma.new.1.2, r.sigma.new.2.1, r.sigma.new.2.2⟩, r.lo.ownership, r.up.ownership⟩

/-- **C58** `verifyVote` on a ballot that shares elements with anything: verdict and durations are those of its contents, and
no element that existed before is changed. -/
theorem C58_verify_vote (sha : Bytes → Bytes) (b : BallotDataH E₁ E₂) (rp : ProofParamsH E₁ E₂) (h : HS E₁ × HS E₂)
    (hb : b.Live h) :
    (HM2.verifyVote sha b rp h = none ↔ verifyVote sha (b.deref h) (rp.deref h) = none) ∧
    ∀ out h', HM2.verifyVote sha b rp h = some (out, h') →
      verifyVote sha (b.deref h) (rp.deref h) = some out ∧ Unchanged h.1 h'.1 ∧ Unchanged h.2 h'.2 := by
  have hs := Spec2.verifyVote sha b rp hb
  cases hv : verifyVote sha (b.deref h) (rp.deref h) with
  | none =>
    rw [hv] at hs
    have hs : HM2.verifyVote sha b rp h = none := hs
    rw [hs]
    simp
  | some out =>
    rw [hv] at hs
    obtain ⟨out', h', e, f, rfl⟩ := hs
    rw [e]
    refine ⟨by simp, ?_⟩
    rintro out h'' heq
    simp only [Option.some.injEq, Prod.mk.injEq] at heq
    obtain ⟨rfl, rfl⟩ := heq
    exact ⟨rfl, f.1.unchanged, f.2.unchanged⟩

/-- **C58** The loop of the driver over shared heaps ends as the loop over values does, with the same `success`. -/
theorem C58_driver (sha : Bytes → Bytes) (pp : PublicParamsH E₁ E₂) (rnds : List CastRand) (success : Bool)
    (h : HS E₁ × HS E₂) (hl : pp.Live h) :
    (benchLoopH sha pp rnds success h = .panic ↔ benchLoop sha (pp.deref h) rnds success = .panic) ∧
    (benchLoopH sha pp rnds success h = .running ↔ benchLoop sha (pp.deref h) rnds success = .running) ∧
    ∀ s, (∃ h', benchLoopH sha pp rnds success h = .done (s, h')) ↔ benchLoop sha (pp.deref h) rnds success = .done s := by
  have hs := benchLoopH_refines sha pp rnds success h hl
  cases hv : benchLoop sha (pp.deref h) rnds success with
  | running =>
    rw [hv] at hs
    have hs : benchLoopH sha pp rnds success h = .running := hs
    rw [hs]
    simp
  | panic =>
    rw [hv] at hs
    have hs : benchLoopH sha pp rnds success h = .panic := hs
    rw [hs]
    simp
  | done v =>
    rw [hv] at hs
    obtain ⟨b, h', e, f, rfl⟩ := hs
    rw [e]
    simp

/-- **C58** Any interleaving of casting and verifying, over ballots that share generators and parameters, gives the ballots
and the verdicts that the same requests give on values. -/
theorem C58_history (sha : Bytes → Bytes) (pp : PublicParamsH E₁ E₂) (rs : List Req) (bs : List (BallotDataH E₁ E₂))
    (h : HS E₁ × HS E₂) (hl : pp.Live h) (hb : ∀ b ∈ bs, b.Live h) :
    (serveH sha pp rs bs h = .panic ↔ serve sha (pp.deref h) rs (bs.map (BallotDataH.deref h)) = .panic) ∧
    (serveH sha pp rs bs h = .running ↔ serve sha (pp.deref h) rs (bs.map (BallotDataH.deref h)) = .running) ∧
    ∀ bs' outs h', serveH sha pp rs bs h = .done ((bs', outs), h') →
      serve sha (pp.deref h) rs (bs.map (BallotDataH.deref h)) = .done (bs'.map (BallotDataH.deref h'), outs) ∧
      (∀ b ∈ bs', b.Live h') ∧ Unchanged h.1 h'.1 ∧ Unchanged h.2 h'.2 := by
  have hs := serveH_refines sha pp rs bs h hl hb
  cases hv : serve sha (pp.deref h) rs (bs.map (BallotDataH.deref h)) with
  | running =>
    rw [hv] at hs
    have hs : serveH sha pp rs bs h = .running := hs
    rw [hs]
    simp
  | panic =>
    rw [hv] at hs
    have hs : serveH sha pp rs bs h = .panic := hs
    rw [hs]
    simp
  | done v =>
    rw [hv] at hs
    obtain ⟨⟨b1, o1⟩, h', e, f, r1, r2, r3⟩ := hs
    rw [e]
    refine ⟨by simp, by simp, ?_⟩
    rintro bs' outs h'' heq
    simp only [Outcome.done.injEq, Prod.mk.injEq] at heq
    obtain ⟨⟨rfl, rfl⟩, rfl⟩ := heq
    obtain ⟨v1, v2⟩ := v
    dsimp only at r1 r2 r3
    rw [r1, r3]
    exact ⟨rfl, r2, f.1.unchanged, f.2.unchanged⟩

/-- requests on values when every cast ballot verifies -/
theorem serve_good (sha : Bytes → Bytes) (pp : PublicParams E₁ E₂) (P : CastRand → Prop) (good : VerifyOut)
    (h1 : ∀ rnd, P rnd → castVote sha pp rnd ≠ .panic)
    (h2 : ∀ rnd b, P rnd → castVote sha pp rnd = .done b → verifyVote sha b pp.RPParams = some good) (rs : List Req)
    (hr : ∀ rnd, Req.cast rnd ∈ rs → P rnd) :
    ∀ bs : List (BallotData E₁ E₂), (∀ b ∈ bs, verifyVote sha b pp.RPParams = some good) →
      serve sha pp rs bs ≠ .panic ∧ ∀ bs' outs, serve sha pp rs bs = .done (bs', outs) → ∀ o ∈ outs, o = good := by
  induction rs with
  | nil => intro bs _; simp [serve]
  | cons r rs ih =>
    have ih := ih (fun rnd hm => hr rnd (by simp [hm]))
    intro bs hb
    cases r with
    | cast rnd =>
      have hP := hr rnd (by simp)
      unfold serve
      cases hc : castVote sha pp rnd with
      | running => simp
      | panic => exact absurd hc (h1 rnd hP)
      | done b =>
        refine ih (bs ++ [b]) ?_
        intro x hx
        rcases List.mem_append.mp hx with hx | hx
        · exact hb x hx
        · rw [List.mem_singleton.mp hx]; exact h2 rnd b hP hc
    | verify i =>
      unfold serve
      cases hi : bs[i]? with
      | none => exact ih bs hb
      | some b =>
        dsimp only
        rw [hb b (List.mem_of_getElem? hi)]
        dsimp only
        obtain ⟨i1, i2⟩ := ih bs hb
        cases hs : serve sha pp rs bs with
        | running => simp
        | panic => exact absurd hs i1
        | done r =>
          obtain ⟨b1, o1⟩ := r
          refine ⟨by simp, ?_⟩
          rintro bs' outs heq o ho
          simp only [Outcome.done.injEq, Prod.mk.injEq] at heq
          obtain ⟨rfl, rfl⟩ := heq
          rcases List.mem_cons.mp ho with rfl | ho
          · rfl
          · exact i2 _ _ hs o ho

/-- **C58** In a process that holds the parameters `setup` builds, no request panics (unless a challenge of a range proof is a
zero divisor) and every ballot cast is accepted every
time it is verified, whatever was cast or verified in between. -/
theorem C58_deployed_history {E : Type} (sha : Bytes → Bytes) (hsha : ∀ m, (sha m).length = 32)
    (nan64 : BitVec 64) (C : Grp E) (N bits : ℕ) (Bb : Int) (hr : (N, bits, Bb) ∈ curveTable)
    {M : Type} [AddCommGroup M] [Module (ZMod N) M] (L₂ : Lawful C N M)
    (hmap : ∀ s, SetupSeed 16 s → ∃ e, C.mapToGroup s = some e ∧ L₂.V e)
    (pp : PublicParamsH Int E) (h : HS Int × HS E) (hl : pp.Live h) (hpp : setup nan64 C = some (.ok (pp.deref h)))
    (rs : List Req) (hd : ∀ rnd, Req.cast rnd ∈ rs → CastDrawn bits rnd)
    (hs : ∀ rnd, Req.cast rnd ∈ rs → CastRunOK sha (pp.deref h) rnd) :
    serveH sha pp rs [] h ≠ .panic ∧
    ∀ bs' outs h', serveH sha pp rs [] h = .done ((bs', outs), h') → ∀ o ∈ outs, o = { result := true, times := [0, 0] } := by
  obtain ⟨pp1, e1, g1, _⟩ := C54_cast_completes sha hsha nan64 C N bits Bb hr L₂ hmap
  obtain ⟨pp2, e2, g2⟩ := C47_deployment_accepts sha nan64 C N bits Bb hr L₂ hmap
  rw [hpp] at e1 e2
  simp only [Option.some.injEq, Except.ok.injEq] at e1 e2
  subst e1 e2
  obtain ⟨c1, _, c3⟩ := C58_history sha pp rs [] h hl (by simp)
  obtain ⟨s1, s2⟩ := serve_good sha (pp.deref h) (fun rnd => CastDrawn bits rnd ∧ CastRunOK sha (pp.deref h) rnd)
    { result := true, times := [0, 0] } (fun rnd hP => (g1 rnd hP.1 hP.2).1)
    (fun rnd b hP hc => g2 rnd b hP.1.choice hP.1.lens hP.1.masks hc) rs (fun rnd hm => ⟨hd rnd hm, hs rnd hm⟩) [] (by simp)
  refine ⟨fun hp => s1 (c1.mp hp), fun bs' outs h' hdone => ?_⟩
  exact s2 _ _ (c3 bs' outs h' hdone).1

/-! ## The hypotheses are met -/

/-- `[G, H, PK]` of the first group and `[G, H, g.., h..]` of the second, for the toy election -/
def exHeaps : HS Int × HS Int := (layout [1, 13, 13], layout [1, 7, 3, 5, 7, 9, 2, 4, 8, 16])

/-- pointers into `exHeaps`; `H` of the curve is shared by three records, as after `setup` -/
def exPPH : PublicParamsH Int Int where
  FFGroupParams := { G := 0, H := 1, N := some 2039, F := some 2039, I := toyGrp 2039 }
  ECGroupParams := { G := 0, H := 1, N := some 1031, F := some 2039, I := toyGrp 1031 }
  EGPK := 2
  candidateMin := 3
  candidateMax := 9
  GP := toyGrp 1031
  BPParams := { N := 4, G := 0, H := 1, Gg := [2, 3, 4, 5], Hh := [6, 7, 8, 9] }
  RPParams := { Bx := 1, Bc := 8, Bg := 11, Bb := 1, RangeLo := 3, RangeHi := 9,
                GFF := { G := 0, H := 1, N := some 2039, F := some 2039, I := toyGrp 2039 },
                GEC := { G := 0, H := 1, N := some 1031, F := some 2039, I := toyGrp 1031 } }

theorem exPPH_live : exPPH.Live exHeaps := by
  refine ⟨⟨by decide, by decide⟩, ⟨by decide, by decide⟩, by decide, by decide, ⟨by decide, by decide⟩, by decide, by decide⟩

/-- casting twice and verifying in a mixed order -/
def exReqs : List Req := [.cast exCast, .verify 0, .cast { exCast with rChoice := 1 }, .verify 1, .verify 0, .verify 7]

/-- The requests are served on the shared heaps: two ballots are held, all verdicts are positive, and the generators of
both ballots are the same cells. -/
example : ∃ bs outs h', serveH exSha3 exPPH exReqs [] exHeaps = .done ((bs, outs), h') ∧ bs.length = 2 ∧
    outs = [⟨true, [0, 0]⟩, ⟨true, [0, 0]⟩, ⟨true, [0, 0]⟩] := by
  have hs := serveH_refines exSha3 exPPH exReqs [] exHeaps exPPH_live (by simp)
  have hv : (match serve exSha3 (exPPH.deref exHeaps) exReqs [] with
    | .done (bs, outs) => bs.length == 2 && outs == [⟨true, [0, 0]⟩, ⟨true, [0, 0]⟩, ⟨true, [0, 0]⟩]
    | _ => false) = true := by decide +kernel
  rw [List.map_nil] at hs
  cases hr : serve exSha3 (exPPH.deref exHeaps) exReqs [] with
  | running => rw [hr] at hv; simp at hv
  | panic => rw [hr] at hv; simp at hv
  | done r =>
    rw [hr] at hs hv
    obtain ⟨⟨bs, outs⟩, h', e, _, r1, _, r2⟩ := hs
    obtain ⟨b1, o1⟩ := r
    dsimp only at r1 r2 hv
    rw [Bool.and_eq_true, beq_iff_eq, beq_iff_eq] at hv
    refine ⟨bs, outs, h', e, ?_, r2.trans hv.2⟩
    rw [← hv.1, ← r1, List.length_map]

/-- C54: the loop reports success for two honest votes, failure when the encryption key is not the one of the parameters, and
panics when there is no candidate number to draw. -/
example : (match benchLoop exSha3 (exPPH.deref exHeaps) [exCast, { exCast with rChoice := 1 }] true with
      | .done b => b | _ => false) = true ∧
    (match benchLoop exSha3 { exPPH.deref exHeaps with EGPK := 14 } [exCast, { exCast with rChoice := 1 }] true with
      | .done b => !b | _ => false) = true ∧
    (match benchLoop exSha3 { exPPH.deref exHeaps with candidateMax := 3 } [exCast] true with
      | .panic => true | _ => false) = true := by
  refine ⟨by decide +kernel, by decide +kernel, by decide +kernel⟩

end MscPoc
