import Verif.Lemmas.HeapMulti
import Verif.Spec.BpHistory
import Verif.Props.HeapState
import Verif.Props.MultiCrash

/-!
# C94 — aggregated proofs share elements with the parameters but change none
-/

set_option autoImplicit false

namespace MscPoc

variable {E : Type}

/-- which elements a fresh aggregated proof owns, and which it shares with the parameters it was made from -/
structure MultiOwnership (h h' : HS E) (params : BPParamsH) (pf : MultiProofH) : Prop where
  /-- every element it refers to exists -/
  live : ∀ q ∈ pf.ptrs, q < h'.next
  /-- its own elements were allocated by the call -/
  own : ∀ q ∈ [pf.A, pf.S, pf.T1, pf.T2, pf.ip.P, pf.ip.Uu] ++ pf.Vs ++ pf.ip.L ++ pf.ip.R ++ pf.ip.Hh.tail, h.next ≤ q
  /-- the rest is shared: the parameters, and the first of the updated generators -/
  shared : pf.Params = params ∧ pf.ip.Gg = params.Gg ∧ pf.ip.Hh.head? = params.Hh.head?

theorem MultiRel.ownership {GP : Grp E} {h h' : HS E} {params : BPParamsH} {p : MultiProofH} {v : MultiBulletProof E}
    (r : MultiRel GP h params h' p v) : MultiOwnership h h' params p where
  live := r.lt
  own := fun q hq => r.new q (by simpa [List.mem_append, or_assoc] using hq)
  shared := ⟨r.Params, r.ipGg, r.ipHh⟩

/-- **C94** `MultiProve` with its in-place accumulators and shared generators: it panics or returns an error exactly when the function
of the values does; the contents of the proof it returns are the proof the values determine; no element that existed before is
changed. -/
theorem C94_prove (GP : Grp E) (sha : Bytes → Bytes) (params : BPParamsH) (rnd : MultiRand) (secrets : List Int) (h : HS E)
    (hl : ∀ p ∈ params.ptrs, p < h.next) :
    (HM.multiProve GP sha params rnd secrets h = none ↔ multiProve sha (params.deref GP h) rnd secrets = none) ∧
    (∀ e h', HM.multiProve GP sha params rnd secrets h = some (.error e, h') →
      multiProve sha (params.deref GP h) rnd secrets = some (.error e) ∧ Unchanged h h') ∧
    ∀ pf gammas h', HM.multiProve GP sha params rnd secrets h = some (.ok (pf, gammas), h') →
      multiProve sha (params.deref GP h) rnd secrets = some (.ok (pf.deref GP h', gammas)) ∧ Unchanged h h' ∧
      MultiOwnership h h' params pf := by
  have hs := Spec.multiProve GP sha params rnd secrets hl
  cases hv : multiProve sha (params.deref GP h) rnd secrets with
  | none =>
    rw [hv] at hs
    have hs : HM.multiProve GP sha params rnd secrets h = none := hs
    rw [hs]
    simp
  | some r =>
    rw [hv] at hs
    obtain ⟨a, h', e, f, rel⟩ := hs
    rw [e]
    refine ⟨by simp, ?_, ?_⟩
    · rintro er h'' heq
      simp only [Option.some.injEq, Prod.mk.injEq] at heq
      obtain ⟨rfl, rfl⟩ := heq
      cases r with
      | error e' => rw [show er = e' from rel]; exact ⟨rfl, f.unchanged⟩
      | ok v => exact (show False from rel).elim
    · rintro pf g h'' heq
      simp only [Option.some.injEq, Prod.mk.injEq] at heq
      obtain ⟨rfl, rfl⟩ := heq
      cases r with
      | error e' => exact (show False from rel).elim
      | ok v =>
        obtain ⟨r1, r2⟩ : MultiRel GP h params h' pf v.1 ∧ g = v.2 := rel
        refine ⟨?_, f.unchanged, r1.ownership⟩
        rw [r1.deref, r2]

/-- **C94** `MultiBulletProof.Verify`, which accumulates `rhs`, `prod`, `lP` and `rP` in place: for every proof that refers to existing
elements, however they are shared, it panics exactly when the function of the contents does, and otherwise has the three results that
function has; no element that existed before is changed. -/
theorem C94_verify (GP : Grp E) (sha : Bytes → Bytes) (pf : MultiProofH) (h : HS E) (hl : ∀ p ∈ pf.ptrs, p < h.next) :
    (pf.checks GP sha h = none ↔ (pf.deref GP h).checks sha = none) ∧
    (∀ c h', pf.checks GP sha h = some (c, h') → (pf.deref GP h).checks sha = some c ∧ Unchanged h h') ∧
    (pf.verify GP sha h = none ↔ (pf.deref GP h).verify sha = none) ∧
    ∀ b h', pf.verify GP sha h = some (b, h') → (pf.deref GP h).verify sha = some b ∧ Unchanged h h' := by
  have hc := multiChecks_refines GP sha pf h hl
  have hs := multiVerify_refines GP sha pf h hl
  refine ⟨?_, ?_, ?_, ?_⟩
  · cases hv : (pf.deref GP h).checks sha with
    | none => rw [hv] at hc; exact ⟨fun _ => rfl, fun _ => hc⟩
    | some r => rw [hv] at hc; obtain ⟨a, h', e, _, _⟩ := hc; rw [e]; simp
  · intro c h' e
    cases hv : (pf.deref GP h).checks sha with
    | none => rw [hv] at hc; rw [show pf.checks GP sha h = none from hc] at e; simp at e
    | some r =>
      rw [hv] at hc
      obtain ⟨a, h'', e', f, rfl⟩ := hc
      rw [e'] at e
      simp only [Option.some.injEq, Prod.mk.injEq] at e
      obtain ⟨rfl, rfl⟩ := e
      exact ⟨rfl, f.unchanged⟩
  · cases hv : (pf.deref GP h).verify sha with
    | none => rw [hv] at hs; exact ⟨fun _ => rfl, fun _ => hs⟩
    | some r => rw [hv] at hs; obtain ⟨a, h', e, _, _⟩ := hs; rw [e]; simp
  · intro c h' e
    cases hv : (pf.deref GP h).verify sha with
    | none => rw [hv] at hs; rw [show pf.verify GP sha h = none from hs] at e; simp at e
    | some r =>
      rw [hv] at hs
      obtain ⟨a, h'', e', f, rfl⟩ := hs
      rw [e'] at e
      simp only [Option.some.injEq, Prod.mk.injEq] at e
      obtain ⟨rfl, rfl⟩ := e
      exact ⟨rfl, f.unchanged⟩

/-! ## Histories -/

/-- the proofs held so far refer to existing elements -/
def BpHeld (h : HS E) (ps : List BulletProofH) (ms : List MultiProofH) : Prop :=
  (∀ p ∈ ps, ∀ q ∈ p.ptrs, q < h.next) ∧ ∀ m ∈ ms, ∀ q ∈ m.ptrs, q < h.next

/-- the held proofs and their contents -/
structure HeldRel (GP : Grp E) (h' : HS E) {A : Type} (a : List BulletProofH × List MultiProofH × A)
    (b : List (BulletProof E) × List (MultiBulletProof E) × A) : Prop where
  one : a.1.map (BulletProofH.deref GP h') = b.1
  many : a.2.1.map (MultiProofH.deref GP h') = b.2.1
  ans : a.2.2 = b.2.2
  held : BpHeld h' a.1 a.2.1

theorem BpHeld.mono {h h' : HS E} {ps : List BulletProofH} {ms : List MultiProofH} (a : BpHeld h ps ms) (f : Fr noW h h') :
    BpHeld h' ps ms :=
  ⟨fun p hp q hq => lt_of_lt_of_le (a.1 p hp q hq) f.1, fun p hp q hq => lt_of_lt_of_le (a.2 p hp q hq) f.1⟩

theorem BpHeld.deref1 {GP : Grp E} {h h' : HS E} {ps : List BulletProofH} {ms : List MultiProofH} (a : BpHeld h ps ms) (f : Fr noW h h') :
    ps.map (BulletProofH.deref GP h') = ps.map (BulletProofH.deref GP h) :=
  List.map_congr_left fun p hp => p.deref_frame GP f (a.1 p hp)

theorem BpHeld.deref2 {GP : Grp E} {h h' : HS E} {ps : List BulletProofH} {ms : List MultiProofH} (a : BpHeld h ps ms) (f : Fr noW h h') :
    ms.map (MultiProofH.deref GP h') = ms.map (MultiProofH.deref GP h) :=
  List.map_congr_left fun p hp => p.deref_frame GP f (a.2 p hp)

theorem bpRequest_refines (GP : Grp E) (sha : Bytes → Bytes) (params : BPParamsH) (r : BpReq) (ps : List BulletProofH)
    (ms : List MultiProofH) (h : HS E) (hl : ∀ p ∈ params.ptrs, p < h.next) (hb : BpHeld h ps ms) :
    Spec noW h (bpRequestH GP sha params ps ms r)
      (bpRequest sha (params.deref GP h) (ps.map (BulletProofH.deref GP h)) (ms.map (MultiProofH.deref GP h)) r)
      (fun h' => HeldRel GP h') := by
  cases r with
  | prove rnd s =>
    refine Spec.bind (Spec.bpProve GP sha params rnd s hl) ?_
    rintro a b h1 f1 rel
    cases a with
    | error e =>
      cases b with
      | error e' => exact Spec.pure ⟨hb.deref1 f1, hb.deref2 f1, by rw [show e = e' from rel], hb.mono f1⟩
      | ok v => exact (show False from rel).elim
    | ok p =>
      cases b with
      | error e' => exact (show False from rel).elim
      | ok v =>
        obtain ⟨r1, _⟩ : BPRel GP h params h1 p.1 v.1 ∧ p.2 = v.2 := rel
        refine Spec.pure ⟨?_, hb.deref2 f1, rfl, ?_, (hb.mono f1).2⟩
        · simp only [List.map_append, List.map_cons, List.map_nil, hb.deref1 f1, r1.deref]
        · intro q hq
          rcases List.mem_append.mp hq with hq | hq
          · exact (hb.mono f1).1 q hq
          · rw [List.mem_singleton.mp hq]; exact r1.lt
  | proveMany rnd s =>
    refine Spec.bind (Spec.multiProve GP sha params rnd s hl) ?_
    rintro a b h1 f1 rel
    cases a with
    | error e =>
      cases b with
      | error e' => exact Spec.pure ⟨hb.deref1 f1, hb.deref2 f1, by rw [show e = e' from rel], hb.mono f1⟩
      | ok v => exact (show False from rel).elim
    | ok p =>
      cases b with
      | error e' => exact (show False from rel).elim
      | ok v =>
        obtain ⟨r1, _⟩ : MultiRel GP h params h1 p.1 v.1 ∧ p.2 = v.2 := rel
        refine Spec.pure ⟨hb.deref1 f1, ?_, rfl, (hb.mono f1).1, ?_⟩
        · simp only [List.map_append, List.map_cons, List.map_nil, hb.deref2 f1, r1.deref]
        · intro q hq
          rcases List.mem_append.mp hq with hq | hq
          · exact (hb.mono f1).2 q hq
          · rw [List.mem_singleton.mp hq]; exact r1.lt
  | verify i =>
    unfold bpRequestH bpRequest; dsimp only
    rw [List.getElem?_map]
    cases hi : ps[i]? with
    | none => exact Spec.pure ⟨rfl, rfl, rfl, hb⟩
    | some p =>
      refine Spec.bind (bpVerify_refines GP sha p h (hb.1 p (List.mem_of_getElem? hi))) ?_
      rintro a b h1 f1 rfl
      exact Spec.pure ⟨hb.deref1 f1, hb.deref2 f1, rfl, hb.mono f1⟩
  | verifyMany i =>
    unfold bpRequestH bpRequest; dsimp only
    rw [List.getElem?_map]
    cases hi : ms[i]? with
    | none => exact Spec.pure ⟨rfl, rfl, rfl, hb⟩
    | some p =>
      refine Spec.bind (multiChecks_refines GP sha p h (hb.2 p (List.mem_of_getElem? hi))) ?_
      rintro a b h1 f1 rfl
      exact Spec.pure ⟨hb.deref1 f1, hb.deref2 f1, rfl, hb.mono f1⟩

theorem bpHistory_refines (GP : Grp E) (sha : Bytes → Bytes) (params : BPParamsH) : ∀ (rs : List BpReq) (ps : List BulletProofH)
    (ms : List MultiProofH) (h : HS E), (∀ p ∈ params.ptrs, p < h.next) → BpHeld h ps ms →
    Spec noW h (bpHistoryH GP sha params rs ps ms)
      (bpHistory sha (params.deref GP h) rs (ps.map (BulletProofH.deref GP h)) (ms.map (MultiProofH.deref GP h)))
      (fun h' => HeldRel GP h') := by
  intro rs
  induction rs with
  | nil => intro ps ms h _ hb; exact Spec.pure ⟨rfl, rfl, rfl, hb⟩
  | cons r rs ih =>
    intro ps ms h hl hb
    unfold bpHistoryH bpHistory
    refine Spec.bind (bpRequest_refines GP sha params r ps ms h hl hb) ?_
    rintro a b h1 f1 rel
    have s := ih a.1 a.2.1 h1 (fun p hp => lt_of_lt_of_le (hl p hp) f1.1) rel.held
    rw [params.deref_frame GP f1 hl, rel.one, rel.many] at s
    refine Spec.bind s ?_
    rintro c d h2 f2 rel2
    exact Spec.pure ⟨rel2.one, rel2.many, by rw [rel.ans, rel2.ans], rel2.held⟩

/-- **C94** Any number of proofs of both kinds made with the same parameters, and any of them verified at any time and as often as
wanted: the proofs held at the end and all answers are those of the same requests on values, and no element that existed before is
changed. -/
theorem C94_history (GP : Grp E) (sha : Bytes → Bytes) (params : BPParamsH) (rs : List BpReq) (ps : List BulletProofH)
    (ms : List MultiProofH) (h : HS E) (hl : ∀ p ∈ params.ptrs, p < h.next)
    (hp : ∀ p ∈ ps, ∀ q ∈ p.ptrs, q < h.next) (hm : ∀ m ∈ ms, ∀ q ∈ m.ptrs, q < h.next) :
    (bpHistoryH GP sha params rs ps ms h = none ↔
      bpHistory sha (params.deref GP h) rs (ps.map (BulletProofH.deref GP h)) (ms.map (MultiProofH.deref GP h)) = none) ∧
    ∀ ps' ms' ans h', bpHistoryH GP sha params rs ps ms h = some ((ps', ms', ans), h') →
      bpHistory sha (params.deref GP h) rs (ps.map (BulletProofH.deref GP h)) (ms.map (MultiProofH.deref GP h)) =
        some (ps'.map (BulletProofH.deref GP h'), ms'.map (MultiProofH.deref GP h'), ans) ∧ Unchanged h h' := by
  have hs := bpHistory_refines GP sha params rs ps ms h hl ⟨hp, hm⟩
  cases hv : bpHistory sha (params.deref GP h) rs (ps.map (BulletProofH.deref GP h)) (ms.map (MultiProofH.deref GP h)) with
  | none =>
    rw [hv] at hs
    have hs : bpHistoryH GP sha params rs ps ms h = none := hs
    rw [hs]
    simp
  | some v =>
    rw [hv] at hs
    obtain ⟨a, h', e, f, rel⟩ := hs
    rw [e]
    refine ⟨by simp, ?_⟩
    rintro ps' ms' ans h'' heq
    simp only [Option.some.injEq, Prod.mk.injEq] at heq
    obtain ⟨rfl, rfl⟩ := heq
    refine ⟨?_, f.unchanged⟩
    rw [show v = (v.1, v.2.1, v.2.2) from rfl, ← rel.one, ← rel.many, ← rel.ans]

/-! ## The hypotheses are met -/

/-- the toy parameters `[G, H, g.., h..]` of `exBP` in memory, and pointers to them -/
def exBpHeap : HS Int := layout ([exBP.G, exBP.H] ++ exBP.Gg ++ exBP.Hh)
def exBpPtrs : BPParamsH := { N := 4, G := 0, H := 1, Gg := [2, 3, 4, 5], Hh := [6, 7, 8, 9] }

example : (∀ p ∈ exBpPtrs.ptrs, p < exBpHeap.next) ∧
    (exBpPtrs.deref exBP.GP exBpHeap).Gg = exBP.Gg ∧ (exBpPtrs.deref exBP.GP exBpHeap).Hh = exBP.Hh ∧
    (exBpPtrs.deref exBP.GP exBpHeap).H = exBP.H := by decide +kernel

/-- proofs of both kinds, of good and bad values, verified several times and in a mixed order; there is no fifth proof -/
def exBpReqs : List BpReq :=
  [.prove exRnd 9, .proveMany exMRnd [2, 3], .verify 0, .verifyMany 0, .proveMany exMRnd [2, 7], .prove exRnd 16, .verifyMany 1,
   .verify 0, .verify 1, .verifyMany 0, .verify 4]

/-- C94_history: this history on shared memory ends, with these answers, and all four proofs refer to the same generators. -/
example : (match bpHistoryH exBP.GP exSha2 exBpPtrs exBpReqs [] [] exBpHeap with
    | some ((ps, ms, ans), _) => some (ps.map (fun p => (p.Gg, p.Hh)), ms.map (fun p => (p.Params.Gg, p.ip.Hh.head?)), ans)
    | none => none) =
    some ([([2, 3, 4, 5], [6, 7, 8, 9]), ([2, 3, 4, 5], [6, 7, 8, 9])], [([2, 3, 4, 5], some 6), ([2, 3, 4, 5], some 6)],
      [.made, .made, .verdict true, .checks ⟨true, false, true⟩, .made, .made, .checks ⟨false, false, true⟩, .verdict true,
       .verdict false, .checks ⟨true, false, true⟩, .unknown]) := by decide +kernel

/-- C94_prove, C94_verify: no secrets at all panic on both sides, and so does verifying a proof without `Mu`. -/
example : (HM.multiProve exBP.GP exSha2 exBpPtrs exMRnd [] exBpHeap).isNone ∧
    (match HM.multiProve exBP.GP exSha2 exBpPtrs exMRnd [2, 3] exBpHeap with
      | some (.ok (pf, _), h) => (MultiProofH.verify exBP.GP exSha2 { pf with Mu := none } h).isNone &&
          (pf.verify exBP.GP exSha2 h).map (·.1) == some false
      | _ => false) = true := by decide +kernel

end MscPoc
