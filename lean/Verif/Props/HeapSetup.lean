import Verif.Lemmas.HeapSetup
import Verif.Props.HeapState
import Verif.Props.Ristretto

/-!
# C82 — the whole program on pointers: `setup` allocates what it shares, and `main` prints what the values determine
-/

set_option autoImplicit false

namespace MscPoc

/-- which elements the public parameters own, and which of their records share them -/
structure ParamsLayout {E : Type} (h h' : HS Int × HS E) (pp : PublicParamsH Int E) : Prop where
  /-- all elements exist -/
  live : pp.Live h'
  /-- all were allocated by the call -/
  new : (∀ q ∈ [pp.FFGroupParams.G, pp.FFGroupParams.H], h.1.next ≤ q) ∧
    ∀ q ∈ [pp.ECGroupParams.G, pp.BPParams.G, pp.BPParams.H] ++ pp.BPParams.Gg ++ pp.BPParams.Hh, h.2.next ≤ q
  /-- no two of the generators are the same cell -/
  distinct : pp.FFGroupParams.G ≠ pp.FFGroupParams.H ∧
    ([pp.ECGroupParams.G, pp.BPParams.G, pp.BPParams.H] ++ pp.BPParams.Gg ++ pp.BPParams.Hh).Nodup
  /-- the public key is the `H` of the ElGamal group, the `H` of the curve is the one of the range proofs, and the parameters of
  the correctness proof are the same elements -/
  shared : pp.EGPK = pp.FFGroupParams.H ∧ pp.ECGroupParams.H = pp.BPParams.H ∧
    (pp.RPParams.GFF.G = pp.FFGroupParams.G ∧ pp.RPParams.GFF.H = pp.FFGroupParams.H) ∧
    pp.RPParams.GEC.G = pp.ECGroupParams.G ∧ pp.RPParams.GEC.H = pp.BPParams.H

theorem SetupRel.layout {E : Type} {h h' : HS Int × HS E} {pp : PublicParamsH Int E} {v : PublicParams Int E}
    (r : SetupRel h h' pp v) : ParamsLayout h h' pp where
  live := r.live
  new := ⟨r.new.1, fun q hq => r.new.2 q (by simpa [BPParamsH.ptrs] using hq)⟩
  distinct := ⟨r.nodup.1, by simpa [BPParamsH.ptrs] using r.nodup.2⟩
  shared := by
    obtain ⟨a, b, c, d⟩ := r.shared
    rw [c, d]
    exact ⟨a, b, ⟨rfl, rfl⟩, rfl, b⟩

theorem setupH_cases {E : Type} (nan64 : BitVec 64) (C : Grp E) (h : HS Int × HS E)
    (o : Option (Except String (PublicParams Int E))) (ho : setup nan64 C = o) :
    (HM2.setup nan64 C h = none ↔ o = none) ∧
    (∀ e h', HM2.setup nan64 C h = some (.error e, h') → o = some (.error e) ∧ Unchanged h.1 h'.1 ∧ Unchanged h.2 h'.2) ∧
    ∀ pp h', HM2.setup nan64 C h = some (.ok pp, h') →
      o = some (.ok (pp.deref h')) ∧ (Unchanged h.1 h'.1 ∧ Unchanged h.2 h'.2) ∧ ParamsLayout h h' pp := by
  have hs := Spec2.setup nan64 C h o ho
  clear ho
  revert hs
  generalize HM2.setup nan64 C = m
  intro hs
  cases o with
  | none =>
    have hs : m h = none := hs
    rw [hs]
    simp
  | some v =>
    obtain ⟨a, h', e, f, r⟩ := hs
    rw [e]
    refine ⟨by simp, ?_, ?_⟩
    · rintro er h'' heq
      simp only [Option.some.injEq, Prod.mk.injEq] at heq
      obtain ⟨rfl, rfl⟩ := heq
      cases v with
      | error e' => rw [show er = e' from r]; exact ⟨rfl, f.1.unchanged, f.2.unchanged⟩
      | ok v => exact r.elim
    · rintro pp h'' heq
      simp only [Option.some.injEq, Prod.mk.injEq] at heq
      obtain ⟨rfl, rfl⟩ := heq
      cases v with
      | error e' => exact r.elim
      | ok v =>
        have r : SetupRel h h' pp v := r
        rw [r.deref]
        exact ⟨rfl, ⟨f.1.unchanged, f.2.unchanged⟩, r.layout⟩

/-- **C82** `setup` from any state of the memory: it panics or returns an error exactly when the function of the values does, the
contents of what it returns are the parameters the values determine, nothing that existed before is changed, and every
element of the parameters is a new cell, shared by the records that name the same element and by no others. -/
theorem C82_setup {E : Type} (nan64 : BitVec 64) (C : Grp E) (h : HS Int × HS E) :
    (HM2.setup nan64 C h = none ↔ setup nan64 C = none) ∧
    (∀ e h', HM2.setup nan64 C h = some (.error e, h') →
      setup nan64 C = some (.error e) ∧ Unchanged h.1 h'.1 ∧ Unchanged h.2 h'.2) ∧
    ∀ pp h', HM2.setup nan64 C h = some (.ok pp, h') →
      setup nan64 C = some (.ok (pp.deref h')) ∧ (Unchanged h.1 h'.1 ∧ Unchanged h.2 h'.2) ∧ ParamsLayout h h' pp :=
  setupH_cases nan64 C h (setup nan64 C) (Eq.refl _)

/-- **C82** `main` with all its elements in one memory, whatever that memory holds at the start, prints the lines and ends in
the way that the program on values does. -/
theorem C82_main (sha : Bytes → Bytes) (nan64 : BitVec 64) (rs : List GroupRunH) (h : HS Int) :
    mainRunH sha nan64 rs h = mainRun sha nan64 (rs.map GroupRunH.run) :=
  groupsLoopH_refines sha nan64 rs true h

theorem setupH_ok {E : Type} {nan64 : BitVec 64} {C : Grp E} (h : HS Int × HS E) {pp : PublicParams Int E}
    (hpp : setup nan64 C = some (.ok pp)) :
    ∃ ppH h', HM2.setup nan64 C h = some (.ok ppH, h') ∧ ppH.deref h' = pp ∧ ppH.Live h' := by
  have hs := Spec2.setup nan64 C h _ hpp
  obtain ⟨a, h', e, _, r⟩ := hs
  cases a with
  | error e => exact r.elim
  | ok a =>
    have r : SetupRel h h' a pp := r
    exact ⟨a, h', e, r.deref, r.live⟩

/-- **C82** A process that starts by calling `setup` with one of the curves, from any state of the memory, gets parameters, and
with them no request to cast or verify panics and every ballot cast is accepted every time it is verified. -/
theorem C82_process {E : Type} (sha : Bytes → Bytes) (hsha : ∀ m, (sha m).length = 32)
    (nan64 : BitVec 64) (C : Grp E) (N bits : ℕ) (Bb : Int) (hr : (N, bits, Bb) ∈ curveTable)
    {M : Type} [AddCommGroup M] [Module (ZMod N) M] (L₂ : Lawful C N M)
    (hmap : ∀ s, SetupSeed 16 s → ∃ e, C.mapToGroup s = some e ∧ L₂.V e) (h : HS Int × HS E) :
    ∃ pp h', HM2.setup nan64 C h = some (.ok pp, h') ∧
      ∀ rs : List Req, (∀ rnd, Req.cast rnd ∈ rs → CastDrawn bits rnd) →
        (∀ rnd, Req.cast rnd ∈ rs → CastRunOK sha (pp.deref h') rnd) →
        serveH sha pp rs [] h' ≠ .panic ∧
        ∀ bs' outs h'', serveH sha pp rs [] h' = .done ((bs', outs), h'') →
          ∀ o ∈ outs, o = { result := true, times := [0, 0] } := by
  obtain ⟨v, ev, _⟩ := C47_deployment_accepts sha nan64 C N bits Bb hr L₂ hmap
  obtain ⟨pp, h', e, d, l⟩ := setupH_ok h ev
  refine ⟨pp, h', e, fun rs h1 h2 => ?_⟩
  exact C58_deployed_history sha hsha nan64 C N bits Bb hr L₂ hmap pp h' l (by rw [ev, d]) rs h1 h2

/-! ## The hypotheses are met -/

/-- C82: in a memory that holds three elements, a 4-bit setup allocates `G`, `H` and then the generators alternately, and the three
elements are as they were. -/
example : (match HM.bpSetup 0 16 (toyGrp 1031) (layout [5, 6, 7]) with
    | some (.ok p, h') => p.G == 3 && p.H == 4 && p.Gg == [5, 7, 9, 11] && p.Hh == [6, 8, 10, 12] && h'.next == 13 &&
        ([0, 1, 2].map h'.el == [5, 6, 7]) && h'.el 3 == 1
    | _ => false) = true ∧
    (match HM.bpSetup 0 17 (toyGrp 1031) (layout [5, 6, 7]) with
      | some (.error _, h') => h'.next == 3
      | _ => false) = true ∧
    (match HM.bpSetup 0 8 (toyGrp 1031) (layout [5, 6, 7]) with
      | some (.error _, h') => h'.next == 5
      | _ => false) = true := by
  refine ⟨by decide +kernel, by decide +kernel, by decide +kernel⟩

/-- C82: `setup` on Ristretto255, from an empty memory. -/
example (nan64 : BitVec 64) : ∃ pp h', HM2.setup nan64 (r255Grp exR255) (⟨fun _ => 0, 0⟩, ⟨fun _ => edZero, 0⟩) = some (.ok pp, h') ∧
    pp.Live h' := by
  let := r255Module
  obtain ⟨v, ev, _⟩ := C47_deployment_accepts (fun _ => []) nan64 (r255Grp exR255) r255N 253 12 r255_row (r255Lawful exR255)
    (r255_hash fun _ _ => (even_iff _).mpr edBase_even)
  obtain ⟨pp, h', e, _, l⟩ := setupH_ok (⟨fun _ => 0, 0⟩, ⟨fun _ => edZero, 0⟩) ev
  exact ⟨pp, h', e, l⟩

end MscPoc
