import Verif.Lemmas.ObjectCalls

/-!
# C64 — elements of all five groups as objects
-/

set_option autoImplicit false

namespace MscPoc

open Act

/-- C64: programs of calls on elements of the five implementations, in any mixture and with any sharing between receivers and
operands, return what the same calls return on plain values, and panic when those do; afterwards every element has the value it has
there. -/
theorem C64_values (L : Libs) (cs : List Call) (m : Mem) (st : Store) (h : m.Is st) :
    (L.steps st cs = none → L.run cs m = none) ∧
    (∀ rs st', L.steps st cs = some (rs, st') → ∃ m', L.run cs m = some (rs, m') ∧ m'.Is st') := by
  induction cs generalizing m st with
  | nil =>
    refine ⟨fun hh => by simp [Libs.steps] at hh, fun rs st' hh => ?_⟩
    simp only [Libs.steps, Option.some.injEq, Prod.mk.injEq] at hh
    obtain ⟨rfl, rfl⟩ := hh
    exact ⟨m, rfl, h⟩
  | cons c cs ih =>
    have hc := Libs.call_sim L c st m h
    unfold Libs.steps Libs.run
    simp only [act_bind]
    cases hs : L.step st c with
    | none =>
      rw [hs] at hc
      rw [hc]
      exact ⟨fun _ => rfl, fun rs st' hh => by simp at hh⟩
    | some p =>
      obtain ⟨r, st1⟩ := p
      rw [hs] at hc
      obtain ⟨m1, r1, h1⟩ := hc
      rw [r1]
      obtain ⟨i1, i2⟩ := ih m1 st1 h1
      simp only [Option.bind_eq_bind, Option.bind_some]
      cases hss : L.steps st1 cs with
      | none =>
        rw [i1 hss]
        exact ⟨fun _ => rfl, fun rs st' hh => by simp at hh⟩
      | some q =>
        obtain ⟨rs1, st2⟩ := q
        obtain ⟨m2, r2, h2⟩ := i2 rs1 st2 hss
        rw [r2]
        refine ⟨fun hh => by simp at hh, fun rs st' hh => ?_⟩
        simp only [Option.bind_some, Option.some.injEq, Prod.mk.injEq] at hh
        obtain ⟨rfl, rfl⟩ := hh
        exact ⟨m2, rfl, h2⟩

/-- C64, from the beginning of a program. -/
theorem C64_programs (L : Libs) (cs : List Call) :
    (L.run cs ⟨[], []⟩).map (·.1) = (L.steps [] cs).map (·.1) := by
  obtain ⟨h1, h2⟩ := C64_values L cs ⟨[], []⟩ [] empty_is
  cases hs : L.steps [] cs with
  | none => rw [h1 hs]; rfl
  | some p =>
    obtain ⟨m', r, _⟩ := h2 p.1 p.2 hs
    rw [r]; rfl

/-- C64: a call changes no element but its receiver, whatever the elements have shared before. -/
theorem C64_frame (L : Libs) (c : Call) (m m' : Mem) (r : Ret) (h : m.OK) (run : L.call c m = some (r, m')) :
    m'.OK ∧ m.objs.length ≤ m'.objs.length ∧
    ∀ i < m.objs.length, c.receiver ≠ some i → m'.value i = m.value i := by
  obtain ⟨st, hst⟩ := h.is
  have hc := Libs.call_sim L c st m hst
  cases hs : L.step st c with
  | none => rw [hs] at hc; rw [run] at hc; exact absurd hc (by simp)
  | some p =>
    obtain ⟨r', st'⟩ := p
    rw [hs] at hc
    obtain ⟨m1, r1, h1⟩ := hc
    rw [run] at r1
    obtain ⟨rfl, rfl⟩ : r = r' ∧ m' = m1 := by simpa using r1
    refine ⟨h1.1, ?_, fun i hi hr => ?_⟩
    · rw [hst.2.1, h1.2.1]
      exact step_length L st st' c r hs
    · rw [h1.2.2 i, hst.2.2 i]
      exact step_frame L st st' c r hs i (hst.2.1 ▸ hi) hr

section Example

/-- libraries for the examples below -/
def exLibs : Libs where
  P256 := p256Circl (fun _ => none) fun _ => ⟨0, 0⟩
  P384 := p384Circl (fun _ => none) fun _ => ⟨0, 0⟩
  K1 := ⟨⟨some 0, some 0⟩, ⟨some 0, some 0⟩, fun _ => k1Base, fun _ => []⟩
  R255 := ⟨fun _ => edZero, fun _ => []⟩
  r255dec := fun recv _ => (true, recv)

/-- squares modulo 23 -/
def ex23 : ModPGroup := { fieldOrder := 23, groupOrder := 11, gen := 4, name := "" }

/-- all aliases at once: `e.Add(e, e)`, `e.Subtract(f, e)`, and a decoding into a copy that does not reach the original -/
example : (exLibs.run [.generator (.modP ex23), .element (.modP ex23), .set 1 0, .add 0 0 0, .subtract 0 1 0, .unmarshalBinary 1 [9],
    .marshalBinary 0, .marshalBinary 1, .generator .p256, .identity .p256, .set 3 2, .unmarshalBinary 3 [0], .isEqual 3 2,
    .isIdentity 3, .isIdentity 2] ⟨[], []⟩).map (·.1) =
    some [.elem 0, .elem 1, .elem 1, .elem 0, .elem 0, .bool false, .bytes [6], .bytes [9], .elem 2, .elem 3, .elem 3, .bool false,
      .bool false, .bool true, .bool false] := by
  decide +kernel

/-- a safe-prime element is no operand of a curve point -/
example : exLibs.run [.generator (.modP ex23), .generator .p256, .add 1 1 0] ⟨[], []⟩ = none := by decide +kernel

/-- on secp256k1 `MapToGroup` returns another element -/
example : (exLibs.run [.identity .k1, .mapToGroup 0 [], .isIdentity 1] ⟨[], []⟩).map (·.1) =
    some [.elem 0, .elem 1, .bool false] := by
  decide +kernel

end Example

/-- C64: the arithmetic methods give their receiver the value computed from what the operands had before the call, also when the
receiver is one of the operands or both operands are one element; they return the receiver. -/
theorem C64_result (L : Libs) (m : Mem) (h : m.OK) (e a b : Nat) (k ka kb : Kind) (v x y : Cell) (s : Int)
    (he : m.value e = some (k, v)) (ha : m.value a = some (ka, x)) (hb : m.value b = some (kb, y))
    (ka' : k.Accepts ka) (kb' : k.Accepts kb) :
    (∃ m', L.call (.add e a b) m = some (.elem e, m') ∧ m'.value e = some (k, (L.grp k).add x y)) ∧
    (∃ m', L.call (.subtract e a b) m = some (.elem e, m') ∧ m'.value e = some (k, (L.grp k).sub x y)) ∧
    (∃ m', L.call (.negate e a) m = some (.elem e, m') ∧ m'.value e = some (k, (L.grp k).neg v x)) ∧
    (∃ m', L.call (.scale e a s) m = some (.elem e, m') ∧ m'.value e = some (k, (L.grp k).scale v x s)) ∧
    (∃ m', L.call (.set e a) m = some (.elem e, m') ∧ m'.value e = some (k, x)) ∧
    (∃ m', L.call (.isEqual e b) m = some (.bool ((L.grp k).isEqual v y), m')) := by
  obtain ⟨st, hst⟩ := h.is
  rw [hst.2.2] at he ha hb
  have lt : e < st.length := (List.getElem?_eq_some_iff.mp he).1
  have oa : Libs.operand st k a = some x := by simp [Libs.operand, ha, ka']
  have ob : Libs.operand st k b = some y := by simp [Libs.operand, hb, kb']
  have go : ∀ (c : Call) (r : Ret) (w : Cell), L.step st c = some (r, st.set e (k, w)) →
      ∃ m', L.call c m = some (r, m') ∧ m'.value e = some (k, w) := by
    intro c r w hs
    have hc := Libs.call_sim L c st m hst
    rw [hs] at hc
    obtain ⟨m', r1, h1⟩ := hc
    exact ⟨m', r1, by rw [h1.2.2, List.getElem?_set_self lt]⟩
  refine ⟨go _ _ _ ?_, go _ _ _ ?_, go _ _ _ ?_, go _ _ _ ?_, go _ _ _ ?_, ?_⟩
  · simp [Libs.step, he, oa, ob]
  · simp [Libs.step, he, oa, ob]
  · simp [Libs.step, he, oa]
  · simp [Libs.step, he, oa]
  · simp [Libs.step, he, oa]
  · have hc := Libs.call_sim L (.isEqual e b) st m hst
    have hs : L.step st (.isEqual e b) = some (.bool ((L.grp k).isEqual v y), st) := by simp [Libs.step, he, ob]
    rw [hs] at hc
    obtain ⟨m', r1, -⟩ := hc
    exact ⟨m', r1⟩

/-- C64: an operand that belongs to another implementation, or to a safe-prime group with another modulus or generator, makes every
method that takes an operand panic. -/
theorem C64_mixed (L : Libs) (m : Mem) (h : m.OK) (e a : Nat) (k ka : Kind) (v x : Cell)
    (he : m.value e = some (k, v)) (ha : m.value a = some (ka, x)) (no : ¬ k.Accepts ka) (b : Nat) (s : Int) :
    L.call (.add e a b) m = none ∧ L.call (.add e b a) m = none ∧
    L.call (.subtract e a b) m = none ∧ L.call (.subtract e b a) m = none ∧
    L.call (.negate e a) m = none ∧ L.call (.scale e a s) m = none ∧
    L.call (.set e a) m = none ∧ L.call (.isEqual e a) m = none := by
  obtain ⟨st, hst⟩ := h.is
  rw [hst.2.2] at he ha
  have oa : Libs.operand st k a = none := by simp [Libs.operand, ha, no]
  have go : ∀ c : Call, L.step st c = none → L.call c m = none := by
    intro c hs
    have hc := Libs.call_sim L c st m hst
    rw [hs] at hc
    exact hc
  refine ⟨go _ ?_, go _ ?_, go _ ?_, go _ ?_, go _ ?_, go _ ?_, go _ ?_, go _ ?_⟩ <;>
    simp [Libs.step, he, oa]

/-- C64: `MapToGroup` puts the point into its receiver and returns the receiver on P-256, P-384 and Ristretto255, but returns a new
element and leaves the receiver as it is on secp256k1; on safe-prime groups it panics. -/
theorem C64_mapToGroup (L : Libs) (m : Mem) (h : m.OK) (e : Nat) (k : Kind) (v : Cell) (he : m.value e = some (k, v)) (s : Bytes) :
    ((∃ g, k = .modP g) → L.call (.mapToGroup e s) m = none) ∧
    (k = .k1 → ∀ P, (L.grp k).mapToGroup s = some P → ∃ m', L.call (.mapToGroup e s) m = some (.elem m.objs.length, m') ∧
      m'.value e = some (k, v) ∧ m'.value m.objs.length = some (k, P)) ∧
    (k ≠ .k1 → ∀ P, (L.grp k).mapToGroup s = some P → ∃ m', L.call (.mapToGroup e s) m = some (.elem e, m') ∧
      m'.value e = some (k, P) ∧ m'.objs.length = m.objs.length) := by
  obtain ⟨st, hst⟩ := h.is
  rw [hst.2.2] at he
  have lt : e < st.length := (List.getElem?_eq_some_iff.mp he).1
  have hc := Libs.call_sim L (.mapToGroup e s) st m hst
  refine ⟨?_, ?_, ?_⟩
  · rintro ⟨g, rfl⟩
    have hs : L.step st (.mapToGroup e s) = none := by
      simp [Libs.step, he, Libs.grp, Grp.onCells, modPGrp]
    rw [hs] at hc
    exact hc
  · rintro rfl P hP
    have hs : L.step st (.mapToGroup e s) = some (.elem st.length, st ++ [(.k1, P)]) := by simp [Libs.step, he, hP]
    rw [hs] at hc
    obtain ⟨m', r, h1⟩ := hc
    refine ⟨m', by rw [hst.2.1]; exact r, ?_, ?_⟩
    · rw [h1.2.2, List.getElem?_append_left lt, he]
    · rw [h1.2.2, hst.2.1]; simp
  · intro hk P hP
    have hs : L.step st (.mapToGroup e s) = some (.elem e, st.set e (k, P)) := by simp [Libs.step, he, hP, hk]
    rw [hs] at hc
    obtain ⟨m', r, h1⟩ := hc
    refine ⟨m', r, ?_, ?_⟩
    · rw [h1.2.2, List.getElem?_set_self lt]
    · rw [h1.2.1, hst.2.1]; simp

end MscPoc
