import Verif.Spec.Objects

/-!
# Methods of elements in memory do what they do on values
-/

set_option autoImplicit false

namespace MscPoc

open Act

/-! ## memories and stores -/

theorem Mem.Is.get {m : Mem} {st : Store} (h : m.Is st) {i : Nat} {k : Kind} {v : Cell} (hi : st[i]? = some (k, v)) :
    ∃ c, m.objs[i]? = some ⟨k, c⟩ ∧ m.cells[c]? = some v ∧ k.Holds v ∧ c < m.cells.length := by
  have := h.2.2 i
  rw [hi] at this
  unfold Mem.value at this
  cases ho : m.objs[i]? with
  | none => simp [ho] at this
  | some o =>
    obtain ⟨v', hv, ht⟩ := h.1.held i o ho
    simp only [ho, hv, Option.bind_eq_bind, Option.bind_some, Option.some.injEq, Prod.mk.injEq] at this
    obtain ⟨rfl, rfl⟩ := this
    obtain ⟨k, c⟩ := o
    exact ⟨c, rfl, hv, ht, (List.getElem?_eq_some_iff.mp hv).1⟩

theorem Mem.Is.none {m : Mem} {st : Store} (h : m.Is st) {i : Nat} (hi : st[i]? = none) : m.objs[i]? = none := by
  rw [List.getElem?_eq_none_iff] at hi ⊢
  rw [h.2.1]; exact hi

theorem Mem.Is.lt {m : Mem} {st : Store} (h : m.Is st) {i : Nat} {o : Obj} (hi : m.objs[i]? = some o) : o.val < m.cells.length := by
  obtain ⟨v, hv, _⟩ := h.1.held i o hi
  exact (List.getElem?_eq_some_iff.mp hv).1

/-- a new library value does not change anything -/
theorem Mem.Is.newCell {m : Mem} {st : Store} (h : m.Is st) (v : Cell) : Mem.Is ⟨m.objs, m.cells ++ [v]⟩ st := by
  refine ⟨⟨fun i o ho => ?_, h.1.own⟩, h.2.1, fun i => ?_⟩
  · obtain ⟨v', hv, ht⟩ := h.1.held i o ho
    exact ⟨v', by rw [List.getElem?_append_left (h.lt ho)]; exact hv, ht⟩
  · rw [← h.2.2 i]
    unfold Mem.value
    cases ho : m.objs[i]? with
    | none => simp [ho]
    | some o => simp [ho, List.getElem?_append_left (h.lt ho)]

/-- a new element -/
theorem Mem.Is.new {m : Mem} {st : Store} (h : m.Is st) {k : Kind} {v : Cell} (hv : k.Holds v) :
    Mem.Is ⟨m.objs ++ [⟨k, m.cells.length⟩], m.cells ++ [v]⟩ (st ++ [(k, v)]) := by
  have h' := h.newCell v
  have last : (m.cells ++ [v])[m.cells.length]? = some v := by simp
  have key : ∀ i o, (m.objs ++ [⟨k, m.cells.length⟩])[i]? = some o →
      m.objs[i]? = some o ∨ (i = m.objs.length ∧ o = ⟨k, m.cells.length⟩) := by
    intro i o ho
    rcases lt_trichotomy i m.objs.length with hi | hi | hi
    · rw [List.getElem?_append_left hi] at ho; exact Or.inl ho
    · subst hi; simp at ho; exact Or.inr ⟨rfl, ho.symm⟩
    · rw [List.getElem?_eq_none (by simp; omega)] at ho; simp at ho
  refine ⟨⟨fun i o ho => ?_, fun i j o o' ho ho' e => ?_⟩, by simp [h.2.1], fun i => ?_⟩
  · rcases key i o ho with ho | ⟨_, rfl⟩
    · exact h'.1.held i o ho
    · exact ⟨v, last, hv⟩
  · rcases key i o ho with ho | ⟨hi, rfl⟩ <;> rcases key j o' ho' with ho' | ⟨hj, rfl⟩
    · exact h.1.own i j o o' ho ho' e
    · have := h.lt ho; simp at e; omega
    · have := h.lt ho'; simp at e; omega
    · rw [hi, hj]
  · rcases lt_trichotomy i m.objs.length with hi | hi | hi
    · rw [List.getElem?_append_left (by rw [← h.2.1]; exact hi), ← h'.2.2 i]
      unfold Mem.value
      simp only [List.getElem?_append_left hi]
    · subst hi
      unfold Mem.value
      rw [h.2.1]
      simp [← h.2.1]
    · rw [List.getElem?_eq_none (by simp [← h.2.1]; omega)]
      unfold Mem.value
      rw [List.getElem?_eq_none (by simp; omega)]
      rfl

/-- a new library value for an element -/
theorem Mem.Is.fresh {m : Mem} {st : Store} (h : m.Is st) {e c : Nat} {k : Kind} {v : Cell} (he : m.objs[e]? = some ⟨k, c⟩)
    (hv : k.Holds v) : Mem.Is ⟨m.objs.set e ⟨k, m.cells.length⟩, m.cells ++ [v]⟩ (st.set e (k, v)) := by
  have h' := h.newCell v
  have hlt : e < m.objs.length := (List.getElem?_eq_some_iff.mp he).1
  have last : (m.cells ++ [v])[m.cells.length]? = some v := by simp
  have key : ∀ i o, (m.objs.set e ⟨k, m.cells.length⟩)[i]? = some o →
      (i ≠ e ∧ m.objs[i]? = some o) ∨ (i = e ∧ o = ⟨k, m.cells.length⟩) := by
    intro i o ho
    by_cases hi : i = e
    · subst hi
      rw [List.getElem?_set_self hlt] at ho
      exact Or.inr ⟨rfl, by simpa using ho.symm⟩
    · rw [List.getElem?_set_ne (Ne.symm hi)] at ho
      exact Or.inl ⟨hi, ho⟩
  refine ⟨⟨fun i o ho => ?_, fun i j o o' ho ho' eq => ?_⟩, by simp [h.2.1], fun i => ?_⟩
  · rcases key i o ho with ⟨_, ho⟩ | ⟨_, rfl⟩
    · exact h'.1.held i o ho
    · exact ⟨v, last, hv⟩
  · rcases key i o ho with ⟨_, ho⟩ | ⟨hi, rfl⟩ <;> rcases key j o' ho' with ⟨_, ho'⟩ | ⟨hj, rfl⟩
    · exact h.1.own i j o o' ho ho' eq
    · have := h.lt ho; simp at eq; omega
    · have := h.lt ho'; simp at eq; omega
    · rw [hi, hj]
  · unfold Mem.value
    by_cases hi : i = e
    · subst hi
      rw [List.getElem?_set_self hlt, List.getElem?_set_self (by rw [← h.2.1]; exact hlt)]
      simp
    · rw [List.getElem?_set_ne (Ne.symm hi), List.getElem?_set_ne (Ne.symm hi), ← h'.2.2 i]
      rfl

/-- a write through the library value of an element -/
theorem Mem.Is.write {m : Mem} {st : Store} (h : m.Is st) {e c : Nat} {k : Kind} {v : Cell} (he : m.objs[e]? = some ⟨k, c⟩)
    (hv : k.Holds v) : Mem.Is ⟨m.objs, m.cells.set c v⟩ (st.set e (k, v)) := by
  have hlt : e < m.objs.length := (List.getElem?_eq_some_iff.mp he).1
  have hc : c < m.cells.length := h.lt he
  have other : ∀ i o, i ≠ e → m.objs[i]? = some o → (m.cells.set c v)[o.val]? = m.cells[o.val]? := by
    intro i o hi ho
    refine List.getElem?_set_ne fun hce => hi ?_
    exact h.1.own i e o ⟨k, c⟩ ho he hce.symm
  refine ⟨⟨fun i o ho => ?_, h.1.own⟩, by simp [h.2.1], fun i => ?_⟩
  · by_cases hi : i = e
    · subst hi
      change m.objs[i]? = some o at ho
      rw [he] at ho
      cases ho
      exact ⟨v, List.getElem?_set_self hc, hv⟩
    · rw [other i o hi ho]
      exact h.1.held i o ho
  · unfold Mem.value
    by_cases hi : i = e
    · subst hi
      simp only
      rw [he, List.getElem?_set_self (by rw [← h.2.1]; exact hlt)]
      simp [List.getElem?_set_self hc]
    · rw [List.getElem?_set_ne (Ne.symm hi), ← h.2.2 i]
      unfold Mem.value
      cases ho : m.objs[i]? with
      | none => simp [ho]
      | some o => simp [ho, other i o hi ho]

/-- forgetting the newest elements -/
theorem Mem.Is.take {m : Mem} {st : Store} (h : m.Is st) (n : Nat) : Mem.Is ⟨m.objs.take n, m.cells⟩ (st.take n) := by
  have key : ∀ (i : Nat) (o : Obj), (m.objs.take n)[i]? = some o → m.objs[i]? = some o := by
    intro i o ho
    rw [List.getElem?_take] at ho
    split at ho
    · exact ho
    · simp at ho
  refine ⟨⟨fun i o ho => h.1.held i o (key i o ho), fun i j o o' ho ho' => h.1.own i j o o' (key i o ho) (key j o' ho')⟩,
    by simp [h.2.1], fun i => ?_⟩
  rw [List.getElem?_take, ← h.2.2 i]
  unfold Mem.value
  simp only [List.getElem?_take]
  split <;> simp

theorem store_same {st : Store} {e : Nat} {k : Kind} {v : Cell} (he : st[e]? = some (k, v)) :
    st.set e (k, v) = st := by
  obtain ⟨hl, hh⟩ := List.getElem?_eq_some_iff.mp he
  rw [← hh, List.set_getElem_self]

/-! ## statements -/

theorem act_bind {α β : Type} (s : Act α) (f : α → Act β) (m : Mem) : (s >>= f) m = (s m).bind fun p => f p.1 p.2 := rfl

theorem act_pure {α : Type} (a : α) (m : Mem) : (pure a : Act α) m = some (a, m) := rfl

theorem act_map {α β : Type} (f : α → β) (s : Act α) (m : Mem) : (f <$> s) m = (s m).map fun p => (f p.1, p.2) := by
  change (s m).bind _ = _
  cases s m <;> rfl

/-- a statement does on memory what `t` says for values -/
def Sim {α : Type} (s : Act α) (st : Store) (t : Option (α × Store)) : Prop :=
  ∀ m : Mem, m.Is st → match t with
    | none => s m = none
    | some (a, st') => ∃ m' : Mem, s m = some (a, m') ∧ m'.Is st'

theorem Sim.map {α β : Type} {s : Act α} {st : Store} {t : Option (α × Store)} (h : Sim s st t) (f : α → β) :
    Sim (f <$> s) st (t.map fun p => (f p.1, p.2)) := by
  intro m hm
  have := h m hm
  rw [act_map]
  cases t with
  | none => rw [this]; rfl
  | some p =>
    obtain ⟨m', e, h'⟩ := this
    rw [e]
    exact ⟨m', rfl, h'⟩

theorem loadPt_run {m : Mem} {c : Nat} {P : WPoint} (h : m.cells[c]? = some (.pt P)) : loadPt c m = some (P, m) := by
  unfold loadPt load; rw [act_bind]; simp [h, act_pure]

theorem loadBig_run {m : Mem} {c : Nat} {n : Int} (h : m.cells[c]? = some (.big n)) : loadBig c m = some (n, m) := by
  unfold loadBig load; rw [act_bind]; simp [h, act_pure]

theorem loadK1_run {m : Mem} {c : Nat} {P : K1Point} (h : m.cells[c]? = some (.kp P)) : loadK1 c m = some (P, m) := by
  unfold loadK1 load; rw [act_bind]; simp [h, act_pure]

theorem setVal_run {objs : List Obj} {cells : List Cell} {e c0 : Nat} {k : Kind} (c : Nat) (h : objs[e]? = some ⟨k, c0⟩) :
    setVal e c ⟨objs, cells⟩ = some ((), ⟨objs.set e ⟨k, c⟩, cells⟩) := by
  unfold setVal obj; rw [act_bind]; simp [h]

theorem obj_run {m : Mem} {e : Nat} {o : Obj} (h : m.objs[e]? = some o) : obj e m = some (o, m) := by
  unfold obj; simp [h]

theorem obj_none {m : Mem} {e : Nat} (h : m.objs[e]? = none) : obj e m = none := by
  unfold obj; simp [h]

theorem newCell_run (v : Cell) (m : Mem) : newCell v m = some (m.cells.length, ⟨m.objs, m.cells ++ [v]⟩) := rfl

theorem newObj_run (k : Kind) (c : Nat) (m : Mem) : newObj k c m = some (m.objs.length, ⟨m.objs ++ [⟨k, c⟩], m.cells⟩) := rfl

theorem store_run (c : Nat) (v : Cell) (m : Mem) : store c v m = some ((), ⟨m.objs, m.cells.set c v⟩) := rfl

theorem panic_run {α : Type} (m : Mem) : (panic : Act α) m = none := rfl

theorem set_last (l : List Cell) (v w : Cell) : (l ++ [v]).set l.length w = l ++ [w] := by
  rw [List.set_append_right _ _ (Nat.le_refl _)]; simp

theorem get_old {l : List Cell} {c : Nat} {v : Cell} (w : Cell) (h : l[c]? = some v) : (l ++ [w])[c]? = some v := by
  rw [List.getElem?_append_left (List.getElem?_eq_some_iff.mp h).1]; exact h

/-! ## checks -/

theorem Kind.Accepts.holds {k k' : Kind} (h : k.Accepts k') {v : Cell} (hv : k'.Holds v) : k.Holds v := by
  cases k <;> cases k' <;> simp_all [Kind.Accepts] <;> cases v <;> simp_all [Kind.Holds]

/-- the type check finds the operand, or panics when there is none -/
def CheckOK (chk : Nat → Act Obj) (k : Kind) : Prop :=
  ∀ (m : Mem) (st : Store) (a : Nat), m.Is st →
    (Libs.operand st k a = none ∧ chk a m = none) ∨
    ∃ o v, Libs.operand st k a = some v ∧ chk a m = some (o, m) ∧ m.objs[a]? = some o ∧ m.cells[o.val]? = some v ∧ k.Holds v

theorem checkOK_of (chk : Nat → Act Obj) (k : Kind)
    (h : ∀ a m, chk a m = (obj a m).bind fun p => if k.Accepts p.1.kind then some p else none) : CheckOK chk k := by
  intro m st a hm
  rw [h]
  unfold Libs.operand
  cases ha : st[a]? with
  | none => rw [obj_none (hm.none ha)]; exact Or.inl ⟨rfl, rfl⟩
  | some p =>
    obtain ⟨k', v⟩ := p
    obtain ⟨c, ho, hc, hv, _⟩ := hm.get ha
    rw [obj_run ho]
    simp only [Option.bind_some]
    by_cases hk : k.Accepts k'
    · rw [if_pos hk, if_pos hk]
      exact Or.inr ⟨_, v, rfl, rfl, ho, hc, hk.holds hv⟩
    · rw [if_neg hk, if_neg hk]
      exact Or.inl ⟨rfl, rfl⟩

/-- `Subtract`, the same code everywhere: a temporary, its negation, addition -/
theorem subtract_of {k : Kind} {make : Act Nat} {neg : Nat → Nat → Act Nat} {add : Nat → Nat → Nat → Act Nat} {id : Cell}
    {vneg : Cell → Cell → Cell} {vadd : Cell → Cell → Cell} {st : Store} {e : Nat} {v : Cell} (he : st[e]? = some (k, v))
    (hmake : Sim make st (some (st.length, st ++ [(k, id)])))
    (hneg : ∀ {st : Store} {e : Nat} {v : Cell}, st[e]? = some (k, v) → ∀ a, Sim (neg e a) st
      ((Libs.operand st k a).bind fun x => some (e, st.set e (k, vneg v x))))
    (hadd : ∀ {st : Store} {e : Nat} {v : Cell}, st[e]? = some (k, v) → ∀ a b, Sim (add e a b) st
      ((Libs.operand st k a).bind fun x => (Libs.operand st k b).bind fun y => some (e, st.set e (k, vadd x y))))
    (hk : k.Accepts k) {a b : Nat} (ha : a < st.length) (hb : b < st.length) :
    Sim (local' do
      let tmp ← make
      let _ ← neg tmp b
      let _ ← add e a tmp
      pure e) st ((Libs.operand st k a).bind fun x => (Libs.operand st k b).bind fun y =>
        some (e, st.set e (k, vadd x (vneg id y)))) := by
  intro m hm
  have heLt : e < st.length := (List.getElem?_eq_some_iff.mp he).1
  obtain ⟨m1, r1, h1⟩ := hmake m hm
  have ht : (st ++ [(k, id)])[st.length]? = some (k, id) := by simp
  have ob : Libs.operand (st ++ [(k, id)]) k b = Libs.operand st k b := by
    unfold Libs.operand; rw [List.getElem?_append_left hb]
  have s2 := hneg ht b m1 h1
  rw [ob] at s2
  have hl : ∀ s : Act Nat, local' s m = (s m).map fun p => (p.1, { p.2 with objs := p.2.objs.take m.objs.length }) := fun s => rfl
  rw [hl, act_bind, r1, Option.bind_some, act_bind]
  cases hy : Libs.operand st k b with
  | none =>
    rw [hy] at s2
    rw [s2]
    cases Libs.operand st k a <;> rfl
  | some y =>
    rw [hy] at s2
    obtain ⟨m2, r2, h2⟩ := s2
    rw [r2, Option.bind_some, act_bind]
    have set2 : (st ++ [(k, id)]).set st.length (k, vneg id y) = st ++ [(k, vneg id y)] := by
      rw [List.set_append_right _ _ (Nat.le_refl _)]; simp
    rw [set2] at h2
    have he2 : (st ++ [(k, vneg id y)])[e]? = some (k, v) := by rw [List.getElem?_append_left heLt]; exact he
    have s3 := hadd he2 a st.length m2 h2
    have oa : Libs.operand (st ++ [(k, vneg id y)]) k a = Libs.operand st k a := by
      unfold Libs.operand; rw [List.getElem?_append_left ha]
    have ot : Libs.operand (st ++ [(k, vneg id y)]) k st.length = some (vneg id y) := by
      unfold Libs.operand; simp [hk]
    rw [oa, ot] at s3
    cases hx : Libs.operand st k a with
    | none =>
      rw [hx] at s3
      rw [s3]; rfl
    | some x =>
      rw [hx] at s3
      obtain ⟨m3, r3, h3⟩ := s3
      rw [r3]
      refine ⟨_, rfl, ?_⟩
      have := h3.take m.objs.length
      rw [hm.2.1, List.set_append_left _ _ heLt, List.take_left' (by simp)] at this
      rw [hm.2.1]
      exact this

/-! ## circl -/

/-- the library belongs to one of the three implementations over circl -/
def CirclLib.OK (T : CirclLib) : Prop := T.kind = .p256 ∨ T.kind = .p384 ∨ T.kind = .r255

namespace CirclLib
variable {T : CirclLib} (ok : T.OK)
include ok

theorem OK.holds {v : Cell} (h : T.kind.Holds v) : ∃ P, v = .pt P := by
  rcases ok with e | e | e <;> rw [e] at h <;> cases v <;> simp_all [Kind.Holds]

theorem OK.holds_pt (P : WPoint) : T.kind.Holds (.pt P) := by
  rcases ok with e | e | e <;> rw [e] <;> trivial

theorem OK.check : CheckOK T.check T.kind := by
  refine checkOK_of _ _ fun a m => ?_
  unfold CirclLib.check
  rw [act_bind]
  congr 1
  funext p
  have : p.1.kind = T.kind ↔ T.kind.Accepts p.1.kind := by
    rcases ok with e | e | e <;> rw [e] <;> cases p.1.kind <;> simp [Kind.Accepts]
  by_cases h : T.kind.Accepts p.1.kind
  · rw [if_pos h, if_pos (this.mpr h)]; rfl
  · rw [if_neg h, if_neg (mt this.mp h)]; rfl

theorem make_sim (st : Store) (P : WPoint) :
    Sim (do let c ← newCell (.pt P); newObj T.kind c) st (some (st.length, st ++ [(T.kind, .pt P)])) := by
  intro m hm
  refine ⟨_, ?_, hm.new (ok.holds_pt P)⟩
  rw [act_bind, newCell_run, Option.bind_some, newObj_run, hm.2.1]

theorem add_sim {st : Store} {e : Nat} {v : Cell} (he : st[e]? = some (T.kind, v)) (a b : Nat) :
    Sim (T.add e a b) st ((Libs.operand st T.kind a).bind fun x => (Libs.operand st T.kind b).bind fun y =>
      some (e, st.set e (T.kind, .pt (T.G.add x.toPt y.toPt)))) := by
  intro m hm
  unfold CirclLib.add
  simp only [act_bind]
  rcases ok.check m st a hm with ⟨h1, h2⟩ | ⟨o, x, h1, h2, -, hx, tx⟩
  · rw [h1, h2]; rfl
  rcases ok.check m st b hm with ⟨h3, h4⟩ | ⟨o', y, h3, h4, -, hy, ty⟩
  · rw [h1, h2, h3]; simp [h4]
  obtain ⟨P, rfl⟩ := ok.holds tx
  obtain ⟨Q, rfl⟩ := ok.holds ty
  obtain ⟨c, ho, -, -, -⟩ := hm.get he
  rw [h1, h2, h3]
  refine ⟨_, ?_, hm.fresh ho (ok.holds_pt _)⟩
  simp only [Option.bind_some, h4, newCell_run, loadPt_run (m := ⟨m.objs, m.cells ++ [.pt T.G.elt]⟩) (get_old _ hx),
    loadPt_run (m := ⟨m.objs, m.cells ++ [.pt T.G.elt]⟩) (get_old _ hy), store_run, set_last,
    setVal_run _ ho, act_pure, Cell.toPt]

theorem negate_sim {st : Store} {e : Nat} {v : Cell} (he : st[e]? = some (T.kind, v)) (a : Nat) :
    Sim (T.negate e a) st ((Libs.operand st T.kind a).bind fun x => some (e, st.set e (T.kind, .pt (T.G.neg T.G.elt x.toPt)))) := by
  intro m hm
  unfold CirclLib.negate
  simp only [act_bind]
  rcases ok.check m st a hm with ⟨h1, h2⟩ | ⟨o, x, h1, h2, -, hx, tx⟩
  · rw [h1, h2]; rfl
  obtain ⟨P, rfl⟩ := ok.holds tx
  obtain ⟨c, ho, -, -, -⟩ := hm.get he
  rw [h1, h2]
  refine ⟨_, ?_, hm.fresh ho (ok.holds_pt _)⟩
  simp only [Option.bind_some, newCell_run, loadPt_run (m := ⟨m.objs, m.cells ++ [.pt T.G.elt]⟩) (get_old _ hx), store_run,
    set_last, setVal_run _ ho, act_pure, Cell.toPt]

theorem scale_sim {st : Store} {e : Nat} {v : Cell} (he : st[e]? = some (T.kind, v)) (a : Nat) (s : Int) :
    Sim (T.scale e a s) st ((Libs.operand st T.kind a).bind fun x => some (e, st.set e (T.kind, .pt (T.G.scale T.G.elt x.toPt s)))) := by
  intro m hm
  unfold CirclLib.scale
  simp only [act_bind]
  rcases ok.check m st a hm with ⟨h1, h2⟩ | ⟨o, x, h1, h2, -, hx, tx⟩
  · rw [h1, h2]; rfl
  obtain ⟨P, rfl⟩ := ok.holds tx
  obtain ⟨c, ho, -, -, -⟩ := hm.get he
  rw [h1, h2]
  refine ⟨_, ?_, hm.fresh ho (ok.holds_pt _)⟩
  simp only [Option.bind_some, newCell_run, loadPt_run (m := ⟨m.objs, m.cells ++ [.pt T.G.elt]⟩) (get_old _ hx), store_run,
    set_last, setVal_run _ ho, act_pure, Cell.toPt]

theorem set_sim {st : Store} {e : Nat} {v : Cell} (he : st[e]? = some (T.kind, v)) (a : Nat) :
    Sim (T.set e a) st ((Libs.operand st T.kind a).bind fun x => some (e, st.set e (T.kind, .pt x.toPt))) := by
  intro m hm
  unfold CirclLib.set
  simp only [act_bind]
  rcases ok.check m st a hm with ⟨h1, h2⟩ | ⟨o, x, h1, h2, -, hx, tx⟩
  · rw [h1, h2]; rfl
  obtain ⟨P, rfl⟩ := ok.holds tx
  obtain ⟨c, ho, -, -, -⟩ := hm.get he
  rw [h1, h2]
  refine ⟨_, ?_, hm.fresh ho (ok.holds_pt _)⟩
  simp only [Option.bind_some, newCell_run, loadPt_run (m := ⟨m.objs, m.cells ++ [.pt T.G.elt]⟩) (get_old _ hx), store_run,
    set_last, setVal_run _ ho, act_pure, Cell.toPt]

theorem isEqual_sim {st : Store} {e : Nat} {v : Cell} (he : st[e]? = some (T.kind, v)) (b : Nat) :
    Sim (T.isEqual e b) st ((Libs.operand st T.kind b).bind fun y => some (T.G.isEqual v.toPt y.toPt, st)) := by
  intro m hm
  unfold CirclLib.isEqual
  simp only [act_bind]
  rcases ok.check m st b hm with ⟨h1, h2⟩ | ⟨o, y, h1, h2, -, hy, ty⟩
  · rw [h1, h2]; rfl
  obtain ⟨Q, rfl⟩ := ok.holds ty
  obtain ⟨c, ho, hc, tv, -⟩ := hm.get he
  obtain ⟨P, rfl⟩ := ok.holds tv
  rw [h1, h2]
  refine ⟨m, ?_, hm⟩
  simp only [Option.bind_some, obj_run ho, loadPt_run hc, loadPt_run hy, act_pure, Cell.toPt]

theorem baseScale_sim {st : Store} {e : Nat} {v : Cell} (he : st[e]? = some (T.kind, v)) (s : Int) :
    Sim (T.baseScale e s) st (some (e, st.set e (T.kind, .pt (T.G.baseScale T.G.elt s)))) := by
  intro m hm
  obtain ⟨c, ho, -, -, -⟩ := hm.get he
  refine ⟨_, ?_, hm.fresh ho (ok.holds_pt _)⟩
  unfold CirclLib.baseScale
  simp only [act_bind, Option.bind_some, newCell_run, store_run, set_last, setVal_run _ ho, act_pure]

theorem mapToGroup_sim {st : Store} {e : Nat} {v : Cell} (he : st[e]? = some (T.kind, v)) (s : Bytes) :
    Sim (T.mapToGroup e s) st ((T.G.mapToGroup s).bind fun P => some (e, st.set e (T.kind, .pt P))) := by
  intro m hm
  obtain ⟨c, ho, -, -, -⟩ := hm.get he
  unfold CirclLib.mapToGroup
  cases T.G.mapToGroup s with
  | none => rfl
  | some P =>
    refine ⟨_, ?_, hm.fresh ho (ok.holds_pt _)⟩
    simp only [act_bind, Option.bind_some, newCell_run, setVal_run _ ho, act_pure]

theorem isIdentity_sim {st : Store} {e : Nat} {v : Cell} (he : st[e]? = some (T.kind, v)) :
    Sim (T.isIdentity e) st (some (T.G.isIdentity v.toPt, st)) := by
  intro m hm
  obtain ⟨c, ho, hc, tv, -⟩ := hm.get he
  obtain ⟨P, rfl⟩ := ok.holds tv
  refine ⟨m, ?_, hm⟩
  unfold CirclLib.isIdentity
  simp only [act_bind, Option.bind_some, obj_run ho, loadPt_run hc, act_pure, Cell.toPt]

theorem marshalBinary_sim {st : Store} {e : Nat} {v : Cell} (he : st[e]? = some (T.kind, v)) :
    Sim (T.marshalBinary e) st (some (T.enc v.toPt, st)) := by
  intro m hm
  obtain ⟨c, ho, hc, tv, -⟩ := hm.get he
  obtain ⟨P, rfl⟩ := ok.holds tv
  refine ⟨m, ?_, hm⟩
  unfold CirclLib.marshalBinary
  simp only [act_bind, Option.bind_some, obj_run ho, loadPt_run hc, act_pure, Cell.toPt]

theorem setBytes_sim {st : Store} {e : Nat} {v : Cell} (he : st[e]? = some (T.kind, v)) (b : Bytes) :
    Sim (T.setBytes e b) st (some (e, st.set e (T.kind, .pt (T.dec T.G.elt b).2))) := by
  intro m hm
  obtain ⟨c, ho, -, -, -⟩ := hm.get he
  refine ⟨_, ?_, hm.fresh ho (ok.holds_pt _)⟩
  unfold CirclLib.setBytes CirclLib.libUnmarshal
  have hl : ∀ objs, loadPt m.cells.length ⟨objs, m.cells ++ [.pt T.G.elt]⟩ = some (T.G.elt, ⟨objs, m.cells ++ [.pt T.G.elt]⟩) :=
    fun objs => loadPt_run (by simp)
  simp only [act_bind, Option.bind_some, newCell_run, setVal_run _ ho, hl, store_run, set_last, act_pure]

theorem unmarshalBinary_sim {st : Store} {e : Nat} {v : Cell} (he : st[e]? = some (T.kind, v)) (d : Bytes) :
    Sim (T.unmarshalBinary e d) st (some ((T.dec v.toPt d).1, st.set e (T.kind, .pt (T.dec v.toPt d).2))) := by
  intro m hm
  obtain ⟨c, ho, hc, tv, -⟩ := hm.get he
  obtain ⟨P, rfl⟩ := ok.holds tv
  refine ⟨_, ?_, hm.write ho (ok.holds_pt _)⟩
  unfold CirclLib.unmarshalBinary CirclLib.libUnmarshal
  simp only [act_bind, Option.bind_some, obj_run ho, loadPt_run hc, store_run, act_pure, Cell.toPt]

theorem unmarshalJSON_sim {st : Store} {e : Nat} {v : Cell} (he : st[e]? = some (T.kind, v)) (d : Raw) :
    Sim (T.unmarshalJSON e d) st (match unmarshalPoint T.byteLen d with
      | none => none
      | some .error => some (true, st)
      | some (.bytes b) => some ((T.dec v.toPt b).1, st.set e (T.kind, .pt (T.dec v.toPt b).2))) := by
  intro m hm
  have h := unmarshalBinary_sim ok he
  unfold CirclLib.unmarshalJSON
  cases unmarshalPoint T.byteLen d with
  | none => rfl
  | some r =>
    cases r with
    | error => exact ⟨m, rfl, hm⟩
    | bytes b => exact h b m hm

theorem subtract_sim {st : Store} {e : Nat} {v : Cell} (he : st[e]? = some (T.kind, v)) {a b : Nat} (ha : a < st.length)
    (hb : b < st.length) :
    Sim (T.subtract e a b) st ((Libs.operand st T.kind a).bind fun x => (Libs.operand st T.kind b).bind fun y =>
      some (e, st.set e (T.kind, .pt (T.G.add x.toPt (T.G.neg T.G.elt y.toPt))))) := by
  refine subtract_of (k := T.kind) (make := T.identity) (neg := T.negate) (add := T.add) (id := .pt T.G.identity)
    (vneg := fun _ x => .pt (T.G.neg T.G.elt x.toPt)) (vadd := fun x y => .pt (T.G.add x.toPt y.toPt)) he ?_ ?_ ?_ ?_ ha hb
  · exact make_sim ok st T.G.identity
  · intro st e v he a; exact negate_sim ok he a
  · intro st e v he a b; exact add_sim ok he a b
  · rcases ok with e | e | e <;> rw [e] <;> trivial

end CirclLib

/-! ## secp256k1 -/

namespace K1Obj
variable (L : K1Lib)

theorem holds {v : Cell} (h : Kind.k1.Holds v) : ∃ P, v = .kp P := by
  cases v <;> simp_all [Kind.Holds]

theorem holds_kp (P : K1Point) : Kind.k1.Holds (.kp P) := trivial

theorem check_ok : CheckOK check .k1 := by
  refine checkOK_of _ _ fun a m => ?_
  unfold check
  rw [act_bind]
  congr 1
  funext p
  have : p.1.kind = .k1 ↔ Kind.k1.Accepts p.1.kind := by
    cases p.1.kind <;> simp [Kind.Accepts]
  by_cases h : Kind.k1.Accepts p.1.kind
  · rw [if_pos h, if_pos (this.mpr h)]; rfl
  · rw [if_neg h, if_neg (mt this.mp h)]; rfl

theorem make_sim (st : Store) (P : K1Point) : Sim (make P) st (some (st.length, st ++ [(.k1, .kp P)])) := by
  intro m hm
  refine ⟨_, ?_, hm.new (holds_kp P)⟩
  unfold make
  rw [act_bind, newCell_run, Option.bind_some, newObj_run, hm.2.1]

theorem add_sim {st : Store} {e : Nat} {v : Cell} (he : st[e]? = some (.k1, v)) (a b : Nat) :
    Sim (add L e a b) st ((Libs.operand st .k1 a).bind fun x => (Libs.operand st .k1 b).bind fun y =>
      some (e, st.set e (.k1, .kp (k1Add L x.toK1 y.toK1)))) := by
  intro m hm
  unfold add
  simp only [act_bind]
  rcases check_ok m st a hm with ⟨h1, h2⟩ | ⟨o, x, h1, h2, -, hx, tx⟩
  · rw [h1, h2]; rfl
  rcases check_ok m st b hm with ⟨h3, h4⟩ | ⟨o', y, h3, h4, -, hy, ty⟩
  · rw [h1, h2, h3]; simp [h4]
  obtain ⟨P, rfl⟩ := holds tx
  obtain ⟨Q, rfl⟩ := holds ty
  obtain ⟨c, ho, -, -, -⟩ := hm.get he
  rw [h1, h2, h3]
  refine ⟨_, ?_, hm.fresh ho (holds_kp _)⟩
  simp only [Option.bind_some, h4, newCell_run, loadK1_run (m := ⟨m.objs, m.cells ++ [.kp K1Point.nilPt]⟩) (get_old _ hx),
    loadK1_run (m := ⟨m.objs, m.cells ++ [.kp K1Point.nilPt]⟩) (get_old _ hy), store_run, set_last,
    setVal_run _ ho, act_pure, Cell.toK1]

theorem negate_sim {st : Store} {e : Nat} {v : Cell} (he : st[e]? = some (.k1, v)) (a : Nat) :
    Sim (negate L e a) st ((Libs.operand st .k1 a).bind fun x => some (e, st.set e (.k1, .kp (k1Mul L x.toK1 (-1))))) := by
  intro m hm
  unfold negate
  simp only [act_bind]
  rcases check_ok m st a hm with ⟨h1, h2⟩ | ⟨o, x, h1, h2, -, hx, tx⟩
  · rw [h1, h2]; rfl
  obtain ⟨P, rfl⟩ := holds tx
  obtain ⟨c, ho, -, -, -⟩ := hm.get he
  rw [h1, h2]
  refine ⟨_, ?_, hm.fresh ho (holds_kp _)⟩
  simp only [Option.bind_some, newCell_run, loadK1_run (m := ⟨m.objs, m.cells ++ [.kp K1Point.nilPt]⟩) (get_old _ hx), store_run,
    set_last, setVal_run _ ho, act_pure, Cell.toK1]

theorem scale_sim {st : Store} {e : Nat} {v : Cell} (he : st[e]? = some (.k1, v)) (a : Nat) (s : Int) :
    Sim (scale L e a s) st ((Libs.operand st .k1 a).bind fun x => some (e, st.set e (.k1, .kp (k1Mul L x.toK1 s)))) := by
  intro m hm
  unfold scale
  simp only [act_bind]
  rcases check_ok m st a hm with ⟨h1, h2⟩ | ⟨o, x, h1, h2, -, hx, tx⟩
  · rw [h1, h2]; rfl
  obtain ⟨P, rfl⟩ := holds tx
  obtain ⟨c, ho, -, -, -⟩ := hm.get he
  rw [h1, h2]
  refine ⟨_, ?_, hm.fresh ho (holds_kp _)⟩
  simp only [Option.bind_some, newCell_run, loadK1_run (m := ⟨m.objs, m.cells ++ [.kp K1Point.nilPt]⟩) (get_old _ hx), store_run,
    set_last, setVal_run _ ho, act_pure, Cell.toK1]

theorem k1Add_nil (P : K1Point) : k1Add L K1Point.nilPt P = P := rfl

theorem set_sim {st : Store} {e : Nat} {v : Cell} (he : st[e]? = some (.k1, v)) (a : Nat) :
    Sim (set L e a) st ((Libs.operand st .k1 a).bind fun x => some (e, st.set e (.k1, .kp x.toK1))) := by
  intro m hm
  unfold set
  simp only [act_bind]
  rcases check_ok m st a hm with ⟨h1, h2⟩ | ⟨o, x, h1, h2, -, hx, tx⟩
  · rw [h1, h2]; rfl
  obtain ⟨P, rfl⟩ := holds tx
  obtain ⟨c, ho, -, -, -⟩ := hm.get he
  rw [h1, h2]
  refine ⟨_, ?_, hm.fresh ho (holds_kp _)⟩
  simp only [Option.bind_some, newCell_run, loadK1_run (m := ⟨m.objs, m.cells ++ [.kp K1Point.nilPt]⟩) (get_old _ hx), store_run,
    set_last, setVal_run _ ho, act_pure, Cell.toK1, k1Add_nil]

theorem subtract_sim {st : Store} {e : Nat} {v : Cell} (he : st[e]? = some (.k1, v)) {a b : Nat} (ha : a < st.length)
    (hb : b < st.length) :
    Sim (subtract L e a b) st ((Libs.operand st .k1 a).bind fun x => (Libs.operand st .k1 b).bind fun y =>
      some (e, st.set e (.k1, .kp (k1Add L x.toK1 (k1Mul L y.toK1 (-1)))))) := by
  refine subtract_of (k := .k1) (make := make K1Point.nilPt) (neg := negate L) (add := add L) (id := .kp K1Point.nilPt)
    (vneg := fun _ x => .kp (k1Mul L x.toK1 (-1))) (vadd := fun x y => .kp (k1Add L x.toK1 y.toK1)) he ?_ ?_ ?_ ?_ ha hb
  · exact make_sim st _
  · intro st e v he a; exact negate_sim L he a
  · intro st e v he a b; exact add_sim L he a b
  · trivial

theorem isEqual_sim {st : Store} {e : Nat} {v : Cell} (he : st[e]? = some (.k1, v)) (b : Nat) :
    Sim (isEqual e b) st ((Libs.operand st .k1 b).bind fun y => some (v.toK1.isEqual y.toK1, st)) := by
  intro m hm
  unfold isEqual
  simp only [act_bind]
  rcases check_ok m st b hm with ⟨h1, h2⟩ | ⟨o, y, h1, h2, -, hy, ty⟩
  · rw [h1, h2]; rfl
  obtain ⟨Q, rfl⟩ := holds ty
  obtain ⟨c, ho, hc, tv, -⟩ := hm.get he
  obtain ⟨P, rfl⟩ := holds tv
  rw [h1, h2]
  refine ⟨m, ?_, hm⟩
  simp only [Option.bind_some, obj_run ho, loadK1_run hc, loadK1_run hy, act_pure, Cell.toK1]

theorem baseScale_sim {st : Store} {e : Nat} {v : Cell} (he : st[e]? = some (.k1, v)) (s : Int) :
    Sim (baseScale L e s) st (some (e, st.set e (.k1, .kp (k1BaseMul L s)))) := by
  intro m hm
  obtain ⟨c, ho, -, -, -⟩ := hm.get he
  refine ⟨_, ?_, hm.fresh ho (holds_kp _)⟩
  unfold baseScale
  simp only [act_bind, Option.bind_some, newCell_run, store_run, set_last, setVal_run _ ho, act_pure]

theorem setBytes_sim {st : Store} {e : Nat} {v : Cell} (he : st[e]? = some (.k1, v)) (b : Bytes) :
    Sim (setBytes e b) st ((K1Point.setBytes b).bind fun P => some (e, st.set e (.k1, .kp P))) := by
  intro m hm
  obtain ⟨c, ho, -, -, -⟩ := hm.get he
  unfold setBytes
  cases K1Point.setBytes b with
  | none => rfl
  | some P =>
    refine ⟨_, ?_, hm.fresh ho (holds_kp _)⟩
    simp only [act_bind, Option.bind_some, newCell_run, store_run, set_last, setVal_run _ ho, act_pure]

theorem mapToGroup_sim (st : Store) (s : Bytes) :
    Sim (mapToGroup L s) st (((L.hash s).mapToGroupOf).bind fun P => some (st.length, st ++ [(.k1, .kp P)])) := by
  intro m hm
  unfold mapToGroup K1Point.mapToGroupOf
  cases (L.hash s).X with
  | none => rfl
  | some x =>
    cases (L.hash s).Y with
    | none => rfl
    | some y =>
      obtain ⟨m1, r1, h1⟩ := make_sim st K1Point.nilPt m hm
      have := setBytes_sim (st := st ++ [(.k1, .kp K1Point.nilPt)]) (e := st.length) (v := .kp K1Point.nilPt) (by simp)
        (bigBytes x ++ bigBytes y) m1 h1
      simp only [Option.bind_eq_bind, Option.bind_some, act_bind, r1]
      cases hs : K1Point.setBytes (bigBytes x ++ bigBytes y) with
      | none => rw [hs] at this; exact this
      | some P =>
        rw [hs] at this
        simp only [Option.bind_some] at this ⊢
        rw [List.set_append_right _ _ (Nat.le_refl _)] at this
        simpa using this

theorem isIdentity_sim {st : Store} {e : Nat} {v : Cell} (he : st[e]? = some (.k1, v)) :
    Sim (isIdentity e) st (v.toK1.isIdentity.bind fun b => some (b, st)) := by
  intro m hm
  obtain ⟨c, ho, hc, tv, -⟩ := hm.get he
  obtain ⟨P, rfl⟩ := holds tv
  unfold isIdentity
  simp only [act_bind, Option.bind_some, obj_run ho, loadK1_run hc, Cell.toK1]
  cases P.isIdentity with
  | none => rfl
  | some b => exact ⟨m, rfl, hm⟩

theorem marshalBinary_sim {st : Store} {e : Nat} {v : Cell} (he : st[e]? = some (.k1, v)) :
    Sim (marshalBinary e) st (some (v.toK1.marshalBinary, st)) := by
  intro m hm
  obtain ⟨c, ho, hc, tv, -⟩ := hm.get he
  obtain ⟨P, rfl⟩ := holds tv
  refine ⟨m, ?_, hm⟩
  unfold marshalBinary
  simp only [act_bind, Option.bind_some, obj_run ho, loadK1_run hc, act_pure, Cell.toK1]

theorem unmarshalBinary_sim {st : Store} {e : Nat} {v : Cell} (he : st[e]? = some (.k1, v)) (d : Bytes) :
    Sim (unmarshalBinary e d) st ((K1Point.setBytes d).bind fun P => some (false, st.set e (.k1, .kp P))) := by
  intro m hm
  have := setBytes_sim he d m hm
  unfold unmarshalBinary
  rw [act_bind]
  cases hs : K1Point.setBytes d with
  | none => rw [hs] at this; rw [this]; rfl
  | some P =>
    rw [hs] at this
    obtain ⟨m', r, h'⟩ := this
    rw [r]
    exact ⟨m', rfl, h'⟩

end K1Obj

/-! ## the safe-prime groups -/

namespace ModPObj
variable (g : ModPGroup)

theorem holds {v : Cell} (h : (Kind.modP g).Holds v) : ∃ n, v = .big n := by
  cases v <;> simp_all [Kind.Holds]

theorem holds_big (n : Int) : (Kind.modP g).Holds (.big n) := trivial

theorem check_ok : CheckOK (check g) (.modP g) := by
  refine checkOK_of _ _ fun a m => ?_
  unfold check
  rw [act_bind]
  congr 1
  funext p
  cases hk : p.1.kind with
  | modP h =>
    have : g.equals h = true ↔ (Kind.modP g).Accepts (.modP h) := by
      simp [ModPGroup.equals, Kind.Accepts]
    simp only
    by_cases hh : (Kind.modP g).Accepts (.modP h)
    · rw [if_pos hh, if_pos (this.mpr hh)]; rfl
    · rw [if_neg hh, if_neg (mt this.mp hh)]; rfl
  | _ => rfl

theorem make_sim (st : Store) (n : Int) : Sim (make g n) st (some (st.length, st ++ [(.modP g, .big n)])) := by
  intro m hm
  refine ⟨_, ?_, hm.new (holds_big g n)⟩
  unfold make
  rw [act_bind, newCell_run, Option.bind_some, newObj_run, hm.2.1]

theorem add_sim {st : Store} {e : Nat} {v : Cell} (he : st[e]? = some (.modP g, v)) (a b : Nat) :
    Sim (add g e a b) st ((Libs.operand st (.modP g) a).bind fun x => (Libs.operand st (.modP g) b).bind fun y =>
      some (e, st.set e (.modP g, .big (x.toBig * y.toBig % g.fieldOrder)))) := by
  intro m hm
  unfold add
  simp only [act_bind]
  rcases check_ok g m st a hm with ⟨h1, h2⟩ | ⟨o, x, h1, h2, -, hx, tx⟩
  · rw [h1, h2]; rfl
  rcases check_ok g m st b hm with ⟨h3, h4⟩ | ⟨o', y, h3, h4, -, hy, ty⟩
  · rw [h1, h2, h3]; simp [h4]
  obtain ⟨P, rfl⟩ := holds g tx
  obtain ⟨Q, rfl⟩ := holds g ty
  obtain ⟨c, ho, -, -, hc⟩ := hm.get he
  rw [h1, h2, h3]
  refine ⟨_, ?_, hm.write ho (holds_big g _)⟩
  have hl : loadBig c ⟨m.objs, m.cells.set c (.big (P * Q))⟩ = some (P * Q, ⟨m.objs, m.cells.set c (.big (P * Q))⟩) :=
    loadBig_run (List.getElem?_set_self hc)
  simp only [Option.bind_some, h4, obj_run ho, loadBig_run hx, loadBig_run hy, store_run, hl, List.set_set, act_pure, Cell.toBig]

theorem negate_sim {st : Store} {e : Nat} {v : Cell} (he : st[e]? = some (.modP g, v)) (a : Nat) :
    Sim (negate g e a) st ((Libs.operand st (.modP g) a).bind fun x =>
      some (e, st.set e (.modP g, .big ((modInverse x.toBig g.fieldOrder).getD v.toBig)))) := by
  intro m hm
  unfold negate
  simp only [act_bind]
  rcases check_ok g m st a hm with ⟨h1, h2⟩ | ⟨o, x, h1, h2, -, hx, tx⟩
  · rw [h1, h2]; rfl
  obtain ⟨P, rfl⟩ := holds g tx
  obtain ⟨c, ho, hv, tv, hc⟩ := hm.get he
  obtain ⟨n, rfl⟩ := holds g tv
  rw [h1, h2]
  simp only [Option.bind_some, obj_run ho, loadBig_run hx, Cell.toBig]
  cases modInverse P g.fieldOrder with
  | none => exact ⟨m, rfl, by rw [Option.getD_none, store_same he]; exact hm⟩
  | some w => exact ⟨_, rfl, hm.write ho (holds_big g _)⟩

theorem subtract_sim {st : Store} {e : Nat} {v : Cell} (he : st[e]? = some (.modP g, v)) {a b : Nat} (ha : a < st.length)
    (hb : b < st.length) :
    Sim (subtract g e a b) st ((Libs.operand st (.modP g) a).bind fun x => (Libs.operand st (.modP g) b).bind fun y =>
      some (e, st.set e (.modP g, .big (x.toBig * (modInverse y.toBig g.fieldOrder).getD 1 % g.fieldOrder)))) := by
  refine subtract_of (k := .modP g) (make := make g 1) (neg := negate g) (add := add g) (id := .big 1)
    (vneg := fun r x => .big ((modInverse x.toBig g.fieldOrder).getD r.toBig))
    (vadd := fun x y => .big (x.toBig * y.toBig % g.fieldOrder)) he ?_ ?_ ?_ ?_ ha hb
  · exact make_sim g st _
  · intro st e v he a; exact negate_sim g he a
  · intro st e v he a b; exact add_sim g he a b
  · exact ⟨rfl, rfl⟩

theorem isEqual_sim {st : Store} {e : Nat} {v : Cell} (he : st[e]? = some (.modP g, v)) (b : Nat) :
    Sim (isEqual g e b) st ((Libs.operand st (.modP g) b).bind fun y => some (v.toBig == y.toBig, st)) := by
  intro m hm
  unfold isEqual
  simp only [act_bind]
  rcases check_ok g m st b hm with ⟨h1, h2⟩ | ⟨o, y, h1, h2, -, hy, ty⟩
  · rw [h1, h2]; rfl
  obtain ⟨Q, rfl⟩ := holds g ty
  obtain ⟨c, ho, hc, tv, -⟩ := hm.get he
  obtain ⟨P, rfl⟩ := holds g tv
  rw [h1, h2]
  refine ⟨m, ?_, hm⟩
  simp only [Option.bind_some, obj_run ho, loadBig_run hc, loadBig_run hy, act_pure, Cell.toBig]

theorem set_sim {st : Store} {e : Nat} {v : Cell} (he : st[e]? = some (.modP g, v)) (a : Nat) :
    Sim (set g e a) st ((Libs.operand st (.modP g) a).bind fun x => some (e, st.set e (.modP g, .big x.toBig))) := by
  intro m hm
  unfold set
  simp only [act_bind]
  rcases check_ok g m st a hm with ⟨h1, h2⟩ | ⟨o, x, h1, h2, -, hx, tx⟩
  · rw [h1, h2]; rfl
  obtain ⟨P, rfl⟩ := holds g tx
  obtain ⟨c, ho, -, -, hc⟩ := hm.get he
  rw [h1, h2]
  refine ⟨_, ?_, hm.write ho (holds_big g _)⟩
  simp only [Option.bind_some, obj_run ho, loadBig_run hx, store_run, act_pure, Cell.toBig]

theorem scale_sim {st : Store} {e : Nat} {v : Cell} (he : st[e]? = some (.modP g, v)) (a : Nat) (s : Int) :
    Sim (scale g e a s) st ((Libs.operand st (.modP g) a).bind fun x =>
      some (e, st.set e (.modP g, .big (bigExp v.toBig x.toBig s g.fieldOrder)))) := by
  intro m hm
  unfold scale
  simp only [act_bind]
  rcases check_ok g m st a hm with ⟨h1, h2⟩ | ⟨o, x, h1, h2, -, hx, tx⟩
  · rw [h1, h2]; rfl
  obtain ⟨P, rfl⟩ := holds g tx
  obtain ⟨c, ho, hv, tv, hc⟩ := hm.get he
  obtain ⟨n, rfl⟩ := holds g tv
  rw [h1, h2]
  refine ⟨_, ?_, hm.write ho (holds_big g _)⟩
  simp only [Option.bind_some, obj_run ho, loadBig_run hx, loadBig_run hv, store_run, act_pure, Cell.toBig]

theorem baseScale_sim {st : Store} {e : Nat} {v : Cell} (he : st[e]? = some (.modP g, v)) (s : Int) :
    Sim (baseScale g e s) st (some (e, st.set e (.modP g, .big (bigExp v.toBig g.gen s g.fieldOrder)))) := by
  intro m hm
  obtain ⟨c, ho, hv, tv, hc⟩ := hm.get he
  obtain ⟨n, rfl⟩ := holds g tv
  refine ⟨_, ?_, hm.write ho (holds_big g _)⟩
  unfold baseScale
  simp only [act_bind, Option.bind_some, obj_run ho, loadBig_run hv, store_run, act_pure, Cell.toBig]

theorem setBytes_sim {st : Store} {e : Nat} {v : Cell} (he : st[e]? = some (.modP g, v)) (b : Bytes) :
    Sim (setBytes e b) st (some (e, st.set e (.modP g, .big (MscPoc.setBytes b)))) := by
  intro m hm
  obtain ⟨c, ho, -, -, -⟩ := hm.get he
  refine ⟨_, ?_, hm.write ho (holds_big g _)⟩
  unfold setBytes
  simp only [act_bind, Option.bind_some, obj_run ho, store_run, act_pure]

theorem isIdentity_sim {st : Store} {e : Nat} {v : Cell} (he : st[e]? = some (.modP g, v)) :
    Sim (isIdentity e) st (some (v.toBig == 1, st)) := by
  intro m hm
  obtain ⟨c, ho, hc, tv, -⟩ := hm.get he
  obtain ⟨P, rfl⟩ := holds g tv
  refine ⟨m, ?_, hm⟩
  unfold isIdentity
  simp only [act_bind, Option.bind_some, obj_run ho, loadBig_run hc, act_pure, Cell.toBig]

theorem marshalBinary_sim {st : Store} {e : Nat} {v : Cell} (he : st[e]? = some (.modP g, v)) :
    Sim (marshalBinary e) st (some (bigBytes v.toBig, st)) := by
  intro m hm
  obtain ⟨c, ho, hc, tv, -⟩ := hm.get he
  obtain ⟨P, rfl⟩ := holds g tv
  refine ⟨m, ?_, hm⟩
  unfold marshalBinary
  simp only [act_bind, Option.bind_some, obj_run ho, loadBig_run hc, act_pure, Cell.toBig]

theorem unmarshalBinary_sim {st : Store} {e : Nat} {v : Cell} (he : st[e]? = some (.modP g, v)) (d : Bytes) :
    Sim (unmarshalBinary e d) st (some (false, st.set e (.modP g, .big (MscPoc.setBytes d)))) := by
  intro m hm
  obtain ⟨c, ho, -, -, -⟩ := hm.get he
  refine ⟨_, ?_, hm.fresh ho (holds_big g _)⟩
  unfold unmarshalBinary
  simp only [act_bind, Option.bind_some, newCell_run, store_run, set_last, setVal_run _ ho, act_pure]

theorem unmarshalJSON_sim {st : Store} {e : Nat} {v : Cell} (he : st[e]? = some (.modP g, v)) (d : Raw) :
    Sim (unmarshalJSON e d) st ((modPCodec.unmarshal v.toBig d).bind fun r => some (r.1, st.set e (.modP g, .big r.2))) := by
  intro m hm
  obtain ⟨c, ho, hv, tv, hc⟩ := hm.get he
  obtain ⟨n, rfl⟩ := holds g tv
  unfold unmarshalJSON
  simp only [act_bind, Option.bind_some, obj_run ho, loadBig_run hv, Cell.toBig]
  cases modPCodec.unmarshal n d with
  | none => rfl
  | some r => exact ⟨_, rfl, hm.write ho (holds_big g _)⟩

end ModPObj

/-! ## dispatch -/

namespace Libs
variable (L : Libs)

theorem ok256 : L.lib256.OK := Or.inl rfl
theorem ok384 : L.lib384.OK := Or.inr (Or.inl rfl)
theorem ok255 : L.lib255.OK := Or.inr (Or.inr rfl)

/-- the method that a receiver of kind `k` runs -/
def pick {α : Type} (k : Kind) (circl : CirclLib → Act α) (k1 : Act α) (modP : ModPGroup → Act α) : Act α :=
  match k with
  | .modP g => modP g
  | .p256 => circl L.lib256
  | .p384 => circl L.lib384
  | .k1 => k1
  | .r255 => circl L.lib255

theorem on_sim {α : Type} {st : Store} {e : Nat} (circl : CirclLib → Act α) (k1 : Act α) (modP : ModPGroup → Act α)
    (f : α → Ret) (t : Kind → Cell → Option (α × Store))
    (h : ∀ k v, st[e]? = some (k, v) → Sim (L.pick k circl k1 modP) st (t k v)) :
    Sim (f <$> L.on e circl k1 modP) st (st[e]?.bind fun p => (t p.1 p.2).map fun q => (f q.1, q.2)) := by
  have key : Sim (L.on e circl k1 modP) st (st[e]?.bind fun p => t p.1 p.2) := by
    intro m hm
    unfold on
    rw [act_bind]
    cases he : st[e]? with
    | none => rw [obj_none (hm.none he)]; rfl
    | some p =>
      obtain ⟨k, v⟩ := p
      obtain ⟨c, ho, -, -, -⟩ := hm.get he
      rw [obj_run ho, Option.bind_some, Option.bind_some]
      exact h k v he m hm
  have := key.map f
  cases he : st[e]? with
  | none => rw [he] at this; exact this
  | some p => rw [he] at this; exact this

end Libs

end MscPoc
