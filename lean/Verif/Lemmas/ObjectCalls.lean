import Verif.Lemmas.Objects

/-!
# Every call on memory does what the call on values does
-/

set_option autoImplicit false

namespace MscPoc

open Act

namespace Libs
variable (L : Libs)

theorem Sim.cast {α : Type} {s : Act α} {st : Store} {t t' : Option (α × Store)} (h : Sim s st t) (e : t = t') : Sim s st t' := e ▸ h

theorem Sim.operand {st : Store} {s : Act Nat} {k : Kind} {a e : Nat} {f : Cell → Cell}
    (h : Sim s st ((operand st k a).bind fun x => some (e, st.set e (k, f x)))) (hf : ∀ x, k.Holds x → f x = x) :
    Sim s st ((operand st k a).bind fun x => some (e, st.set e (k, x))) := by
  intro m hm
  have := h m hm
  cases ho : Libs.operand st k a with
  | none => rw [ho] at this; exact this
  | some x =>
    have hx : k.Holds x := by
      unfold Libs.operand at ho
      cases ha : st[a]? with
      | none => rw [ha] at ho; simp at ho
      | some p =>
        obtain ⟨k', v⟩ := p
        rw [ha] at ho
        simp only at ho
        split at ho
        · rename_i hk
          obtain ⟨_, -, -, ht, -⟩ := hm.get ha
          simp only [Option.some.injEq] at ho
          exact ho ▸ hk.holds ht
        · simp at ho
    rw [ho] at this
    simp only [Option.bind_some, hf x hx] at this ⊢
    exact this

theorem new_sim (st : Store) (k : Kind) (P : Grp Cell → Cell) (circl : CirclLib → Act Nat) (k1 : Act Nat) (modP : ModPGroup → Act Nat)
    (h1 : Sim (circl L.lib256) st (some (st.length, st ++ [(.p256, P (L.grp .p256))])))
    (h2 : Sim (circl L.lib384) st (some (st.length, st ++ [(.p384, P (L.grp .p384))])))
    (h3 : Sim (circl L.lib255) st (some (st.length, st ++ [(.r255, P (L.grp .r255))])))
    (h4 : Sim k1 st (some (st.length, st ++ [(.k1, P (L.grp .k1))])))
    (h5 : ∀ g, Sim (modP g) st (some (st.length, st ++ [(.modP g, P (L.grp (.modP g)))]))) :
    Sim (Ret.elem <$> L.newOf k circl k1 modP) st (some (.elem st.length, st ++ [(k, P (L.grp k))])) := by
  cases k with
  | modP g => exact (h5 g).map Ret.elem
  | p256 => exact h1.map Ret.elem
  | p384 => exact h2.map Ret.elem
  | k1 => exact h4.map Ret.elem
  | r255 => exact h3.map Ret.elem

theorem call_sim (c : Call) (st : Store) : Sim (L.call c) st (L.step st c) := by
  cases c with
  | generator k =>
    exact new_sim L st k (·.generator) _ _ _ (CirclLib.make_sim L.ok256 st _) (CirclLib.make_sim L.ok384 st _)
      (CirclLib.make_sim L.ok255 st _) (K1Obj.make_sim st _) fun g => ModPObj.make_sim g st _
  | identity k =>
    exact new_sim L st k (·.identity) _ _ _ (CirclLib.make_sim L.ok256 st _) (CirclLib.make_sim L.ok384 st _)
      (CirclLib.make_sim L.ok255 st _) (K1Obj.make_sim st _) fun g => ModPObj.make_sim g st _
  | element k =>
    exact new_sim L st k (·.elt) _ _ _ (CirclLib.make_sim L.ok256 st _) (CirclLib.make_sim L.ok384 st _)
      (CirclLib.make_sim L.ok255 st _) (K1Obj.make_sim st _) fun g => ModPObj.make_sim g st _
  | add e a b =>
    refine Sim.cast (on_sim L _ _ _ Ret.elem (fun k v => (operand st k a).bind fun x => (operand st k b).bind fun y =>
      some (e, st.set e (k, (L.grp k).add x y))) ?_) ?_
    · intro k v he
      cases k with
      | modP g => exact ModPObj.add_sim g he a b
      | p256 => exact CirclLib.add_sim L.ok256 he a b
      | p384 => exact CirclLib.add_sim L.ok384 he a b
      | k1 => exact K1Obj.add_sim L.K1 he a b
      | r255 => exact CirclLib.add_sim L.ok255 he a b
    · simp [step, Option.map_bind, Function.comp_def]
  | subtract e a b =>
    intro m hm
    have hcall : L.call (.subtract e a b) m = (obj a m).bind fun p => (obj b p.2).bind fun q =>
        (Ret.elem <$> L.on e (·.subtract e a b) (K1Obj.subtract L.K1 e a b) fun g => ModPObj.subtract g e a b) q.2 := rfl
    rw [hcall]
    have key : a < st.length → b < st.length → Sim (Ret.elem <$> L.on e (·.subtract e a b) (K1Obj.subtract L.K1 e a b) fun g =>
        ModPObj.subtract g e a b) st (L.step st (.subtract e a b)) := by
      intro ha hb
      refine Sim.cast (on_sim L _ _ _ Ret.elem (fun k _ => (operand st k a).bind fun x => (operand st k b).bind fun y =>
        some (e, st.set e (k, (L.grp k).sub x y))) ?_) ?_
      · intro k v he
        cases k with
        | modP g => exact ModPObj.subtract_sim g he ha hb
        | p256 => exact CirclLib.subtract_sim L.ok256 he ha hb
        | p384 => exact CirclLib.subtract_sim L.ok384 he ha hb
        | k1 => exact K1Obj.subtract_sim L.K1 he ha hb
        | r255 => exact CirclLib.subtract_sim L.ok255 he ha hb
      · simp [step, Option.map_bind, Function.comp_def]
    have dead : ∀ i, st[i]? = none → ∀ k, operand st k i = none := by
      intro i hi k; unfold operand; rw [hi]
    cases ha : st[a]? with
    | none =>
      rw [obj_none (hm.none ha)]
      have : L.step st (.subtract e a b) = none := by
        simp [step, dead a ha]
      rw [this]; rfl
    | some pa =>
      obtain ⟨ca, oa, -, -, -⟩ := hm.get ha
      rw [obj_run oa, Option.bind_some]
      cases hb : st[b]? with
      | none =>
        rw [obj_none (hm.none hb)]
        have : L.step st (.subtract e a b) = none := by
          simp [step, dead b hb]
        rw [this]; rfl
      | some pb =>
        obtain ⟨cb, ob, -, -, -⟩ := hm.get hb
        rw [obj_run ob, Option.bind_some]
        exact key (List.getElem?_eq_some_iff.mp ha).1 (List.getElem?_eq_some_iff.mp hb).1 m hm
  | negate e a =>
    refine Sim.cast (on_sim L _ _ _ Ret.elem (fun k v => (operand st k a).bind fun x => some (e, st.set e (k, (L.grp k).neg v x))) ?_) ?_
    · intro k v he
      cases k with
      | modP g => exact ModPObj.negate_sim g he a
      | p256 => exact CirclLib.negate_sim L.ok256 he a
      | p384 => exact CirclLib.negate_sim L.ok384 he a
      | k1 => exact K1Obj.negate_sim L.K1 he a
      | r255 => exact CirclLib.negate_sim L.ok255 he a
    · simp [step, Option.map_bind, Function.comp_def]
  | scale e a s =>
    refine Sim.cast (on_sim L _ _ _ Ret.elem (fun k v => (operand st k a).bind fun x => some (e, st.set e (k, (L.grp k).scale v x s))) ?_) ?_
    · intro k v he
      cases k with
      | modP g => exact ModPObj.scale_sim g he a s
      | p256 => exact CirclLib.scale_sim L.ok256 he a s
      | p384 => exact CirclLib.scale_sim L.ok384 he a s
      | k1 => exact K1Obj.scale_sim L.K1 he a s
      | r255 => exact CirclLib.scale_sim L.ok255 he a s
    · simp [step, Option.map_bind, Function.comp_def]
  | baseScale e s =>
    refine Sim.cast (on_sim L _ _ _ Ret.elem (fun k v => some (e, st.set e (k, (L.grp k).baseScale v s))) ?_) ?_
    · intro k v he
      cases k with
      | modP g => exact ModPObj.baseScale_sim g he s
      | p256 => exact CirclLib.baseScale_sim L.ok256 he s
      | p384 => exact CirclLib.baseScale_sim L.ok384 he s
      | k1 => exact K1Obj.baseScale_sim L.K1 he s
      | r255 => exact CirclLib.baseScale_sim L.ok255 he s
    · simp [step, Option.map_bind, Function.comp_def]
  | set e a =>
    refine Sim.cast (on_sim L _ _ _ Ret.elem (fun k v => (operand st k a).bind fun x => some (e, st.set e (k, x))) ?_) ?_
    · intro k v he
      cases k with
      | modP g => exact Sim.operand (ModPObj.set_sim g he a) fun x hx => by cases x <;> first | rfl | cases hx
      | p256 => exact Sim.operand (CirclLib.set_sim L.ok256 he a) fun x hx => by cases x <;> first | rfl | cases hx
      | p384 => exact Sim.operand (CirclLib.set_sim L.ok384 he a) fun x hx => by cases x <;> first | rfl | cases hx
      | k1 => exact Sim.operand (K1Obj.set_sim L.K1 he a) fun x hx => by cases x <;> first | rfl | cases hx
      | r255 => exact Sim.operand (CirclLib.set_sim L.ok255 he a) fun x hx => by cases x <;> first | rfl | cases hx
    · simp [step, Option.map_bind, Function.comp_def]
  | setBytes e b =>
    refine Sim.cast (on_sim L _ _ _ Ret.elem (fun k v => (L.decode k (L.grp k).elt b).bind fun r => some (e, st.set e (k, r.2))) ?_) ?_
    · intro k v he
      cases k with
      | modP g => exact ModPObj.setBytes_sim g he b
      | p256 => exact Sim.cast (CirclLib.setBytes_sim L.ok256 he b) (rfl)
      | p384 => exact Sim.cast (CirclLib.setBytes_sim L.ok384 he b) (rfl)
      | k1 => exact Sim.cast (K1Obj.setBytes_sim he b) (by simp only [decode]; cases K1Point.setBytes b <;> rfl)
      | r255 => exact Sim.cast (CirclLib.setBytes_sim L.ok255 he b) rfl
    · simp [step, Option.map_bind, Function.comp_def]
  | mapToGroup e s =>
    refine Sim.cast (on_sim L _ _ _ Ret.elem (fun k v => ((L.grp k).mapToGroup s).bind fun P =>
      if k = .k1 then some (st.length, st ++ [(.k1, P)]) else some (e, st.set e (k, P))) ?_) ?_
    · intro k v he
      cases k with
      | modP g => exact fun m _ => rfl
      | p256 => exact CirclLib.mapToGroup_sim L.ok256 he s
      | p384 => exact CirclLib.mapToGroup_sim L.ok384 he s
      | k1 => exact Sim.cast (K1Obj.mapToGroup_sim L.K1 st s) (by
        change _ = (((L.K1.hash s).mapToGroupOf).map Cell.kp).bind _
        cases (L.K1.hash s).mapToGroupOf <;> rfl)
      | r255 => exact CirclLib.mapToGroup_sim L.ok255 he s
    · simp [step, Option.map_bind, Function.comp_def]
      congr 1
      funext p
      congr 1
      funext P
      split <;> rfl
  | unmarshalBinary e d =>
    refine Sim.cast (on_sim L _ _ _ Ret.bool (fun k v => (L.decode k v d).bind fun r => some (r.1, st.set e (k, r.2))) ?_) ?_
    · intro k v he
      cases k with
      | modP g => exact ModPObj.unmarshalBinary_sim g he d
      | p256 => exact Sim.cast (CirclLib.unmarshalBinary_sim L.ok256 he d) (rfl)
      | p384 => exact Sim.cast (CirclLib.unmarshalBinary_sim L.ok384 he d) (rfl)
      | k1 => exact Sim.cast (K1Obj.unmarshalBinary_sim he d) (by simp only [decode]; cases K1Point.setBytes d <;> rfl)
      | r255 => exact Sim.cast (CirclLib.unmarshalBinary_sim L.ok255 he d) rfl
    · simp [step, Option.map_bind, Function.comp_def]
  | unmarshalJSON e d =>
    refine Sim.cast (on_sim L _ _ _ Ret.bool (fun k v => (L.decodeJSON k v d).bind fun r => some (r.1, st.set e (k, r.2))) ?_) ?_
    · intro k v he
      cases k with
      | modP g => exact Sim.cast (ModPObj.unmarshalJSON_sim g he d) (by unfold decodeJSON; cases modPCodec.unmarshal v.toBig d <;> rfl)
      | p256 => exact Sim.cast (CirclLib.unmarshalJSON_sim L.ok256 he d) (by
        change (match unmarshalPoint 32 d with
          | none => none
          | some .error => _
          | some (.bytes b) => _) = (match unmarshalPoint 32 d with
          | none => none
          | some .error => some (true, v)
          | some (.bytes b) => L.decode .p256 v b).bind _
        rcases unmarshalPoint 32 d with _ | _ | b
        · rfl
        · change some (true, st) = some (true, st.set e (.p256, v))
          rw [store_same he]
        · rfl)
      | p384 => exact Sim.cast (CirclLib.unmarshalJSON_sim L.ok384 he d) (by
        change (match unmarshalPoint 48 d with
          | none => none
          | some .error => _
          | some (.bytes b) => _) = (match unmarshalPoint 48 d with
          | none => none
          | some .error => some (true, v)
          | some (.bytes b) => L.decode .p384 v b).bind _
        rcases unmarshalPoint 48 d with _ | _ | b
        · rfl
        · change some (true, st) = some (true, st.set e (.p384, v))
          rw [store_same he]
        · rfl)
      | k1 => exact fun m hm => ⟨m, rfl, by change m.Is (st.set e (.k1, v)); rw [store_same he]; exact hm⟩
      | r255 => exact Sim.cast (CirclLib.unmarshalJSON_sim L.ok255 he d) (by
        change (match unmarshalPoint 32 d with
          | none => none
          | some .error => _
          | some (.bytes b) => _) = (match unmarshalPoint 32 d with
          | none => none
          | some .error => some (true, v)
          | some (.bytes b) => L.decode .r255 v b).bind _
        rcases unmarshalPoint 32 d with _ | _ | b
        · rfl
        · change some (true, st) = some (true, st.set e (.r255, v))
          rw [store_same he]
        · rfl)
    · simp [step, Option.map_bind, Function.comp_def]
  | isEqual e b =>
    refine Sim.cast (on_sim L _ _ _ Ret.bool (fun k v => (operand st k b).bind fun x => some ((L.grp k).isEqual v x, st)) ?_) ?_
    · intro k v he
      cases k with
      | modP g => exact ModPObj.isEqual_sim g he b
      | p256 => exact CirclLib.isEqual_sim L.ok256 he b
      | p384 => exact CirclLib.isEqual_sim L.ok384 he b
      | k1 => exact K1Obj.isEqual_sim he b
      | r255 => exact CirclLib.isEqual_sim L.ok255 he b
    · simp [step, Option.map_bind, Function.comp_def]
  | isIdentity e =>
    refine Sim.cast (on_sim L _ _ _ Ret.bool (fun k v => (L.isId k v).bind fun r => some (r, st)) ?_) ?_
    · intro k v he
      cases k with
      | modP g => exact ModPObj.isIdentity_sim g he
      | p256 => exact CirclLib.isIdentity_sim L.ok256 he
      | p384 => exact CirclLib.isIdentity_sim L.ok384 he
      | k1 => exact K1Obj.isIdentity_sim he
      | r255 => exact CirclLib.isIdentity_sim L.ok255 he
    · simp [step, Option.map_bind, Function.comp_def]
  | marshalBinary e =>
    refine Sim.cast (on_sim L _ _ _ Ret.bytes (fun k v => some (L.encode k v, st)) ?_) ?_
    · intro k v he
      cases k with
      | modP g => exact ModPObj.marshalBinary_sim g he
      | p256 => exact CirclLib.marshalBinary_sim L.ok256 he
      | p384 => exact CirclLib.marshalBinary_sim L.ok384 he
      | k1 => exact K1Obj.marshalBinary_sim he
      | r255 => exact CirclLib.marshalBinary_sim L.ok255 he
    · simp [step, Option.map_bind, Function.comp_def]

end Libs
theorem Mem.OK.is {m : Mem} (h : m.OK) : ∃ st, m.Is st := by
  refine ⟨m.objs.map fun o => (o.kind, (m.cells[o.val]?).getD (.big 0)), h, by simp, fun i => ?_⟩
  unfold Mem.value
  rw [List.getElem?_map]
  cases ho : m.objs[i]? with
  | none => rfl
  | some o =>
    obtain ⟨v, hv, _⟩ := h.held i o ho
    simp [hv]

/-- the empty memory -/
theorem empty_is : Mem.Is ⟨[], []⟩ [] :=
  ⟨⟨fun i o h => by simp at h, fun i j o o' h => by simp at h⟩, rfl, fun i => by simp [Mem.value]⟩

theorem step_frame (L : Libs) (st st' : Store) (c : Call) (r : Ret) (h : L.step st c = some (r, st')) (i : Nat) (hi : i < st.length)
    (hr : c.receiver ≠ some i) : st'[i]? = st[i]? := by
  have new : ∀ p, (st ++ [p])[i]? = st[i]? := fun p => List.getElem?_append_left hi
  have upd : ∀ e p, c.receiver = some e → (st.set e p)[i]? = st[i]? := by
    intro e p he
    refine List.getElem?_set_ne fun hh => hr ?_
    rw [he, hh]
  cases c <;> simp only [Libs.step, Option.bind_eq_bind, Option.bind_eq_some_iff, Option.some.injEq, Prod.mk.injEq] at h
  case mapToGroup e s =>
    obtain ⟨p, -, P, -, h⟩ := h
    split at h
    · simp only [Option.some.injEq, Prod.mk.injEq] at h
      rw [← h.2]; exact new _
    · simp only [Option.some.injEq, Prod.mk.injEq] at h
      rw [← h.2]; exact upd _ _ rfl
  all_goals
    first
      | (rw [← h.2]; exact new _)
      | (obtain ⟨p, -, h⟩ := h; rw [← h.2] <;> exact upd _ _ rfl)
      | (obtain ⟨p, -, x, -, h⟩ := h; rw [← h.2] <;> exact upd _ _ rfl)
      | (obtain ⟨p, -, x, -, y, -, h⟩ := h; rw [← h.2]; exact upd _ _ rfl)

theorem step_length (L : Libs) (st st' : Store) (c : Call) (r : Ret) (h : L.step st c = some (r, st')) : st.length ≤ st'.length := by
  cases c <;> simp only [Libs.step, Option.bind_eq_bind, Option.bind_eq_some_iff, Option.some.injEq, Prod.mk.injEq] at h
  case mapToGroup e s =>
    obtain ⟨p, -, P, -, h⟩ := h
    split at h <;> simp only [Option.some.injEq, Prod.mk.injEq] at h <;> rw [← h.2] <;> simp
  all_goals
    first
      | (rw [← h.2]; simp)
      | (obtain ⟨p, -, h⟩ := h; rw [← h.2] <;> simp)
      | (obtain ⟨p, -, x, -, h⟩ := h; rw [← h.2] <;> simp)
      | (obtain ⟨p, -, x, -, y, -, h⟩ := h; rw [← h.2]; simp)

end MscPoc
