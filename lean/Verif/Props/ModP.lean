import Verif.Lemmas.ModP
import Verif.Lemmas.Bytes
import Verif.Model.Heap
import Verif.Lemmas.SigmaModel
import Mathlib.Tactic.LinearCombination

/-!
# C01–C05 — the safe-prime group
-/

set_option autoImplicit false

namespace MscPoc

/-- Elements obtainable through the API of one ModP group.  Receivers are arbitrary elements of the group. -/
inductive Produced (g : ModPGroup) : ModPElement → Prop
  | generator : Produced g (ModPElement.generator g)
  | identity : Produced g (ModPElement.identity g)
  | random (r : Int) : Produced g (g.random r)
  | baseScale (e : ModPElement) (s : Int) : e.group = g → Produced g (e.baseScale s)
  | scale (e a r : ModPElement) (s : Int) : e.group = g → Produced g a → e.scale a s = some r → Produced g r
  | add (e a b r : ModPElement) : e.group = g → Produced g a → Produced g b → e.add a b = some r → Produced g r
  | subtract (e a b r : ModPElement) : e.group = g → Produced g a → Produced g b → e.subtract a b = some r → Produced g r
  | negate (e a r : ModPElement) : e.group = g → Produced g a → e.negate a = some r → Produced g r
  | set (e a r : ModPElement) : e.group = g → Produced g a → e.set a = some r → Produced g r

theorem equals_self (g : ModPGroup) : g.equals g = true := by simp [ModPGroup.equals]

section api
variable {g : ModPGroup} {e a b : ModPElement}

theorem api_add (he : e.group = g) (ha : a.group = g) (hb : b.group = g) :
    e.add a b = some ⟨g, (modPGrp g).add a.val b.val⟩ := by
  subst he
  simp [ModPElement.add, ModPElement.check, ha, hb, equals_self, modPGrp]

theorem api_negate (he : e.group = g) (ha : a.group = g) : e.negate a = some ⟨g, (modPGrp g).neg e.val a.val⟩ := by
  subst he
  simp [ModPElement.negate, ModPElement.check, ha, equals_self, modPGrp]

theorem api_subtract (he : e.group = g) (ha : a.group = g) (hb : b.group = g) :
    e.subtract a b = some ⟨g, (modPGrp g).sub a.val b.val⟩ := by
  unfold ModPElement.subtract
  rw [he]
  have h1 := api_negate (g := g) (e := ModPElement.identity g) (a := b) rfl hb
  simp only [h1, Option.bind_eq_bind, Option.bind_some]
  rw [api_add he ha rfl]
  rfl

theorem api_scale (he : e.group = g) (ha : a.group = g) (s : Int) :
    e.scale a s = some ⟨g, (modPGrp g).scale e.val a.val s⟩ := by
  subst he
  simp [ModPElement.scale, ModPElement.check, ha, equals_self, modPGrp]

theorem api_set (he : e.group = g) (ha : a.group = g) : e.set a = some ⟨g, a.val⟩ := by
  subst he
  simp [ModPElement.set, ModPElement.check, ha, equals_self]

theorem api_add' {x y : Int} (he : e.group = g) : e.add ⟨g, x⟩ ⟨g, y⟩ = some ⟨g, (modPGrp g).add x y⟩ :=
  api_add he rfl rfl

theorem api_negate' {x : Int} (he : e.group = g) : e.negate ⟨g, x⟩ = some ⟨g, (modPGrp g).neg e.val x⟩ :=
  api_negate he rfl

theorem api_subtract' {x y : Int} (he : e.group = g) : e.subtract ⟨g, x⟩ ⟨g, y⟩ = some ⟨g, (modPGrp g).sub x y⟩ :=
  api_subtract he rfl rfl

theorem api_scale' {x : Int} (he : e.group = g) (s : Int) :
    e.scale ⟨g, x⟩ s = some ⟨g, (modPGrp g).scale e.val x s⟩ := api_scale he rfl s

end api

/-- **C01** Everything the API produces is a member of the order-`q` subgroup, reduced to `(0,p)`. -/
theorem C01_produced_member {g : ModPGroup} {p q : ℕ} (h : ModPOK g p q) {e : ModPElement} (he : Produced g e) :
    e.group = g ∧ 0 < e.val ∧ e.val < p ∧ e.val ^ q % (p : Int) = 1 := by
  suffices hs : e.group = g ∧ (modPLawful h).V e.val from ⟨hs.1, hs.2.1, hs.2.2.1, hs.2.2.2⟩
  induction he with
  | generator => exact ⟨rfl, (modPLawful h).V_gen⟩
  | identity => exact ⟨rfl, (modPLawful h).V_ident⟩
  | random r => exact ⟨rfl, (modPLawful h).V_baseScale (recv := 1)⟩
  | baseScale e s heg => subst heg; exact ⟨rfl, (modPLawful h).V_baseScale⟩
  | scale e a r s heg _ hr ih =>
    rw [api_scale heg ih.1] at hr
    cases hr
    exact ⟨rfl, (modPLawful h).V_scale ih.2⟩
  | add e a b r heg _ _ hr iha ihb =>
    rw [api_add heg iha.1 ihb.1] at hr
    cases hr
    exact ⟨rfl, (modPLawful h).V_add iha.2 ihb.2⟩
  | subtract e a b r heg _ _ hr iha ihb =>
    rw [api_subtract heg iha.1 ihb.1] at hr
    cases hr
    exact ⟨rfl, (modPLawful h).V_sub iha.2 ihb.2⟩
  | negate e a r heg _ hr ih =>
    rw [api_negate heg ih.1] at hr
    cases hr
    exact ⟨rfl, (modPLawful h).V_neg ih.2⟩
  | set e a r heg _ hr ih =>
    rw [api_set heg ih.1] at hr
    cases hr
    exact ⟨rfl, ih.2⟩

section laws
variable {g : ModPGroup} {p q : ℕ}

/-- C01: `Add` is commutative and associative, the identity is neutral, and the result does not depend on what the
receiver held before. -/
theorem C01_add_laws (h : ModPOK g p q) (e e' X Y Z : ModPElement) (he : e.group = g) (he' : e'.group = g)
    (hX : Produced g X) (hY : Produced g Y) (hZ : Produced g Z) :
    e.add X Y = e'.add Y X ∧
    (e.add X Y).bind (fun t => e.add t Z) = (e.add Y Z).bind (fun t => e.add X t) ∧
    e.add X (ModPElement.identity g) = some X ∧
    e.subtract X X = some (ModPElement.identity g) ∧
    (e.subtract X Y).bind (fun t => e.add t Y) = some X ∧
    (e.negate X).bind (fun t => e.add X t) = some (ModPElement.identity g) := by
  obtain ⟨gX, vX⟩ := C01_produced_member h hX
  obtain ⟨gY, vY⟩ := C01_produced_member h hY
  obtain ⟨gZ, vZ⟩ := C01_produced_member h hZ
  obtain ⟨X, x⟩ := X
  obtain ⟨Y, y⟩ := Y
  obtain ⟨Z, z⟩ := Z
  simp only at gX gY gZ vX vY vZ
  subst gX gY gZ
  let L := modPLawful h
  have vX : L.V x := vX
  have vY : L.V y := vY
  have vZ : L.V z := vZ
  have V1 : L.V 1 := L.V_ident
  have d1 : L.den (1 : Int) = 0 := L.den_ident
  have inj : ∀ {a b : Int}, L.V a → L.V b → L.den a = L.den b → a = b := fun ha hb hd => modP_den_inj h ha hb hd
  refine ⟨?_, ?_, ?_, ?_, ?_, ?_⟩
  · rw [api_add he rfl rfl, api_add he' rfl rfl]
    congr 2
    apply inj (L.V_add vX vY) (L.V_add vY vX)
    rw [L.den_add vX vY, L.den_add vY vX, add_comm]
  · simp only [api_add' he, Option.bind_some]
    congr 2
    apply inj (L.V_add (L.V_add vX vY) vZ) (L.V_add vX (L.V_add vY vZ))
    rw [L.den_add (L.V_add vX vY) vZ, L.den_add vX vY, L.den_add vX (L.V_add vY vZ), L.den_add vY vZ, add_assoc]
  · rw [api_add he rfl rfl]
    congr 2
    apply inj (L.V_add vX V1) vX
    rw [L.den_add vX V1, d1, add_zero]
  · rw [api_subtract he rfl rfl]
    unfold ModPElement.identity
    congr 2
    apply inj (L.V_sub vX vX) V1
    rw [L.den_sub vX vX, sub_self, d1]
  · simp only [api_subtract' he, Option.bind_some, api_add' he]
    congr 2
    apply inj (L.V_add (L.V_sub vX vY) vY) vX
    rw [L.den_add (L.V_sub vX vY) vY, L.den_sub vX vY, sub_add_cancel]
  · simp only [api_negate' he, Option.bind_some, api_add' he]
    unfold ModPElement.identity
    congr 2
    apply inj (L.V_add vX (L.V_neg vX)) V1
    rw [L.den_add vX (L.V_neg vX), L.den_neg vX, add_neg_cancel, d1]

/-- C01: `Scale` with any integer: zero, successor and negation laws (so it is the `s`-fold operation), additivity, it
depends only on `s` modulo the order, and `BaseScale` is `Scale` of the generator. -/
theorem C01_scale_laws (h : ModPOK g p q) (e e' X : ModPElement) (he : e.group = g) (he' : e'.group = g)
    (hX : Produced g X) (s t : Int) :
    e.scale X 0 = some (ModPElement.identity g) ∧
    e.scale X (s + 1) = (e'.scale X s).bind (fun r => e.add r X) ∧
    e.scale X (-s) = (e'.scale X s).bind (fun r => e.negate r) ∧
    e.scale X (s + t) = (e'.scale X s).bind (fun r => (e'.scale X t).bind (fun r' => e.add r r')) ∧
    e.scale X s = e'.scale X (s % g.groupOrder) ∧
    some (e.baseScale s) = e'.scale (ModPElement.generator g) s := by
  obtain ⟨gX, vX⟩ := C01_produced_member h hX
  obtain ⟨X, x⟩ := X
  simp only at gX vX
  subst gX
  let L := modPLawful h
  have vX : L.V x := vX
  have V1 : L.V 1 := L.V_ident
  have d1 : L.den (1 : Int) = 0 := L.den_ident
  have inj : ∀ {a b : Int}, L.V a → L.V b → L.den a = L.den b → a = b := fun ha hb hd => modP_den_inj h ha hb hd
  refine ⟨?_, ?_, ?_, ?_, ?_, ?_⟩
  · rw [api_scale he rfl]
    unfold ModPElement.identity
    congr 2
    apply inj (L.V_scale vX) V1
    rw [L.den_scale vX, d1]; simp
  · simp only [api_scale' he, api_scale' he', Option.bind_some, api_add' he]
    congr 2
    apply inj (L.V_scale vX) (L.V_add (L.V_scale vX) vX)
    rw [L.den_scale vX, L.den_add (L.V_scale vX) vX, L.den_scale vX]
    push_cast; module
  · simp only [api_scale' he, api_scale' he', Option.bind_some, api_negate' he]
    congr 2
    apply inj (L.V_scale vX) (L.V_neg (L.V_scale vX))
    rw [L.den_scale vX, L.den_neg (L.V_scale vX), L.den_scale vX]
    push_cast; module
  · simp only [api_scale' he, api_scale' he', Option.bind_some, api_add' he]
    congr 2
    apply inj (L.V_scale vX) (L.V_add (L.V_scale vX) (L.V_scale vX))
    rw [L.den_scale vX, L.den_add (L.V_scale vX) (L.V_scale vX), L.den_scale vX, L.den_scale vX]
    push_cast; module
  · simp only [api_scale' he, api_scale' he']
    congr 2
    apply inj (L.V_scale vX) (L.V_scale vX)
    rw [L.den_scale vX, L.den_scale vX, h.go, cast_emod]
  · rw [api_scale he' rfl]
    subst he
    unfold ModPElement.baseScale
    congr 2
    apply inj L.V_baseScale (L.V_scale L.V_gen)
    rw [L.den_scale L.V_gen]
    exact L.den_baseScale

/-- C01: `IsEqual` and `IsIdentity` decide equality; scaling by the group order gives the identity. -/
theorem C01_equality (h : ModPOK g p q) (e X Y : ModPElement) (he : e.group = g) (hX : Produced g X) (hY : Produced g Y) :
    X.isEqual Y = some (decide (X = Y)) ∧ X.isIdentity = decide (X = ModPElement.identity g) ∧
    e.scale X g.groupOrder = some (ModPElement.identity g) := by
  obtain ⟨gX, vX⟩ := C01_produced_member h hX
  obtain ⟨gY, vY⟩ := C01_produced_member h hY
  obtain ⟨X, x⟩ := X
  obtain ⟨Y, y⟩ := Y
  simp only at gX gY
  subst gX gY
  refine ⟨?_, ?_, ?_⟩
  · simp [ModPElement.isEqual, ModPElement.check, equals_self, beq_eq_decide]
  · simp [ModPElement.isIdentity, ModPElement.identity, beq_eq_decide]
  · have h1 := (C01_scale_laws h e e ⟨Y, x⟩ he he hX Y.groupOrder 0)
    rw [h1.2.2.2.2.1, Int.emod_self, h1.1]

/-- C01: a safe-prime group satisfying the hypotheses: p = 23, q = 11, generator 2. -/
example : ModPOK ⟨2, 23, 11, "toy"⟩ 23 11 :=
  ⟨by decide +kernel, rfl, rfl, by norm_num, by decide, by decide, by decide⟩

end laws

/-! ## C02 -/

/-- the operations on objects, by name -/
inductive HOp where
  | add (e a b : ℕ) | subtract (e a b : ℕ) | negate (e a : ℕ) | set (e a : ℕ) | scale (e a : ℕ) (s : Int)
  | baseScale (e : ℕ) (s : Int)

/-- receiver -/
def HOp.recv : HOp → ℕ
  | add e _ _ | subtract e _ _ | negate e _ | set e _ | scale e _ _ | baseScale e _ => e

/-- objects named in a call -/
def HOp.objs : HOp → List ℕ
  | add e a b | subtract e a b => [e, a, b]
  | negate e a | set e a | scale e a _ => [e, a]
  | baseScale e _ => [e]

/-- run on the heap; `t` is the address of a temporary -/
def HOp.run (g : ModPGroup) (t : ℕ) : HOp → Heap → Heap
  | add e a b => HeapModP.add g e a b
  | subtract e a b => HeapModP.subtract g t e a b
  | negate e a => HeapModP.negate g e a
  | set e a => HeapModP.set e a
  | scale e a s => HeapModP.scale g e a s
  | baseScale e s => HeapModP.baseScale g e s

/-- the value the receiver should end up with, from the values before the call -/
def HOp.value (g : ModPGroup) (h : Heap) : HOp → Int
  | add _ a b => (modPGrp g).add (h a) (h b)
  | subtract _ a b => (modPGrp g).sub (h a) (h b)
  | negate e a => (modPGrp g).neg (h e) (h a)
  | set _ a => h a
  | scale e a s => (modPGrp g).scale (h e) (h a) s
  | baseScale e s => (modPGrp g).baseScale (h e) s

/-- **C02** Aliasing: the receiver gets the operation on the old values, nothing else (but the temporary) changes. -/
theorem C02_aliasing (g : ModPGroup) (op : HOp) (t : ℕ) (ht : t ∉ op.objs) (h : Heap) :
    op.run g t h op.recv = op.value g h ∧ ∀ x, x ≠ op.recv → x ≠ t → op.run g t h x = h x := by
  cases op with
  | add e a b => simp +contextual [HOp.run, HeapModP.add, Heap.set, HOp.value, HOp.recv, modPGrp]
  | subtract e a b =>
    simp only [HOp.objs, List.mem_cons, List.not_mem_nil, or_false, not_or] at ht
    obtain ⟨t1, t2, t3⟩ := ht
    simp only [HOp.run, HeapModP.subtract, HeapModP.add, HeapModP.negate, HOp.recv, HOp.value, modPGrp, Grp.sub,
      ModPElement.identity]
    have hb : (h.set t 1) b = h b := by simp [Heap.set, Ne.symm t3]
    rw [hb]
    cases hm : modInverse (h b) g.fieldOrder with
    | none => exact ⟨by simp [Heap.set, Ne.symm t2], fun x hx hxt => by simp [Heap.set, hx, hxt]⟩
    | some v => exact ⟨by simp [Heap.set, Ne.symm t2], fun x hx hxt => by simp [Heap.set, hx, hxt]⟩
  | negate e a =>
    simp only [HOp.run, HeapModP.negate, HOp.recv, HOp.value, modPGrp]
    cases modInverse (h a) g.fieldOrder with
    | none => exact ⟨rfl, fun x _ _ => rfl⟩
    | some v => exact ⟨by simp [Heap.set], fun x hx _ => by simp [Heap.set, hx]⟩
  | set e a => simp +contextual [HOp.run, HeapModP.set, Heap.set, HOp.value, HOp.recv]
  | scale e a s => simp +contextual [HOp.run, HeapModP.scale, Heap.set, HOp.value, HOp.recv, modPGrp]
  | baseScale e s => simp +contextual [HOp.run, HeapModP.baseScale, Heap.set, HOp.value, HOp.recv, modPGrp]

/-- C02: fully aliased calls on a concrete heap. -/
example : let g : ModPGroup := ⟨2, 23, 11, "toy"⟩
    let h : Heap := fun a => if a = 0 then 4 else 9
    (HOp.add 0 0 0).run g 7 h 0 = 16 ∧ (HOp.subtract 0 0 0).run g 7 h 0 = 1 ∧ (HOp.subtract 0 0 1).run g 7 h 1 = 9 ∧
    7 ∉ (HOp.subtract 0 0 0).objs := by decide +kernel

/-! ## C03 -/

/-- two groups are told apart by the code -/
def Differ (g k : ModPGroup) : Prop := g.fieldOrder ≠ k.fieldOrder ∨ g.gen ≠ k.gen

theorem check_none (e a : ModPElement) : e.check a = none ↔ Differ e.group a.group := by
  unfold ModPElement.check ModPGroup.equals Differ
  split <;> (simp_all; try tauto)

theorem check_cases (e a : ModPElement) :
    (e.check a = none ∧ Differ e.group a.group) ∨ (e.check a = some a ∧ ¬ Differ e.group a.group) := by
  by_cases h : e.check a = none
  · exact Or.inl ⟨h, (check_none e a).mp h⟩
  · right
    refine ⟨?_, fun hd => h ((check_none e a).mpr hd)⟩
    unfold ModPElement.check at *
    split <;> simp_all

/-- **C03** Operations panic exactly on an operand whose group has another field order or generator. -/
theorem C03_mixing_panics (e a b : ModPElement) (s : Int) :
    (e.add a b = none ↔ Differ e.group a.group ∨ Differ e.group b.group) ∧
    (e.subtract a b = none ↔ Differ e.group a.group ∨ Differ e.group b.group) ∧
    (e.negate a = none ↔ Differ e.group a.group) ∧
    (e.isEqual b = none ↔ Differ e.group b.group) ∧
    (e.set a = none ↔ Differ e.group a.group) ∧
    (e.scale a s = none ↔ Differ e.group a.group) := by
  have hself : ∀ g : ModPGroup, ¬ Differ g g := fun g => by simp [Differ]
  have hid : ∀ x v, (ModPElement.mk e.group v).check x = e.check x := fun x v => rfl
  have hv : ∀ v, e.check ⟨e.group, v⟩ = some ⟨e.group, v⟩ := fun v => by
    rcases check_cases e ⟨e.group, v⟩ with ⟨_, h⟩ | ⟨h, _⟩
    · exact absurd h (hself _)
    · exact h
  unfold ModPElement.add ModPElement.subtract ModPElement.negate ModPElement.isEqual ModPElement.set ModPElement.scale
    ModPElement.identity ModPElement.add
  simp only [hid, Option.bind_eq_bind]
  rcases check_cases e a with ⟨h1, d1⟩ | ⟨h1, d1⟩ <;> rcases check_cases e b with ⟨h2, d2⟩ | ⟨h2, d2⟩ <;>
    simp [h1, h2, d1, d2, hv]

example : Differ ⟨2, 23, 11, "a"⟩ ⟨2, 47, 23, "b"⟩ ∧ Differ ⟨2, 23, 11, "a"⟩ ⟨3, 23, 11, "a"⟩ ∧
    ¬ Differ ⟨2, 23, 11, "a"⟩ ⟨2, 23, 5, "other name and order"⟩ := by
  refine ⟨Or.inl (by decide), Or.inr (by decide), by simp [Differ]⟩

/-! ## C04 -/

/-- **C04** Binary and JSON round trips, for any receiver. -/
theorem C04_transport (recv : ModPElement) (e : ModPElement) (h0 : 0 ≤ e.val) (hg : recv.group = e.group) :
    recv.unmarshalBinary e.marshalBinary = e ∧
    (∃ j, modPCodec.marshal e.val = some (.ok j) ∧ modPCodec.unmarshal recv.val (some j) = some (false, e.val)) := by
  refine ⟨?_, _, rfl, rfl⟩
  obtain ⟨g, v⟩ := e
  obtain ⟨g', v'⟩ := recv
  simp only at h0 hg
  subst hg
  simp only [ModPElement.unmarshalBinary, ModPElement.marshalBinary, setBytes_bigBytes, ModPElement.mk.injEq, true_and]
  omega

/-- C04: outside the stated domain the sign is lost: a negative value comes back as its absolute value. -/
theorem C04_negative_lost (recv : ModPElement) (e : ModPElement) :
    (recv.unmarshalBinary e.marshalBinary).val = |e.val| := by
  simp [ModPElement.unmarshalBinary, ModPElement.marshalBinary, setBytes_bigBytes]

example : (ModPElement.mk ⟨2, 23, 11, ""⟩ 65536).marshalBinary = [1, 0, 0] ∧
    ((ModPElement.mk ⟨2, 23, 11, ""⟩ 5).unmarshalBinary [1, 0, 0]).val = 65536 := by decide +kernel

/-! ## C05 -/

/-- **C05** Decoding accepts every integer, and there are always integers that are not group elements: 0, `p`, every
negative number and, for odd `q`, `p-1`. -/
theorem C05_decode_no_membership {g : ModPGroup} {p q : ℕ} (h : ModPOK g p q) (recv v : Int) :
    modPCodec.unmarshal recv (some (.num v)) = some (false, v) ∧
    (v ≤ 0 ∨ (p : Int) ≤ v → ¬ (modPLawful h).V v) ∧
    (Odd q → 2 < p → ¬ (modPLawful h).V ((p : Int) - 1)) := by
  refine ⟨rfl, ?_, ?_⟩
  · rintro (h1 | h1) ⟨h2, h3, _⟩ <;> omega
  · rintro hq hp ⟨_, _, h3⟩
    have e1 : ((p : Int) - 1) ^ q % p = (-1) ^ q % p := by
      apply Int.ModEq.pow
      rw [Int.ModEq, sub_eq_neg_add, Int.add_emod_right]
    rw [e1, hq.neg_one_pow] at h3
    have : (-1 : Int) % p = p - 1 := by
      rw [← Int.add_emod_right, Int.emod_eq_of_lt (by omega) (by omega)]
      ring
    omega

theorem even_pow_neg (p y : Int) (c : ℕ) (hc : Even c) : (p - y) ^ c % p = y ^ c % p := by
  have h1 : (p - y) ^ c % p = (-y) ^ c % p := by
    apply Int.ModEq.pow
    rw [Int.ModEq, sub_eq_neg_add, Int.add_emod_right]
  rw [h1, hc.neg_pow]

/-- C05: with an even challenge the sigma verdict does not notice `U` being replaced by `p - U`. -/
theorem C05_sign_attack {E₂ : Type} (g : ModPGroup) (sha : Bytes → Bytes) (pf : SigmaProof Int E₂)
    (hI : pf.Params.GFF.I = modPGrp g) (comm : VerCommitments Int E₂)
    (c : Int) (hc : pf.Challenge = some c) (heven : Even c) :
    pf.verify sha { comm with Y := g.fieldOrder - comm.Y } = pf.verify sha comm := by
  cases hZ : pf.Z with
  | none => unfold SigmaProof.verify; rw [hZ]; rfl
  | some Z =>
  cases hz : pf.Params.zOk Z with
  | false => rw [sigma_verify_reject_z sha pf _ hZ hz, sigma_verify_reject_z sha pf _ hZ hz]
  | true =>
  cases hch : getFSChallenge sha pf.Params.GFF.I pf.Params.GEC.I pf.W pf.Kp pf.Kq1 pf.Kq2 pf.Params.Bc with
  | none =>
    unfold SigmaProof.verify
    rw [hZ, bind_step rfl, bind_step rfl, if_neg (by simp [hz]), if_neg (by simp [hz]), hch]
    rfl
  | some ch =>
  rw [sigma_verify_step sha pf _ hZ hz hch hc, sigma_verify_step sha pf _ hZ hz hch hc]
  by_cases hcc : ch = c
  swap
  · rw [if_pos hcc, if_pos hcc]
  have hn := getFSChallenge_nonneg hch
  subst hcc
  obtain ⟨n, rfl⟩ := Int.eq_ofNat_of_zero_le hn
  have key : pf.Params.GFF.I.mul (g.fieldOrder - comm.Y) (n : Int) = pf.Params.GFF.I.mul comm.Y n := by
    rw [hI]
    simp only [Grp.mul, modPGrp, bigExp, Int.toNat_natCast]
    rw [if_pos (by omega), if_pos (by omega)]
    exact even_pow_neg _ _ _ (by exact_mod_cast heven)
  dsimp only
  rw [key]

/-- decryption with secret key `sk`: `V - sk.U` -/
def decryptWith {E : Type} (FFG : Grp E) (sk : Int) (U V : E) : E := FFG.sub V (FFG.mul U sk)

/-- C05: for an odd key the changed ciphertext decrypts to the negative of the old plaintext element, a different number. -/
theorem C05_sign_attack_decrypts (g : ModPGroup) (p : ℕ) (hp : p.Prime) (hp2 : p ≠ 2) (hfo : g.fieldOrder = p)
    (U V : Int) (hU : 0 < U) (hU' : U < p) (hV : 0 < V) (hV' : V < p) (sk : ℕ) (hsk : Odd sk) :
    decryptWith (modPGrp g) sk (p - U) V = p - decryptWith (modPGrp g) sk U V ∧
    decryptWith (modPGrp g) sk (p - U) V ≠ decryptWith (modPGrp g) sk U V := by
  have := Fact.mk hp
  have unit : ∀ x : Int, 0 < x → x < p → (x : ZMod p) ≠ 0 := by
    intro x h1 h2 h3
    have := Int.le_of_dvd h1 ((ZMod.intCast_zmod_eq_zero_iff_dvd x p).mp h3)
    omega
  have dec : ∀ W : Int, (W : ZMod p) ≠ 0 → ∃ d, decryptWith (modPGrp g) sk W V = d ∧ 0 ≤ d ∧ d < p ∧
      (d : ZMod p) * (W : ZMod p) ^ sk = V := by
    intro W hW
    refine ⟨_, rfl, ?_⟩
    simp only [decryptWith, Grp.sub, Grp.mul, modPGrp, hfo, bigExp, Int.toNat_natCast]
    rw [if_pos (by omega)]
    have hw : (((W ^ sk % p : Int)) : ZMod p) ≠ 0 := by
      rw [cast_emod]; push_cast; exact pow_ne_zero _ hW
    have hi : modInverse (W ^ sk % p) p = some (Int.gcdA (W ^ sk % p % p) p % p) := by
      unfold modInverse; rw [if_pos ((gcd_eq_one_iff _).mpr hw)]
    have inv := modInverse_spec hi
    rw [hi, Option.getD_some]
    refine ⟨Int.emod_nonneg _ (by exact_mod_cast hp.ne_zero), Int.emod_lt_of_pos _ (by exact_mod_cast hp.pos), ?_⟩
    obtain ⟨i, hi'⟩ : ∃ i, Int.gcdA (W ^ sk % p % p) p % p = i := ⟨_, rfl⟩
    rw [hi'] at inv ⊢
    rw [cast_emod]
    rw [cast_emod] at inv
    push_cast at inv ⊢
    linear_combination (V : ZMod p) * inv
  obtain ⟨d1, e1, p1, q1, f1⟩ := dec U (unit U hU hU')
  obtain ⟨d2, e2, p2, q2, f2⟩ := dec (p - U) (unit (p - U) (by omega) (by omega))
  rw [e1, e2]
  have hd1 : d1 ≠ 0 := by
    rintro rfl
    rw [Int.cast_zero, zero_mul] at f1
    exact unit V hV hV' f1.symm
  have hu : (U : ZMod p) ^ sk ≠ 0 := pow_ne_zero _ (unit U hU hU')
  have hsum : ((d2 + d1 : Int) : ZMod p) = 0 := by
    have e3 : (((p : Int) - U : Int) : ZMod p) ^ sk = -(U : ZMod p) ^ sk := by
      push_cast
      rw [ZMod.natCast_self, zero_sub, hsk.neg_pow]
    rw [e3] at f2
    have : ((d2 : ZMod p) + d1) * (U : ZMod p) ^ sk = 0 := by linear_combination f1 - f2
    push_cast
    exact (mul_eq_zero.mp this).resolve_right hu
  obtain ⟨m, hm⟩ := (ZMod.intCast_zmod_eq_zero_iff_dvd _ p).mp hsum
  have hm1 : m = 1 := by
    have hpp : (0 : Int) < p := by exact_mod_cast hp.pos
    have : 0 < d1 := by omega
    nlinarith
  subst hm1
  refine ⟨by omega, ?_⟩
  intro heq
  have hodd := hp.odd_of_ne_two hp2
  obtain ⟨r, hr⟩ := hodd
  omega

/-- C05: in the group modulo 23 with key 3, `U = 4`, `V = 9`. -/
example : decryptWith (modPGrp ⟨2, 23, 11, ""⟩) 3 4 9 = 12 ∧ decryptWith (modPGrp ⟨2, 23, 11, ""⟩) 3 (23 - 4) 9 = 11 := by
  decide +kernel

/-- C05: on a decoded negative number `-v` the laws of `Scale` fail: for odd `s` the elements `Scale(-v, s)` and
`Scale(-v, -s)` multiply to `p - 1` instead of 1, and `Scale(-v, -s) = Scale(v, -s)`. -/
theorem C05_negative_scale (g : ModPGroup) (p : ℕ) (hp : p.Prime) (hfo : g.fieldOrder = p) (v : Int) (hv : 0 < v) (hv' : v < p)
    (s : ℕ) (hs : Odd s) :
    (modPGrp g).add ((modPGrp g).mul (-v) s) ((modPGrp g).mul (-v) (-s)) = p - 1 ∧
    (modPGrp g).add ((modPGrp g).mul v s) ((modPGrp g).mul v (-s)) = 1 ∧
    (modPGrp g).mul (-v) (-s) = (modPGrp g).mul v (-s) := by
  have := Fact.mk hp
  have hpp : (0 : Int) < p := by exact_mod_cast hp.pos
  have hp1 : (1 : Int) < p := by exact_mod_cast hp.one_lt
  have hv0 : (v : ZMod p) ≠ 0 := by
    intro h
    have := Int.le_of_dvd hv ((ZMod.intCast_zmod_eq_zero_iff_dvd v p).mp h)
    omega
  have hv1 : ((-v : Int) : ZMod p) ≠ 0 := by push_cast; exact neg_ne_zero.mpr hv0
  have hs0 : 0 < s := hs.pos
  have hs2 : s % 2 = 1 := Nat.odd_iff.mp hs
  obtain ⟨a, ha⟩ : ∃ a, modInverse v p = some a := by
    unfold modInverse; rw [if_pos ((gcd_eq_one_iff _).mpr hv0)]; exact ⟨_, rfl⟩
  obtain ⟨b, hb⟩ : ∃ b, modInverse (-v) p = some b := by
    unfold modInverse; rw [if_pos ((gcd_eq_one_iff _).mpr hv1)]; exact ⟨_, rfl⟩
  have ia := modInverse_spec ha
  have ib := modInverse_spec hb
  have pos : ∀ x : Int, (modPGrp g).mul x s = x ^ s % p := by
    intro x
    simp only [Grp.mul, modPGrp, hfo, bigExp, Int.toNat_natCast]
    rw [if_pos (by omega)]
  have nv : (modPGrp g).mul v (-s) = a ^ s % p := by
    simp only [Grp.mul, modPGrp, hfo, bigExp, neg_neg, Int.toNat_natCast]
    rw [if_neg (by omega), ha]
    dsimp only
    rw [if_neg (by omega)]
  have nn : (modPGrp g).mul (-v) (-s) = -(b ^ s) % p := by
    simp only [Grp.mul, modPGrp, hfo, bigExp, neg_neg, Int.toNat_natCast]
    rw [if_neg (by omega), hb]
    dsimp only
    rw [if_pos ⟨by omega, hs2⟩]
  have red : ∀ x y : Int, (x : ZMod p) = y → x % p = y % p := fun x y h =>
    (ZMod.intCast_eq_intCast_iff _ _ p).mp h
  have add : ∀ x y : Int, (modPGrp g).add x y = x * y % p := by
    intro x y; simp only [modPGrp, hfo]
  refine ⟨?_, ?_, ?_⟩
  · rw [add, pos, nn, ← Int.mul_emod, red _ (p - 1), Int.emod_eq_of_lt (by omega) (by omega)]
    have h : ((-v : Int) : ZMod p) ^ s * (b : ZMod p) ^ s = 1 := by rw [← mul_pow, ib, one_pow]
    push_cast at h ⊢
    rw [ZMod.natCast_self]
    linear_combination -h
  · rw [add, pos, nv, ← Int.mul_emod, red _ 1, Int.emod_eq_of_lt (by omega) hp1]
    have h : (v : ZMod p) ^ s * (a : ZMod p) ^ s = 1 := by rw [← mul_pow, ia, one_pow]
    push_cast at h ⊢
    exact h
  · rw [nn, nv]
    refine red _ _ ?_
    have hab : (b : ZMod p) = -a := by
      push_cast at ib
      have : (v : ZMod p) * (b + a) = 0 := by linear_combination ia - ib
      linear_combination (mul_eq_zero.mp this).resolve_left hv0
    push_cast
    rw [hab, hs.neg_pow, neg_neg]

/-- C05: in the group modulo 23, `Scale(-5, 3)` and `Scale(-5, -3)`. -/
example : (modPGrp ⟨2, 23, 11, ""⟩).mul (-5) 3 = 13 ∧ (modPGrp ⟨2, 23, 11, ""⟩).mul (-5) (-3) = 7 ∧
    (modPGrp ⟨2, 23, 11, ""⟩).mul 5 (-3) = 7 ∧ 13 * 7 % 23 = 22 := by decide +kernel

end MscPoc
