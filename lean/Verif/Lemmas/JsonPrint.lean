import Mathlib.Data.Nat.Digits.Lemmas
import Verif.Lemmas.JsonText
import Verif.Lemmas.Marshal

/-!
# What is printed is a text of the grammar; what the encoders print
-/

set_option autoImplicit false

namespace MscPoc
namespace JText

open JSpec

/-! ## Numbers -/

/-- decimal text of a natural number -/
def natText (n : ℕ) : Text := (natDec n).map fun b => Char.ofNat b.toNat

theorem natText_lt {n : ℕ} (h : n < 10) : natText n = [Char.ofNat (48 + n)] := by
  interval_cases n <;> simp [natText, natDec]

theorem natText_ge {n : ℕ} (h : 10 ≤ n) : natText n = natText (n / 10) ++ [Char.ofNat (48 + n % 10)] := by
  have h1 : Nat.digits 10 n = (n % 10) :: Nat.digits 10 (n / 10) := Nat.digits_def' (by norm_num) (by omega)
  have h2 : n % 10 < 10 := Nat.mod_lt _ (by norm_num)
  unfold natText natDec
  rw [if_neg (by omega), if_neg (by omega), h1, List.reverse_cons, List.map_append, List.map_append]
  congr 1
  simp only [List.map_cons, List.map_nil]
  rw [UInt8.toNat_ofNat', Nat.mod_eq_of_lt (by omega), Nat.add_comm]

theorem natText_int (n : ℕ) : IntPart (natText n) n := by
  suffices h : Digits (natText n) n ∧ (n ≠ 0 → (natText n).head? ≠ some '0') by
    refine ⟨h.1, ?_⟩
    by_cases h0 : n = 0
    · left; rw [h0, natText_lt (by norm_num)]
    · exact Or.inr (h.2 h0)
  induction n using Nat.strong_induction_on with
  | _ n ih =>
    by_cases c : n < 10
    · rw [natText_lt c]
      refine ⟨Digits.one n c, fun h0 => ?_⟩
      interval_cases n <;> first | exact absurd rfl h0 | decide
    · rw [natText_ge (by omega)]
      obtain ⟨h1, h2⟩ := ih (n / 10) (by omega)
      constructor
      · have := Digits.snoc _ _ (n % 10) h1 (Nat.mod_lt _ (by norm_num))
        rwa [Nat.div_add_mod] at this
      · intro _
        have h3 := h2 (by omega)
        have h4 := h1.facts.1
        cases hx : natText (n / 10) with
        | nil => exact absurd hx h4
        | cons x xs => rw [hx] at h3; simpa using h3

theorem decText_num (n : Int) : Num (decText n) n false := by
  unfold decText bigDec
  split
  · rename_i h
    have := Num.neg _ [] [] _ _ _ (natText_int n.natAbs) Frac.none Exp.none
    rw [List.append_nil, List.append_nil, show -((n.natAbs : ℕ) : Int) = n by omega] at this
    exact this
  · rename_i h
    have := Num.pos _ [] [] _ _ _ (natText_int n.natAbs) Frac.none Exp.none
    rw [List.append_nil, List.append_nil, show ((n.natAbs : ℕ) : Int) = n by omega] at this
    exact this

/-- zero is printed without a sign -/
theorem decText_ne_negZero (n : Int) : decText n ≠ ['-', '0'] := by
  unfold decText bigDec
  split
  · rename_i h
    intro e
    rw [List.map_cons, List.cons.injEq] at e
    have h1 := natText_int n.natAbs
    rw [natText, e.2] at h1
    have := IntPart.of_zero h1
    omega
  · intro e
    have h1 := natText_int n.natAbs
    rw [natText, e] at h1
    obtain ⟨c, i', e2, hc⟩ := IntPart.head h1
    simp only [List.cons.injEq] at e2
    rw [← e2.1] at hc
    exact absurd hc (by decide)

/-! ## Strings -/

theorem hexDig_hex {n : ℕ} (h : n < 16) : Hex (hexDig n) n := by
  rw [← hexVal_iff]
  interval_cases n <;> rfl

theorem uText_uEsc {n : ℕ} (h : n < 65536) : UEsc (uText n) n := by
  have := UEsc.mk _ _ _ _ (n / 4096) (n / 256 % 16) (n / 16 % 16) (n % 16) (hexDig_hex (by omega)) (hexDig_hex (by omega))
    (hexDig_hex (by omega)) (hexDig_hex (by omega))
  rwa [show 4096 * (n / 4096) + 256 * (n / 256 % 16) + 16 * (n / 16 % 16) + n % 16 = n by omega] at this

theorem char_not_surrogate (c : Char) : ¬Hi c.toNat ∧ ¬Lo c.toNat := by
  have := c.valid
  unfold UInt32.isValidChar Nat.isValidChar at this
  change c.toNat < _ ∨ _ < c.toNat ∧ _ at this
  unfold Hi Lo
  omega

theorem charText_body (c : Char) {s t : Text} (h : StrBody s t) : StrBody (charText c ++ s) (c :: t) := by
  unfold charText
  split
  · rename_i e; subst e; exact StrBody.esc _ _ _ _ (by simp [escapes]) h
  split
  · rename_i e; subst e; exact StrBody.esc _ _ _ _ (by simp [escapes]) h
  split
  · rename_i e; subst e; exact StrBody.esc _ _ _ _ (by simp [escapes]) h
  split
  · rename_i e; subst e; exact StrBody.esc _ _ _ _ (by simp [escapes]) h
  split
  · rename_i e; subst e; exact StrBody.esc _ _ _ _ (by simp [escapes]) h
  split
  · rename_i e; subst e; exact StrBody.esc _ _ _ _ (by simp [escapes]) h
  split
  · rename_i e; subst e; exact StrBody.esc _ _ _ _ (by simp [escapes]) h
  split
  · rename_i e
    have hlt : c.toNat < 65536 := by
      rcases e with e | rfl | rfl | rfl | e | e
      · omega
      · decide
      · decide
      · decide
      · omega
      · omega
    have := StrBody.uni _ s t _ (uText_uEsc hlt) (char_not_surrogate c).1 (char_not_surrogate c).2 h
    rwa [Char.ofNat_toNat] at this
  · rename_i h1 h2 _ _ _ _ _ h3
    exact StrBody.plain c s t h1 h2 (by by_contra hc; exact h3 (Or.inl (by omega))) h

theorem strText_body (l : Text) : StrBody (l.flatMap charText) l := by
  induction l with
  | nil => exact StrBody.nil
  | cons c l ih => rw [List.flatMap_cons]; exact charText_body c ih

/-! ## Documents -/

theorem ws_nil : Ws [] := by simp [Ws]

theorem printList_elems {d : ℕ} : ∀ (l : List Json), l ≠ [] → (∀ v ∈ l, Val d (print v) v) → Elems d (printList l) l
  | [], h, _ => absurd rfl h
  | [v], _, h => by
    have := Elems.one d [] (print v) [] v ws_nil (h v (by simp)) ws_nil
    simpa [printList] using this
  | v :: w :: l, _, h => by
    have ih := printList_elems (w :: l) (by simp) fun x hx => h x (by simp [hx])
    have := Elems.cons d [] (print v) [] _ v _ ws_nil (h v (by simp)) ws_nil ih
    rw [printList]
    simpa using this

theorem printMembers_members {d : ℕ} : ∀ (l : List (String × Json)), l ≠ [] → (∀ kv ∈ l, Val d (print kv.2) kv.2) →
    Members d (printMembers l) l
  | [], h, _ => absurd rfl h
  | [(k, v)], _, h => by
    have := Members.one d [] _ [] [] (print v) [] k.toList v ws_nil (strText_body k.toList) ws_nil ws_nil (h (k, v) (by simp)) ws_nil
    rw [String.ofList_toList] at this
    simpa [printMembers, strText] using this
  | (k, v) :: w :: l, _, h => by
    have ih := printMembers_members (w :: l) (by simp) fun x hx => h x (by simp [hx])
    have := Members.cons d [] _ [] [] (print v) [] _ k.toList v _ ws_nil (strText_body k.toList) ws_nil ws_nil
      (h (k, v) (by simp)) ws_nil ih
    rw [String.ofList_toList] at this
    rw [printMembers]
    simpa [strText] using this

theorem print_val {d : ℕ} {v : Json} (h : Plain d v) : Val d (print v) v := by
  induction h with
  | null d => rw [print]; exact Val.null d
  | bool d b =>
    cases b
    · rw [print]; exact Val.false d
    · rw [print]; exact Val.true d
  | num d n => rw [print]; exact Val.num d _ n (decText_num n) (decText_ne_negZero n)
  | str d s =>
    rw [print, strText]
    have := Val.str d _ _ (strText_body s.toList)
    rwa [String.ofList_toList] at this
  | arr d l h ih =>
    rw [print]
    cases l with
    | nil => exact Val.arrNil d [] ws_nil
    | cons v l => exact Val.arr d _ _ (printList_elems _ (by simp) ih)
  | obj d l h ih =>
    rw [print]
    cases l with
    | nil => exact Val.objNil d [] ws_nil
    | cons v l => exact Val.obj d _ _ (printMembers_members _ (by simp) ih)

theorem _root_.MscPoc.JSpec.Plain.mono {d : ℕ} {v : Json} (h : Plain d v) : ∀ {e : ℕ}, d ≤ e → Plain e v := by
  induction h with
  | null => intro e _; exact Plain.null e
  | bool d b => intro e _; exact Plain.bool e b
  | num d n => intro e _; exact Plain.num e n
  | str d s => intro e _; exact Plain.str e s
  | arr d l _ ih =>
    intro e he
    obtain ⟨e, rfl⟩ : ∃ m, e = m + 1 := ⟨e - 1, by omega⟩
    exact Plain.arr e l fun v hv => ih v hv (by omega)
  | obj d l _ ih =>
    intro e he
    obtain ⟨e, rfl⟩ : ∃ m, e = m + 1 := ⟨e - 1, by omega⟩
    exact Plain.obj e l fun v hv => ih v hv (by omega)

theorem parse_print {v : Json} (h : Plain 10000 v) : parse (print v) = some v :=
  (parse_iff _ _).mpr ⟨[], print v, [], ws_nil, print_val h, ws_nil, by simp⟩

/-! ## Nesting -/

mutual
theorem val_nested {d : ℕ} {s : Text} {v : Json} : Val d s v → Nested d v
  | .null d => .null d
  | .true d => .bool d _
  | .false d => .bool d _
  | .num d _ n _ _ => .num d n
  | .negZero d => .negZero d
  | .frac d _ n _ => .frac d n
  | .str d _ _ _ => .str d _
  | .arrNil d _ _ => .arr d _ (by simp)
  | .arr d _ _ h => .arr d _ (elems_nested h)
  | .objNil d _ _ => .obj d _ (by simp)
  | .obj d _ _ h => .obj d _ (members_nested h)

theorem elems_nested {d : ℕ} {s : Text} {l : List Json} : Elems d s l → ∀ v ∈ l, Nested d v
  | .one _ _ _ _ _ _ h _ => by
    intro x hx
    rw [List.mem_singleton] at hx
    subst hx
    exact val_nested h
  | .cons _ _ _ _ _ _ _ _ h _ h' => by
    intro x hx
    rcases List.mem_cons.mp hx with rfl | hx
    · exact val_nested h
    · exact elems_nested h' x hx

theorem members_nested {d : ℕ} {s : Text} {l : List (String × Json)} : Members d s l → ∀ kv ∈ l, Nested d kv.2
  | .one _ _ _ _ _ _ _ _ _ _ _ _ _ h _ => by
    intro x hx
    rw [List.mem_singleton] at hx
    subst hx
    exact val_nested h
  | .cons _ _ _ _ _ _ _ _ _ _ _ _ _ _ _ h _ h' => by
    intro x hx
    rcases List.mem_cons.mp hx with rfl | hx
    · exact val_nested h
    · exact members_nested h' x hx
end

/-! ## Prefixes and trailing characters -/

theorem val_obj_head {d : ℕ} {s : Text} {l : List (String × Json)} (h : Val d s (.obj l)) : ∃ s', s = '{' :: s' := by
  cases h with
  | objNil => exact ⟨_, rfl⟩
  | obj => exact ⟨_, rfl⟩

theorem val_brace {d : ℕ} {s : Text} {v : Json} (h : Val d s v) (hs : ∃ s', s = '{' :: s') : ∃ l, v = .obj l := by
  obtain ⟨s', hs⟩ := hs
  cases h with
  | null => exact absurd hs (by simp)
  | true => exact absurd hs (by simp)
  | false => exact absurd hs (by simp)
  | num _ _ _ h =>
    obtain ⟨c, s'', e, hc⟩ := Num.head h
    rw [hs] at e
    simp only [List.cons.injEq] at e
    rw [← e.1] at hc
    exact absurd hc (by decide)
  | frac _ _ _ h =>
    obtain ⟨c, s'', e, hc⟩ := Num.head h
    rw [hs] at e
    simp only [List.cons.injEq] at e
    rw [← e.1] at hc
    exact absurd hc (by decide)
  | negZero => exact absurd hs (by simp)
  | str => exact absurd hs (by simp)
  | arrNil => exact absurd hs (by simp)
  | arr => exact absurd hs (by simp)
  | objNil => exact ⟨_, rfl⟩
  | obj => exact ⟨_, rfl⟩

/-- two objects beginning a text at the same place are the same and end at the same place -/
theorem obj_same {d : ℕ} {s s' r r' : Text} {l : List (String × Json)} {v : Json} (h : Val d s (.obj l)) (h' : Val d s' v)
    (e : s ++ r = s' ++ r') : v = .obj l ∧ r = r' := by
  have hv : ∃ l', v = .obj l' := by
    refine val_brace h' ?_
    obtain ⟨x, hx⟩ := val_obj_head h
    obtain ⟨c, y, hy, _⟩ := val_head h'
    rw [hx, hy] at e
    simp only [List.cons_append, List.cons.injEq] at e
    exact ⟨y, by rw [hy, ← e.1]⟩
  obtain ⟨l', rfl⟩ := hv
  have e1 := pValue_closed (r := r) h (by simp) (n := 2 * s.length + 2 * s'.length + 2) (by omega)
  have e2 := pValue_closed (r := r') h' (by simp) (n := 2 * s.length + 2 * s'.length + 2) (by omega)
  rw [e, e2] at e1
  simp only [Option.some.injEq, Prod.mk.injEq] at e1
  exact ⟨e1.1, e1.2.symm⟩

/-- white space before two values starting with a visible character -/
theorem ws_cancel {w w' s s' : Text} (hw : Ws w) (hw' : Ws w') (hs : skipWs s = s) (hs' : skipWs s' = s') (e : w ++ s = w' ++ s') :
    s = s' := by
  have := congrArg skipWs e
  rwa [skipWs_append hw, skipWs_append hw', hs, hs'] at this

/-- what follows an object in a text that can be read is white space -/
theorem parse_obj_tail {w s x : Text} {l : List (String × Json)} {v : Json} (hw : Ws w) (h : Val 10000 s (.obj l))
    (hp : parse (w ++ s ++ x) = some v) : Ws x := by
  obtain ⟨w1, s1, w2, h1, h2, h3, e⟩ := (parse_iff _ _).mp hp
  rw [List.append_assoc, List.append_assoc] at e
  have e' := ws_cancel hw h1 (skipWs_val h _) (skipWs_val h2 _) e
  obtain ⟨_, rfl⟩ := obj_same h h2 e'
  exact h3

/-- a text cut off before the end of its object cannot be read -/
theorem parse_obj_cut {w s x y : Text} {l : List (String × Json)} (hw : Ws w) (h : Val 10000 s (.obj l))
    (e : x ++ y = w ++ s) (hy : y ≠ []) : parse x = none := by
  cases hp : parse x with
  | none => rfl
  | some v =>
    exfalso
    obtain ⟨w1, s1, w2, h1, h2, h3, ex⟩ := (parse_iff _ _).mp hp
    rw [ex, List.append_assoc, List.append_assoc] at e
    have e' := ws_cancel h1 hw (skipWs_val h2 _) (by have := skipWs_val h []; rwa [List.append_nil] at this) e
    obtain ⟨_, e2⟩ := obj_same (r := []) h h2 (by rw [List.append_nil]; exact e'.symm)
    simp at e2
    exact hy e2.2

/-! ## The documents of the encoders -/

/-- elements are encoded as numbers, strings, or one level of objects -/
def _root_.MscPoc.Codec.Flat {E : Type} (C : Codec E) : Prop := ∀ e j, C.marshal e = some (.ok j) → Plain 1 j

section
variable {E E₁ E₂ : Type}

theorem encInv {α β : Type} {x : Option (Except String α)} {f : α → Option (Except String β)} {b : β}
    (h : bindEnc x f = some (.ok b)) : ∃ a, x = some (.ok a) ∧ f a = some (.ok b) := by
  unfold bindEnc at h
  split at h
  · exact absurd h (by simp)
  · exact absurd h (by simp)
  · exact ⟨_, rfl, h⟩

theorem plainBig (d : ℕ) (x : Option Int) : Plain d (bigJson x) := by
  cases x
  · exact Plain.null d
  · exact Plain.num d _

theorem plainGroup (d : ℕ) (n : String) : Plain (d + 1) (groupJson n) := Plain.obj d _ (by simpa using Plain.str d n)

theorem encElems_plain {C : Codec E} (hC : C.Flat) : ∀ (es : List E) (js : List Json), encElems C es = some (.ok js) →
    ∀ j ∈ js, Plain 1 j
  | [], js, h => by
    rw [encElems] at h
    simp only [Option.some.injEq, Except.ok.injEq] at h
    subst h; simp
  | e :: es, js, h => by
    rw [encElems] at h
    obtain ⟨j, h1, h⟩ := encInv h
    obtain ⟨js', h2, h⟩ := encInv h
    simp only [Option.some.injEq, Except.ok.injEq] at h
    subst h
    intro x hx
    rcases List.mem_cons.mp hx with rfl | hx
    · exact hC _ _ h1
    · exact encElems_plain hC es js' h2 x hx

theorem plainArr {C : Codec E} (hC : C.Flat) {es : List E} {js : List Json} (h : encElems C es = some (.ok js)) :
    Plain 2 (.arr js) := Plain.arr 1 _ (encElems_plain hC es js h)

theorem encIPParams_plain {C : Codec E} (hC : C.Flat) {p : IPParams E} {j : Json} (h : encIPParams C p = some (.ok j)) :
    Plain 3 j := by
  unfold encIPParams at h
  obtain ⟨_, h1, h⟩ := encInv h
  obtain ⟨_, h2, h⟩ := encInv h
  obtain ⟨_, h3, h⟩ := encInv h
  simp only [Option.some.injEq, Except.ok.injEq] at h
  subst h
  refine Plain.obj 2 _ ?_
  simp only [List.forall_mem_cons]
  exact ⟨plainArr hC h1, plainArr hC h2, (hC _ _ h3).mono (by omega), plainGroup 1 _, by simp⟩

theorem encIPProof_plain {C : Codec E} (hC : C.Flat) {p : IPProof E} {j : Json} (h : encIPProof C p = some (.ok j)) :
    Plain 4 j := by
  unfold encIPProof at h
  obtain ⟨_, h1, h⟩ := encInv h
  obtain ⟨_, h2, h⟩ := encInv h
  obtain ⟨_, h3, h⟩ := encInv h
  obtain ⟨_, h4, h⟩ := encInv h
  simp only [Option.some.injEq, Except.ok.injEq] at h
  subst h
  refine Plain.obj 3 _ ?_
  simp only [List.forall_mem_cons]
  exact ⟨(hC _ _ h1).mono (by omega), plainBig _ _, plainBig _ _, plainBig _ _, (plainArr hC h2).mono (by omega),
    (plainArr hC h3).mono (by omega), encIPParams_plain hC h4, by simp⟩

theorem encBPParams_plain {C : Codec E} (hC : C.Flat) {p : BPParams E} {j : Json} (h : encBPParams C p = some (.ok j)) :
    Plain 3 j := by
  unfold encBPParams at h
  obtain ⟨_, h1, h⟩ := encInv h
  obtain ⟨_, h2, h⟩ := encInv h
  obtain ⟨_, h3, h⟩ := encInv h
  obtain ⟨_, h4, h⟩ := encInv h
  simp only [Option.some.injEq, Except.ok.injEq] at h
  subst h
  refine Plain.obj 2 _ ?_
  simp only [List.forall_mem_cons]
  exact ⟨Plain.num _ _, (hC _ _ h1).mono (by omega), (hC _ _ h2).mono (by omega), plainArr hC h3, plainArr hC h4, plainGroup 1 _,
    by simp⟩

theorem encBP_plain {C : Codec E} (hC : C.Flat) {p : BulletProof E} {j : Json} (h : encBP C p = some (.ok j)) :
    Plain 5 j := by
  unfold encBP at h
  obtain ⟨_, h1, h⟩ := encInv h
  obtain ⟨_, h2, h⟩ := encInv h
  obtain ⟨_, h3, h⟩ := encInv h
  obtain ⟨_, h4, h⟩ := encInv h
  obtain ⟨_, h5, h⟩ := encInv h
  obtain ⟨_, h6, h⟩ := encInv h
  obtain ⟨_, h7, h⟩ := encInv h
  simp only [Option.some.injEq, Except.ok.injEq] at h
  subst h
  refine Plain.obj 4 _ ?_
  simp only [List.forall_mem_cons]
  exact ⟨(hC _ _ h1).mono (by omega), (hC _ _ h2).mono (by omega), (hC _ _ h3).mono (by omega), (hC _ _ h4).mono (by omega),
    (hC _ _ h5).mono (by omega), plainBig _ _, plainBig _ _, plainBig _ _, encIPProof_plain hC h6,
    (encBPParams_plain hC h7).mono (by omega), by simp⟩

theorem encGroupParams_plain {C : Codec E} (hC : C.Flat) {p : GroupParams E} {j : Json}
    (h : encGroupParams C p = some (.ok j)) : Plain 2 j := by
  unfold encGroupParams at h
  obtain ⟨_, h1, h⟩ := encInv h
  obtain ⟨_, h2, h⟩ := encInv h
  simp only [Option.some.injEq, Except.ok.injEq] at h
  subst h
  refine Plain.obj 1 _ ?_
  simp only [List.forall_mem_cons]
  exact ⟨hC _ _ h1, hC _ _ h2, plainBig _ _, plainBig _ _, plainGroup 0 _, by simp⟩

theorem encProofParams_plain {C₁ : Codec E₁} {C₂ : Codec E₂} (h₁ : C₁.Flat) (h₂ : C₂.Flat) {p : ProofParams E₁ E₂} {j : Json}
    (h : encProofParams C₁ C₂ p = some (.ok j)) : Plain 3 j := by
  unfold encProofParams at h
  obtain ⟨_, e1, h⟩ := encInv h
  obtain ⟨_, e2, h⟩ := encInv h
  simp only [Option.some.injEq, Except.ok.injEq] at h
  subst h
  refine Plain.obj 2 _ ?_
  simp only [List.forall_mem_cons]
  exact ⟨Plain.num _ _, Plain.num _ _, Plain.num _ _, Plain.num _ _, Plain.num _ _, Plain.num _ _, encGroupParams_plain h₁ e1,
    encGroupParams_plain h₂ e2, by simp⟩

theorem encSigma_plain {C₁ : Codec E₁} {C₂ : Codec E₂} (h₁ : C₁.Flat) (h₂ : C₂.Flat) {p : SigmaProof E₁ E₂} {j : Json}
    (h : encSigma C₁ C₂ p = some (.ok j)) : Plain 4 j := by
  unfold encSigma at h
  obtain ⟨_, e1, h⟩ := encInv h
  obtain ⟨_, e2, h⟩ := encInv h
  obtain ⟨_, e3, h⟩ := encInv h
  obtain ⟨_, e4, h⟩ := encInv h
  obtain ⟨_, e5, h⟩ := encInv h
  simp only [Option.some.injEq, Except.ok.injEq] at h
  subst h
  refine Plain.obj 3 _ ?_
  simp only [List.forall_mem_cons]
  exact ⟨(h₁ _ _ e1).mono (by omega), (h₁ _ _ e2).mono (by omega), (h₂ _ _ e3).mono (by omega), (h₂ _ _ e4).mono (by omega),
    plainBig _ _, plainBig _ _, plainBig _ _, plainBig _ _, plainBig _ _, encProofParams_plain h₁ h₂ e5, by simp⟩

theorem encCiphertext_plain {C : Codec E} (hC : C.Flat) {c : Ciphertext E} {j : Json} (h : encCiphertext C c = some (.ok j)) :
    Plain 2 j := by
  unfold encCiphertext at h
  obtain ⟨_, h1, h⟩ := encInv h
  obtain ⟨_, h2, h⟩ := encInv h
  simp only [Option.some.injEq, Except.ok.injEq] at h
  subst h
  refine Plain.obj 1 _ ?_
  simp only [List.forall_mem_cons]
  exact ⟨hC _ _ h1, hC _ _ h2, by simp⟩

theorem encBallot_plain {C₁ : Codec E₁} {C₂ : Codec E₂} (h₁ : C₁.Flat) (h₂ : C₂.Flat) {b : BallotData E₁ E₂} {j : Json}
    (h : encBallot C₁ C₂ b = some (.ok j)) : Plain 6 j ∧ ∃ l, j = .obj l := by
  unfold encBallot at h
  obtain ⟨_, e1, h⟩ := encInv h
  obtain ⟨_, e2, h⟩ := encInv h
  obtain ⟨_, e3, h⟩ := encInv h
  obtain ⟨_, e4, h⟩ := encInv h
  simp only [Option.some.injEq, Except.ok.injEq] at h
  subst h
  refine ⟨Plain.obj 5 _ ?_, _, rfl⟩
  simp only [List.forall_mem_cons]
  exact ⟨(encCiphertext_plain h₁ e1).mono (by omega), encBP_plain h₂ e2, encBP_plain h₂ e3,
    (encSigma_plain h₁ h₂ e4).mono (by omega), by simp⟩

theorem modP_flat : modPCodec.Flat := fun e j h => by
  change some (Except.ok (Json.num e)) = _ at h
  simp only [Option.some.injEq, Except.ok.injEq] at h
  subst h
  exact Plain.num 1 _

theorem marshalPoint_flat {n : ℕ} {b : Bytes} {j : Json} (h : marshalPoint n b = some (.ok j)) : Plain 1 j := by
  have key : ∀ x y, Plain 1 (ecPointJson x y) := fun x y => Plain.obj 0 _ (by
    simp only [List.forall_mem_cons]
    exact ⟨Plain.num _ _, Plain.num _ _, by simp⟩)
  unfold marshalPoint at h
  unbind h with t0 e0
  split at h
  · unbind h with pre e1
    unbind h with xb e2
    unbind h with yb e3
    split at h
    · simp at h
    · simp only [Option.some.injEq, Except.ok.injEq] at h
      subst h
      exact key _ _
  · simp only [Option.some.injEq, Except.ok.injEq] at h
    subst h
    exact key _ _

theorem w_flat (c : WCurve) : (wCodec c).Flat := fun _ _ h => marshalPoint_flat h

theorem k1_flat : k1Codec.Flat := fun e j h => by
  change some (Except.ok (Json.obj [("X", bigJson e.X), ("Y", bigJson e.Y)])) = _ at h
  simp only [Option.some.injEq, Except.ok.injEq] at h
  subst h
  refine Plain.obj 0 _ ?_
  simp only [List.forall_mem_cons]
  exact ⟨plainBig _ _, plainBig _ _, by simp⟩

theorem r255_flat (valid : Bytes → Bool) : (r255Codec valid).Flat := fun _ _ h => marshalPoint_flat h

end

end JText
end MscPoc
