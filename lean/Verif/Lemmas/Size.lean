import Verif.Lemmas.Reduced
import Verif.Lemmas.JsonPrint
import Verif.Lemmas.Utf8

/-!
# How many bytes a document takes
-/

set_option autoImplicit false

namespace MscPoc

/-- bytes of a text -/
def tsize (t : Text) : ℕ := (Utf8.encode t).length

/-- bytes of a printed document -/
def jsize (j : Json) : ℕ := tsize (JText.print j)

theorem tsize_append (a b : Text) : tsize (a ++ b) = tsize a + tsize b := by
  simp [tsize, Utf8.encode, List.flatMap_append]

theorem tsize_cons (c : Char) (b : Text) : tsize (c :: b) = (String.utf8EncodeChar c).length + tsize b := by
  simp [tsize, Utf8.encode, List.flatMap_cons]

theorem tsize_nil : tsize [] = 0 := rfl

theorem tsize_ascii : ∀ (t : Text), (∀ c ∈ t, c.toNat < 128) → tsize t = t.length
  | [], _ => rfl
  | c :: t, h => by
    rw [tsize_cons, Utf8.encodeChar_small c (h c (by simp)), tsize_ascii t (fun d hd => h d (by simp [hd]))]
    simp [Nat.add_comm]

theorem natDec_length {n D : ℕ} (h1 : 1 ≤ D) (h : n < 10 ^ D) : (natDec n).length ≤ D := by
  unfold natDec
  split
  · simpa using h1
  · rw [List.length_map, List.length_reverse]
    exact Nat.digits_length_le_iff (by norm_num) _ |>.mpr h

theorem jsize_num {n : Int} {D : ℕ} (h1 : 1 ≤ D) (h0 : 0 ≤ n) (h : n < 10 ^ D) : jsize (.num n) ≤ D := by
  obtain ⟨m, rfl⟩ := Int.eq_ofNat_of_zero_le h0
  have hb : bigDec (m : Int) = natDec m := by
    unfold bigDec; rw [if_neg (by omega)]; rfl
  unfold jsize JText.print JText.decText
  rw [hb, tsize_ascii]
  · rw [List.length_map]
    exact natDec_length h1 (by exact_mod_cast h)
  · intro c hc
    obtain ⟨b, hb, rfl⟩ := List.mem_map.mp hc
    unfold natDec at hb
    split at hb
    · simp only [List.mem_singleton] at hb
      subst hb; decide
    · obtain ⟨d, hd, rfl⟩ := List.mem_map.mp hb
      have : d < 10 := Nat.digits_lt_base (by norm_num) (List.mem_reverse.mp hd)
      interval_cases d <;> decide

theorem jsize_big {x : Option Int} {hi : Int} {D : ℕ} (h1 : 1 ≤ D) (hx : InRange 0 hi x) (h : hi ≤ 10 ^ D) : jsize (bigJson x) ≤ D := by
  obtain ⟨v, rfl, h0, h2⟩ := hx
  exact jsize_num h1 h0 (by omega)

theorem tsize_printList : ∀ (l : List Json), l ≠ [] → tsize (JText.printList l) + 1 = (l.map fun j => jsize j + 1).sum
  | [], h => absurd rfl h
  | [v], _ => by simp [JText.printList, jsize]
  | v :: w :: vs, _ => by
    rw [JText.printList, tsize_append, tsize_cons, List.map_cons, List.sum_cons, ← tsize_printList (w :: vs) (by simp)]
    simp only [jsize, show (String.utf8EncodeChar ',').length = 1 from by decide]
    omega

theorem tsize_printMembers : ∀ (l : List (String × Json)), l ≠ [] →
    tsize (JText.printMembers l) + 1 = (l.map fun kv => tsize (JText.strText kv.1) + 2 + jsize kv.2).sum
  | [], h => absurd rfl h
  | [(k, v)], _ => by
    simp only [JText.printMembers, tsize_append, tsize_cons, jsize, show (String.utf8EncodeChar ':').length = 1 from by decide,
      List.map_cons, List.map_nil, List.sum_cons, List.sum_nil]
    omega
  | (k, v) :: w :: vs, _ => by
    rw [JText.printMembers, tsize_append, tsize_cons, tsize_append, tsize_cons, List.map_cons, List.sum_cons,
      ← tsize_printMembers (w :: vs) (by simp)]
    simp only [jsize, show (String.utf8EncodeChar ',').length = 1 from by decide,
      show (String.utf8EncodeChar ':').length = 1 from by decide]
    omega

theorem jsize_arr {l : List Json} {n m : ℕ} (hn : l.length = n) (h0 : 0 < n) (h : ∀ j ∈ l, jsize j ≤ m) :
    jsize (.arr l) ≤ 1 + n * (m + 1) := by
  have hne : l ≠ [] := by rintro rfl; simp at hn; omega
  have e := tsize_printList l hne
  have hs : (l.map fun j => jsize j + 1).sum ≤ l.length * (m + 1) := by
    have := List.sum_le_card_nsmul (l.map fun j => jsize j + 1) (m + 1) (by
      intro x hx
      obtain ⟨j, hj, rfl⟩ := List.mem_map.mp hx
      have := h j hj
      omega)
    simpa using this
  unfold jsize JText.print
  rw [tsize_cons, tsize_append, tsize_cons, tsize_nil, show (String.utf8EncodeChar '[').length = 1 from by decide,
    show (String.utf8EncodeChar ']').length = 1 from by decide]
  rw [hn] at hs
  omega

theorem jsize_obj (l : List (String × Json)) (hne : l ≠ []) :
    jsize (.obj l) = 1 + (l.map fun kv => tsize (JText.strText kv.1) + 2 + jsize kv.2).sum := by
  have e := tsize_printMembers l hne
  have h : jsize (.obj l) = tsize ('{' :: (JText.printMembers l ++ ['}'])) := by rw [jsize, JText.print]
  rw [h, tsize_cons, tsize_append, tsize_cons, tsize_nil, show (String.utf8EncodeChar '{').length = 1 from by decide,
    show (String.utf8EncodeChar '}').length = 1 from by decide]
  omega

/-- every legal element takes at most `m` bytes -/
def Codec.Within {E : Type} (C : Codec E) (V : E → Prop) (m : ℕ) : Prop := ∀ e j, V e → C.enc e = some (.ok j) → jsize j ≤ m

section
variable {E E₁ E₂ : Type}
open JText

theorem encElems_size {C : Codec E} {V : E → Prop} {m : ℕ} (hC : C.Within V m) : ∀ (es : List E) (js : List Json),
    (∀ e ∈ es, V e) → encElems C es = some (.ok js) → js.length = es.length ∧ ∀ j ∈ js, jsize j ≤ m
  | [], js, _, h => by
    rw [encElems] at h
    simp only [Option.some.injEq, Except.ok.injEq] at h
    subst h; simp
  | e :: es, js, hV, h => by
    rw [encElems] at h
    obtain ⟨j, h1, h⟩ := encInv h
    obtain ⟨js', h2, h⟩ := encInv h
    simp only [Option.some.injEq, Except.ok.injEq] at h
    subst h
    obtain ⟨i1, i2⟩ := encElems_size hC es js' (fun e he => hV e (by simp [he])) h2
    refine ⟨by simp [i1], fun x hx => ?_⟩
    rcases List.mem_cons.mp hx with rfl | hx
    · exact hC _ _ (hV _ (by simp)) h1
    · exact i2 x hx

theorem encArr_size {C : Codec E} {V : E → Prop} {m n : ℕ} (hC : C.Within V m) {es : List E} {js : List Json} (hV : ∀ e ∈ es, V e)
    (hn : es.length = n) (h0 : 0 < n) (h : encElems C es = some (.ok js)) : jsize (.arr js) ≤ 1 + n * (m + 1) := by
  obtain ⟨h1, h2⟩ := encElems_size hC es js hV h
  exact jsize_arr (h1.trans hn) h0 h2

/-- keys and their sizes -/
theorem jsize_group (name : String) : jsize (groupJson name) = 10 + tsize (strText name) := by
  rw [groupJson, jsize_obj _ (by simp)]
  simp only [List.map_cons, List.map_nil, List.sum_cons, List.sum_nil, show tsize (strText "group") = 7 from by decide,
    show jsize (.str name) = tsize (strText name) from rfl]
  omega

theorem encIPParams_size {C : Codec E} {V : E → Prop} {m n s : ℕ} (hC : C.Within V m) {p : IPParams E} {j : Json} (hp : IPParamsOk V p)
    (hn : p.Gg.length = n) (h0 : 0 < n) (hs : tsize (strText p.GP.name) ≤ s) (h : encIPParams C p = some (.ok j)) :
    jsize j ≤ 37 + 2 * (n * (m + 1)) + m + s := by
  unfold encIPParams at h
  obtain ⟨gg, e1, h⟩ := encInv h
  obtain ⟨hh, e2, h⟩ := encInv h
  obtain ⟨uu, e3, h⟩ := encInv h
  simp only [Option.some.injEq, Except.ok.injEq] at h
  subst h
  have b1 := encArr_size hC hp.Gg hn h0 e1
  have b2 := encArr_size hC hp.Hh (hp.len.symm.trans hn) h0 e2
  have b3 := hC _ _ hp.Uu e3
  rw [jsize_obj _ (by simp)]
  simp only [List.map_cons, List.map_nil, List.sum_cons, List.sum_nil, jsize_group, show tsize (strText "Gg") = 4 from by decide,
    show tsize (strText "Hh") = 4 from by decide, show tsize (strText "Uu") = 4 from by decide,
    show tsize (strText "GP") = 4 from by decide]
  omega

/-- range proof with `k` rounds -/
theorem encIPProof_size {C : Codec E} {V : E → Prop} {m n s k d : ℕ} {q : Int} (hC : C.Within V m) {p : IPProof E} {j : Json}
    (hp : IPProofOk V p) (hn : p.Params.Gg.length = n) (h0 : 0 < n) (hs : tsize (strText p.Params.GP.name) ≤ s)
    (hk : p.L.length = k) (k0 : 0 < k) (d0 : 1 ≤ d) (hq : q ≤ 10 ^ d) (rc : InRange 0 q p.Cc) (ra : InRange 0 q p.A)
    (rb : InRange 0 q p.B) (h : encIPProof C p = some (.ok j)) :
    jsize j ≤ 81 + 2 * (n * (m + 1)) + 2 * (k * (m + 1)) + 2 * m + s + 3 * d := by
  unfold encIPProof at h
  obtain ⟨pj, e1, h⟩ := encInv h
  obtain ⟨l, e2, h⟩ := encInv h
  obtain ⟨r, e3, h⟩ := encInv h
  obtain ⟨pr, e4, h⟩ := encInv h
  simp only [Option.some.injEq, Except.ok.injEq] at h
  subst h
  have b1 := hC _ _ hp.P e1
  have b2 := encArr_size hC hp.L hk k0 e2
  have b3 := encArr_size hC hp.R (hp.len.symm.trans hk) k0 e3
  have b4 := encIPParams_size hC hp.params hn h0 hs e4
  have b5 := jsize_big d0 rc hq
  have b6 := jsize_big d0 ra hq
  have b7 := jsize_big d0 rb hq
  rw [jsize_obj _ (by simp)]
  simp only [List.map_cons, List.map_nil, List.sum_cons, List.sum_nil, show tsize (strText "P") = 3 from by decide,
    show tsize (strText "Cc") = 4 from by decide, show tsize (strText "a") = 3 from by decide,
    show tsize (strText "b") = 3 from by decide, show tsize (strText "L") = 3 from by decide,
    show tsize (strText "R") = 3 from by decide, show tsize (strText "Params") = 8 from by decide]
  omega

theorem encBPParams_size {C : Codec E} {V : E → Prop} {m n s : ℕ} (hC : C.Within V m) {p : BPParams E} {j : Json} (hp : BPParamsOk V p)
    (hG : p.Gg.length = n) (hH : p.Hh.length = n) (hN : p.N = n) (h0 : 0 < n) (hn : n < 100)
    (hs : tsize (strText p.GP.name) ≤ s) (h : encBPParams C p = some (.ok j)) :
    jsize j ≤ 48 + 2 * (n * (m + 1)) + 2 * m + s := by
  unfold encBPParams at h
  obtain ⟨g, e1, h⟩ := encInv h
  obtain ⟨hj, e2, h⟩ := encInv h
  obtain ⟨gg, e3, h⟩ := encInv h
  obtain ⟨hh, e4, h⟩ := encInv h
  simp only [Option.some.injEq, Except.ok.injEq] at h
  subst h
  have b1 := hC _ _ hp.G e1
  have b2 := hC _ _ hp.H e2
  have b3 := encArr_size hC hp.Gg hG h0 e3
  have b4 := encArr_size hC hp.Hh hH h0 e4
  have b5 : jsize (.num (p.N : Int)) ≤ 2 := jsize_num (by norm_num) (by omega) (by rw [hN]; norm_num; omega)
  rw [jsize_obj _ (by simp)]
  simp only [List.map_cons, List.map_nil, List.sum_cons, List.sum_nil, jsize_group, show tsize (strText "N") = 3 from by decide,
    show tsize (strText "G") = 3 from by decide, show tsize (strText "H") = 3 from by decide,
    show tsize (strText "Gg") = 4 from by decide, show tsize (strText "Hh") = 4 from by decide,
    show tsize (strText "GP") = 4 from by decide]
  omega

theorem encBP_size {C : Codec E} {V : E → Prop} {m n s k d : ℕ} {q : Int} (hC : C.Within V m) {p : BulletProof E} {j : Json}
    (hp : BPOk V p) (hr : p.Reduced q) (hN : p.Params.N = n) (hG : p.Params.Gg.length = n) (hH : p.Params.Hh.length = n)
    (hi : p.InnerProductProof.Params.Gg.length = n) (h0 : 0 < n) (hn : n < 100) (hs : tsize (strText p.Params.GP.name) ≤ s)
    (hs' : tsize (strText p.InnerProductProof.Params.GP.name) ≤ s) (hk : p.InnerProductProof.L.length = k) (k0 : 0 < k) (d0 : 1 ≤ d)
    (hq : q ≤ 10 ^ d) (h : encBP C p = some (.ok j)) :
    jsize j ≤ 212 + 4 * (n * (m + 1)) + 2 * (k * (m + 1)) + 9 * m + 2 * s + 6 * d := by
  unfold encBP at h
  obtain ⟨v, e1, h⟩ := encInv h
  obtain ⟨a, e2, h⟩ := encInv h
  obtain ⟨ss, e3, h⟩ := encInv h
  obtain ⟨t1, e4, h⟩ := encInv h
  obtain ⟨t2, e5, h⟩ := encInv h
  obtain ⟨ip, e6, h⟩ := encInv h
  obtain ⟨pr, e7, h⟩ := encInv h
  simp only [Option.some.injEq, Except.ok.injEq] at h
  subst h
  have b1 := hC _ _ hp.com e1
  have b2 := hC _ _ hp.A e2
  have b3 := hC _ _ hp.S e3
  have b4 := hC _ _ hp.T1 e4
  have b5 := hC _ _ hp.T2 e5
  have b6 := encIPProof_size hC hp.ip hi h0 hs' hk k0 d0 hq hr.Cc hr.A hr.B e6
  have b7 := encBPParams_size hC hp.params hG hH hN h0 hn hs e7
  have b8 := jsize_big d0 hr.Taux hq
  have b9 := jsize_big d0 hr.Mu hq
  have b10 := jsize_big d0 hr.Tprime hq
  rw [jsize_obj _ (by simp)]
  simp only [List.map_cons, List.map_nil, List.sum_cons, List.sum_nil, show tsize (strText "V") = 3 from by decide,
    show tsize (strText "A") = 3 from by decide, show tsize (strText "S") = 3 from by decide,
    show tsize (strText "T1") = 4 from by decide, show tsize (strText "T2") = 4 from by decide,
    show tsize (strText "Taux") = 6 from by decide, show tsize (strText "Mu") = 4 from by decide,
    show tsize (strText "Tprime") = 8 from by decide, show tsize (strText "InnerProductProof") = 19 from by decide,
    show tsize (strText "Params") = 8 from by decide]
  omega

theorem encGroupParams_size {C : Codec E} {V : E → Prop} {m s n f : ℕ} (hC : C.Within V m) {p : GroupParams E} {j : Json}
    (hG : V p.G) (hH : V p.H) {a b : Int} (n0 : 1 ≤ n) (f0 : 1 ≤ f) (hn : InRange 0 a p.N) (ha : a ≤ 10 ^ n) (hf : InRange 0 b p.F)
    (hb : b ≤ 10 ^ f) (hs : tsize (strText p.I.name) ≤ s) (h : encGroupParams C p = some (.ok j)) :
    jsize j ≤ 36 + 2 * m + n + f + s := by
  unfold encGroupParams at h
  obtain ⟨g, e1, h⟩ := encInv h
  obtain ⟨hj, e2, h⟩ := encInv h
  simp only [Option.some.injEq, Except.ok.injEq] at h
  subst h
  have b1 := hC _ _ hG e1
  have b2 := hC _ _ hH e2
  have b3 := jsize_big n0 hn ha
  have b4 := jsize_big f0 hf hb
  rw [jsize_obj _ (by simp)]
  simp only [List.map_cons, List.map_nil, List.sum_cons, List.sum_nil, jsize_group, show tsize (strText "N") = 3 from by decide,
    show tsize (strText "G") = 3 from by decide, show tsize (strText "H") = 3 from by decide,
    show tsize (strText "F") = 3 from by decide, show tsize (strText "I") = 3 from by decide]
  omega

theorem jsize_u {n : ℕ} {D : ℕ} (h1 : 1 ≤ D) (h : n < 10 ^ D) : jsize (.num (n : Int)) ≤ D :=
  jsize_num h1 (by omega) (by exact_mod_cast h)

theorem inRange_mono {lo hi lo' hi' : Int} {x : Option Int} (h : InRange lo hi x) (h1 : lo' ≤ lo) (h2 : hi ≤ hi') : InRange lo' hi' x := by
  obtain ⟨v, e, a, b⟩ := h
  exact ⟨v, e, by omega, by omega⟩

/-- vote proof; `f` bounds the digits of the field sizes, `z` those of `Z`, `c` those of the challenge -/
theorem encSigma_size {C₁ : Codec E₁} {C₂ : Codec E₂} {V₁ : E₁ → Prop} {V₂ : E₂ → Prop} {m₁ m₂ s₁ s₂ d₁ d₂ f₁ f₂ z c : ℕ}
    {q₁ q₂ zlo zhi : Int} {Bc : ℕ} (h₁ : C₁.Within V₁ m₁) (h₂ : C₂.Within V₂ m₂) {p : SigmaProof E₁ E₂} {j : Json}
    (hp : SigmaOk V₁ V₂ p) (hr : p.Reduced q₁ q₂ zlo zhi Bc)
    (hd : 1 ≤ d₁ ∧ 1 ≤ d₂ ∧ 1 ≤ f₁ ∧ 1 ≤ f₂ ∧ 1 ≤ z ∧ 1 ≤ c)
    (hq₁ : q₁ ≤ 10 ^ d₁) (hq₂ : q₂ ≤ 10 ^ d₂) (hz0 : 0 ≤ zlo) (hz : zhi ≤ 10 ^ z) (hc : (2 : Int) ^ Bc ≤ 10 ^ c)
    (n₁ : InRange 0 (10 ^ d₁) p.Params.GFF.N) (n₂ : InRange 0 (10 ^ d₂) p.Params.GEC.N)
    (F₁ : InRange 0 (10 ^ f₁) p.Params.GFF.F) (F₂ : InRange 0 (10 ^ f₂) p.Params.GEC.F)
    (hs₁ : tsize (strText p.Params.GFF.I.name) ≤ s₁) (hs₂ : tsize (strText p.Params.GEC.I.name) ≤ s₂)
    (hBc : p.Params.Bc.toNat < 1000) (hBg : p.Params.Bg.toNat < 1000)
    (hBb : 0 ≤ p.Params.Bb ∧ p.Params.Bb < 1000) (hlo : p.Params.RangeLo.toNat < 1000) (hhi : p.Params.RangeHi.toNat < 10000)
    (h : encSigma C₁ C₂ p = some (.ok j)) :
    jsize j ≤ 226 + 4 * m₁ + 4 * m₂ + 2 * d₁ + 3 * d₂ + f₁ + f₂ + s₁ + s₂ + z + c := by
  unfold encSigma at h
  obtain ⟨w, e1, h⟩ := encInv h
  obtain ⟨kp, e2, h⟩ := encInv h
  obtain ⟨kq1, e3, h⟩ := encInv h
  obtain ⟨kq2, e4, h⟩ := encInv h
  obtain ⟨pr, e5, h⟩ := encInv h
  simp only [Option.some.injEq, Except.ok.injEq] at h
  subst h
  obtain ⟨o1, o2, o3, o4, o5, o6⟩ := hd
  have b1 := h₁ _ _ hp.W e1
  have b2 := h₁ _ _ hp.Kp e2
  have b3 := h₂ _ _ hp.Kq1 e3
  have b4 := h₂ _ _ hp.Kq2 e4
  have b5 := jsize_big o6 hr.Challenge hc
  have b6 := jsize_big o5 (inRange_mono hr.Z hz0 (le_refl _)) hz
  have b7 := jsize_big o1 hr.Sp hq₁
  have b8 := jsize_big o2 hr.Sq1 hq₂
  have b9 := jsize_big o2 hr.Sq2 hq₂
  have b10 : jsize pr ≤ 152 + 2 * m₁ + 2 * m₂ + d₁ + d₂ + f₁ + f₂ + s₁ + s₂ := by
    unfold encProofParams at e5
    obtain ⟨gf, e6, e5⟩ := encInv e5
    obtain ⟨ge, e7, e5⟩ := encInv e5
    simp only [Option.some.injEq, Except.ok.injEq] at e5
    subst e5
    have c1 := encGroupParams_size h₁ hp.G₁ hp.H₁ o1 o3 n₁ (le_refl _) F₁ (le_refl _) hs₁ e6
    have c2 := encGroupParams_size h₂ hp.G₂ hp.H₂ o2 o4 n₂ (le_refl _) F₂ (le_refl _) hs₂ e7
    have c3 : jsize (.num (p.Params.Bx.toNat : Int)) ≤ 3 := jsize_u (by norm_num) (by have := p.Params.Bx.toNat_lt; omega)
    have c4 : jsize (.num (p.Params.Bc.toNat : Int)) ≤ 3 := jsize_u (by norm_num) (by omega)
    have c5 : jsize (.num (p.Params.Bg.toNat : Int)) ≤ 3 := jsize_u (by norm_num) (by omega)
    have c6 : jsize (.num p.Params.Bb) ≤ 3 := jsize_num (by norm_num) hBb.1 (by have := hBb.2; omega)
    have c7 : jsize (.num (p.Params.RangeLo.toNat : Int)) ≤ 3 := jsize_u (by norm_num) (by omega)
    have c8 : jsize (.num (p.Params.RangeHi.toNat : Int)) ≤ 4 := jsize_u (by norm_num) (by omega)
    rw [jsize_obj _ (by simp)]
    simp only [List.map_cons, List.map_nil, List.sum_cons, List.sum_nil, show tsize (strText "Bx") = 4 from by decide,
      show tsize (strText "Bc") = 4 from by decide, show tsize (strText "Bg") = 4 from by decide,
      show tsize (strText "Bb") = 4 from by decide, show tsize (strText "RangeLo") = 9 from by decide,
      show tsize (strText "RangeHi") = 9 from by decide, show tsize (strText "GFF") = 5 from by decide,
      show tsize (strText "GEC") = 5 from by decide]
    omega
  rw [jsize_obj _ (by simp)]
  simp only [List.map_cons, List.map_nil, List.sum_cons, List.sum_nil, show tsize (strText "W") = 3 from by decide,
    show tsize (strText "Kp") = 4 from by decide, show tsize (strText "Kq1") = 5 from by decide,
    show tsize (strText "Kq2") = 5 from by decide, show tsize (strText "Challenge") = 11 from by decide,
    show tsize (strText "Z") = 3 from by decide, show tsize (strText "Sp") = 4 from by decide,
    show tsize (strText "Sq1") = 5 from by decide, show tsize (strText "Sq2") = 5 from by decide,
    show tsize (strText "Params") = 8 from by decide]
  omega

/-- a ballot from its parts -/
theorem encBallot_size {C₁ : Codec E₁} {C₂ : Codec E₂} {V₁ : E₁ → Prop} {m₁ a b : ℕ} (h₁ : C₁.Within V₁ m₁) {t : BallotData E₁ E₂}
    {j : Json} (hU : V₁ t.Ballot.U) (hV : V₁ t.Ballot.V)
    (hlo : ∀ j, encBP C₂ t.BpLower = some (.ok j) → jsize j ≤ a) (hhi : ∀ j, encBP C₂ t.BpUpper = some (.ok j) → jsize j ≤ a)
    (hv : ∀ j, encSigma C₁ C₂ t.VoteProof = some (.ok j) → jsize j ≤ b) (h : encBallot C₁ C₂ t = some (.ok j)) :
    jsize j ≤ 57 + 2 * m₁ + 2 * a + b := by
  unfold encBallot at h
  obtain ⟨ct, e1, h⟩ := encInv h
  obtain ⟨lo, e2, h⟩ := encInv h
  obtain ⟨hi, e3, h⟩ := encInv h
  obtain ⟨vp, e4, h⟩ := encInv h
  simp only [Option.some.injEq, Except.ok.injEq] at h
  subst h
  have b2 := hlo _ e2
  have b3 := hhi _ e3
  have b4 := hv _ e4
  have b1 : jsize ct ≤ 11 + 2 * m₁ := by
    unfold encCiphertext at e1
    obtain ⟨u, e5, e1⟩ := encInv e1
    obtain ⟨v, e6, e1⟩ := encInv e1
    simp only [Option.some.injEq, Except.ok.injEq] at e1
    subst e1
    have c1 := h₁ _ _ hU e5
    have c2 := h₁ _ _ hV e6
    rw [jsize_obj _ (by simp)]
    simp only [List.map_cons, List.map_nil, List.sum_cons, List.sum_nil, show tsize (strText "u") = 3 from by decide,
      show tsize (strText "v") = 3 from by decide]
    omega
  rw [jsize_obj _ (by simp)]
  simp only [List.map_cons, List.map_nil, List.sum_cons, List.sum_nil, show tsize (strText "ballot") = 8 from by decide,
    show tsize (strText "lbProof") = 9 from by decide, show tsize (strText "ubProof") = 9 from by decide,
    show tsize (strText "voteProof") = 11 from by decide]
  omega

end
end MscPoc
