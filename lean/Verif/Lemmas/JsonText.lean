import Mathlib.Tactic.IntervalCases
import Mathlib.Tactic.Ring
import Mathlib.Data.List.Induction
import Verif.Spec.JsonGrammar

/-!
# The scanner accepts exactly the JSON grammar
-/

set_option autoImplicit false

namespace MscPoc
namespace JText

open JSpec

/-! ## Characters -/

theorem toNat_ofNat {n : ℕ} (h : n < 128) : (Char.ofNat n).toNat = n := by
  revert n
  decide

theorem char_of_toNat {c : Char} {n : ℕ} (h : c.toNat = n) : c = Char.ofNat n := by rw [← h, Char.ofNat_toNat]

theorem isWs_iff (c : Char) : isWs c = true ↔ c = ' ' ∨ c = '\t' ∨ c = '\n' ∨ c = '\r' := by
  simp [isWs, or_assoc]

theorem isDig_iff (c : Char) : isDig c = true ↔ ∃ n < 10, c = Char.ofNat (48 + n) := by
  unfold isDig
  simp only [Bool.and_eq_true, decide_eq_true_eq]
  constructor
  · rintro ⟨h1, h2⟩
    exact ⟨c.toNat - 48, by omega, char_of_toNat (by omega)⟩
  · rintro ⟨n, hn, rfl⟩
    rw [toNat_ofNat (by omega)]
    omega

theorem hexVal_iff (c : Char) (n : ℕ) : hexVal c = some n ↔ Hex c n := by
  unfold hexVal
  constructor
  · intro h
    split at h
    · obtain rfl := Option.some.inj h
      have : c = Char.ofNat (48 + (c.toNat - 48)) := char_of_toNat (by omega)
      rw [this]
      rw [toNat_ofNat (by omega), Nat.add_sub_cancel_left]
      exact Hex.dec _ (by omega)
    · split at h
      · obtain rfl := Option.some.inj h
        have : c = Char.ofNat (97 + (c.toNat - 97)) := char_of_toNat (by omega)
        rw [this, toNat_ofNat (by omega), show 97 + (c.toNat - 97) - 87 = 10 + (c.toNat - 97) by omega]
        exact Hex.lower _ (by omega)
      · split at h
        · obtain rfl := Option.some.inj h
          have : c = Char.ofNat (65 + (c.toNat - 65)) := char_of_toNat (by omega)
          rw [this, toNat_ofNat (by omega), show 65 + (c.toNat - 65) - 55 = 10 + (c.toNat - 65) by omega]
          exact Hex.upper _ (by omega)
        · exact absurd h (by simp)
  · intro h
    cases h with
    | dec n h => interval_cases n <;> rfl
    | lower n h => interval_cases n <;> rfl
    | upper n h => interval_cases n <;> rfl

/-! ## White space -/

theorem skipWs_append {w : Text} (hw : Ws w) (r : Text) : skipWs (w ++ r) = skipWs r := by
  induction w with
  | nil => rfl
  | cons c w ih =>
    rw [List.cons_append, skipWs, if_pos ((isWs_iff c).mpr (hw c (by simp)))]
    exact ih fun x hx => hw x (by simp [hx])

theorem skipWs_split (t : Text) : ∃ w, Ws w ∧ t = w ++ skipWs t := by
  induction t with
  | nil => exact ⟨[], by simp [Ws], rfl⟩
  | cons c t ih =>
    rw [skipWs]
    split
    · rename_i h
      obtain ⟨w, hw, e⟩ := ih
      refine ⟨c :: w, ?_, by rw [List.cons_append, ← e]⟩
      intro x hx
      rcases List.mem_cons.mp hx with rfl | hx
      · exact (isWs_iff _).mp h
      · exact hw x hx
    · exact ⟨[], by simp [Ws], rfl⟩

theorem skipWs_cons {c : Char} (h : isWs c = false) (r : Text) : skipWs (c :: r) = c :: r := by
  rw [skipWs, h]; rfl

theorem skipWs_nil_iff (t : Text) : skipWs t = [] ↔ Ws t := by
  constructor
  · intro h
    obtain ⟨w, hw, e⟩ := skipWs_split t
    rw [h, List.append_nil] at e
    rw [e]; exact hw
  · intro h
    have := skipWs_append h []
    rw [List.append_nil] at this
    exact this

/-! ## String literals -/

theorem hex4_some {t r : Text} {v : ℕ} : hex4 t = some (v, r) ↔
    ∃ a b c d i j k l, Hex a i ∧ Hex b j ∧ Hex c k ∧ Hex d l ∧ t = a :: b :: c :: d :: r ∧ v = 4096 * i + 256 * j + 16 * k + l := by
  constructor
  · intro h
    unfold hex4 at h
    split at h
    · rename_i a b c d r'
      split at h
      · rename_i i j k l e1 e2 e3 e4
        simp only [Option.some.injEq, Prod.mk.injEq] at h
        obtain ⟨h, rfl⟩ := h
        exact ⟨a, b, c, d, i, j, k, l, (hexVal_iff _ _).mp e1, (hexVal_iff _ _).mp e2, (hexVal_iff _ _).mp e3,
          (hexVal_iff _ _).mp e4, rfl, by omega⟩
      · exact absurd h (by simp)
    · exact absurd h (by simp)
  · rintro ⟨a, b, c, d, i, j, k, l, h1, h2, h3, h4, rfl, rfl⟩
    unfold hex4
    dsimp only
    rw [(hexVal_iff _ _).mpr h1, (hexVal_iff _ _).mpr h2, (hexVal_iff _ _).mpr h3, (hexVal_iff _ _).mpr h4]
    dsimp only
    rw [show ((i * 16 + j) * 16 + k) * 16 + l = 4096 * i + 256 * j + 16 * k + l by ring]

theorem hex4_uEsc {t r : Text} {v : ℕ} : hex4 t = some (v, r) ↔ ∃ u, UEsc u v ∧ '\\' :: 'u' :: t = u ++ r := by
  rw [hex4_some]
  constructor
  · rintro ⟨a, b, c, d, i, j, k, l, h1, h2, h3, h4, rfl, rfl⟩
    exact ⟨_, UEsc.mk a b c d i j k l h1 h2 h3 h4, rfl⟩
  · rintro ⟨u, hu, e⟩
    cases hu with
    | mk a b c d i j k l h1 h2 h3 h4 =>
      simp only [List.cons_append, List.nil_append, List.cons.injEq, true_and] at e
      exact ⟨a, b, c, d, i, j, k, l, h1, h2, h3, h4, e, rfl⟩

theorem uEsc_some {t r : Text} {v : ℕ} : uEsc t = some (v, r) ↔ ∃ u, UEsc u v ∧ t = u ++ r := by
  constructor
  · intro h
    unfold uEsc at h
    split at h
    · rename_i t'
      exact hex4_uEsc.mp h
    · exact absurd h (by simp)
  · rintro ⟨u, hu, rfl⟩
    have hu' := hu
    cases hu with
    | mk a b c d i j k l h1 h2 h3 h4 => exact hex4_uEsc.mpr ⟨_, hu', rfl⟩

theorem _root_.MscPoc.JSpec.UEsc.length {u : Text} {v : ℕ} (h : UEsc u v) : u.length = 6 := by cases h; rfl

theorem _root_.MscPoc.JSpec.Hex.ne_quote {c : Char} {n : ℕ} (h : Hex c n) : c ≠ '"' := by
  rintro rfl
  have := (hexVal_iff _ _).mpr h
  revert this
  simp [hexVal]

theorem _root_.MscPoc.JSpec.UEsc.no_quote {u : Text} {v : ℕ} (h : UEsc u v) : '"' ∉ u := by
  cases h with
  | mk a b c d i j k l h1 h2 h3 h4 =>
    simp only [List.mem_cons, List.not_mem_nil, or_false, not_or]
    exact ⟨by decide, by decide, h1.ne_quote.symm, h2.ne_quote.symm, h3.ne_quote.symm, h4.ne_quote.symm⟩

theorem isHi_iff (v : ℕ) : isHi v = true ↔ Hi v := by unfold isHi Hi; simp; omega
theorem isLo_iff (v : ℕ) : isLo v = true ↔ Lo v := by unfold isLo Lo; simp; omega

theorem simpleEsc_iff (e c : Char) : simpleEsc e = some c ↔ (e, c) ∈ escapes := by
  unfold simpleEsc escapes
  constructor
  · intro h
    repeat' split at h
    all_goals first
      | (obtain rfl := Option.some.inj h; rename_i e0; subst e0; simp)
      | exact absurd h (by simp)
  · intro h
    simp only [List.mem_cons, Prod.mk.injEq, List.not_mem_nil, or_false] at h
    rcases h with ⟨rfl, rfl⟩ | ⟨rfl, rfl⟩ | ⟨rfl, rfl⟩ | ⟨rfl, rfl⟩ | ⟨rfl, rfl⟩ | ⟨rfl, rfl⟩ | ⟨rfl, rfl⟩ | ⟨rfl, rfl⟩ <;> rfl

theorem escapes_ne_u {e c : Char} (h : (e, c) ∈ escapes) : e ≠ 'u' := by
  rintro rfl
  revert h
  simp [escapes]

/-- what one step of `pString` reads for a `\u` escape -/
theorem uChar_hi_lo {v w : ℕ} {r r' : Text} (hv : Hi v) (he : uEsc r = some (w, r')) (hw : Lo w) :
    uChar v r = (Char.ofNat (0x10000 + (v - 0xd800) * 1024 + (w - 0xdc00)), r') := by
  unfold uChar
  rw [if_pos ((isHi_iff v).mpr hv), he]
  dsimp only
  rw [if_pos ((isLo_iff w).mpr hw)]

theorem uChar_hi_alone {v : ℕ} {r : Text} (hv : Hi v) (he : ∀ w r', uEsc r = some (w, r') → ¬Lo w) :
    uChar v r = (Char.ofNat 0xfffd, r) := by
  unfold uChar
  rw [if_pos ((isHi_iff v).mpr hv)]
  split
  · rename_i w r' e
    rw [if_neg (fun c => he w r' e ((isLo_iff w).mp c))]
  · rfl

theorem not_hi_lo {v : ℕ} (h : Lo v) : ¬Hi v := by unfold Hi Lo at *; omega

theorem uChar_lo {v : ℕ} {r : Text} (hv : Lo v) : uChar v r = (Char.ofNat 0xfffd, r) := by
  unfold uChar
  rw [if_neg (fun c => not_hi_lo hv ((isHi_iff v).mp c)), if_pos ((isLo_iff v).mpr hv)]

theorem uChar_plain {v : ℕ} {r : Text} (h1 : ¬Hi v) (h2 : ¬Lo v) : uChar v r = (Char.ofNat v, r) := by
  unfold uChar
  rw [if_neg (fun c => h1 ((isHi_iff v).mp c)), if_neg (fun c => h2 ((isLo_iff v).mp c))]

theorem pString_cons (n : ℕ) (c : Char) (r : Text) : pString (n + 1) (c :: r) =
    if c = '"' then some ([], r)
    else if c = '\\' then
      match r with
      | [] => none
      | e :: r' =>
        if e = 'u' then
          match hex4 r' with
          | none => none
          | some (v, r'') =>
            match pString n (uChar v r'').2 with
            | none => none
            | some (s, t) => some ((uChar v r'').1 :: s, t)
        else
          match simpleEsc e with
          | none => none
          | some d =>
            match pString n r' with
            | none => none
            | some (s, t) => some (d :: s, t)
    else if c.toNat < 32 then none
    else
      match pString n r with
      | none => none
      | some (s, t) => some (c :: s, t) := by
  rw [pString.eq_def]
  rfl

theorem pString_sound : ∀ (n : ℕ) (t s r : Text), pString n t = some (s, r) → ∃ b, t = b ++ '"' :: r ∧ StrBody b s
  | 0, _, _, _, h => by simp [pString] at h
  | _ + 1, [], _, _, h => by simp [pString] at h
  | n + 1, c :: t, s, r, h => by
    rw [pString_cons] at h
    split at h
    · rename_i hc
      simp only [Option.some.injEq, Prod.mk.injEq] at h
      obtain ⟨rfl, rfl⟩ := h
      exact ⟨[], by rw [hc]; rfl, StrBody.nil⟩
    · rename_i hq
      split at h
      · rename_i hb
        subst hb
        split at h
        · exact absurd h (by simp)
        · rename_i e t'
          split at h
          · rename_i he
            subst he
            split at h
            · exact absurd h (by simp)
            · rename_i v t'' e4
              obtain ⟨u, hu, eu⟩ := hex4_uEsc.mp e4
              rw [eu]
              split at h
              · exact absurd h (by simp)
              · rename_i s' t3 ep
                simp only [Option.some.injEq, Prod.mk.injEq] at h
                obtain ⟨rfl, rfl⟩ := h
                obtain ⟨b, eb, hb⟩ := pString_sound n _ _ _ ep
                by_cases hv : Hi v
                · by_cases hp : ∃ w r', uEsc t'' = some (w, r') ∧ Lo w
                  · obtain ⟨w, r', e1, hw⟩ := hp
                    rw [uChar_hi_lo hv e1 hw] at eb ⊢
                    obtain ⟨u', hu', e2⟩ := uEsc_some.mp e1
                    dsimp only at eb ⊢
                    refine ⟨u ++ u' ++ b, by rw [e2, eb]; simp, StrBody.pair _ _ _ _ _ _ hu hv hu' hw hb⟩
                  · have ha : ∀ w r', uEsc t'' = some (w, r') → ¬Lo w := fun w r' e1 hw => hp ⟨w, r', e1, hw⟩
                    rw [uChar_hi_alone hv ha] at eb ⊢
                    dsimp only at eb
                    refine ⟨u ++ b, by rw [eb]; simp, StrBody.aloneHi _ _ _ _ hu hv ?_ hb⟩
                    intro u' s'' w e2 hu'
                    refine ha w (s'' ++ '"' :: t3) (uEsc_some.mpr ⟨u', hu', ?_⟩)
                    rw [eb, e2]; simp
                · by_cases hl : Lo v
                  · rw [uChar_lo hl] at eb ⊢
                    dsimp only at eb
                    exact ⟨u ++ b, by rw [eb]; simp, StrBody.aloneLo _ _ _ _ hu hl hb⟩
                  · rw [uChar_plain hv hl] at eb ⊢
                    dsimp only at eb
                    exact ⟨u ++ b, by rw [eb]; simp, StrBody.uni _ _ _ _ hu hv hl hb⟩
          · split at h
            · exact absurd h (by simp)
            · rename_i d ed
              split at h
              · exact absurd h (by simp)
              · rename_i s' t3 ep
                simp only [Option.some.injEq, Prod.mk.injEq] at h
                obtain ⟨rfl, rfl⟩ := h
                obtain ⟨b, eb, hb⟩ := pString_sound n _ _ _ ep
                exact ⟨'\\' :: e :: b, by rw [eb]; rfl, StrBody.esc _ _ _ _ ((simpleEsc_iff _ _).mp ed) hb⟩
      · rename_i hb
        split at h
        · exact absurd h (by simp)
        · rename_i h32
          split at h
          · exact absurd h (by simp)
          · rename_i s' t3 ep
            simp only [Option.some.injEq, Prod.mk.injEq] at h
            obtain ⟨rfl, rfl⟩ := h
            obtain ⟨b, eb, hb'⟩ := pString_sound n _ _ _ ep
            exact ⟨c :: b, by rw [eb]; rfl, StrBody.plain _ _ _ hq hb (by omega) hb'⟩

theorem pString_u {n : ℕ} {u s t r : Text} {v : ℕ} (hu : UEsc u v) :
    (match pString n (uChar v s).2 with
      | none => none
      | some (s', t') => some ((uChar v s).1 :: s', t')) = some (t, r) → pString (n + 1) (u ++ s) = some (t, r) := by
  intro h
  have e := hex4_uEsc.mpr ⟨u, hu, (by cases hu; rfl : '\\' :: 'u' :: ((u ++ s).drop 2) = u ++ s)⟩
  have hs : u ++ s = '\\' :: 'u' :: (u ++ s).drop 2 := by cases hu; rfl
  rw [hs, pString_cons, if_neg (by decide), if_pos rfl]
  dsimp only
  rw [if_pos rfl, e]
  exact h

theorem pString_complete {b s : Text} (h : StrBody b s) : ∀ (r : Text) (n : ℕ), b.length < n →
    pString n (b ++ '"' :: r) = some (s, r) := by
  induction h with
  | nil =>
    intro r n hn
    obtain ⟨n, rfl⟩ : ∃ m, n = m + 1 := ⟨n - 1, by simp at hn; omega⟩
    rw [List.nil_append, pString_cons, if_pos rfl]
  | plain c s t h1 h2 h3 _ ih =>
    intro r n hn
    rw [List.length_cons] at hn
    obtain ⟨n, rfl⟩ : ∃ m, n = m + 1 := ⟨n - 1, by omega⟩
    rw [List.cons_append, pString_cons, if_neg h1, if_neg h2, if_neg (by omega), ih r n (by omega)]
  | esc e c s t h1 _ ih =>
    intro r n hn
    simp only [List.length_cons] at hn
    obtain ⟨n, rfl⟩ : ∃ m, n = m + 1 := ⟨n - 1, by omega⟩
    rw [List.cons_append, List.cons_append, pString_cons, if_neg (by decide), if_pos rfl]
    dsimp only
    rw [if_neg (escapes_ne_u h1), (simpleEsc_iff _ _).mpr h1]
    dsimp only
    rw [ih r n (by omega)]
  | uni u s t v hu h1 h2 _ ih =>
    intro r n hn
    rw [List.length_append, hu.length] at hn
    obtain ⟨n, rfl⟩ : ∃ m, n = m + 1 := ⟨n - 1, by omega⟩
    rw [List.append_assoc]
    apply pString_u hu
    rw [uChar_plain h1 h2, ih r n (by omega)]
  | pair u u' s t v w hu hv hu' hw _ ih =>
    intro r n hn
    rw [List.length_append, List.length_append, hu.length, hu'.length] at hn
    obtain ⟨n, rfl⟩ : ∃ m, n = m + 1 := ⟨n - 1, by omega⟩
    rw [List.append_assoc, List.append_assoc]
    apply pString_u hu
    rw [uChar_hi_lo hv (uEsc_some.mpr ⟨u', hu', rfl⟩) hw, ih r n (by omega)]
  | aloneHi u s t v hu hv ha _ ih =>
    intro r n hn
    rw [List.length_append, hu.length] at hn
    obtain ⟨n, rfl⟩ : ∃ m, n = m + 1 := ⟨n - 1, by omega⟩
    rw [List.append_assoc]
    apply pString_u hu
    rw [uChar_hi_alone hv, ih r n (by omega)]
    intro w r' e hw
    obtain ⟨u', hu', e'⟩ := uEsc_some.mp e
    rcases List.append_eq_append_iff.mp e' with ⟨a', e1, e2⟩ | ⟨c', e1, e2⟩
    · cases a' with
      | nil => exact ha u' [] w (by rw [e1]; simp) hu' hw
      | cons x xs =>
        simp only [List.cons_append, List.cons.injEq] at e2
        exact hu'.no_quote (by rw [e1, ← e2.1]; simp)
    · exact ha u' c' w e1 hu' hw
  | aloneLo u s t v hu hv _ ih =>
    intro r n hn
    rw [List.length_append, hu.length] at hn
    obtain ⟨n, rfl⟩ : ∃ m, n = m + 1 := ⟨n - 1, by omega⟩
    rw [List.append_assoc]
    apply pString_u hu
    rw [uChar_lo hv, ih r n (by omega)]

/-! ## Numbers -/

theorem decVal_snoc (s : Text) (c : Char) : decVal (s ++ [c]) = decVal s * 10 + (c.toNat - 48) := by
  simp [decVal, List.foldl_append]

theorem _root_.MscPoc.JSpec.Digits.facts {s : Text} {m : ℕ} (h : Digits s m) : s ≠ [] ∧ (∀ c ∈ s, isDig c = true) ∧ decVal s = m := by
  induction h with
  | one n h =>
    refine ⟨by simp, ?_, ?_⟩
    · intro c hc
      rw [List.mem_singleton] at hc
      exact (isDig_iff c).mpr ⟨n, h, hc⟩
    · simp [decVal, toNat_ofNat (show 48 + n < 128 by omega)]
  | snoc s m n _ h ih =>
    obtain ⟨_, h2, h3⟩ := ih
    refine ⟨by simp, ?_, ?_⟩
    · intro c hc
      rcases List.mem_append.mp hc with hc | hc
      · exact h2 c hc
      · rw [List.mem_singleton] at hc
        exact (isDig_iff c).mpr ⟨n, h, hc⟩
    · rw [decVal_snoc, h3, toNat_ofNat (by omega)]
      omega

theorem digits_of {s : Text} (h0 : s ≠ []) (h : ∀ c ∈ s, isDig c = true) : Digits s (decVal s) := by
  induction s using List.reverseRecOn with
  | nil => exact absurd rfl h0
  | append_singleton s c ih =>
    obtain ⟨n, hn, rfl⟩ := (isDig_iff c).mp (h c (by simp))
    by_cases hs : s = []
    · subst hs
      rw [List.nil_append]
      have : decVal [Char.ofNat (48 + n)] = n := by simp [decVal, toNat_ofNat (show 48 + n < 128 by omega)]
      rw [this]
      exact Digits.one n hn
    · have := Digits.snoc s _ n (ih hs fun c hc => h c (by simp [hc])) hn
      rwa [decVal_snoc, toNat_ofNat (by omega), show decVal s * 10 + (48 + n - 48) = 10 * decVal s + n by omega]

theorem digits_iff {s : Text} {m : ℕ} : Digits s m ↔ s ≠ [] ∧ (∀ c ∈ s, isDig c = true) ∧ decVal s = m := by
  constructor
  · exact Digits.facts
  · rintro ⟨h1, h2, rfl⟩
    exact digits_of h1 h2

theorem spanDig_spec (t : Text) : t = (spanDig t).1 ++ (spanDig t).2 ∧ (∀ c ∈ (spanDig t).1, isDig c = true) := by
  induction t with
  | nil => simp [spanDig]
  | cons c t ih =>
    rw [spanDig]
    split
    · rename_i h
      refine ⟨by dsimp only; rw [List.cons_append, ← ih.1], ?_⟩
      intro x hx
      rcases List.mem_cons.mp hx with rfl | hx
      · exact h
      · exact ih.2 x hx
    · simp

/-- the text does not begin with a digit -/
def NoDig (r : Text) : Prop := ∀ c r', r = c :: r' → isDig c = false

theorem spanDig_append {s r : Text} (h : ∀ c ∈ s, isDig c = true) (hr : NoDig r) : spanDig (s ++ r) = (s, r) := by
  induction s with
  | nil =>
    rw [List.nil_append]
    cases r with
    | nil => rfl
    | cons c r => rw [spanDig, hr c r rfl]; rfl
  | cons c s ih =>
    rw [List.cons_append, spanDig, if_pos (h c (by simp)), ih fun x hx => h x (by simp [hx])]

theorem pInt_sound {t r : Text} {n : ℕ} (h : pInt t = some (n, r)) : ∃ i, t = i ++ r ∧ IntPart i n := by
  unfold pInt at h
  split at h
  · exact absurd h (by simp)
  · rename_i c t'
    split at h
    · rename_i hc
      simp only [Option.some.injEq, Prod.mk.injEq] at h
      obtain ⟨rfl, rfl⟩ := h
      exact ⟨['0'], by rw [hc]; rfl, Digits.one 0 (by omega), Or.inl rfl⟩
    · rename_i hc
      split at h
      · rename_i hd
        simp only [Option.some.injEq, Prod.mk.injEq] at h
        obtain ⟨rfl, rfl⟩ := h
        obtain ⟨e, ha⟩ := spanDig_spec (c :: t')
        have e' : (spanDig (c :: t')).1 = c :: (spanDig t').1 := by rw [spanDig, if_pos hd]
        refine ⟨_, e, digits_of (by rw [e']; simp) ha, Or.inr ?_⟩
        rw [e']
        simpa using hc
      · exact absurd h (by simp)

theorem pInt_complete {i r : Text} {n : ℕ} (h : IntPart i n) (hr : NoDig r) : pInt (i ++ r) = some (n, r) := by
  obtain ⟨hd, h0⟩ := h
  obtain ⟨h1, h2, rfl⟩ := hd.facts
  rcases h0 with rfl | h0
  · rfl
  · cases i with
    | nil => exact absurd rfl h1
    | cons c i =>
      have hs := spanDig_append h2 hr
      rw [List.cons_append] at hs ⊢
      unfold pInt
      dsimp only
      rw [if_neg (by simpa using h0), if_pos (h2 c (by simp)), hs]

theorem pFrac_sound {t r : Text} {b : Bool} (h : pFrac t = some (b, r)) : ∃ f, t = f ++ r ∧ Frac f b := by
  unfold pFrac at h
  split at h
  · rename_i t'
    split at h
    · exact absurd h (by simp)
    · rename_i h0
      simp only [Option.some.injEq, Prod.mk.injEq] at h
      obtain ⟨rfl, rfl⟩ := h
      obtain ⟨e, ha⟩ := spanDig_spec t'
      exact ⟨'.' :: (spanDig t').1, by rw [List.cons_append, ← e], Frac.some _ _ (digits_of h0 ha)⟩
  · simp only [Option.some.injEq, Prod.mk.injEq] at h
    obtain ⟨rfl, rfl⟩ := h
    exact ⟨[], rfl, Frac.none⟩

theorem pExpDigits_sound {t r : Text} {b : Bool} (h : pExpDigits t = some (b, r)) :
    ∃ sg s m, t = sg ++ s ++ r ∧ (sg = [] ∨ sg = ['+'] ∨ sg = ['-']) ∧ Digits s m ∧ b = true := by
  unfold pExpDigits at h
  split at h
  · exact absurd h (by simp)
  · rename_i h0
    simp only [Option.some.injEq, Prod.mk.injEq] at h
    obtain ⟨rfl, rfl⟩ := h
    obtain ⟨e, ha⟩ := spanDig_spec (dropSign t)
    have hd := digits_of h0 ha
    have hs : ∃ sg, t = sg ++ dropSign t ∧ (sg = [] ∨ sg = ['+'] ∨ sg = ['-']) := by
      unfold dropSign
      split
      · exact ⟨['+'], rfl, by simp⟩
      · exact ⟨['-'], rfl, by simp⟩
      · exact ⟨[], rfl, by simp⟩
    obtain ⟨sg, e1, h1⟩ := hs
    exact ⟨sg, _, _, by rw [List.append_assoc, ← e, ← e1], h1, hd, rfl⟩

theorem pExp_sound {t r : Text} {b : Bool} (h : pExp t = some (b, r)) : ∃ e, t = e ++ r ∧ Exp e b := by
  unfold pExp at h
  split at h
  · obtain ⟨sg, s, m, rfl, h1, h2, rfl⟩ := pExpDigits_sound h
    exact ⟨'e' :: (sg ++ s), rfl, Exp.some _ _ _ _ (Or.inl rfl) h1 h2⟩
  · obtain ⟨sg, s, m, rfl, h1, h2, rfl⟩ := pExpDigits_sound h
    exact ⟨'E' :: (sg ++ s), rfl, Exp.some _ _ _ _ (Or.inr rfl) h1 h2⟩
  · simp only [Option.some.injEq, Prod.mk.injEq] at h
    obtain ⟨rfl, rfl⟩ := h
    exact ⟨[], rfl, Exp.none⟩

/-- the text cannot continue a number -/
def NumEnd (r : Text) : Prop := ∀ c r', r = c :: r' → isDig c = false ∧ c ≠ '.' ∧ c ≠ 'e' ∧ c ≠ 'E'

theorem dropSign_digits {s r : Text} {m : ℕ} (h : Digits s m) : dropSign (s ++ r) = s ++ r := by
  obtain ⟨h0, h1, _⟩ := h.facts
  cases s with
  | nil => exact absurd rfl h0
  | cons c s =>
    have := h1 c (by simp)
    unfold dropSign
    split
    · rename_i e
      simp only [List.cons_append, List.cons.injEq] at e
      rw [e.1] at this
      exact absurd this (by decide)
    · rename_i e
      simp only [List.cons_append, List.cons.injEq] at e
      rw [e.1] at this
      exact absurd this (by decide)
    · rfl

theorem pExpDigits_complete {sg s r : Text} {m : ℕ} (h1 : sg = [] ∨ sg = ['+'] ∨ sg = ['-']) (h2 : Digits s m) (hr : NoDig r) :
    pExpDigits (sg ++ s ++ r) = some (true, r) := by
  have e : dropSign (sg ++ s ++ r) = s ++ r := by
    rcases h1 with rfl | rfl | rfl
    · exact dropSign_digits h2
    · rfl
    · rfl
  obtain ⟨h0, h3, _⟩ := h2.facts
  unfold pExpDigits
  rw [e, spanDig_append h3 hr, if_neg h0]

theorem NumEnd.noDig {r : Text} (h : NumEnd r) : NoDig r := fun c r' e => (h c r' e).1

theorem pExp_complete {e r : Text} {b : Bool} (h : Exp e b) (hr : NumEnd r) : pExp (e ++ r) = some (b, r) := by
  cases h with
  | none =>
    rw [List.nil_append]
    unfold pExp
    split
    · exact absurd rfl (hr _ _ rfl).2.2.1
    · exact absurd rfl (hr _ _ rfl).2.2.2
    · rfl
  | some e sg s m he h1 h2 =>
    have := pExpDigits_complete h1 h2 hr.noDig
    rcases he with rfl | rfl
    · exact this
    · exact this

theorem exp_noDig {e r : Text} {b : Bool} (h : Exp e b) (hr : NumEnd r) : NoDig (e ++ r) := by
  cases h with
  | none => exact hr.noDig
  | some e sg s m he h1 h2 =>
    intro c r' e'
    simp only [List.cons_append, List.cons.injEq] at e'
    rcases he with rfl | rfl <;> rw [← e'.1] <;> rfl

theorem pFrac_complete {f e r : Text} {b b' : Bool} (h : Frac f b) (he : Exp e b') (hr : NumEnd r) :
    pFrac (f ++ (e ++ r)) = some (b, e ++ r) := by
  cases h with
  | none =>
    rw [List.nil_append]
    unfold pFrac
    split
    · rename_i e'
      exfalso
      cases he with
      | none => exact (hr _ _ e').2.1 rfl
      | some e sg s m he h1 h2 =>
        simp only [List.cons_append, List.cons.injEq] at e'
        rcases he with rfl | rfl
        · exact absurd e'.1 (by decide)
        · exact absurd e'.1 (by decide)
    · rfl
  | some s m h1 =>
    obtain ⟨h0, h3, _⟩ := h1.facts
    rw [List.cons_append]
    have e0 : ∀ r : Text, pFrac ('.' :: r) = if (spanDig r).1 = [] then none else some (true, (spanDig r).2) := fun _ => rfl
    rw [e0, spanDig_append h3 (exp_noDig he hr), if_neg h0]

theorem frac_noDig {f e r : Text} {b b' : Bool} (h : Frac f b) (he : Exp e b') (hr : NumEnd r) : NoDig (f ++ (e ++ r)) := by
  cases h with
  | none => rw [List.nil_append]; exact exp_noDig he hr
  | some s m h1 =>
    intro c r' e'
    simp only [List.cons_append, List.cons.injEq] at e'
    rw [← e'.1]; rfl

theorem pNum_complete {i f e r : Text} {n : ℕ} {hf he : Bool} (h1 : IntPart i n) (h2 : Frac f hf) (h3 : Exp e he) (hr : NumEnd r) :
    pNum (i ++ f ++ e ++ r) = some (n, hf || he, r) := by
  unfold pNum
  rw [List.append_assoc, List.append_assoc, pInt_complete h1 (frac_noDig h2 h3 hr)]
  simp only [Option.bind_eq_bind, Option.bind_some]
  rw [pFrac_complete h2 h3 hr]
  simp only [Option.bind_some]
  rw [pExp_complete h3 hr]
  rfl

theorem pNum_sound {t r : Text} {n : ℕ} {b : Bool} (h : pNum t = some (n, b, r)) :
    ∃ i f e hf he, t = i ++ f ++ e ++ r ∧ IntPart i n ∧ Frac f hf ∧ Exp e he ∧ b = (hf || he) := by
  unfold pNum at h
  simp only [Option.bind_eq_bind, Option.bind_eq_some_iff] at h
  obtain ⟨⟨n', t1⟩, h1, ⟨hf, t2⟩, h2, ⟨he, t3⟩, h3, h4⟩ := h
  dsimp only at h2 h3 h4
  simp only [Option.some.injEq, Prod.mk.injEq] at h4
  obtain ⟨rfl, rfl, rfl⟩ := h4
  obtain ⟨i, rfl, k1⟩ := pInt_sound h1
  obtain ⟨f, rfl, k2⟩ := pFrac_sound h2
  obtain ⟨e, rfl, k3⟩ := pExp_sound h3
  exact ⟨i, f, e, hf, he, by simp, k1, k2, k3, rfl⟩

/-- the document of a number literal -/
def numDoc (s : Text) (n : Int) (b : Bool) : Json := if b then .frac n else if s = ['-', '0'] then .negZero else .num n

theorem _root_.MscPoc.JSpec.Digits.pos {s : Text} {m : ℕ} (h : Digits s m) (h0 : s.head? ≠ some '0') : 0 < m := by
  induction h with
  | one n hn =>
    rcases Nat.eq_zero_or_pos n with rfl | h
    · exact absurd rfl h0
    · exact h
  | snoc s m n hs hn ih =>
    have : s.head? ≠ some '0' := by
      intro e
      apply h0
      rw [List.head?_append, e]
      rfl
    have := ih this
    omega

/-- an integer part of value zero is the one digit -/
theorem IntPart.zero {i : Text} (h : IntPart i 0) : i = ['0'] := by
  rcases h.2 with e | e
  · exact e
  · exact absurd (h.1.pos e) (by omega)

theorem IntPart.of_zero {n : ℕ} (h : IntPart ['0'] n) : n = 0 := by
  have e : ∀ (s : Text) (m : ℕ), Digits s m → s = ['0'] → m = 0 := by
    intro s m h e
    cases h with
    | one n hn =>
      simp only [List.cons.injEq, and_true] at e
      have hk : ∀ k < 10, Char.ofNat (48 + k) = '0' → k = 0 := by decide
      exact hk _ hn e
    | snoc s m n hs hn =>
      have : s = [] := by
        have := congrArg List.length e
        simp at this
        exact this
      exact absurd this hs.facts.1
  exact e _ _ h.1 rfl

/-- the documents of literals with a minus sign -/
theorem numDoc_neg {i f e : Text} {n : ℕ} {hf he : Bool} (h1 : IntPart i n) (h2 : Frac f hf) (h3 : Exp e he) :
    numDoc ('-' :: (i ++ f ++ e)) (-n) (hf || he) = if (hf || he) = true then .frac (-(n : Int)) else if n = 0 then .negZero else .num (-(n : Int)) := by
  unfold numDoc
  split
  · rfl
  rename_i hb
  simp only [Bool.or_eq_true, not_or, Bool.not_eq_true] at hb
  obtain ⟨rfl, rfl⟩ := hb
  cases h2
  cases h3
  simp only [List.append_nil, List.cons.injEq, true_and]
  by_cases hn : n = 0
  · subst hn
    rw [if_pos rfl, if_pos (IntPart.zero h1)]
  · rw [if_neg hn, if_neg]
    rintro rfl
    exact hn (IntPart.of_zero h1)

theorem numDoc_pos {i f e : Text} {n : ℕ} {hf he : Bool} (h1 : IntPart i n) :
    numDoc (i ++ f ++ e) n (hf || he) = if (hf || he) = true then .frac (n : Int) else .num (n : Int) := by
  unfold numDoc
  split
  · rfl
  rw [if_neg]
  obtain ⟨h0, hd, _⟩ := h1.1.facts
  cases i with
  | nil => exact absurd rfl h0
  | cons c i =>
    intro h
    have hc := hd c (by simp)
    simp only [List.cons_append, List.cons.injEq] at h
    rw [h.1] at hc
    exact absurd hc (by decide)

theorem pNumber_sound {t r : Text} {v : Json} (h : pNumber t = some (v, r)) :
    ∃ s n b, t = s ++ r ∧ Num s n b ∧ v = numDoc s n b := by
  unfold pNumber at h
  split at h
  · rw [Option.map_eq_some_iff] at h
    obtain ⟨⟨n, b, t'⟩, h1, h2⟩ := h
    dsimp only at h2
    simp only [Prod.mk.injEq] at h2
    obtain ⟨rfl, rfl⟩ := h2
    obtain ⟨i, f, e, hf, he, rfl, k1, k2, k3, rfl⟩ := pNum_sound h1
    exact ⟨_, _, _, rfl, Num.neg _ _ _ _ _ _ k1 k2 k3, (numDoc_neg k1 k2 k3).symm⟩
  · rw [Option.map_eq_some_iff] at h
    obtain ⟨⟨n, b, t'⟩, h1, h2⟩ := h
    dsimp only at h2
    simp only [Prod.mk.injEq] at h2
    obtain ⟨rfl, rfl⟩ := h2
    obtain ⟨i, f, e, hf, he, rfl, k1, k2, k3, rfl⟩ := pNum_sound h1
    exact ⟨_, _, _, rfl, Num.pos _ _ _ _ _ _ k1 k2 k3, (numDoc_pos k1).symm⟩

theorem IntPart.head {i : Text} {n : ℕ} (h : IntPart i n) : ∃ c i', i = c :: i' ∧ isDig c = true := by
  obtain ⟨h0, h1, _⟩ := h.1.facts
  cases i with
  | nil => exact absurd rfl h0
  | cons c i => exact ⟨c, i, rfl, h1 c (by simp)⟩

theorem pNumber_complete {s r : Text} {n : Int} {b : Bool} (h : Num s n b) (hr : NumEnd r) :
    pNumber (s ++ r) = some (numDoc s n b, r) := by
  cases h with
  | pos i f e n hf he h1 h2 h3 =>
    have hp := pNum_complete h1 h2 h3 hr
    obtain ⟨c, i', rfl, hc⟩ := IntPart.head h1
    unfold pNumber
    split
    · rename_i e'
      simp only [List.cons_append, List.cons.injEq] at e'
      rw [e'.1] at hc
      exact absurd hc (by decide)
    · rw [hp, numDoc_pos h1]; rfl
  | neg i f e n hf he h1 h2 h3 =>
    have hp := pNum_complete h1 h2 h3 hr
    have e0 : ∀ r : Text, pNumber ('-' :: r) =
      (pNum r).map fun (n, q, t) => (if q then .frac (-(n : Int)) else if n = 0 then .negZero else .num (-(n : Int)), t) := fun _ => rfl
    rw [List.cons_append, e0, hp, numDoc_neg h1 h2 h3]; rfl

/-- a number begins with a digit or a minus sign -/
theorem Num.head {s : Text} {n : Int} {b : Bool} (h : Num s n b) : ∃ c s', s = c :: s' ∧ (isDig c = true ∨ c = '-') := by
  cases h with
  | pos i f e n hf he h1 h2 h3 =>
    obtain ⟨c, i', rfl, hc⟩ := IntPart.head h1
    exact ⟨c, _, rfl, Or.inl hc⟩
  | neg i f e n hf he h1 h2 h3 => exact ⟨_, _, rfl, Or.inr rfl⟩

/-! ## Values -/

theorem pLit_append (pre r : Text) : pLit pre (pre ++ r) = some r := by
  unfold pLit
  rw [List.take_left, if_pos rfl, List.drop_left]

theorem pLit_sound {pre t r : Text} (h : pLit pre t = some r) : t = pre ++ r := by
  unfold pLit at h
  split at h
  · rename_i e
    obtain rfl := Option.some.inj h
    conv_lhs => rw [← List.take_append_drop pre.length t, e]
  · exact absurd h (by simp)

theorem pValue_obj (n d : ℕ) (r : Text) : pValue (n + 1) (d + 1) ('{' :: r) =
    match skipWs r with
    | '}' :: r' => some (.obj [], r')
    | r' => match pMembers n d r' with
      | none => none
      | some (kvs, t) => some (.obj kvs, t) := by
  rw [pValue, if_pos rfl, if_neg (by omega)]
  rfl

theorem pValue_arr (n d : ℕ) (r : Text) : pValue (n + 1) (d + 1) ('[' :: r) =
    match skipWs r with
    | ']' :: r' => some (.arr [], r')
    | r' => match pElems n d r' with
      | none => none
      | some (l, t) => some (.arr l, t) := by
  rw [pValue, if_neg (by decide), if_pos rfl, if_neg (by omega)]
  rfl

theorem pValue_str (n d : ℕ) (r : Text) : pValue (n + 1) d ('"' :: r) =
    match pString (r.length + 1) r with
      | none => none
      | some (s, t) => some (.str (String.ofList s), t) := by
  rw [pValue, if_neg (by decide), if_neg (by decide), if_pos rfl]
  rfl

theorem pValue_num (n d : ℕ) {c : Char} (r : Text) (h : isDig c = true ∨ c = '-') :
    pValue (n + 1) d (c :: r) = pNumber (c :: r) := by
  have key : ∀ x : Char, isDig x = false → x ≠ '-' → c ≠ x := by
    rintro x h1 h2 rfl
    rcases h with h | h
    · rw [h1] at h; exact absurd h (by decide)
    · exact h2 h
  rw [pValue, if_neg (key '{' (by decide) (by decide)), if_neg (key '[' (by decide) (by decide)),
    if_neg (key '"' (by decide) (by decide)), if_neg (key 't' (by decide) (by decide)),
    if_neg (key 'f' (by decide) (by decide)), if_neg (key 'n' (by decide) (by decide))]

theorem pElems_succ (n d : ℕ) (t : Text) : pElems (n + 1) d t =
    match pValue n d t with
    | none => none
    | some (v, t) =>
      match skipWs t with
      | ',' :: t => match pElems n d (skipWs t) with
        | none => none
        | some (vs, t) => some (v :: vs, t)
      | ']' :: t => some ([v], t)
      | _ => none := by rw [pElems]; rfl

theorem pMembers_succ (n d : ℕ) (r : Text) : pMembers (n + 1) d ('"' :: r) =
    match pString (r.length + 1) r with
      | none => none
      | some (k, t) => match skipWs t with
        | ':' :: t => match pValue n d (skipWs t) with
          | none => none
          | some (v, t) => match skipWs t with
            | ',' :: t => match pMembers n d (skipWs t) with
              | none => none
              | some (kvs, t) => some ((String.ofList k, v) :: kvs, t)
            | '}' :: t => some ([(String.ofList k, v)], t)
            | _ => none
        | _ => none := by rw [pMembers]; rfl

theorem val_num {d : ℕ} {s : Text} {n : Int} {b : Bool} (h : Num s n b) : Val d s (numDoc s n b) := by
  cases b
  · by_cases e : s = ['-', '0']
    · subst e
      exact Val.negZero d
    · have : numDoc s n false = .num n := if_neg e
      rw [this]
      exact Val.num d s n h e
  · exact Val.frac d s n h

theorem Ws.append {w w' : Text} (h : Ws w) (h' : Ws w') : Ws (w ++ w') := by
  intro c hc
  rcases List.mem_append.mp hc with hc | hc
  · exact h c hc
  · exact h' c hc

theorem _root_.MscPoc.JSpec.Elems.wsLeft {d : ℕ} {s w : Text} {l : List Json} (h : Elems d s l) (hw : Ws w) : Elems d (w ++ s) l := by
  cases h with
  | one _ w1 s w2 v h1 h2 h3 =>
    have := Elems.one d (w ++ w1) s w2 v (Ws.append hw h1) h2 h3
    simpa using this
  | cons _ w1 s w2 t v l h1 h2 h3 h4 =>
    have := Elems.cons d (w ++ w1) s w2 t v l (Ws.append hw h1) h2 h3 h4
    simpa using this

theorem _root_.MscPoc.JSpec.Members.wsLeft {d : ℕ} {s w : Text} {l : List (String × Json)} (h : Members d s l) (hw : Ws w) :
    Members d (w ++ s) l := by
  cases h with
  | one _ w1 k w2 w3 s w4 key v h1 h2 h3 h4 h5 h6 =>
    have := Members.one d (w ++ w1) k w2 w3 s w4 key v (Ws.append hw h1) h2 h3 h4 h5 h6
    simpa using this
  | cons _ w1 k w2 w3 s w4 t key v l h1 h2 h3 h4 h5 h6 h7 =>
    have := Members.cons d (w ++ w1) k w2 w3 s w4 t key v l (Ws.append hw h1) h2 h3 h4 h5 h6 h7
    simpa using this

/-- what the scanner reads is a text of the grammar -/
theorem sound (n : ℕ) :
    (∀ d t v r, pValue n d t = some (v, r) → ∃ s, t = s ++ r ∧ Val d s v) ∧
    (∀ d t l r, pElems n d t = some (l, r) → ∃ s, t = s ++ ']' :: r ∧ Elems d s l) ∧
    (∀ d t l r, pMembers n d t = some (l, r) → ∃ s, t = s ++ '}' :: r ∧ Members d s l) := by
  induction n with
  | zero =>
    refine ⟨?_, ?_, ?_⟩
    · intro d t v r h; simp [pValue] at h
    · intro d t v r h; simp [pElems] at h
    · intro d t v r h; simp [pMembers] at h
  | succ n ih =>
    obtain ⟨ihV, ihE, ihM⟩ := ih
    refine ⟨?_, ?_, ?_⟩
    · intro d t v r h
      cases t with
      | nil => simp [pValue] at h
      | cons c t =>
        rw [pValue] at h
        split at h
        · rename_i hc
          subst hc
          split at h
          · exact absurd h (by simp)
          · rename_i hd
            obtain ⟨d, rfl⟩ : ∃ m, d = m + 1 := ⟨d - 1, by omega⟩
            obtain ⟨w, hw, ew⟩ := skipWs_split t
            split at h
            · rename_i r' e
              simp only [Option.some.injEq, Prod.mk.injEq] at h
              obtain ⟨rfl, rfl⟩ := h
              rw [e] at ew
              exact ⟨'{' :: (w ++ ['}']), by rw [ew]; simp, Val.objNil d w hw⟩
            · split at h
              · exact absurd h (by simp)
              · rename_i kvs t' e
                simp only [Option.some.injEq, Prod.mk.injEq] at h
                obtain ⟨rfl, rfl⟩ := h
                obtain ⟨s, es, hs⟩ := ihM _ _ _ _ e
                rw [es] at ew
                refine ⟨'{' :: ((w ++ s) ++ ['}']), by rw [ew]; simp, Val.obj d _ _ ?_⟩
                exact hs.wsLeft hw
        · split at h
          · rename_i hc
            subst hc
            split at h
            · exact absurd h (by simp)
            · rename_i hd
              obtain ⟨d, rfl⟩ : ∃ m, d = m + 1 := ⟨d - 1, by omega⟩
              obtain ⟨w, hw, ew⟩ := skipWs_split t
              split at h
              · rename_i r' e
                simp only [Option.some.injEq, Prod.mk.injEq] at h
                obtain ⟨rfl, rfl⟩ := h
                rw [e] at ew
                exact ⟨'[' :: (w ++ [']']), by rw [ew]; simp, Val.arrNil d w hw⟩
              · split at h
                · exact absurd h (by simp)
                · rename_i l t' e
                  simp only [Option.some.injEq, Prod.mk.injEq] at h
                  obtain ⟨rfl, rfl⟩ := h
                  obtain ⟨s, es, hs⟩ := ihE _ _ _ _ e
                  rw [es] at ew
                  refine ⟨'[' :: ((w ++ s) ++ [']']), by rw [ew]; simp, Val.arr d _ _ ?_⟩
                  exact hs.wsLeft hw
          · split at h
            · rename_i hc
              subst hc
              split at h
              · exact absurd h (by simp)
              · rename_i s t' e
                simp only [Option.some.injEq, Prod.mk.injEq] at h
                obtain ⟨rfl, rfl⟩ := h
                obtain ⟨b, rfl, hb⟩ := pString_sound _ _ _ _ e
                exact ⟨'"' :: (b ++ ['"']), by simp, Val.str d b s hb⟩
            · split at h
              · rename_i hc
                subst hc
                rw [Option.map_eq_some_iff] at h
                obtain ⟨t', e, h⟩ := h
                simp only [Prod.mk.injEq] at h
                obtain ⟨rfl, rfl⟩ := h
                rw [pLit_sound e]
                exact ⟨"true".toList, rfl, Val.true d⟩
              · split at h
                · rename_i hc
                  subst hc
                  rw [Option.map_eq_some_iff] at h
                  obtain ⟨t', e, h⟩ := h
                  simp only [Prod.mk.injEq] at h
                  obtain ⟨rfl, rfl⟩ := h
                  rw [pLit_sound e]
                  exact ⟨"false".toList, rfl, Val.false d⟩
                · split at h
                  · rename_i hc
                    subst hc
                    rw [Option.map_eq_some_iff] at h
                    obtain ⟨t', e, h⟩ := h
                    simp only [Prod.mk.injEq] at h
                    obtain ⟨rfl, rfl⟩ := h
                    rw [pLit_sound e]
                    exact ⟨"null".toList, rfl, Val.null d⟩
                  · obtain ⟨s, m, b, e, hn, rfl⟩ := pNumber_sound h
                    exact ⟨s, e, val_num hn⟩
    · intro d t l r h
      rw [pElems_succ] at h
      split at h
      · exact absurd h (by simp)
      · rename_i v t1 e1
        obtain ⟨s, rfl, hs⟩ := ihV _ _ _ _ e1
        obtain ⟨w, hw, ew⟩ := skipWs_split t1
        split at h
        · rename_i t2 e2
          rw [e2] at ew
          obtain ⟨w', hw', ew'⟩ := skipWs_split t2
          split at h
          · exact absurd h (by simp)
          · rename_i vs t3 e3
            simp only [Option.some.injEq, Prod.mk.injEq] at h
            obtain ⟨rfl, rfl⟩ := h
            obtain ⟨s', es, hs'⟩ := ihE _ _ _ _ e3
            rw [es] at ew'
            refine ⟨[] ++ s ++ w ++ ',' :: (w' ++ s'), by rw [ew, ew']; simp, Elems.cons d [] s w _ v vs (by simp [Ws]) hs hw (hs'.wsLeft hw')⟩
        · rename_i t2 e2
          rw [e2] at ew
          simp only [Option.some.injEq, Prod.mk.injEq] at h
          obtain ⟨rfl, rfl⟩ := h
          exact ⟨[] ++ s ++ w, by rw [ew]; simp, Elems.one d [] s w v (by simp [Ws]) hs hw⟩
        · exact absurd h (by simp)
    · intro d t l r h
      obtain ⟨t0, rfl⟩ : ∃ t0, t = '"' :: t0 := by
        by_contra hc
        rw [pMembers] at h
        · exact absurd h (by simp)
        · intro r' e
          exact hc ⟨r', e⟩
      rw [pMembers_succ] at h
      · split at h
        · exact absurd h (by simp)
        · rename_i k t1 e1
          obtain ⟨b, rfl, hb⟩ := pString_sound _ _ _ _ e1
          obtain ⟨w1, hw1, ew1⟩ := skipWs_split t1
          split at h
          · rename_i t2 e2
            rw [e2] at ew1
            obtain ⟨w2, hw2, ew2⟩ := skipWs_split t2
            split at h
            · exact absurd h (by simp)
            · rename_i v t3 e3
              obtain ⟨s, es, hs⟩ := ihV _ _ _ _ e3
              rw [es] at ew2
              obtain ⟨w3, hw3, ew3⟩ := skipWs_split t3
              split at h
              · rename_i t4 e4
                rw [e4] at ew3
                obtain ⟨w4, hw4, ew4⟩ := skipWs_split t4
                split at h
                · exact absurd h (by simp)
                · rename_i kvs t5 e5
                  simp only [Option.some.injEq, Prod.mk.injEq] at h
                  obtain ⟨rfl, rfl⟩ := h
                  obtain ⟨s', es', hs'⟩ := ihM _ _ _ _ e5
                  rw [es'] at ew4
                  exact ⟨_, by rw [ew1, ew2, ew3, ew4]; simp,
                    Members.cons d [] b w1 w2 s w3 (w4 ++ s') k v kvs (by simp [Ws]) hb hw1 hw2 hs hw3 (hs'.wsLeft hw4)⟩
              · rename_i t4 e4
                rw [e4] at ew3
                simp only [Option.some.injEq, Prod.mk.injEq] at h
                obtain ⟨rfl, rfl⟩ := h
                exact ⟨_, by rw [ew1, ew2, ew3]; simp,
                    Members.one d [] b w1 w2 s w3 k v (by simp [Ws]) hb hw1 hw2 hs hw3⟩
              · exact absurd h (by simp)
          · exact absurd h (by simp)

/-- values begin with a character that is not white space and not punctuation -/
theorem val_head {d : ℕ} {s : Text} {v : Json} (h : Val d s v) : ∃ c s', s = c :: s' ∧ isWs c = false ∧ c ≠ ']' ∧ c ≠ '}' := by
  cases h with
  | null => exact ⟨'n', _, rfl, by decide, by decide, by decide⟩
  | true => exact ⟨'t', _, rfl, by decide, by decide, by decide⟩
  | false => exact ⟨'f', _, rfl, by decide, by decide, by decide⟩
  | num _ s n h =>
    obtain ⟨c, s', rfl, hc⟩ := Num.head h
    refine ⟨c, s', rfl, ?_⟩
    rcases hc with hc | rfl
    · obtain ⟨k, hk, rfl⟩ := (isDig_iff c).mp hc
      interval_cases k <;> decide
    · decide
  | frac _ s n h =>
    obtain ⟨c, s', rfl, hc⟩ := Num.head h
    refine ⟨c, s', rfl, ?_⟩
    rcases hc with hc | rfl
    · obtain ⟨k, hk, rfl⟩ := (isDig_iff c).mp hc
      interval_cases k <;> decide
    · decide
  | negZero => exact ⟨'-', _, rfl, by decide, by decide, by decide⟩
  | str => exact ⟨'"', _, rfl, by decide, by decide, by decide⟩
  | arrNil => exact ⟨'[', _, rfl, by decide, by decide, by decide⟩
  | arr => exact ⟨'[', _, rfl, by decide, by decide, by decide⟩
  | objNil => exact ⟨'{', _, rfl, by decide, by decide, by decide⟩
  | obj => exact ⟨'{', _, rfl, by decide, by decide, by decide⟩

theorem skipWs_val {d : ℕ} {s : Text} {v : Json} (h : Val d s v) (r : Text) : skipWs (s ++ r) = s ++ r := by
  obtain ⟨c, s', rfl, hc, _⟩ := val_head h
  exact skipWs_cons hc _

theorem val_length {d : ℕ} {s : Text} {v : Json} (h : Val d s v) : 1 ≤ s.length := by
  obtain ⟨c, s', rfl, _⟩ := val_head h
  simp

theorem numEnd_of {c : Char} {r : Text} (h : isWs c = true ∨ c = ',' ∨ c = ']' ∨ c = '}') : NumEnd (c :: r) := by
  intro c' r' e
  simp only [List.cons.injEq] at e
  rw [← e.1]
  rcases h with h | rfl | rfl | rfl
  · rcases (isWs_iff c).mp h with rfl | rfl | rfl | rfl <;> decide
  · decide
  · decide
  · decide

theorem numEnd_ws {w : Text} (hw : Ws w) {c : Char} {r : Text} (h : c = ',' ∨ c = ']' ∨ c = '}') : NumEnd (w ++ c :: r) := by
  cases w with
  | nil => exact numEnd_of (Or.inr h)
  | cons x w => exact numEnd_of (Or.inl ((isWs_iff x).mpr (hw x (by simp))))

theorem numEnd_nil_ws {w : Text} (hw : Ws w) : NumEnd w := by
  cases w with
  | nil => intro c r e; exact absurd e (by simp)
  | cons x w => exact numEnd_of (Or.inl ((isWs_iff x).mpr (hw x (by simp))))

/-- the text of an array's contents begins with a value -/
theorem elems_head {d : ℕ} {s : Text} {l : List Json} (h : Elems d s l) (r : Text) : ∃ c t, skipWs (s ++ r) = c :: t ∧ c ≠ ']' := by
  cases h with
  | one _ w1 s w2 v h1 h2 h3 =>
    obtain ⟨c, s', rfl, hc, hc', _⟩ := val_head h2
    refine ⟨c, s' ++ w2 ++ r, ?_, hc'⟩
    rw [List.append_assoc, List.append_assoc, skipWs_append h1, List.cons_append, skipWs_cons hc, List.append_assoc]
  | cons _ w1 s w2 t v l h1 h2 h3 h4 =>
    obtain ⟨c, s', rfl, hc, hc', _⟩ := val_head h2
    refine ⟨c, s' ++ (w2 ++ (',' :: t ++ r)), ?_, hc'⟩
    rw [List.append_assoc, List.append_assoc, List.append_assoc, skipWs_append h1, List.cons_append, skipWs_cons hc]

theorem members_head {d : ℕ} {s : Text} {l : List (String × Json)} (h : Members d s l) (r : Text) :
    ∃ t, skipWs (s ++ r) = '"' :: t := by
  cases h with
  | one _ w1 k w2 w3 s w4 key v h1 h2 h3 h4 h5 h6 =>
    rw [List.append_assoc, skipWs_append h1, List.cons_append, skipWs_cons (by decide)]
    exact ⟨_, rfl⟩
  | cons _ w1 k w2 w3 s w4 t key v l h1 h2 h3 h4 h5 h6 h7 =>
    rw [List.append_assoc, skipWs_append h1, List.cons_append, skipWs_cons (by decide)]
    exact ⟨_, rfl⟩

/-- the scanner reads every text of the grammar -/
theorem complete (n : ℕ) :
    (∀ d s v r, Val d s v → 2 * s.length ≤ n → (∀ k, v = .num k ∨ v = .frac k ∨ v = .negZero → NumEnd r) → pValue n d (s ++ r) = some (v, r)) ∧
    (∀ d s l r, Elems d s l → 2 * s.length + 1 ≤ n → pElems n d (skipWs (s ++ ']' :: r)) = some (l, r)) ∧
    (∀ d s l r, Members d s l → 2 * s.length + 1 ≤ n → pMembers n d (skipWs (s ++ '}' :: r)) = some (l, r)) := by
  induction n with
  | zero =>
    refine ⟨?_, ?_, ?_⟩
    · intro d s v r h hn
      have := val_length h
      omega
    · intro d s l r h hn; omega
    · intro d s l r h hn; omega
  | succ n ih =>
    obtain ⟨ihV, ihE, ihM⟩ := ih
    refine ⟨?_, ?_, ?_⟩
    · intro d s v r h hn hr
      cases h with
      | null => rfl
      | true => rfl
      | false => rfl
      | num _ s m h h0 =>
        have hp := pNumber_complete h (hr m (Or.inl rfl))
        have e : numDoc s m false = .num m := if_neg h0
        rw [e] at hp
        obtain ⟨c, s', rfl, hc⟩ := Num.head h
        rw [List.cons_append] at hp ⊢
        rw [pValue_num n d _ hc, hp]
      | negZero _ =>
        have h : Num ['-', '0'] (-(0 : ℕ)) (false || false) :=
          Num.neg ['0'] [] [] 0 false false ⟨Digits.one 0 (by norm_num), Or.inl rfl⟩ Frac.none Exp.none
        have hp := pNumber_complete h (hr 0 (Or.inr (Or.inr rfl)))
        rw [List.cons_append] at hp ⊢
        rw [pValue_num n d _ (Or.inr rfl), hp]; rfl
      | frac _ s m h =>
        have hp := pNumber_complete h (hr m (Or.inr (Or.inl rfl)))
        obtain ⟨c, s', rfl, hc⟩ := Num.head h
        rw [List.cons_append] at hp ⊢
        rw [pValue_num n d _ hc, hp]; rfl
      | str _ b t h =>
        rw [List.cons_append, pValue_str, List.append_assoc, List.singleton_append,
          pString_complete h r _ (by rw [List.length_append, List.length_cons]; omega)]
      | arrNil d w hw =>
        rw [List.cons_append, pValue_arr, List.append_assoc, List.singleton_append, skipWs_append hw, skipWs_cons (by decide)]
        rfl
      | arr d s l h =>
        rw [List.cons_append, pValue_arr, List.append_assoc, List.singleton_append]
        have hE := ihE d s l r h (by simp only [List.length_cons, List.length_append, List.length_nil] at hn; omega)
        obtain ⟨c, t, e, hc⟩ := elems_head h (']' :: r)
        rw [e] at hE ⊢
        split
        · rename_i e'
          simp only [List.cons.injEq] at e'
          exact absurd e'.1 hc
        · rw [hE]
      | objNil d w hw =>
        rw [List.cons_append, pValue_obj, List.append_assoc, List.singleton_append, skipWs_append hw, skipWs_cons (by decide)]
        rfl
      | obj d s l h =>
        rw [List.cons_append, pValue_obj, List.append_assoc, List.singleton_append]
        have hM := ihM d s l r h (by simp only [List.length_cons, List.length_append, List.length_nil] at hn; omega)
        obtain ⟨t, e⟩ := members_head h ('}' :: r)
        rw [e] at hM ⊢
        split
        · rename_i e'
          simp only [List.cons.injEq] at e'
          exact absurd e'.1 (by decide)
        · rw [hM]
    · intro d s l r h hn
      cases h with
      | one _ w1 s w2 v h1 h2 h3 =>
        simp only [List.length_append] at hn
        rw [List.append_assoc, List.append_assoc, skipWs_append h1, skipWs_val h2, pElems_succ,
          ihV d s v _ h2 (by omega) (fun k _ => numEnd_ws h3 (by simp))]
        dsimp only
        rw [skipWs_append h3, skipWs_cons (by decide)]
        rfl
      | cons _ w1 s w2 t v l h1 h2 h3 h4 =>
        simp only [List.length_append, List.length_cons] at hn
        have := val_length h2
        rw [List.append_assoc, List.append_assoc, List.append_assoc, skipWs_append h1, skipWs_val h2, pElems_succ,
          List.cons_append, ihV d s v _ h2 (by omega) (fun k _ => numEnd_ws h3 (by simp))]
        dsimp only
        rw [skipWs_append h3, skipWs_cons (by decide)]
        show (match pElems n d (skipWs (t ++ ']' :: r)) with
          | none => none
          | some (vs, t) => some (v :: vs, t)) = _
        rw [ihE d t l r h4 (by omega)]
    · intro d s l r h hn
      cases h with
      | one _ w1 k w2 w3 s w4 key v h1 h2 h3 h4 h5 h6 =>
        simp only [List.length_append, List.length_cons] at hn
        have e : (w1 ++ '"' :: (k ++ '"' :: (w2 ++ ':' :: (w3 ++ s ++ w4)))) ++ '}' :: r =
            w1 ++ '"' :: (k ++ '"' :: (w2 ++ ':' :: (w3 ++ (s ++ (w4 ++ '}' :: r))))) := by simp
        rw [e, skipWs_append h1, skipWs_cons (by decide), pMembers_succ, pString_complete h2 _ _
          (by rw [List.length_append, List.length_cons]; omega)]
        dsimp only
        rw [skipWs_append h3, skipWs_cons (by decide)]
        show (match pValue n d (skipWs (w3 ++ (s ++ (w4 ++ '}' :: r)))) with
          | none => none
          | some (v, t) => match skipWs t with
            | ',' :: t => match pMembers n d (skipWs t) with
              | none => none
              | some (kvs, t) => some ((String.ofList key, v) :: kvs, t)
            | '}' :: t => some ([(String.ofList key, v)], t)
            | _ => none) = _
        rw [skipWs_append h4, skipWs_val h5, ihV d s v _ h5 (by omega) (fun k _ => numEnd_ws h6 (by simp))]
        dsimp only
        rw [skipWs_append h6, skipWs_cons (by decide)]
        rfl
      | cons _ w1 k w2 w3 s w4 t key v l h1 h2 h3 h4 h5 h6 h7 =>
        simp only [List.length_append, List.length_cons] at hn
        have e : (w1 ++ '"' :: (k ++ '"' :: (w2 ++ ':' :: (w3 ++ s ++ w4 ++ ',' :: t)))) ++ '}' :: r =
            w1 ++ '"' :: (k ++ '"' :: (w2 ++ ':' :: (w3 ++ (s ++ (w4 ++ ',' :: (t ++ '}' :: r)))))) := by simp
        rw [e, skipWs_append h1, skipWs_cons (by decide), pMembers_succ, pString_complete h2 _ _
          (by rw [List.length_append, List.length_cons]; omega)]
        dsimp only
        rw [skipWs_append h3, skipWs_cons (by decide)]
        show (match pValue n d (skipWs (w3 ++ (s ++ (w4 ++ ',' :: (t ++ '}' :: r))))) with
          | none => none
          | some (v, t) => match skipWs t with
            | ',' :: t => match pMembers n d (skipWs t) with
              | none => none
              | some (kvs, t) => some ((String.ofList key, v) :: kvs, t)
            | '}' :: t => some ([(String.ofList key, v)], t)
            | _ => none) = _
        rw [skipWs_append h4, skipWs_val h5, ihV d s v _ h5 (by omega) (fun k _ => numEnd_ws h6 (by simp))]
        dsimp only
        rw [skipWs_append h6, skipWs_cons (by decide)]
        show (match pMembers n d (skipWs (t ++ '}' :: r)) with
          | none => none
          | some (kvs, t) => some ((String.ofList key, v) :: kvs, t)) = _
        rw [ihM d t l r h7 (by omega)]

theorem parse_iff (t : Text) (v : Json) : parse t = some v ↔ IsText 10000 t v := by
  constructor
  · intro h
    unfold parse at h
    split at h
    · exact absurd h (by simp)
    · rename_i v' r e
      split at h
      · rename_i hr
        obtain rfl := Option.some.inj h
        obtain ⟨s, es, hs⟩ := (sound _).1 _ _ _ _ e
        obtain ⟨w, hw, ew⟩ := skipWs_split t
        exact ⟨w, s, r, hw, hs, (skipWs_nil_iff r).mp hr, by rw [List.append_assoc, ← es, ← ew]⟩
      · exact absurd h (by simp)
  · rintro ⟨w, s, w', h1, h2, h3, rfl⟩
    unfold parse
    rw [List.append_assoc, skipWs_append h1, skipWs_val h2,
      (complete _).1 10000 s v w' h2 (by simp only [List.length_append]; omega) (fun _ _ => numEnd_nil_ws h3)]
    dsimp only
    rw [if_pos ((skipWs_nil_iff w').mpr h3)]

/-- reading goes on after an object, an array, a string or a word whatever follows -/
theorem pValue_closed {d : ℕ} {s r : Text} {v : Json} (h : Val d s v) (hv : ∀ k, v ≠ .num k ∧ v ≠ .frac k ∧ v ≠ .negZero) {n : ℕ}
    (hn : 2 * s.length ≤ n) : pValue n d (s ++ r) = some (v, r) :=
  (complete n).1 d s v r h hn fun k hk => by
    rcases hk with hk | hk | hk
    · exact absurd hk (hv k).1
    · exact absurd hk (hv k).2.1
    · exact absurd hk (hv k).2.2

end JText
end MscPoc
