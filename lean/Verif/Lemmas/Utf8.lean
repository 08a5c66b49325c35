import Verif.Model.Utf8
import Verif.Lemmas.JsonPrint

/-!
# UTF-8 decoding
-/

set_option autoImplicit false

namespace MscPoc
namespace Utf8

theorem ofNat_toNat' {n : Nat} (h : n < 256) : (UInt8.ofNat n).toNat = n := by
  rw [UInt8.toNat_ofNat']; exact Nat.mod_eq_of_lt h

theorem byte_eq {n : Nat} {b : UInt8} (h : n = b.toNat) : UInt8.ofNat n = b := by
  rw [h, UInt8.ofNat_toNat]

theorem char_range (c : Char) : c.toNat < 0xd800 ∨ 0xdfff < c.toNat ∧ c.toNat < 0x110000 := c.valid

theorem toNat_char {n : Nat} (h : n < 0xd800 ∨ 0xdfff < n ∧ n < 0x110000) : (Char.ofNat n).toNat = n := by
  unfold Char.ofNat
  rw [dif_pos h]
  rfl

theorem encodeChar_eq (c : Char) : String.utf8EncodeChar c =
    if c.toNat ≤ 0x7f then [UInt8.ofNat c.toNat]
    else if c.toNat ≤ 0x7ff then [UInt8.ofNat (c.toNat / 64 % 32 + 0xc0), UInt8.ofNat (c.toNat % 64 + 0x80)]
    else if c.toNat ≤ 0xffff then
      [UInt8.ofNat (c.toNat / 4096 % 16 + 0xe0), UInt8.ofNat (c.toNat / 64 % 64 + 0x80), UInt8.ofNat (c.toNat % 64 + 0x80)]
    else [UInt8.ofNat (c.toNat / 262144 % 8 + 0xf0), UInt8.ofNat (c.toNat / 4096 % 64 + 0x80),
      UInt8.ofNat (c.toNat / 64 % 64 + 0x80), UInt8.ofNat (c.toNat % 64 + 0x80)] := rfl

theorem first1 {n : Nat} (h : n < 0x80) : first n = (1, 0, 0) := if_pos h

theorem first2 {n : Nat} (h : 0xc2 ≤ n) (h' : n < 0xe0) : first n = (2, 0x80, 0xbf) := by
  unfold first
  rw [if_neg (by omega), if_neg (by omega), if_pos h']

theorem first3 {n : Nat} (h : 0xe0 ≤ n) (h' : n < 0xf0) :
    first n = (3, if n = 0xe0 then 0xa0 else 0x80, if n = 0xed then 0x9f else 0xbf) := by
  unfold first
  rw [if_neg (by omega), if_neg (by omega), if_neg (by omega)]
  split_ifs <;> first | rfl | omega

theorem first4 {n : Nat} (h : 0xf0 ≤ n) (h' : n < 0xf5) :
    first n = (4, if n = 0xf0 then 0x90 else 0x80, if n = 0xf4 then 0x8f else 0xbf) := by
  unfold first
  rw [if_neg (by omega), if_neg (by omega), if_neg (by omega), if_neg (by omega), if_neg (by omega), if_neg (by omega)]
  split_ifs <;> first | rfl | omega

theorem first0 {n : Nat} (h : 0x80 ≤ n ∧ n < 0xc2 ∨ 0xf5 ≤ n) : first n = (0, 0, 0) := by
  unfold first
  rw [if_neg (by omega)]
  rcases h with h | h
  · rw [if_pos h.2]
  · rw [if_neg (by omega), if_neg (by omega), if_neg (by omega), if_neg (by omega), if_neg (by omega), if_neg (by omega),
      if_neg (by omega), if_neg (by omega)]

theorem within_iff (b : UInt8) (lo hi : Nat) : within b lo hi = true ↔ lo ≤ b.toNat ∧ b.toNat ≤ hi := by
  simp [within]

theorem decodeRune_encode (c : Char) (r : Bytes) : ∃ b s, String.utf8EncodeChar c ++ r = b :: s ∧ decodeRune b s = (c, r) := by
  have hc := char_range c
  obtain ⟨v, hv⟩ : ∃ v, c.toNat = v := ⟨_, rfl⟩
  have ec : c = Char.ofNat v := by rw [← hv, Char.ofNat_toNat]
  rw [encodeChar_eq, hv]
  rw [hv] at hc
  split_ifs with h1 h2 h3
  · refine ⟨UInt8.ofNat v, r, rfl, ?_⟩
    unfold decodeRune
    rw [ofNat_toNat' (by omega), first1 (by omega)]
    dsimp only
    rw [if_pos rfl, ec]
  · refine ⟨UInt8.ofNat (v / 64 % 32 + 0xc0), UInt8.ofNat (v % 64 + 0x80) :: r, rfl, ?_⟩
    unfold decodeRune
    rw [ofNat_toNat' (by omega), first2 (by omega) (by omega)]
    dsimp only
    rw [if_neg (by omega), if_pos rfl]
    rw [if_pos ((within_iff _ _ _).mpr (by rw [ofNat_toNat' (by omega)]; omega)), ofNat_toNat' (by omega), ec]
    congr 2
    omega
  · refine ⟨UInt8.ofNat (v / 4096 % 16 + 0xe0), UInt8.ofNat (v / 64 % 64 + 0x80) :: UInt8.ofNat (v % 64 + 0x80) :: r, rfl, ?_⟩
    unfold decodeRune
    rw [ofNat_toNat' (by omega), first3 (by omega) (by omega)]
    dsimp only
    rw [if_neg (by omega), if_neg (by omega), if_pos rfl]
    refine Eq.trans (if_pos ?_) ?_
    · rw [Bool.and_eq_true, within_iff, within_iff, ofNat_toNat' (by omega), ofNat_toNat' (by omega)]
      split_ifs <;> omega
    · rw [ofNat_toNat' (by omega), ofNat_toNat' (by omega), ec]
      congr 2
      omega
  · refine ⟨UInt8.ofNat (v / 262144 % 8 + 0xf0), UInt8.ofNat (v / 4096 % 64 + 0x80) :: UInt8.ofNat (v / 64 % 64 + 0x80) ::
      UInt8.ofNat (v % 64 + 0x80) :: r, rfl, ?_⟩
    unfold decodeRune
    rw [ofNat_toNat' (by omega), first4 (by omega) (by omega)]
    dsimp only
    rw [if_neg (by omega), if_neg (by omega), if_neg (by omega), if_pos rfl]
    refine Eq.trans (if_pos ?_) ?_
    · rw [Bool.and_eq_true, Bool.and_eq_true, within_iff, within_iff, within_iff, ofNat_toNat' (by omega), ofNat_toNat' (by omega),
        ofNat_toNat' (by omega)]
      split_ifs <;> omega
    · rw [ofNat_toNat' (by omega), ofNat_toNat' (by omega), ofNat_toNat' (by omega), ec]
      congr 2
      omega

/-- what `utf8.DecodeRune` does: a character whose encoding begins the input, or U+FFFD for one byte -/
theorem decodeRune_cases (b : UInt8) (r : Bytes) :
    (∃ c s, b :: r = String.utf8EncodeChar c ++ s ∧ decodeRune b r = (c, s)) ∨ decodeRune b r = (runeError, r) := by
  have hb : b.toNat < 256 := b.toNat_lt
  by_cases h1 : b.toNat < 0x80
  · left
    refine ⟨Char.ofNat b.toNat, r, ?_, ?_⟩
    · rw [encodeChar_eq, toNat_char (by omega), if_pos (by omega), UInt8.ofNat_toNat]
      rfl
    · unfold decodeRune
      rw [first1 h1]
      exact if_pos rfl
  by_cases h2 : b.toNat < 0xc2
  · right
    unfold decodeRune
    rw [first0 (by omega)]
    dsimp only
    rw [if_neg (by omega), if_neg (by omega), if_neg (by omega), if_neg (by omega)]
  by_cases h3 : b.toNat < 0xe0
  · unfold decodeRune
    rw [first2 (by omega) h3]
    dsimp only
    rw [if_neg (by omega), if_pos rfl]
    match r with
    | [] => exact Or.inr rfl
    | b1 :: r' =>
      dsimp only
      split_ifs with hw
      · left
        rw [within_iff] at hw
        refine ⟨_, r', ?_, rfl⟩
        rw [encodeChar_eq, toNat_char (by omega), if_neg (by omega), if_pos (by omega), byte_eq (b := b) (by omega),
          byte_eq (b := b1) (by omega)]
        rfl
      · exact Or.inr rfl
  by_cases h4 : b.toNat < 0xf0
  · unfold decodeRune
    rw [first3 (by omega) h4]
    dsimp only
    rw [if_neg (by omega), if_neg (by omega), if_pos rfl]
    match r with
    | [] => exact Or.inr rfl
    | [_] => exact Or.inr rfl
    | b1 :: b2 :: r' =>
      dsimp only
      by_cases hw : (within b1 (if b.toNat = 0xe0 then 0xa0 else 0x80) (if b.toNat = 0xed then 0x9f else 0xbf) &&
          within b2 0x80 0xbf) = true
      · left
        refine ⟨_, r', ?_, if_pos hw⟩
        rw [Bool.and_eq_true, within_iff, within_iff] at hw
        have g : 0x800 ≤ b.toNat % 16 * 4096 + b1.toNat % 64 * 64 + b2.toNat % 64 ∧
            (b.toNat % 16 * 4096 + b1.toNat % 64 * 64 + b2.toNat % 64 < 0xd800 ∨
              0xdfff < b.toNat % 16 * 4096 + b1.toNat % 64 * 64 + b2.toNat % 64) := by
          split_ifs at hw <;> omega
        have g2 : 0x80 ≤ b1.toNat ∧ b1.toNat ≤ 0xbf := by split_ifs at hw <;> omega
        rw [encodeChar_eq, toNat_char (by omega), if_neg (by omega), if_neg (by omega), if_pos (by omega), byte_eq (b := b) (by omega),
          byte_eq (b := b1) (by omega), byte_eq (b := b2) (by omega)]
        rfl
      · exact Or.inr (if_neg hw)
  by_cases h5 : b.toNat < 0xf5
  · unfold decodeRune
    rw [first4 (by omega) h5]
    dsimp only
    rw [if_neg (by omega), if_neg (by omega), if_neg (by omega), if_pos rfl]
    match r with
    | [] => exact Or.inr rfl
    | [_] => exact Or.inr rfl
    | [_, _] => exact Or.inr rfl
    | b1 :: b2 :: b3 :: r' =>
      dsimp only
      by_cases hw : (within b1 (if b.toNat = 0xf0 then 0x90 else 0x80) (if b.toNat = 0xf4 then 0x8f else 0xbf) &&
          within b2 0x80 0xbf && within b3 0x80 0xbf) = true
      · left
        refine ⟨_, r', ?_, if_pos hw⟩
        rw [Bool.and_eq_true, Bool.and_eq_true, within_iff, within_iff, within_iff] at hw
        have g : 0x10000 ≤ b.toNat % 8 * 262144 + b1.toNat % 64 * 4096 + b2.toNat % 64 * 64 + b3.toNat % 64 ∧
            b.toNat % 8 * 262144 + b1.toNat % 64 * 4096 + b2.toNat % 64 * 64 + b3.toNat % 64 < 0x110000 := by
          split_ifs at hw <;> omega
        have g2 : 0x80 ≤ b1.toNat ∧ b1.toNat ≤ 0xbf := by split_ifs at hw <;> omega
        rw [encodeChar_eq, toNat_char (by omega), if_neg (by omega), if_neg (by omega), if_neg (by omega), byte_eq (b := b) (by omega),
          byte_eq (b := b1) (by omega), byte_eq (b := b2) (by omega), byte_eq (b := b3) (by omega)]
        rfl
      · exact Or.inr (if_neg hw)
  · right
    unfold decodeRune
    rw [first0 (by omega)]
    dsimp only
    rw [if_neg (by omega), if_neg (by omega), if_neg (by omega), if_neg (by omega)]

theorem encode_error : String.utf8EncodeChar runeError = [0xef, 0xbf, 0xbd] := by decide

/-- the bad case: no character begins here -/
theorem decodeRune_bad (b : UInt8) (r : Bytes) (h : decodeRune b r = (runeError, r)) (c : Char) (s : Bytes) :
    b :: r ≠ String.utf8EncodeChar c ++ s := by
  intro e
  obtain ⟨b', s', e', d⟩ := decodeRune_encode c s
  rw [← e] at e'
  injection e' with e1 e2
  subst e1 e2
  rw [h] at d
  injection d with d1 d2
  subst d1 d2
  rw [encode_error] at e
  have := congrArg List.length e
  simp at this

theorem decodeRune_shorter (b : UInt8) (r : Bytes) : (decodeRune b r).2.length ≤ r.length := by
  rcases decodeRune_cases b r with ⟨c, s, e, d⟩ | d
  · rw [d]
    have h := congrArg List.length e
    have hp : 0 < (String.utf8EncodeChar c).length := by
      rw [encodeChar_eq]; split_ifs <;> simp
    simp only [List.length_cons, List.length_append] at h ⊢
    omega
  · rw [d]

/-- enough fuel -/
theorem decodeN_eq (n m : Nat) (b : Bytes) (hn : b.length ≤ n) (hm : b.length ≤ m) : decodeN n b = decodeN m b := by
  induction n generalizing m b with
  | zero =>
    have : b = [] := List.length_eq_zero_iff.mp (by omega)
    subst this
    cases m <;> rfl
  | succ n ih =>
    cases b with
    | nil => cases m <;> rfl
    | cons x r =>
      cases m with
      | zero => simp at hm
      | succ m =>
        have := decodeRune_shorter x r
        simp only [List.length_cons] at hn hm
        simp only [decodeN]
        rw [ih m _ (by omega) (by omega)]

theorem decode_cons (b : UInt8) (r : Bytes) : decode (b :: r) = (decodeRune b r).1 :: decode (decodeRune b r).2 := by
  unfold decode
  simp only [List.length_cons, decodeN]
  rw [decodeN_eq _ (decodeRune b r).2.length _ (decodeRune_shorter b r) (le_refl _)]

theorem decode_nil : decode [] = [] := rfl

theorem decode_encodeChar (c : Char) (r : Bytes) : decode (String.utf8EncodeChar c ++ r) = c :: decode r := by
  obtain ⟨b, s, e, d⟩ := decodeRune_encode c r
  rw [e, decode_cons, d]

theorem decode_encode_append (t : Text) (r : Bytes) : decode (encode t ++ r) = t ++ decode r := by
  induction t with
  | nil => rfl
  | cons c t ih =>
    unfold encode
    rw [List.flatMap_cons, List.append_assoc, decode_encodeChar]
    exact congrArg _ ih

theorem decode_encode (t : Text) : decode (encode t) = t := by
  have := decode_encode_append t []
  rwa [List.append_nil, decode_nil, List.append_nil] at this

/-- in an encoded character a byte below 128 stands first -/
theorem encodeChar_ascii (c : Char) (x z : Bytes) (b : UInt8) (hb : b.toNat < 0x80) (e : String.utf8EncodeChar c = x ++ b :: z) : x = [] := by
  have hc := char_range c
  rw [encodeChar_eq] at e
  have key : ∀ n k : Nat, n < 64 → UInt8.ofNat (n + 0x80) ≠ b := by
    intro n k hn h
    have := congrArg UInt8.toNat h
    rw [ofNat_toNat' (by omega)] at this
    omega
  match x with
  | [] => rfl
  | x0 :: x =>
    exfalso
    have hm : b ∈ x ++ b :: z := by simp
    split_ifs at e <;> simp only [List.cons_append, List.cons.injEq] at e <;> obtain ⟨_, e⟩ := e <;> rw [← e] at hm <;>
      simp only [List.mem_cons, List.not_mem_nil, or_false] at hm
    · exact key _ 0 (by omega) hm.symm
    · rcases hm with h | h <;> exact key _ 0 (by omega) h.symm
    · rcases hm with h | h | h <;> exact key _ 0 (by omega) h.symm

/-- what comes after a byte below 128 does not matter before it -/
theorem decodeRune_append (p0 : UInt8) (r y : Bytes) (b : UInt8) (hb : b.toNat < 0x80) :
    decodeRune p0 (r ++ b :: y) = ((decodeRune p0 r).1, (decodeRune p0 r).2 ++ b :: y) := by
  rcases decodeRune_cases p0 r with ⟨c, s, e, d⟩ | d
  · rw [d]
    obtain ⟨b', s', e', d'⟩ := decodeRune_encode c (s ++ b :: y)
    rw [← List.append_assoc, ← e, List.cons_append, List.cons.injEq] at e'
    obtain ⟨rfl, rfl⟩ := e'
    exact d'
  · rw [d]
    rcases decodeRune_cases p0 (r ++ b :: y) with ⟨c, s, e, _⟩ | d'
    · exfalso
      have e' : (p0 :: r) ++ b :: y = String.utf8EncodeChar c ++ s := e
      rcases List.append_eq_append_iff.mp e' with ⟨a, h1, h2⟩ | ⟨a, h1, _⟩
      · match a, h2 with
        | [], _ => exact decodeRune_bad p0 r d c [] (by rw [h1]; simp)
        | a0 :: a, h2 =>
          simp only [List.cons_append, List.cons.injEq] at h2
          obtain ⟨rfl, _⟩ := h2
          exact absurd (encodeChar_ascii c _ _ _ hb h1) (by simp)
      · exact decodeRune_bad p0 r d c a h1
    · exact d'

theorem decodeRune_ascii (b : UInt8) (y : Bytes) (hb : b.toNat < 0x80) : decodeRune b y = (Char.ofNat b.toNat, y) := by
  unfold decodeRune
  rw [first1 hb]
  simp

theorem decode_split (x y : Bytes) (b : UInt8) (hb : b.toNat < 0x80) :
    decode (x ++ b :: y) = decode x ++ Char.ofNat b.toNat :: decode y := by
  obtain ⟨n, hn⟩ : ∃ n, x.length ≤ n := ⟨_, le_refl _⟩
  induction n generalizing x with
  | zero =>
    have : x = [] := List.length_eq_zero_iff.mp (by omega)
    subst this
    rw [List.nil_append, decode_cons, decodeRune_ascii b y hb]
    rfl
  | succ n ih =>
    match x with
    | [] =>
      rw [List.nil_append, decode_cons, decodeRune_ascii b y hb]
      rfl
    | p0 :: r =>
      have hl := decodeRune_shorter p0 r
      simp only [List.length_cons] at hn
      rw [List.cons_append, decode_cons, decodeRune_append p0 r y b hb, decode_cons]
      simp only [List.cons_append]
      rw [ih _ (by omega)]

theorem encodeChar_small (c : Char) (h : c.toNat < 0x80) : String.utf8EncodeChar c = [UInt8.ofNat c.toNat] := by
  rw [encodeChar_eq, if_pos (by omega)]

theorem encodeChar_big (c : Char) (h : 0x80 ≤ c.toNat) : ∀ b ∈ String.utf8EncodeChar c, 0x80 ≤ b.toNat := by
  intro b hb
  have hc := char_range c
  rw [encodeChar_eq, if_neg (by omega)] at hb
  split_ifs at hb <;> simp only [List.mem_cons, List.not_mem_nil, or_false] at hb <;> revert hb
  · rintro (rfl | rfl) <;> rw [ofNat_toNat' (by omega)] <;> omega
  · rintro (rfl | rfl | rfl) <;> rw [ofNat_toNat' (by omega)] <;> omega
  · rintro (rfl | rfl | rfl | rfl) <;> rw [ofNat_toNat' (by omega)] <;> omega

/-- the characters below 128 are the bytes below 128 -/
theorem decode_ascii (b : Bytes) :
    (decode b).filter (fun c => decide (c.toNat < 0x80)) = (b.filter (fun x => decide (x.toNat < 0x80))).map (fun x => Char.ofNat x.toNat) := by
  obtain ⟨n, hn⟩ : ∃ n, b.length ≤ n := ⟨_, le_refl _⟩
  induction n generalizing b with
  | zero =>
    have : b = [] := List.length_eq_zero_iff.mp (by omega)
    subst this
    rfl
  | succ n ih =>
    match b with
    | [] => rfl
    | p0 :: r =>
      have hl := decodeRune_shorter p0 r
      simp only [List.length_cons] at hn
      rw [decode_cons]
      rcases decodeRune_cases p0 r with ⟨c, s, e, d⟩ | d
      · rw [d] at hl ⊢
        rw [e, List.filter_append, List.map_append, ← ih s (by simp only at hl; omega), List.filter_cons]
        by_cases hc : c.toNat < 0x80
        · rw [encodeChar_small c hc]
          have hu := ofNat_toNat' (show c.toNat < 256 by omega)
          simp [hu, hc]
        · have : (String.utf8EncodeChar c).filter (fun x => decide (x.toNat < 0x80)) = [] := by
            rw [List.filter_eq_nil_iff]
            intro a ha
            have := encodeChar_big c (by omega) a ha
            simp only [decide_eq_true_eq]
            omega
          rw [this]
          simp [hc]
      · have hp : ¬p0.toNat < 0x80 := fun h => by
          have := decodeRune_ascii p0 r h
          rw [this] at d
          have e1 := congrArg (fun x => x.1.toNat) d
          simp only at e1
          rw [toNat_char (by omega)] at e1
          have e2 : runeError.toNat = 0xfffd := by decide
          omega
        rw [d, List.filter_cons, List.filter_cons, ih r (by omega)]
        have e2 : ¬runeError.toNat < 0x80 := by decide
        simp [hp, e2]

/-- cutting the bytes of a text: a part of the text, and if a character was cut through, characters from 128 on -/
theorem decode_cut (t : Text) (x y : Bytes) (e : x ++ y = encode t) (hy : y ≠ []) :
    ∃ t1 c t2 u, t = t1 ++ c :: t2 ∧ decode x = t1 ++ u ∧ (u ≠ [] → 0x80 ≤ c.toNat) ∧ ∀ a ∈ u, 0x80 ≤ a.toNat := by
  induction t generalizing x with
  | nil =>
    have : x ++ y = [] := e
    simp only [List.append_eq_nil_iff] at this
    exact absurd this.2 hy
  | cons c t ih =>
    have e' : x ++ y = String.utf8EncodeChar c ++ encode t := e
    rcases List.append_eq_append_iff.mp e' with ⟨a, h1, h2⟩ | ⟨a, h1, h2⟩
    · by_cases ha : a = []
      · subst ha
        rw [List.append_nil] at h1
        rw [List.nil_append] at h2
        obtain ⟨t1, c1, t2, u, g1, g2, g3, g4⟩ := ih [] (by rw [h2]; rfl)
        refine ⟨c :: t1, c1, t2, u, by rw [g1]; rfl, ?_, g3, g4⟩
        rw [← h1, ← List.append_nil (String.utf8EncodeChar c), decode_encodeChar, g2]
        rfl
      · refine ⟨[], c, t, decode x, rfl, rfl, fun hu => ?_, fun d hd => ?_⟩
        · by_contra hc
          rw [encodeChar_small c (by omega)] at h1
          have := congrArg List.length h1
          simp only [List.length_cons, List.length_nil, List.length_append] at this
          have h3 := List.length_pos_iff.mpr ha
          have : x = [] := List.length_eq_zero_iff.mp (by omega)
          rw [this] at hu
          exact hu rfl
        · by_contra hc
          have hx : ∀ b ∈ x, ¬b.toNat < 0x80 := by
            intro b hb hlt
            by_cases hc : c.toNat < 0x80
            · rw [encodeChar_small c (by omega)] at h1
              have := congrArg List.length h1
              simp only [List.length_cons, List.length_nil, List.length_append] at this
              have h3 := List.length_pos_iff.mpr ha
              have h4 := List.length_pos_of_mem hb
              omega
            · have := encodeChar_big c (by omega) b (by rw [h1]; exact List.mem_append_left _ hb)
              omega
          have hf := decode_ascii x
          have e0 : x.filter (fun x => decide (x.toNat < 0x80)) = [] := by
            rw [List.filter_eq_nil_iff]
            intro b hb
            simpa using hx b hb
          rw [e0, List.map_nil, List.filter_eq_nil_iff] at hf
          exact hf d hd (by simp; omega)
    · obtain ⟨t1, c1, t2, u, g1, g2, g3, g4⟩ := ih a h2.symm
      refine ⟨c :: t1, c1, t2, u, by rw [g1]; rfl, ?_, g3, g4⟩
      rw [h1, decode_encodeChar, g2]
      rfl

open JSpec in
/-- the bytes of an object cut anywhere cannot be read -/
theorem parse_cut {s : Text} {l : List (String × Json)} (h : Val 10000 s (.obj l)) {x y : Bytes} (e : x ++ y = encode s) (hy : y ≠ []) :
    JText.parse (decode x) = none := by
  obtain ⟨t1, c, t2, u, g1, g2, g3, g4⟩ := decode_cut s x y e hy
  by_cases hu : u = []
  · rw [g2, hu, List.append_nil]
    exact JText.parse_obj_cut (w := []) JText.ws_nil h (by rw [← g1]; rfl) (by simp)
  · cases hp : JText.parse (decode x) with
    | none => rfl
    | some v =>
      exfalso
      obtain ⟨w, s1, w', h1, h2, h3, ex⟩ := (JText.parse_iff _ _).mp hp
      rw [g2] at ex
      obtain ⟨u', d, rfl⟩ : ∃ u' d, u = u' ++ [d] := ⟨_, _, (List.dropLast_append_getLast hu).symm⟩
      have hd := g4 d (by simp)
      obtain ⟨s', hs⟩ := JText.val_obj_head h
      obtain ⟨t1', ht1⟩ : ∃ t1', t1 = '{' :: t1' := by
        match t1, g1 with
        | [], g1 =>
          rw [hs, List.nil_append, List.cons.injEq] at g1
          have := g3 hu
          rw [← g1.1] at this
          exact absurd this (by decide)
        | a :: t1', g1 =>
          rw [hs, List.cons_append, List.cons.injEq] at g1
          exact ⟨t1', by rw [← g1.1]⟩
      have wsl : ∀ a : Char, (a = ' ' ∨ a = '\t' ∨ a = '\n' ∨ a = '\r') → a.toNat < 0x80 ∧ a ≠ '{' := by
        rintro a (rfl | rfl | rfl | rfl) <;> decide
      have hw' : w' = [] := by
        by_contra hne
        obtain ⟨w1, d', rfl⟩ : ∃ u' d, w' = u' ++ [d] := ⟨_, _, (List.dropLast_append_getLast hne).symm⟩
        have := congrArg List.getLast? ex
        simp only [← List.append_assoc, List.getLast?_concat, Option.some.injEq] at this
        have := wsl d' (h3 d' (by simp))
        subst d'
        omega
      subst hw'
      have hw : w = [] := by
        match w with
        | [] => rfl
        | a :: w =>
          rw [ht1] at ex
          simp only [List.cons_append, List.cons.injEq] at ex
          exact absurd ex.1.symm (wsl a (h1 a (by simp))).2
      subst hw
      rw [List.nil_append, List.append_nil] at ex
      obtain ⟨l', rfl⟩ := JText.val_brace h2 ⟨t1' ++ (u' ++ [d]), by rw [← ex, ht1]; rfl⟩
      have last : ∃ s2, s1 = s2 ++ ['}'] := by
        cases h2 with
        | objNil _ w _ => exact ⟨'{' :: w, rfl⟩
        | obj _ s _ _ => exact ⟨'{' :: s, rfl⟩
      obtain ⟨s2, rfl⟩ := last
      have := congrArg List.getLast? ex
      simp only [← List.append_assoc, List.getLast?_concat, Option.some.injEq] at this
      subst this
      exact absurd hd (by decide)

end Utf8
end MscPoc
