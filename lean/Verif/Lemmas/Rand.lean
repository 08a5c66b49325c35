import Verif.Model.Rand
import Verif.Lemmas.Bytes
import Mathlib.SetTheory.Cardinal.Finite
import Mathlib.Data.Nat.Bitwise
import Mathlib.Tactic.Ring
import Mathlib.Tactic.Linarith
import Mathlib.Tactic.IntervalCases

/-!
# Rejection sampling and byte-level runs
-/

set_option autoImplicit false

namespace MscPoc

theorem and_mask (x : UInt8) (b : ℕ) (hb : b ≤ 8) : (x &&& UInt8.ofNat (2 ^ b - 1)).toNat = x.toNat % 2 ^ b := by
  have h : (2 ^ b - 1) % 256 = 2 ^ b - 1 := by
    apply Nat.mod_eq_of_lt
    have : 2 ^ b ≤ 2 ^ 8 := Nat.pow_le_pow_right (by norm_num) hb
    omega
  rw [UInt8.toNat_and, UInt8.toNat_ofNat', show (2 : ℕ) ^ 8 = 256 by norm_num, h, Nat.and_two_pow_sub_one_eq_mod]

theorem setBytes_maskTop (b : ℕ) (hb : b ≤ 8) (k : ℕ) (blk : Bytes) (hl : blk.length = k + 1) :
    setBytes (maskTop b blk) = setBytes blk % 2 ^ (8 * k + b) := by
  cases blk with
  | nil => simp at hl
  | cons x xs =>
    have hx : xs.length = k := by simpa using hl
    rw [maskTop, setBytes_cons, setBytes_cons, and_mask x b hb, hx]
    have h1 := setBytes_lt xs
    rw [hx] at h1
    have e : (2 : ℕ) ^ (8 * k + b) = 256 ^ k * 2 ^ b := by rw [pow_add, pow_mul]; norm_num
    rw [e, mul_comm x.toNat, mul_comm (x.toNat % 2 ^ b), Nat.mod_mul, Nat.mul_add_mod, Nat.mod_eq_of_lt h1,
      Nat.mul_add_div (by positivity), Nat.div_eq_of_lt h1, Nat.add_zero]
    ring

/-- what `rand.Int` computes from its bound: the bit length of `max-1`, the block length and the mask width -/
structure IntShape (max : Int) (bl k : ℕ) : Prop where
  pos : 0 < bl
  hi : max ≤ 2 ^ bl
  lo : 2 ^ bl < 2 * max
  k1 : 8 * (k - 1) < bl
  k2 : bl ≤ 8 * k

theorem bitLen_spec (x : Int) (hx : 0 < x) : x < 2 ^ bitLen x ∧ 2 ^ bitLen x ≤ 2 * x := by
  unfold bitLen
  rw [if_neg hx.ne']
  obtain ⟨n, rfl⟩ := Int.eq_ofNat_of_zero_le hx.le
  have hn : n ≠ 0 := by omega
  have h1 := Nat.log2_self_le hn
  have h2 := Nat.lt_log2_self (n := n)
  simp only [Int.ofNat_eq_natCast, Int.natAbs_natCast]
  constructor
  · exact_mod_cast h2
  · rw [pow_succ]
    have : ((2 : Int) ^ n.log2) ≤ n := by exact_mod_cast h1
    linarith

theorem bitLen_unique {max : Int} {bl : ℕ} (hpos : 0 < bl) (hi : max ≤ 2 ^ bl) (lo : 2 ^ bl < 2 * max) :
    bitLen (max - 1) = bl := by
  have hm : 2 ≤ max := by
    have : (2 : Int) ^ 1 ≤ 2 ^ bl := pow_le_pow_right₀ (by norm_num) hpos
    linarith
  obtain ⟨h1, h2⟩ := bitLen_spec (max - 1) (by omega)
  rcases Nat.lt_trichotomy (bitLen (max - 1)) bl with h | h | h
  · have : (2 : Int) ^ (bitLen (max - 1) + 1) ≤ 2 ^ bl := pow_le_pow_right₀ (by norm_num) h
    rw [pow_succ] at this
    linarith
  · exact h
  · have : (2 : Int) ^ (bl + 1) ≤ 2 ^ bitLen (max - 1) := pow_le_pow_right₀ (by norm_num) h
    rw [pow_succ] at this
    linarith

theorem intShape_exists (max : Int) (h : 2 ≤ max) : ∃ bl k, IntShape max bl k := by
  obtain ⟨h1, h2⟩ := bitLen_spec (max - 1) (by omega)
  have hp : 0 < bitLen (max - 1) := by
    rcases Nat.eq_zero_or_pos (bitLen (max - 1)) with h0 | h0
    · rw [h0] at h1; omega
    · exact h0
  exact ⟨bitLen (max - 1), (bitLen (max - 1) + 7) / 8, hp, by omega, by omega, by omega, by omega⟩

variable {max : Int} {bl k : ℕ}

theorem IntShape.kpos (s : IntShape max bl k) : 0 < k := by have := s.k2; have := s.pos; omega

theorem IntShape.max_pos (s : IntShape max bl k) : 2 ≤ max := by
  have : (2 : Int) ^ 1 ≤ 2 ^ bl := pow_le_pow_right₀ (by norm_num) s.pos
  have := s.lo
  linarith

theorem IntShape.unfold (s : IntShape max bl k) (tape : Bytes) :
    ∃ b, b ≤ 8 ∧ 8 * (k - 1) + b = bl ∧ randInt max tape = randIntLoop max k b (tape.length / k) tape := by
  have hbl := bitLen_unique s.pos s.hi s.lo
  have h1 := s.k1
  have h2 := s.k2
  have h3 := s.pos
  have hk : (bl + 7) / 8 = k := by omega
  refine ⟨if bl % 8 = 0 then 8 else bl % 8, by split <;> omega, by split <;> omega, ?_⟩
  unfold randInt
  rw [if_neg (by have := s.max_pos; omega)]
  simp only [hbl, hk]
  rw [if_neg h3.ne']

theorem IntShape.step (s : IntShape max bl k) (blk tape : Bytes) (hl : blk.length = k) :
    randInt max (blk ++ tape) =
      if ((setBytes blk % 2 ^ bl : ℕ) : Int) < max then .done (((setBytes blk % 2 ^ bl : ℕ) : Int), tape)
      else randInt max tape := by
  obtain ⟨b, hb, hbl, e1⟩ := s.unfold (blk ++ tape)
  obtain ⟨b', hb', hbl', e2⟩ := s.unfold tape
  obtain rfl : b' = b := by omega
  have hk := s.kpos
  obtain ⟨k', rfl⟩ : ∃ k', k = k' + 1 := ⟨k - 1, by omega⟩
  rw [e1, e2, show (blk ++ tape).length / (k' + 1) = tape.length / (k' + 1) + 1 by
    rw [List.length_append, hl, Nat.add_comm, Nat.add_div_right _ hk]]
  rw [randIntLoop]
  rw [show (blk ++ tape).take (k' + 1) = blk by rw [← hl]; simp, show (blk ++ tape).drop (k' + 1) = tape by rw [← hl]; simp]
  rw [setBytes_maskTop b' hb k' blk hl]
  rw [show 8 * k' + b' = bl by simpa using hbl]

theorem IntShape.short (s : IntShape max bl k) (tape : Bytes) (hl : tape.length < k) : randInt max tape = .running := by
  obtain ⟨b, _, _, e⟩ := s.unfold tape
  rw [e, Nat.div_eq_of_lt hl]
  rfl

theorem randInt_one (tape : Bytes) : randInt 1 tape = .done (0, tape) := by
  unfold randInt
  rw [if_neg (by norm_num)]
  rfl

/-- every tape is a short tape or starts with a block -/
theorem IntShape.split (s : IntShape max bl k) (tape : Bytes) :
    tape.length < k ∨ ∃ blk t, tape = blk ++ t ∧ blk.length = k ∧ t.length < tape.length := by
  have := s.kpos
  rcases Nat.lt_or_ge tape.length k with h | h
  · exact Or.inl h
  · exact Or.inr ⟨tape.take k, tape.drop k, (List.take_append_drop k tape).symm, by simpa using h, by simp; omega⟩

theorem randInt_not_panic (max : Int) (h : 0 < max) (tape : Bytes) : randInt max tape ≠ .panic := by
  rcases (show max = 1 ∨ 2 ≤ max by omega) with rfl | h2
  · rw [randInt_one]; simp
  obtain ⟨bl, k, s⟩ := intShape_exists max h2
  induction hn : tape.length using Nat.strong_induction_on generalizing tape with
  | _ n ih =>
    rcases s.split tape with hlt | ⟨blk, t, rfl, hl, hlt⟩
    · rw [s.short tape hlt]; simp
    · rw [s.step blk t hl]
      split
      · simp
      · exact ih _ (hn ▸ hlt) t rfl

theorem randInt_done {max : Int} {tape rest : Bytes} {v : Int} (h : randInt max tape = .done (v, rest)) :
    (0 ≤ v ∧ v < max) ∧ ∃ used, tape = used ++ rest := by
  rcases (show max ≤ 0 ∨ max = 1 ∨ 2 ≤ max by omega) with h0 | rfl | h2
  · unfold randInt at h
    rw [if_pos h0] at h; simp at h
  · rw [randInt_one] at h
    simp only [Outcome.done.injEq, Prod.mk.injEq] at h
    exact ⟨⟨by omega, by omega⟩, [], by simp [h.2]⟩
  obtain ⟨bl, k, s⟩ := intShape_exists max h2
  induction hn : tape.length using Nat.strong_induction_on generalizing tape with
  | _ n ih =>
    rcases s.split tape with hlt | ⟨blk, t, rfl, hl, hlt⟩
    · rw [s.short tape hlt] at h; simp at h
    · rw [s.step blk t hl] at h
      split at h
      · rename_i hm
        simp only [Outcome.done.injEq, Prod.mk.injEq] at h
        obtain ⟨rfl, rfl⟩ := h
        exact ⟨⟨by positivity, hm⟩, blk, rfl⟩
      · obtain ⟨hr, used, rfl⟩ := ih _ (hn ▸ hlt) h rfl
        exact ⟨hr, blk ++ used, by simp⟩

theorem IntShape.lt_pow (s : IntShape max bl k) : 2 ^ bl ≤ 256 ^ k := by
  rw [show (256 : ℕ) = 2 ^ 8 by norm_num, ← pow_mul]
  exact Nat.pow_le_pow_right (by norm_num) s.k2

theorem randInt_reach (max v : Int) (h0 : 0 ≤ v) (h1 : v < max) :
    ∃ blk, ∀ t, randInt max (blk ++ t) = .done (v, t) := by
  rcases (show max = 1 ∨ 2 ≤ max by omega) with rfl | h2
  · exact ⟨[], fun t => by rw [List.nil_append, randInt_one, show v = 0 by omega]⟩
  obtain ⟨bl, k, s⟩ := intShape_exists max h2
  obtain ⟨n, rfl⟩ := Int.eq_ofNat_of_zero_le h0
  have hn : n < 2 ^ bl := by
    have := s.hi
    have : (n : Int) < 2 ^ bl := lt_of_lt_of_le h1 this
    exact_mod_cast this
  have hk : n < 256 ^ k := hn.trans_le s.lt_pow
  refine ⟨fillBytes k n, fun t => ?_⟩
  rw [s.step _ t (fillBytes_length hk), setBytes_fillBytes, Nat.mod_eq_of_lt hn, if_pos h1]

/-! ## exchanging two outcomes -/

/-- exchange the candidates `v` and `w` in a block, keep the ignored high bits -/
def blkSwap (bl k v w : ℕ) (blk : Bytes) : Bytes :=
  fillBytes k (2 ^ bl * (setBytes blk / 2 ^ bl) + Equiv.swap v w (setBytes blk % 2 ^ bl))

theorem swap_lt {B v w x : ℕ} (hv : v < B) (hw : w < B) (hx : x < B) : Equiv.swap v w x < B := by
  rw [Equiv.swap_apply_def]
  split
  · exact hw
  · split <;> assumption

theorem blkSwap_value (s : IntShape max bl k) {v w : ℕ} (hv : v < 2 ^ bl) (hw : w < 2 ^ bl) (blk : Bytes) (hl : blk.length = k) :
    2 ^ bl * (setBytes blk / 2 ^ bl) + Equiv.swap v w (setBytes blk % 2 ^ bl) < 256 ^ k := by
  have h1 := setBytes_lt blk
  rw [hl] at h1
  have h2 := swap_lt hv hw (Nat.mod_lt (setBytes blk) (Nat.two_pow_pos bl))
  obtain ⟨d, hd⟩ : 2 ^ bl ∣ 256 ^ k := by
    rw [show (256 : ℕ) = 2 ^ 8 by norm_num, ← pow_mul]
    exact pow_dvd_pow 2 s.k2
  rw [hd] at h1 ⊢
  have h3 : setBytes blk / 2 ^ bl < d := Nat.div_lt_of_lt_mul h1
  calc _ < 2 ^ bl * (setBytes blk / 2 ^ bl) + 2 ^ bl := by omega
    _ = 2 ^ bl * (setBytes blk / 2 ^ bl + 1) := by ring
    _ ≤ 2 ^ bl * d := Nat.mul_le_mul_left _ h3

theorem blkSwap_length (s : IntShape max bl k) {v w : ℕ} (hv : v < 2 ^ bl) (hw : w < 2 ^ bl) (blk : Bytes) (hl : blk.length = k) :
    (blkSwap bl k v w blk).length = k := fillBytes_length (blkSwap_value s hv hw blk hl)

theorem blkSwap_mod {v w : ℕ} (hv : v < 2 ^ bl) (hw : w < 2 ^ bl) (blk : Bytes) :
    setBytes (blkSwap bl k v w blk) % 2 ^ bl = Equiv.swap v w (setBytes blk % 2 ^ bl) ∧
    setBytes (blkSwap bl k v w blk) / 2 ^ bl = setBytes blk / 2 ^ bl := by
  have h2 := swap_lt hv hw (Nat.mod_lt (setBytes blk) (Nat.two_pow_pos bl))
  unfold blkSwap
  rw [setBytes_fillBytes]
  exact ⟨by rw [Nat.mul_add_mod, Nat.mod_eq_of_lt h2], by
    rw [Nat.mul_add_div (Nat.two_pow_pos bl), Nat.div_eq_of_lt h2, Nat.add_zero]⟩

theorem blkSwap_invol (s : IntShape max bl k) {v w : ℕ} (hv : v < 2 ^ bl) (hw : w < 2 ^ bl) (blk : Bytes) (hl : blk.length = k) :
    blkSwap bl k v w (blkSwap bl k v w blk) = blk := by
  have l1 := blkSwap_length s hv hw blk hl
  apply setBytes_inj ((blkSwap_length s hv hw _ l1).trans hl.symm)
  obtain ⟨h1, h2⟩ := blkSwap_mod (k := k) hv hw blk
  show setBytes (fillBytes k _) = _
  rw [setBytes_fillBytes, h1, h2, Equiv.swap_apply_self, Nat.div_add_mod]

/-- exchange `v` and `w` in the block that is accepted; `n` bounds the number of blocks looked at -/
def tapeSwap (max : Int) (bl k v w : ℕ) : ℕ → Bytes → Bytes
  | 0, t => t
  | n + 1, t =>
    if t.length < k then t
    else if ((setBytes (t.take k) % 2 ^ bl : ℕ) : Int) < max then blkSwap bl k v w (t.take k) ++ t.drop k
    else t.take k ++ tapeSwap max bl k v w n (t.drop k)

theorem tapeSwap_length (s : IntShape max bl k) {v w : ℕ} (hv : v < 2 ^ bl) (hw : w < 2 ^ bl) :
    ∀ (n : ℕ) (t : Bytes), (tapeSwap max bl k v w n t).length = t.length
  | 0, t => rfl
  | n + 1, t => by
    unfold tapeSwap
    split
    · rfl
    · rename_i h
      have hl : (t.take k).length = k := by simp; omega
      split
      · rw [List.length_append, blkSwap_length s hv hw _ hl]; simp; omega
      · rw [List.length_append, tapeSwap_length s hv hw n, hl]; simp; omega

theorem swap_cast_lt {v w x : ℕ} (hv : (v : Int) < max) (hw : (w : Int) < max) :
    ((Equiv.swap v w x : ℕ) : Int) < max ↔ (x : Int) < max := by
  rw [Equiv.swap_apply_def]
  split
  · subst_vars; exact iff_of_true hw hv
  · split
    · subst_vars; exact iff_of_true hv hw
    · rfl

theorem tapeSwap_invol (s : IntShape max bl k) {v w : ℕ} (hv : v < 2 ^ bl) (hw : w < 2 ^ bl)
    (hv' : (v : Int) < max) (hw' : (w : Int) < max) :
    ∀ (n : ℕ) (t : Bytes), tapeSwap max bl k v w n (tapeSwap max bl k v w n t) = t
  | 0, t => rfl
  | n + 1, t => by
    have hlen := tapeSwap_length s hv hw (n + 1) t
    by_cases h : t.length < k
    · have : tapeSwap max bl k v w (n + 1) t = t := by unfold tapeSwap; rw [if_pos h]
      rw [this, this]
    · have hl : (t.take k).length = k := by simp; omega
      by_cases h2 : ((setBytes (t.take k) % 2 ^ bl : ℕ) : Int) < max
      · have e : tapeSwap max bl k v w (n + 1) t = blkSwap bl k v w (t.take k) ++ t.drop k := by
          rw [tapeSwap, if_neg h, if_pos h2]
        have l1 := blkSwap_length s hv hw _ hl
        have t1 : (blkSwap bl k v w (t.take k) ++ t.drop k).take k = blkSwap bl k v w (t.take k) := by
          conv_lhs => rw [← l1]
          rw [l1]; exact List.take_left' l1
        have t2 : (blkSwap bl k v w (t.take k) ++ t.drop k).drop k = t.drop k := List.drop_left' l1
        rw [e] at hlen ⊢
        rw [tapeSwap, if_neg (by rw [hlen]; exact h), t1, t2, (blkSwap_mod hv hw _).1,
          if_pos ((swap_cast_lt hv' hw').mpr h2), blkSwap_invol s hv hw _ hl, List.take_append_drop]
      · have e : tapeSwap max bl k v w (n + 1) t = t.take k ++ tapeSwap max bl k v w n (t.drop k) := by
          rw [tapeSwap, if_neg h, if_neg h2]
        rw [e] at hlen ⊢
        rw [tapeSwap, if_neg (by rw [hlen]; exact h), List.take_left' hl, List.drop_left' hl, if_neg h2,
          tapeSwap_invol s hv hw hv' hw' n, List.take_append_drop]

theorem randInt_tapeSwap (s : IntShape max bl k) {v w : ℕ} (hv : v < 2 ^ bl) (hw : w < 2 ^ bl)
    (hv' : (v : Int) < max) (hw' : (w : Int) < max) (u : ℕ) (r : Bytes) :
    ∀ (n : ℕ) (t : Bytes), t.length ≤ n → randInt max t = .done ((u : Int), r) →
      randInt max (tapeSwap max bl k v w n t) = .done (((Equiv.swap v w u : ℕ) : Int), r)
  | 0, t => fun hn h => by
    have : t = [] := by simpa using hn
    subst this
    rw [s.short [] (by simpa using s.kpos)] at h
    simp at h
  | n + 1, t => fun hn h => by
    have hk := s.kpos
    by_cases hlt : t.length < k
    · rw [s.short t hlt] at h; simp at h
    · have hl : (t.take k).length = k := by simp; omega
      rw [← List.take_append_drop k t, s.step _ _ hl] at h
      by_cases h2 : ((setBytes (t.take k) % 2 ^ bl : ℕ) : Int) < max
      · rw [if_pos h2] at h
        simp only [Outcome.done.injEq, Prod.mk.injEq, Nat.cast_inj] at h
        rw [tapeSwap, if_neg hlt, if_pos h2, s.step _ _ (blkSwap_length s hv hw _ hl), (blkSwap_mod hv hw _).1,
          if_pos ((swap_cast_lt hv' hw').mpr h2), h.1, h.2]
      · rw [if_neg h2] at h
        rw [tapeSwap, if_neg hlt, if_neg h2, s.step _ _ hl, if_neg h2]
        exact randInt_tapeSwap s hv hw hv' hw' u r n _ (by simp; omega) h

/-! ## runs of `Draw` computations -/

section
variable {α β : Type}

theorem Draw.bind_done {x : Draw α} {f : α → Draw β} {t r : Bytes} {b : β} :
    (x >>= f) t = .done (b, r) ↔ ∃ a s, x t = .done (a, s) ∧ f a s = .done (b, r) := by
  show Draw.bind x f t = _ ↔ _
  unfold Draw.bind
  cases h : x t with
  | running => simp
  | panic => simp
  | done p => obtain ⟨a, s⟩ := p; simp

theorem Draw.bind_panic {x : Draw α} {f : α → Draw β} {t : Bytes} :
    (x >>= f) t = .panic ↔ x t = .panic ∨ ∃ a s, x t = .done (a, s) ∧ f a s = .panic := by
  show Draw.bind x f t = _ ↔ _
  unfold Draw.bind
  cases h : x t with
  | running => simp
  | panic => simp
  | done p => obtain ⟨a, s⟩ := p; simp

theorem Draw.pure_eq (a : α) (t : Bytes) : (pure a : Draw α) t = .done (a, t) := rfl

theorem Draw.lift_done {x : Option α} {t r : Bytes} {a : α} : Draw.lift x t = .done (a, r) ↔ x = some a ∧ t = r := by
  cases x <;> simp [Draw.lift]

theorem Draw.lift_panic {x : Option α} {t : Bytes} : Draw.lift x t = .panic ↔ x = none := by
  cases x <;> simp [Draw.lift]

/-- `x` returns `a` after reading some bytes, whatever follows them -/
def Reaches (x : Draw α) (a : α) : Prop := ∃ bs : Bytes, ∀ t, x (bs ++ t) = .done (a, t)

theorem Reaches.bind {x : Draw α} {f : α → Draw β} {a : α} {b : β} (h1 : Reaches x a) (h2 : Reaches (f a) b) :
    Reaches (x >>= f) b := by
  obtain ⟨b1, h1⟩ := h1
  obtain ⟨b2, h2⟩ := h2
  refine ⟨b1 ++ b2, fun t => ?_⟩
  rw [List.append_assoc]
  exact Draw.bind_done.mpr ⟨a, b2 ++ t, h1 _, h2 t⟩

theorem Reaches.pure (a : α) : Reaches (pure a : Draw α) a := ⟨[], fun _ => rfl⟩

theorem Reaches.lift {x : Option α} {a : α} (h : x = some a) : Reaches (Draw.lift x) a := ⟨[], fun _ => by rw [h]; rfl⟩

theorem Reaches.int {max v : Int} (h : 0 ≤ v ∧ v < max) : Reaches (randInt max) v := randInt_reach max v h.1 h.2

end

/-- the values are in `[0, max)` -/
def Below (max v : Int) : Prop := 0 ≤ v ∧ v < max

theorem sampleRandomVector_done {mod : Int} : ∀ {n : ℕ} {t r : Bytes} {l : List Int}, sampleRandomVector mod n t = .done (l, r) →
    l.length = n ∧ ∀ x ∈ l, Below mod x
  | 0, t, r, l, h => by
    simp only [sampleRandomVector, Draw.pure_eq, Outcome.done.injEq, Prod.mk.injEq] at h
    obtain ⟨rfl, _⟩ := h
    exact ⟨rfl, by simp⟩
  | n + 1, t, r, l, h => by
    rw [sampleRandomVector] at h
    obtain ⟨x, t1, e1, h⟩ := Draw.bind_done.mp h
    obtain ⟨xs, t2, e2, h⟩ := Draw.bind_done.mp h
    simp only [Draw.pure_eq, Outcome.done.injEq, Prod.mk.injEq] at h
    obtain ⟨rfl, _⟩ := h
    obtain ⟨i1, i2⟩ := sampleRandomVector_done e2
    exact ⟨by simp [i1], by simpa using ⟨(randInt_done e1).1, i2⟩⟩

theorem sampleRandomVector_panic {mod : Int} (h : 0 < mod) : ∀ {n : ℕ} {t : Bytes}, sampleRandomVector mod n t ≠ .panic
  | 0, t => by simp [sampleRandomVector, Draw.pure_eq]
  | n + 1, t => by
    rw [sampleRandomVector]
    intro hp
    rcases Draw.bind_panic.mp hp with hp | ⟨x, t1, _, hp⟩
    · exact randInt_not_panic mod h t hp
    rcases Draw.bind_panic.mp hp with hp | ⟨x, t1, _, hp⟩
    · exact sampleRandomVector_panic h hp
    · simp [Draw.pure_eq] at hp

theorem Reaches.vector {mod : Int} : ∀ {l : List Int}, (∀ x ∈ l, Below mod x) → Reaches (sampleRandomVector mod l.length) l
  | [], _ => Reaches.pure []
  | x :: xs, h => by
    rw [List.length_cons, sampleRandomVector]
    exact (Reaches.int (h x (by simp))).bind ((Reaches.vector fun y hy => h y (by simp [hy])).bind (Reaches.pure _))

/-- the draws of `bulletproofs.Prove` lie in the ranges they are drawn from -/
structure BPDrawn (mod : Int) (n : ℕ) (rnd : BPRand) : Prop where
  gamma : Below mod rnd.gamma
  alpha : Below mod rnd.alpha
  lenL : rnd.sL.length = n
  sL : ∀ x ∈ rnd.sL, Below mod x
  lenR : rnd.sR.length = n
  sR : ∀ x ∈ rnd.sR, Below mod x
  rho : Below mod rnd.rho
  tau1 : Below mod rnd.tau1
  tau2 : Below mod rnd.tau2

theorem drawBP_done {E : Type} {params : BPParams E} {t r : Bytes} {rnd : BPRand} (h : drawBP params t = .done (rnd, r)) :
    BPDrawn params.GP.N params.N rnd := by
  unfold drawBP at h
  obtain ⟨_, _, e1, h⟩ := Draw.bind_done.mp h
  obtain ⟨_, _, e2, h⟩ := Draw.bind_done.mp h
  obtain ⟨_, _, e3, h⟩ := Draw.bind_done.mp h
  obtain ⟨_, _, e4, h⟩ := Draw.bind_done.mp h
  obtain ⟨_, _, e5, h⟩ := Draw.bind_done.mp h
  obtain ⟨_, _, e6, h⟩ := Draw.bind_done.mp h
  obtain ⟨_, _, e7, h⟩ := Draw.bind_done.mp h
  simp only [Draw.pure_eq, Outcome.done.injEq, Prod.mk.injEq] at h
  obtain ⟨rfl, _⟩ := h
  exact ⟨(randInt_done e1).1, (randInt_done e2).1, (sampleRandomVector_done e3).1, (sampleRandomVector_done e3).2,
    (sampleRandomVector_done e4).1, (sampleRandomVector_done e4).2, (randInt_done e5).1, (randInt_done e6).1, (randInt_done e7).1⟩

theorem drawBP_panic {E : Type} {params : BPParams E} (hp : 0 < params.GP.N) (t : Bytes) : drawBP params t ≠ .panic := by
  intro h
  unfold drawBP at h
  rcases Draw.bind_panic.mp h with h | ⟨_, _, _, h⟩
  · exact randInt_not_panic _ hp _ h
  rcases Draw.bind_panic.mp h with h | ⟨_, _, _, h⟩
  · exact randInt_not_panic _ hp _ h
  rcases Draw.bind_panic.mp h with h | ⟨_, _, _, h⟩
  · exact sampleRandomVector_panic hp h
  rcases Draw.bind_panic.mp h with h | ⟨_, _, _, h⟩
  · exact sampleRandomVector_panic hp h
  rcases Draw.bind_panic.mp h with h | ⟨_, _, _, h⟩
  · exact randInt_not_panic _ hp _ h
  rcases Draw.bind_panic.mp h with h | ⟨_, _, _, h⟩
  · exact randInt_not_panic _ hp _ h
  rcases Draw.bind_panic.mp h with h | ⟨_, _, _, h⟩
  · exact randInt_not_panic _ hp _ h
  · simp [Draw.pure_eq] at h

theorem Reaches.bp {E : Type} {params : BPParams E} {rnd : BPRand} (h : BPDrawn params.GP.N params.N rnd) :
    Reaches (drawBP params) rnd := by
  unfold drawBP
  refine (Reaches.int h.gamma).bind ((Reaches.int h.alpha).bind (Reaches.bind (a := rnd.sL) ?_ (Reaches.bind (a := rnd.sR) ?_
    ((Reaches.int h.rho).bind ((Reaches.int h.tau1).bind ((Reaches.int h.tau2).bind (Reaches.pure _)))))))
  · rw [← h.lenL]; exact Reaches.vector h.sL
  · rw [← h.lenR]; exact Reaches.vector h.sR

/-- the draws of one iteration of `voteproof.Prove` -/
structure SigmaDrawn (zUpper NF NE : Int) (s : SigmaSample) : Prop where
  k : Below zUpper s.k
  tp : Below NF s.tp
  tq1 : Below NE s.tq1
  tq2 : Below NE s.tq2

section
variable {E₁ E₂ : Type} {params : ProofParams E₁ E₂} {NF NE : Int}

theorem drawSigma_done (hF : params.GFF.N = some NF) (hE : params.GEC.N = some NE) {t r : Bytes} {s : SigmaSample}
    (h : drawSigma params t = .done (s, r)) : SigmaDrawn params.zUpperBound NF NE s := by
  unfold drawSigma at h
  obtain ⟨_, _, e1, h⟩ := Draw.bind_done.mp h
  obtain ⟨nf, _, e2, h⟩ := Draw.bind_done.mp h
  obtain ⟨_, _, e3, h⟩ := Draw.bind_done.mp h
  obtain ⟨ne, _, e4, h⟩ := Draw.bind_done.mp h
  obtain ⟨_, _, e5, h⟩ := Draw.bind_done.mp h
  obtain ⟨_, _, e6, h⟩ := Draw.bind_done.mp h
  simp only [Draw.pure_eq, Outcome.done.injEq, Prod.mk.injEq] at h
  obtain ⟨rfl, _⟩ := h
  obtain rfl : NF = nf := by have := (Draw.lift_done.mp e2).1; rw [hF] at this; simpa using this
  obtain rfl : NE = ne := by have := (Draw.lift_done.mp e4).1; rw [hE] at this; simpa using this
  exact ⟨(randInt_done e1).1, (randInt_done e3).1, (randInt_done e5).1, (randInt_done e6).1⟩

theorem zUpperBound_pos (p : ProofParams E₁ E₂) : 0 < p.zUpperBound := by
  unfold ProofParams.zUpperBound; positivity

theorem drawSigma_panic (hF : params.GFF.N = some NF) (hE : params.GEC.N = some NE) (pF : 0 < NF) (pE : 0 < NE) (t : Bytes) :
    drawSigma params t ≠ .panic := by
  intro h
  unfold drawSigma at h
  rcases Draw.bind_panic.mp h with h | ⟨_, _, _, h⟩
  · exact randInt_not_panic _ (zUpperBound_pos params) _ h
  rcases Draw.bind_panic.mp h with h | ⟨nf, _, e2, h⟩
  · rw [Draw.lift_panic, hF] at h; simp at h
  obtain rfl : NF = nf := by have := (Draw.lift_done.mp e2).1; rw [hF] at this; simpa using this
  rcases Draw.bind_panic.mp h with h | ⟨_, _, _, h⟩
  · exact randInt_not_panic _ pF _ h
  rcases Draw.bind_panic.mp h with h | ⟨ne, _, e4, h⟩
  · rw [Draw.lift_panic, hE] at h; simp at h
  obtain rfl : NE = ne := by have := (Draw.lift_done.mp e4).1; rw [hE] at this; simpa using this
  rcases Draw.bind_panic.mp h with h | ⟨_, _, _, h⟩
  · exact randInt_not_panic _ pE _ h
  rcases Draw.bind_panic.mp h with h | ⟨_, _, _, h⟩
  · exact randInt_not_panic _ pE _ h
  · simp [Draw.pure_eq] at h

theorem Reaches.sigma (hF : params.GFF.N = some NF) (hE : params.GEC.N = some NE) {s : SigmaSample}
    (h : SigmaDrawn params.zUpperBound NF NE s) : Reaches (drawSigma params) s := by
  unfold drawSigma
  exact (Reaches.int h.k).bind ((Reaches.lift hF).bind ((Reaches.int h.tp).bind ((Reaches.lift hE).bind
    ((Reaches.int h.tq1).bind ((Reaches.int h.tq2).bind (Reaches.pure _))))))

variable (sha : Bytes → Bytes) (secret rp rq1 rq2 : Int)

theorem sigmaProveB_done (hF : params.GFF.N = some NF) (hE : params.GEC.N = some NE) {p : SigmaProof E₁ E₂} :
    ∀ {n : ℕ} {t r : Bytes}, sigmaProveB sha params secret rp rq1 rq2 n t = .done (p, r) →
      ∃ samples, samples.length ≤ n ∧ (∀ s ∈ samples, SigmaDrawn params.zUpperBound NF NE s) ∧
        sigmaProve sha params secret rp rq1 rq2 samples = .done p
  | 0, t, r, h => by simp [sigmaProveB] at h
  | n + 1, t, r, h => by
    rw [sigmaProveB] at h
    obtain ⟨s, t1, e1, h⟩ := Draw.bind_done.mp h
    obtain ⟨o, t2, e2, h⟩ := Draw.bind_done.mp h
    have d := drawSigma_done hF hE e1
    have e3 := (Draw.lift_done.mp e2).1
    cases o with
    | none =>
      obtain ⟨ss, i1, i2, i3⟩ := sigmaProveB_done hF hE h
      exact ⟨s :: ss, by simpa using i1, by simpa using ⟨d, i2⟩, by rw [sigmaProve, e3]; exact i3⟩
    | some q =>
      simp only [Draw.pure_eq, Outcome.done.injEq, Prod.mk.injEq] at h
      exact ⟨[s], by simp, by simpa using d, by rw [sigmaProve, e3, h.1]⟩

theorem sigmaProveB_panic (hF : params.GFF.N = some NF) (hE : params.GEC.N = some NE) (pF : 0 < NF) (pE : 0 < NE) :
    ∀ {n : ℕ} {t : Bytes}, sigmaProveB sha params secret rp rq1 rq2 n t = .panic →
      ∃ samples, samples.length ≤ n ∧ (∀ s ∈ samples, SigmaDrawn params.zUpperBound NF NE s) ∧
        sigmaProve sha params secret rp rq1 rq2 samples = .panic
  | 0, t, h => by simp [sigmaProveB] at h
  | n + 1, t, h => by
    rw [sigmaProveB] at h
    rcases Draw.bind_panic.mp h with h | ⟨s, t1, e1, h⟩
    · exact absurd h (drawSigma_panic hF hE pF pE t)
    have d := drawSigma_done hF hE e1
    rcases Draw.bind_panic.mp h with h | ⟨o, t2, e2, h⟩
    · exact ⟨[s], by simp, by simpa using d, by rw [sigmaProve, Draw.lift_panic.mp h]⟩
    have e3 := (Draw.lift_done.mp e2).1
    cases o with
    | none =>
      obtain ⟨ss, i1, i2, i3⟩ := sigmaProveB_panic hF hE pF pE h
      exact ⟨s :: ss, by simpa using i1, by simpa using ⟨d, i2⟩, by rw [sigmaProve, e3]; exact i3⟩
    | some q => simp [Draw.pure_eq] at h

theorem Reaches.sigmaProve (hF : params.GFF.N = some NF) (hE : params.GEC.N = some NE) {p : SigmaProof E₁ E₂} :
    ∀ {samples : List SigmaSample}, (∀ s ∈ samples, SigmaDrawn params.zUpperBound NF NE s) →
      MscPoc.sigmaProve sha params secret rp rq1 rq2 samples = .done p →
      Reaches (sigmaProveB sha params secret rp rq1 rq2 samples.length) p
  | [], _, h => by simp [MscPoc.sigmaProve] at h
  | s :: ss, hd, h => by
    rw [List.length_cons, sigmaProveB]
    rw [MscPoc.sigmaProve] at h
    refine (Reaches.sigma hF hE (hd s (by simp))).bind ?_
    cases e : sigmaAttempt sha params secret rp rq1 rq2 s with
    | none => rw [e] at h; simp at h
    | some o =>
      rw [e] at h
      refine (Reaches.lift rfl).bind ?_
      cases o with
      | none => exact Reaches.sigmaProve hF hE (fun x hx => hd x (by simp [hx])) h
      | some q =>
        simp only [Outcome.done.injEq] at h
        rw [← h]
        exact Reaches.pure q

end

end MscPoc
