import Verif.Lemmas.K1
import Verif.Lemmas.Bytes
import Verif.Lemmas.HashToCurve
import Verif.Model.K1Hash
import Verif.Spec.K1Hash

/-!
# The first point found
-/

set_option autoImplicit false

namespace MscPoc

theorem k1P_mod4 : k1P % 4 = 3 := by decide +kernel

theorem k1_one_lt : 1 < k1P := by decide +kernel

theorem k1Sqrt_none {v : ℕ} (h0 : (v : ZMod k1P) ≠ 0) : k1Sqrt v = none ↔ ¬ IsSquare (v : ZMod k1P) := by
  have h4 := k1P_mod4
  have h1 := k1_one_lt
  have hh : (k1P - 1) / 2 = k1P / 2 := by omega
  have hc := H2CSuite.powMod_cast k1P v (k1P / 2)
  have hl : H2CSuite.powMod k1P v (k1P / 2) < k1P := by rw [H2CSuite.powMod_spec]; exact Nat.mod_lt _ (by omega)
  have hm : ((k1P - 1 : ℕ) : ZMod k1P) = -1 := by
    rw [Nat.cast_sub (by omega), ZMod.natCast_self]; simp
  have h2 : (-1 : ZMod k1P) ≠ 1 := by
    intro h
    apply k1_two_ne
    linear_combination -h
  unfold k1Sqrt
  rw [hh, ZMod.euler_criterion _ h0, ← hc]
  generalize H2CSuite.powMod k1P v (k1P / 2) = w at hc hl ⊢
  constructor
  · intro h hw
    by_cases hb : w = k1P - 1
    · rw [hb, hm] at hw; exact h2 hw
    · rw [if_neg hb] at h; simp at h
  · intro h
    rw [if_pos]
    have := (ZMod.pow_div_two_eq_neg_one_or_one _ h0).resolve_left (by rw [← hc]; exact h)
    rw [← hc, ← hm] at this
    exact affCast_inj hl (by omega) this

theorem k1Sqrt_some {v y : ℕ} (h0 : (v : ZMod k1P) ≠ 0) (h : k1Sqrt v = some y) :
    y < k1P ∧ (y : ZMod k1P) ^ 2 = v ∧ IsSquare (y : ZMod k1P) := by
  have h4 := k1P_mod4
  have hs : IsSquare (v : ZMod k1P) := by
    by_contra hn
    rw [(k1Sqrt_none h0).mpr hn] at h
    simp at h
  unfold k1Sqrt at h
  split at h
  · simp at h
  · have hy : H2CSuite.powMod k1P v ((k1P + 1) / 4) = y := Option.some.inj h
    subst hy
    refine ⟨by rw [H2CSuite.powMod_spec]; exact Nat.mod_lt _ (by omega), ?_, ?_⟩
    · rw [H2CSuite.powMod_cast, ← pow_mul]
      have : (k1P + 1) / 4 * 2 = k1P / 2 + 1 := by omega
      rw [this, pow_succ, (ZMod.euler_criterion _ h0).mp hs, one_mul]
    · rw [H2CSuite.powMod_cast]
      exact hs.pow _

theorem natDec_numeral : ∀ i < 256, natDec i = numeral i := by decide +kernel

theorem k1Cand_lt (dig : Bytes → Bytes) (m : Bytes) (i : ℕ) : k1Cand dig m i < k1P := by
  have h1 : (0 : Int) < k1P := by decide +kernel
  have := Int.emod_nonneg (fromByteArray (dig (natDec i ++ m))) h1.ne'
  have := Int.emod_lt_of_pos (fromByteArray (dig (natDec i ++ m))) h1
  unfold k1Cand
  omega

theorem fromByteArray_cast (d : Bytes) : ((fromByteArray d : Int) : ZMod k1P) =
    (setBytes d : ZMod k1P) - (if 2 * setBytes d ≥ 256 ^ d.length then (256 : ZMod k1P) ^ d.length else 0) := by
  have hiff : 128 ≤ (d.headD 0).toNat ↔ 2 * setBytes d ≥ 256 ^ d.length := by
    cases d with
    | nil => simp [setBytes]
    | cons a d =>
      have hl := setBytes_lt d
      rw [setBytes_cons, List.length_cons, pow_succ]
      show 128 ≤ a.toNat ↔ _
      have hpos : 0 < 256 ^ d.length := by positivity
      generalize 256 ^ d.length = K at *
      constructor
      · intro h
        have := Nat.mul_le_mul_right K h
        omega
      · intro h
        by_contra hn
        have : a.toNat + 1 ≤ 128 := by omega
        have := Nat.mul_le_mul_right K this
        rw [add_mul] at this
        omega
  unfold fromByteArray
  by_cases h : 128 ≤ (d.headD 0).toNat
  · rw [if_pos h, if_pos (hiff.mp h)]; push_cast; ring
  · rw [if_neg h, if_neg (fun h' => h (hiff.mpr h'))]; push_cast; ring

theorem k1Cand_cast (dig : Bytes → Bytes) (m : Bytes) (i : ℕ) (hi : i < 256) (x : ZMod k1P) :
    IsCandidate dig m i x ↔ x = (k1Cand dig m i : ZMod k1P) := by
  have h1 : (0 : Int) < k1P := by decide +kernel
  have e : (k1Cand dig m i : ZMod k1P) = ((fromByteArray (dig (natDec i ++ m)) : Int) : ZMod k1P) := by
    unfold k1Cand
    rw [← Int.cast_natCast, Int.toNat_of_nonneg (Int.emod_nonneg _ h1.ne'), ZMod.intCast_mod]
  rw [e, fromByteArray_cast, natDec_numeral i hi]
  unfold IsCandidate
  constructor
  · rintro ⟨d, rfl, h⟩; exact h
  · intro h; exact ⟨_, rfl, h⟩

theorem k1_fx (x : ℕ) : (((x * x * x + 7) % k1P : ℕ) : ZMod k1P) = (x : ZMod k1P) ^ 3 + 7 := by
  rw [ZMod.natCast_mod]; push_cast; ring

theorem k1_fx_ne (x : ZMod k1P) : x ^ 3 + 7 ≠ 0 := by
  have := k1_noroot x
  rwa [zero_mul, add_zero] at this

/-- one round of the loop -/
theorem k1HashGo_succ (dig : Bytes → Bytes) (m : Bytes) (n i : ℕ) :
    (¬ IsSquare ((k1Cand dig m i : ZMod k1P) ^ 3 + 7) ∧ k1HashGo dig m (n + 1) i = k1HashGo dig m n (i + 1)) ∨
    ∃ y : ℕ, y < k1P ∧ (y : ZMod k1P) ^ 2 = (k1Cand dig m i : ZMod k1P) ^ 3 + 7 ∧ IsSquare (y : ZMod k1P) ∧
      k1HashGo dig m (n + 1) i = ⟨some (k1Cand dig m i : Int), some (y : Int)⟩ := by
  rw [k1HashGo]
  generalize k1Cand dig m i = x
  have h0 : (((x * x * x + 7) % k1P : ℕ) : ZMod k1P) ≠ 0 := by rw [k1_fx]; exact k1_fx_ne _
  cases hs : k1Sqrt ((x * x * x + 7) % k1P) with
  | none =>
    refine Or.inl ⟨?_, rfl⟩
    rw [← k1_fx]
    exact (k1Sqrt_none h0).mp hs
  | some y =>
    obtain ⟨h1, h2, h3⟩ := k1Sqrt_some h0 hs
    refine Or.inr ⟨y, h1, by rw [h2, k1_fx], h3, ?_⟩
    dsimp only
    rw [if_pos]
    have h4 := k1_one_lt
    refine affCast_inj (Nat.mod_lt _ (by omega)) (Nat.mod_lt _ (by omega)) ?_
    rw [← h2, ZMod.natCast_mod]
    push_cast
    ring

theorem k1HashGo_spec (dig : Bytes → Bytes) (m : Bytes) : ∀ n i : ℕ, i + n ≤ 256 →
    (∀ j < i, ¬ IsSquare ((k1Cand dig m j : ZMod k1P) ^ 3 + 7)) →
    (k1HashGo dig m n i = ⟨none, none⟩ ∧ ∀ j < i + n, ¬ IsSquare ((k1Cand dig m j : ZMod k1P) ^ 3 + 7)) ∨
    ∃ k x y : ℕ, k < i + n ∧ FirstPoint dig m k x y ∧ k1HashGo dig m n i = ⟨some (x : Int), some (y : Int)⟩ := by
  intro n
  induction n with
  | zero => exact fun i _ h => Or.inl ⟨rfl, h⟩
  | succ n ih =>
    intro i hi h
    rcases k1HashGo_succ dig m n i with ⟨hn, e⟩ | ⟨y, h1, h2, h3, e⟩
    · rw [e, show i + (n + 1) = i + 1 + n by omega]
      refine ih (i + 1) (by omega) fun j hj => ?_
      rcases Nat.lt_succ_iff_lt_or_eq.mp hj with hj | rfl
      · exact h j hj
      · exact hn
    · refine Or.inr ⟨i, _, y, by omega, ⟨k1Cand_lt dig m i, h1, ?_, h2, h3, ?_⟩, e⟩
      · rw [k1Cand_cast dig m i (by omega)]
      · intro j hj x' hx'
        rw [k1Cand_cast dig m j (by omega)] at hx'
        rw [hx']
        exact h j hj

/-- a first point is determined -/
theorem FirstPoint.unique {dig : Bytes → Bytes} {m : Bytes} {i x y i' x' y' : ℕ} (hi : i < 256) (hi' : i' < 256)
    (h : FirstPoint dig m i x y) (h' : FirstPoint dig m i' x' y') : i = i' ∧ x = x' ∧ y = y' := by
  have sq : ∀ {x y : ℕ}, (y : ZMod k1P) ^ 2 = (x : ZMod k1P) ^ 3 + 7 → IsSquare ((x : ZMod k1P) ^ 3 + 7) := by
    intro x y e
    exact ⟨y, by rw [← e, sq]⟩
  have e : i = i' := by
    rcases lt_trichotomy i i' with hl | hl | hl
    · exact absurd (sq h.on) (h'.first i hl _ h.cand)
    · exact hl
    · exact absurd (sq h'.on) (h.first i' hl _ h'.cand)
  subst e
  have ex : x = x' := by
    have a := (k1Cand_cast dig m i hi _).mp h.cand
    have b := (k1Cand_cast dig m i hi _).mp h'.cand
    exact affCast_inj h.x_lt h'.x_lt (a.trans b.symm)
  subst ex
  refine ⟨rfl, rfl, ?_⟩
  have e2 : (y : ZMod k1P) ^ 2 = (y' : ZMod k1P) ^ 2 := h.on.trans h'.on.symm
  rw [sq_eq_sq_iff_eq_or_eq_neg] at e2
  rcases e2 with e2 | e2
  · exact affCast_inj h.y_lt h'.y_lt e2
  · exfalso
    have hy0 : (y' : ZMod k1P) ≠ 0 := by
      intro h0
      have := h'.on
      rw [h0] at this
      exact k1_fx_ne (x : ZMod k1P) (by rw [← this]; ring)
    have h1 : IsSquare (-1 : ZMod k1P) := by
      obtain ⟨a, ha⟩ := h.root
      obtain ⟨b, hb⟩ := h'.root
      have hb0 : b ≠ 0 := fun h => hy0 (by rw [hb, h, mul_zero])
      refine ⟨a / b, ?_⟩
      have : a * a = -(b * b) := by rw [← ha, ← hb, e2]
      field_simp
      linear_combination -this
    rw [ZMod.exists_sq_eq_neg_one_iff] at h1
    exact h1 k1P_mod4

end MscPoc
