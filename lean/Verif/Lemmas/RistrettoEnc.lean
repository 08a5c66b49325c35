import Verif.Lemmas.RistrettoAlg
import Verif.Lemmas.Ristretto
import Verif.Lemmas.HashToCurve
import Verif.Lemmas.Bytes
import Verif.Model.RistrettoEnc

/-!
# Ristretto encodings
-/

set_option autoImplicit false

namespace MscPoc
namespace R255

/-- the field -/
abbrev Fp : Type := ZMod r255P

theorem p_pos : 0 < r255P := r255Fact.out.pos

theorem p_odd : r255P % 2 = 1 := by decide +kernel

/-- non-negative: the least residue is even -/
def fpSign : FieldSign Fp where
  nn := fun x => x.val % 2 = 0
  zero := by rw [ZMod.val_zero]
  total := by
    intro x
    by_cases h : x = 0
    · left; rw [h, ZMod.val_zero]
    · have : NeZero x := ⟨h⟩
      rw [ZMod.val_neg_of_ne_zero]
      have := ZMod.val_lt x
      have := p_odd
      omega
  anti := by
    intro x h1 h2
    by_contra h
    have : NeZero x := ⟨h⟩
    rw [ZMod.val_neg_of_ne_zero] at h2
    have := ZMod.val_lt x
    have := p_odd
    omega

theorem mul_lt (a b : Nat) : mul a b < r255P := Nat.mod_lt _ p_pos
theorem add_lt (a b : Nat) : add a b < r255P := Nat.mod_lt _ p_pos
theorem sub_lt (a b : Nat) : sub a b < r255P := Nat.mod_lt _ p_pos
theorem neg_lt (a : Nat) : neg a < r255P := Nat.mod_lt _ p_pos

theorem mul_cast (a b : Nat) : ((mul a b : Nat) : Fp) = a * b := by
  unfold mul
  rw [ZMod.natCast_mod, Nat.cast_mul]

theorem add_cast (a b : Nat) : ((add a b : Nat) : Fp) = a + b := by
  unfold add
  rw [ZMod.natCast_mod, Nat.cast_add]

theorem sub_cast (a b : Nat) : ((sub a b : Nat) : Fp) = a - b := by
  unfold sub
  rw [ZMod.natCast_mod, Nat.cast_add, Nat.cast_sub (Nat.mod_lt _ p_pos).le, ZMod.natCast_self, ZMod.natCast_mod]
  ring

theorem neg_cast (a : Nat) : ((neg a : Nat) : Fp) = -a := by
  unfold neg
  rw [sub_cast, Nat.cast_zero, zero_sub]

theorem pow_cast (a k : Nat) : ((pow a k : Nat) : Fp) = (a : Fp) ^ k := H2CSuite.powMod_cast _ _ _

theorem cast_inj {a b : Nat} (ha : a < r255P) (hb : b < r255P) (h : (a : Fp) = b) : a = b := by
  rw [← ZMod.val_natCast_of_lt ha, ← ZMod.val_natCast_of_lt hb, h]

theorem beq_iff {a b : Nat} (ha : a < r255P) (hb : b < r255P) : (a == b) = true ↔ (a : Fp) = b := by
  rw [beq_iff_eq]
  exact ⟨fun h => by rw [h], cast_inj ha hb⟩

theorem isNeg_iff {a : Nat} (ha : a < r255P) : isNeg a = true ↔ ¬ fpSign.nn (a : Fp) := by
  show (a % 2 == 1) = true ↔ ¬ ((a : Fp).val % 2 = 0)
  rw [ZMod.val_natCast_of_lt ha, beq_iff_eq]
  omega

theorem abs_lt {a : Nat} (ha : a < r255P) : abs a < r255P := by
  unfold abs
  split
  · exact neg_lt _
  · exact ha

theorem abs_spec {a : Nat} (ha : a < r255P) : fpSign.nn (abs a : Fp) ∧ (abs a : Fp) ^ 2 = (a : Fp) ^ 2 := by
  unfold abs
  split
  · rename_i h
    rw [isNeg_iff ha] at h
    rw [neg_cast]
    exact ⟨(fpSign.total _).resolve_left h, by ring⟩
  · rename_i h
    rw [isNeg_iff ha, not_not] at h
    exact ⟨h, rfl⟩

theorem abs_zero : abs 0 = 0 := rfl

/-! ### square roots -/

theorem i_cast : ((sqrtM1 : Nat) : Fp) ^ 2 = -1 := by
  have := r255_i_sq
  rw [sq]
  exact this

theorem p_pow {x : Fp} (hx : x ≠ 0) : (x ^ ((r255P - 1) / 4)) ^ 4 = 1 := by
  rw [← pow_mul, show (r255P - 1) / 4 * 4 = r255P - 1 by decide +kernel]
  exact ZMod.pow_card_sub_one_eq_one hx

theorem fourth_roots {e : Fp} (h : e ^ 4 = 1) : e = 1 ∨ e = -1 ∨ e = sqrtM1 ∨ e = -sqrtM1 := by
  have hi := i_cast
  have : (e - 1) * ((e + 1) * ((e - sqrtM1) * (e + sqrtM1))) = 0 := by
    linear_combination h - (e ^ 2 - 1) * hi
  rcases mul_eq_zero.mp this with h | h
  · exact Or.inl (by linear_combination h)
  rcases mul_eq_zero.mp h with h | h
  · exact Or.inr (Or.inl (by linear_combination h))
  rcases mul_eq_zero.mp h with h | h
  · exact Or.inr (Or.inr (Or.inl (by linear_combination h)))
  · exact Or.inr (Or.inr (Or.inr (by linear_combination h)))

/-- `SQRT_RATIO_M1`: the result is non-negative; it is a root of `u/v` if the flag is set and otherwise of `i u/v`, where `0` is
divided to `0` -/
theorem sqrtRatio_spec {u v : Nat} (hu : u < r255P) :
    (sqrtRatio u v).2 < r255P ∧ fpSign.nn ((sqrtRatio u v).2 : Fp) ∧
    ((sqrtRatio u v).1 = true → (v : Fp) * ((sqrtRatio u v).2 : Fp) ^ 2 = u) ∧
    ((sqrtRatio u v).1 = false → (u : Fp) ≠ 0 ∧ ((v : Fp) ≠ 0 → (v : Fp) * ((sqrtRatio u v).2 : Fp) ^ 2 = sqrtM1 * u)) ∧
    ((v : Fp) = 0 → (sqrtRatio u v).2 = 0) := by
  obtain ⟨r, hr⟩ : ∃ r, r = mul (mul u (mul (mul v v) v)) (pow (mul u (mul (mul (mul (mul v v) v) (mul (mul v v) v)) v)) ((r255P - 5) / 8)) :=
    ⟨_, rfl⟩
  have hrl : r < r255P := by rw [hr]; exact mul_lt _ _
  have e : sqrtRatio u v = (mul v (mul r r) == u || mul v (mul r r) == neg u,
      abs (if mul v (mul r r) == neg u || mul v (mul r r) == mul (neg u) sqrtM1 then mul sqrtM1 r else r)) := by
    rw [hr]; rfl
  have hrc : (r : Fp) = u * v ^ 3 * ((u : Fp) * v ^ 7) ^ ((r255P - 5) / 8) := by
    rw [hr, mul_cast, pow_cast]
    simp only [mul_cast]
    ring
  have hcheck : ((mul v (mul r r) : Nat) : Fp) = u * ((u : Fp) * v ^ 7) ^ ((r255P - 1) / 4) := by
    rw [mul_cast, mul_cast, hrc, show (r255P - 1) / 4 = (r255P - 5) / 8 + (r255P - 5) / 8 + 1 by decide +kernel, pow_add, pow_add]
    ring
  rw [e]
  dsimp only
  have hnl := neg_lt u
  have hml := mul_lt (neg u) sqrtM1
  have hcl := mul_lt v (mul r r)
  obtain ⟨q, hq⟩ : ∃ q, q = (if mul v (mul r r) == neg u || mul v (mul r r) == mul (neg u) sqrtM1 then mul sqrtM1 r else r) := ⟨_, rfl⟩
  have hql : q < r255P := by
    rw [hq]
    split
    · exact mul_lt _ _
    · exact hrl
  rw [← hq]
  obtain ⟨a1, a2⟩ := abs_spec hql
  have hi := i_cast
  have hcr : ((mul v (mul r r) : Nat) : Fp) = v * (r : Fp) ^ 2 := by rw [mul_cast, mul_cast]; ring
  refine ⟨abs_lt hql, a1, ?_, ?_, ?_⟩
  · intro h
    rw [a2, hq]
    rw [Bool.or_eq_true, beq_iff hcl hu, beq_iff hcl hnl] at h
    split
    · rename_i h'
      rw [Bool.or_eq_true, beq_iff hcl hnl, beq_iff hcl hml] at h'
      rw [mul_cast]
      rw [hcr, neg_cast] at h
      rw [hcr, mul_cast, neg_cast] at h'
      have h0 : ∀ z : Fp, z = -z → z = 0 := by
        intro z hz
        have : 2 * z = 0 := by linear_combination hz
        exact (mul_eq_zero.mp this).resolve_left r255_two_ne
      rcases h' with h' | h'
      · linear_combination (v : Fp) * r ^ 2 * hi - h'
      · rcases h with h | h
        · -- u = -u i
          have hu0 : (u : Fp) = 0 := by
            have : (u : Fp) = -(u * sqrtM1) := by rw [← h]; linear_combination h' + sqrtM1 * h
            have h2 : (u : Fp) = -u := by linear_combination this - sqrtM1 * this + (u : Fp) * hi
            exact h0 _ h2
          rw [hu0] at h ⊢
          linear_combination (sqrtM1 : Fp) ^ 2 * h
        · linear_combination (v : Fp) * r ^ 2 * hi - h
    · rename_i h'
      rw [Bool.or_eq_true, beq_iff hcl hnl, beq_iff hcl hml, not_or] at h'
      rcases h with h | h
      · rw [← hcr, h]
      · exact absurd h h'.1
  · intro h
    rw [Bool.or_eq_false_iff, ← Bool.not_eq_true, ← Bool.not_eq_true, beq_iff hcl hu, beq_iff hcl hnl] at h
    have hu0 : (u : Fp) ≠ 0 := by
      intro h0
      apply h.1
      rw [hcheck, h0, zero_mul]
    refine ⟨hu0, fun hv0 => ?_⟩
    have hw : (u : Fp) * v ^ 7 ≠ 0 := mul_ne_zero hu0 (pow_ne_zero 7 hv0)
    rw [a2, hq]
    rcases fourth_roots (p_pow hw) with h1 | h1 | h1 | h1 <;> rw [h1] at hcheck
    · exact absurd (by rw [hcheck, mul_one]) h.1
    · exact absurd (by rw [hcheck, neg_cast]; ring) h.2
    · rw [if_neg, ← hcr, hcheck, mul_comm]
      rw [Bool.or_eq_true, beq_iff hcl hnl, beq_iff hcl hml, not_or]
      refine ⟨h.2, fun h2 => ?_⟩
      rw [hcheck, mul_cast, neg_cast] at h2
      have : (u : Fp) * (2 * sqrtM1) = 0 := by linear_combination h2
      have h3 := (mul_eq_zero.mp this).resolve_left hu0
      have h4 := (mul_eq_zero.mp h3).resolve_left r255_two_ne
      rw [h4] at hi
      simp at hi
    · rw [if_pos, mul_cast]
      · rw [hcr] at hcheck
        linear_combination (v : Fp) * r ^ 2 * hi - hcheck
      · rw [Bool.or_eq_true, beq_iff hcl hnl, beq_iff hcl hml]
        right
        rw [hcheck, mul_cast, neg_cast]
        ring
  · intro hv0
    have hr0 : r = 0 := by
      refine cast_inj hrl p_pos ?_
      rw [hrc, hv0]
      ring
    have : q = 0 := by
      rw [hq, hr0]
      split <;> rfl
    rw [this, abs_zero]

/-! ### constants -/

/-- `-1 - d` is a square -/
theorem c_cast : ((sqrtADm1 : Nat) : Fp) ^ 2 = -1 - r255C.d := by
  have h : ((sqrtADm1 * sqrtADm1 + 1 + r255D : ℕ) : Fp) = 0 := by
    rw [ZMod.natCast_eq_zero_iff]
    decide +kernel
  push_cast at h
  show _ = -1 - (r255D : Fp)
  linear_combination h

theorem c_ne : ((sqrtADm1 : Nat) : Fp) ≠ 0 := by
  rw [Ne, ZMod.natCast_eq_zero_iff]
  decide +kernel

theorem k_cast : ((invsqrtAmD : Nat) : Fp) ^ 2 * (-1 - r255C.d) = 1 := by
  have h : ((invsqrtAmD * invsqrtAmD * (1 + r255D) + 1 : ℕ) : Fp) = 0 := by
    rw [ZMod.natCast_eq_zero_iff]
    decide +kernel
  push_cast at h
  show _ * (-1 - (r255D : Fp)) = 1
  linear_combination -h

theorem ad_ne : (-1 - r255C.d : Fp) ≠ 0 := by
  rw [← c_cast]
  exact pow_ne_zero 2 c_ne

/-- the product of two non-squares is a square -/
theorem nonsq_mul (a b : Fp) (ha : ¬ IsSquare a) (hb : ¬ IsSquare b) : IsSquare (a * b) := by
  have ha0 : a ≠ 0 := by rintro rfl; exact ha ⟨0, by ring⟩
  have hb0 : b ≠ 0 := by rintro rfl; exact hb ⟨0, by ring⟩
  rw [ZMod.euler_criterion r255P ha0] at ha
  rw [ZMod.euler_criterion r255P hb0] at hb
  rw [ZMod.euler_criterion r255P (mul_ne_zero ha0 hb0), mul_pow,
    (ZMod.pow_div_two_eq_neg_one_or_one r255P ha0).resolve_left ha, (ZMod.pow_div_two_eq_neg_one_or_one r255P hb0).resolve_left hb]
  ring

/-- `i` is not a square -/
theorem i_nonsq : ¬ IsSquare ((sqrtM1 : Nat) : Fp) := by
  have h0 : ((sqrtM1 : Nat) : Fp) ≠ 0 := by
    rw [Ne, ZMod.natCast_eq_zero_iff]
    decide +kernel
  rw [ZMod.euler_criterion r255P h0]
  intro h
  have hp : sqrtM1 ^ (r255P / 2) % r255P = r255P - 1 := powModGo_one (fuel := 255) (by decide +kernel) (by decide +kernel)
  have h' : ((sqrtM1 ^ (r255P / 2) : ℕ) : Fp) = ((1 : ℕ) : Fp) := by
    push_cast; exact h
  rw [ZMod.natCast_eq_natCast_iff', hp] at h'
  exact absurd h' (by decide +kernel)

/-- a root is found if there is one -/
theorem sqrtRatio_one {v : Nat} {z : Fp} (hz : z ≠ 0) (hv : (v : Fp) = z ^ 2) :
    (sqrtRatio 1 v).1 = true ∧ (v : Fp) * ((sqrtRatio 1 v).2 : Fp) ^ 2 = 1 := by
  obtain ⟨-, -, h1, h2, -⟩ := sqrtRatio_spec (u := 1) (v := v) (by decide +kernel)
  rw [Nat.cast_one] at h1 h2
  cases hb : (sqrtRatio 1 v).1 with
  | true => exact ⟨rfl, h1 hb⟩
  | false =>
    exfalso
    have h3 := (h2 hb).2 (by rw [hv]; exact pow_ne_zero 2 hz)
    apply i_nonsq
    refine ⟨z * (sqrtRatio 1 v).2, ?_⟩
    rw [hv] at h3
    linear_combination -h3

/-! ### the encoder -/

/-- the encoder after the root -/
def encFrom (x y t u1 isr : Nat) : Nat :=
  let den1 := mul isr u1
  let den2 := mul isr t
  let zInv := mul (mul den1 den2) t
  let rotate := isNeg (mul t zInv)
  let x' := if rotate then mul y sqrtM1 else x
  let y' := if rotate then mul x sqrtM1 else y
  let denInv := if rotate then mul den1 invsqrtAmD else den2
  let y' := if isNeg (mul x' zInv) then neg y' else y'
  abs (mul denInv (sub 1 y'))

theorem encodeS_eq (P : WPoint) : encodeS P = encFrom P.x P.y (mul P.x P.y) (mul (add 1 P.y) (sub 1 P.y))
    (sqrtRatio 1 (mul (mul (add 1 P.y) (sub 1 P.y)) (mul (mul P.x P.y) (mul P.x P.y)))).2 := rfl

theorem encodeS_lt (P : WPoint) : encodeS P < r255P := by
  rw [encodeS_eq]
  exact abs_lt (mul_lt _ _)

theorem encFrom_spec (x y t u1 isr : Nat) {z : Fp} (hz : z = isr * u1 * (isr * t) * t) :
    fpSign.nn (encFrom x y t u1 isr : Fp) ∧
    (fpSign.nn (t * z) →
      (fpSign.nn (x * z) → (encFrom x y t u1 isr : Fp) ^ 2 = (isr * t * (1 - y)) ^ 2) ∧
      (¬ fpSign.nn (x * z) → (encFrom x y t u1 isr : Fp) ^ 2 = (isr * t * (1 - -y)) ^ 2)) ∧
    (¬ fpSign.nn (t * z) →
      (fpSign.nn (y * sqrtM1 * z) → (encFrom x y t u1 isr : Fp) ^ 2 = (isr * u1 * invsqrtAmD * (1 - x * sqrtM1)) ^ 2) ∧
      (¬ fpSign.nn (y * sqrtM1 * z) → (encFrom x y t u1 isr : Fp) ^ 2 = (isr * u1 * invsqrtAmD * (1 - -(x * sqrtM1))) ^ 2)) := by
  obtain ⟨zi, hzi⟩ : ∃ zi, zi = mul (mul (mul isr u1) (mul isr t)) t := ⟨_, rfl⟩
  have hzc : (zi : Fp) = z := by rw [hzi, hz]; simp only [mul_cast]
  have sq : ∀ D Y : Nat, ((abs (mul D (sub 1 Y)) : Nat) : Fp) ^ 2 = (D * (1 - Y)) ^ 2 := by
    intro D Y
    rw [(abs_spec (mul_lt _ _)).2, mul_cast, sub_cast, Nat.cast_one]
  have n1 : isNeg (mul t zi) = true ↔ ¬ fpSign.nn (t * z) := by rw [isNeg_iff (mul_lt _ _), mul_cast, hzc]
  refine ⟨(abs_spec (mul_lt _ _)).1, fun h => ⟨fun h' => ?_, fun h' => ?_⟩, fun h => ⟨fun h' => ?_, fun h' => ?_⟩⟩
  · have b1 : isNeg (mul t zi) = false := by rw [← Bool.not_eq_true, n1, not_not]; exact h
    have b2 : isNeg (mul x zi) = false := by rw [← Bool.not_eq_true, isNeg_iff (mul_lt _ _), mul_cast, hzc, not_not]; exact h'
    have : encFrom x y t u1 isr = abs (mul (mul isr t) (sub 1 y)) := by
      unfold encFrom
      simp only [← hzi, b1, b2, Bool.false_eq_true, if_false]
    rw [this, sq, mul_cast]
  · have b1 : isNeg (mul t zi) = false := by rw [← Bool.not_eq_true, n1, not_not]; exact h
    have b2 : isNeg (mul x zi) = true := by rw [isNeg_iff (mul_lt _ _), mul_cast, hzc]; exact h'
    have : encFrom x y t u1 isr = abs (mul (mul isr t) (sub 1 (neg y))) := by
      unfold encFrom
      simp only [← hzi, b1, b2, Bool.false_eq_true, if_false, if_true]
    rw [this, sq, mul_cast, neg_cast]
  · have b1 : isNeg (mul t zi) = true := n1.mpr h
    have b2 : isNeg (mul (mul y sqrtM1) zi) = false := by
      rw [← Bool.not_eq_true, isNeg_iff (mul_lt _ _), mul_cast, mul_cast, hzc, not_not]; exact h'
    have : encFrom x y t u1 isr = abs (mul (mul (mul isr u1) invsqrtAmD) (sub 1 (mul x sqrtM1))) := by
      unfold encFrom
      simp only [← hzi, b1, b2, Bool.false_eq_true, if_false, if_true]
    rw [this, sq, mul_cast, mul_cast, mul_cast]
  · have b1 : isNeg (mul t zi) = true := n1.mpr h
    have b2 : isNeg (mul (mul y sqrtM1) zi) = true := by
      rw [isNeg_iff (mul_lt _ _), mul_cast, mul_cast, hzc]; exact h'
    have : encFrom x y t u1 isr = abs (mul (mul (mul isr u1) invsqrtAmD) (sub 1 (neg (mul x sqrtM1)))) := by
      unfold encFrom
      simp only [← hzi, b1, b2, if_true]
    rw [this, sq, mul_cast, mul_cast, neg_cast, mul_cast]

theorem encodeS_spec {P : WPoint} (h : EdLegal P) (even : ∃ Q, h.pt = Q + Q) :
    ∃ R : R255E, 4 • R = 4 • h.pt ∧ EdPt.EncRep fpSign R (encodeS P : Fp) := by
  obtain ⟨isr, hisr⟩ : ∃ isr, isr = (sqrtRatio 1 (mul (mul (add 1 P.y) (sub 1 P.y)) (mul (mul P.x P.y) (mul P.x P.y)))).2 := ⟨_, rfl⟩
  rw [encodeS_eq, ← hisr]
  have hu1 : ((mul (add 1 P.y) (sub 1 P.y) : Nat) : Fp) = 1 - h.pt.y ^ 2 := by
    rw [mul_cast, add_cast, sub_cast, h.pt_y]; push_cast; ring
  have ht : ((mul P.x P.y : Nat) : Fp) = h.pt.x * h.pt.y := mul_cast _ _
  have hv : ((mul (mul (add 1 P.y) (sub 1 P.y)) (mul (mul P.x P.y) (mul P.x P.y)) : Nat) : Fp) =
      (1 - h.pt.y ^ 2) * (h.pt.x * h.pt.y) ^ 2 := by
    rw [mul_cast, hu1, mul_cast, ht]; ring
  obtain ⟨f1, f2, f3⟩ := encFrom_spec P.x P.y (mul P.x P.y) (mul (add 1 P.y) (sub 1 P.y)) isr rfl
  generalize hs : encFrom P.x P.y (mul P.x P.y) (mul (add 1 P.y) (sub 1 P.y)) isr = s at f1 f2 f3 ⊢
  rw [hu1, ht] at f2 f3
  rw [← h.pt_x] at f2 f3
  rw [← h.pt_y] at f2 f3
  by_cases hxy : h.pt.x * h.pt.y = 0
  · -- the class of the identity
    refine ⟨0, EdPt.four_of_zero hxy, ?_⟩
    have hi0 : isr = 0 := by
      rw [hisr]
      refine (sqrtRatio_spec (by decide +kernel)).2.2.2.2 ?_
      rw [hv, hxy]; ring
    rw [hi0, Nat.cast_zero] at f2
    have n0 : ∀ z : Fp, fpSign.nn (z * (0 * (1 - h.pt.y ^ 2) * (0 * (h.pt.x * h.pt.y)) * (h.pt.x * h.pt.y))) := by
      intro z
      have : z * (0 * (1 - h.pt.y ^ 2) * (0 * (h.pt.x * h.pt.y)) * (h.pt.x * h.pt.y)) = 0 := by ring
      rw [this]
      exact fpSign.zero
    have hs0 : (s : Fp) ^ 2 = 0 := by
      rw [(f2 (n0 _)).1 (n0 _)]
      ring
    rw [pow_eq_zero_iff two_ne_zero |>.mp hs0]
    exact EdPt.enc_zero _
  -- the root exists
  obtain ⟨Q, hQ⟩ := even
  obtain ⟨w, hw⟩ := EdPt.double_sq Q
  rw [← hQ, ← c_cast] at hw
  have hne := EdPt.y_sq_ne_one ad_ne hxy
  have hroot : (1 - h.pt.y ^ 2) * (h.pt.x * h.pt.y) ^ 2 * (isr : Fp) ^ 2 = 1 := by
    rw [← hv, hisr]
    refine (sqrtRatio_one (z := sqrtADm1 * w * (h.pt.x * h.pt.y)) ?_ ?_).2
    · refine mul_ne_zero (mul_ne_zero c_ne ?_) hxy
      rintro rfl
      apply hne
      rw [hw]; ring
    · rw [hv, hw]; ring
  have hz : (isr : Fp) * (1 - h.pt.y ^ 2) * (isr * (h.pt.x * h.pt.y)) * (h.pt.x * h.pt.y) = 1 := by linear_combination hroot
  rw [hz] at f2 f3
  simp only [mul_one] at f2 f3
  have hi := r255C.i_sq
  have hic : ((sqrtM1 : Nat) : Fp) = r255C.i := rfl
  rw [hic] at f3
  by_cases nt : fpSign.nn (h.pt.x * h.pt.y)
  · by_cases nx : fpSign.nn h.pt.x
    · exact ⟨h.pt, rfl, EdPt.enc_plain hroot nt nx f1 ((f2 nt).1 nx)⟩
    · refine ⟨h.pt + EdPt.t2, ?_, ?_⟩
      · exact ((EdPt.ristretto_eq _ _).mp ((EdPt.ristretto_iff _ _).mpr (Or.inr (Or.inl rfl)))).symm
      · refine EdPt.enc_plain (isr := (isr : Fp)) ?_ ?_ ?_ f1 ?_
        · rw [EdPt.add_t2_x, EdPt.add_t2_y]; linear_combination hroot
        · rw [EdPt.add_t2_x, EdPt.add_t2_y, neg_mul_neg]; exact nt
        · rw [EdPt.add_t2_x]; exact (fpSign.total _).resolve_left nx
        · rw [EdPt.add_t2_x, EdPt.add_t2_y, neg_mul_neg]; exact (f2 nt).2 nx
  · have nt' := (fpSign.total _).resolve_left nt
    by_cases nx : fpSign.nn (h.pt.y * r255C.i)
    · refine ⟨h.pt + EdPt.t4, ?_, ?_⟩
      · exact ((EdPt.ristretto_eq _ _).mp ((EdPt.ristretto_iff _ _).mpr (Or.inr (Or.inr (Or.inl rfl))))).symm
      · refine EdPt.enc_rotated hroot k_cast ?_ ?_ ?_ f1 ?_
        · rw [EdPt.add_t4_y]; linear_combination h.pt.x ^ 2 * hi
        · rw [EdPt.add_t4_x, EdPt.add_t4_y]
          have : r255C.i * h.pt.y * (r255C.i * h.pt.x) = -(h.pt.x * h.pt.y) := by linear_combination h.pt.x * h.pt.y * hi
          rw [this]; exact nt'
        · rw [EdPt.add_t4_x, mul_comm]; exact nx
        · rw [EdPt.add_t4_y, mul_comm r255C.i]; exact (f3 nt).1 nx
    · refine ⟨h.pt + EdPt.t4 + EdPt.t2, ?_, ?_⟩
      · exact ((EdPt.ristretto_eq _ _).mp ((EdPt.ristretto_iff _ _).mpr (Or.inr (Or.inr (Or.inr rfl))))).symm
      · refine EdPt.enc_rotated hroot k_cast ?_ ?_ ?_ f1 ?_
        · rw [EdPt.add_t2_y, EdPt.add_t4_y]; linear_combination h.pt.x ^ 2 * hi
        · rw [EdPt.add_t2_x, EdPt.add_t2_y, EdPt.add_t4_x, EdPt.add_t4_y]
          have : -(r255C.i * h.pt.y) * -(r255C.i * h.pt.x) = -(h.pt.x * h.pt.y) := by linear_combination h.pt.x * h.pt.y * hi
          rw [this]; exact nt'
        · rw [EdPt.add_t2_x, EdPt.add_t4_x, mul_comm]; exact (fpSign.total _).resolve_left nx
        · rw [EdPt.add_t2_y, EdPt.add_t4_y, mul_comm r255C.i]; exact (f3 nt).2 nx

/-! ### the decoder -/

/-- the `v` of the decoder -/
def decV (s : Nat) : Nat := sub (neg (mul r255D (mul (sub 1 (mul s s)) (sub 1 (mul s s))))) (mul (add 1 (mul s s)) (add 1 (mul s s)))

/-- the decoder after the root -/
def decFrom (s : Nat) (r : Bool × Nat) : Option WPoint :=
  let x := abs (mul (mul 2 s) (mul r.2 (add 1 (mul s s))))
  let y := mul (sub 1 (mul s s)) (mul (mul r.2 (mul r.2 (add 1 (mul s s)))) (decV s))
  if !r.1 || isNeg (mul x y) || y == 0 then none else some ⟨x, y⟩

theorem decodeS_eq (s : Nat) : decodeS s = decFrom s (sqrtRatio 1 (mul (decV s) (mul (add 1 (mul s s)) (add 1 (mul s s))))) := rfl

theorem decodeS_spec {s : Nat} (ns : fpSign.nn (s : Fp)) :
    (∀ P, decodeS s = some P → ∃ h : EdLegal P, EdPt.EncRep fpSign h.pt (s : Fp)) ∧
    (∀ R : R255E, EdPt.EncRep fpSign R (s : Fp) → decodeS s = some (R255E.coords R)) := by
  rw [decodeS_eq]
  obtain ⟨r, hr⟩ : ∃ r, r = sqrtRatio 1 (mul (decV s) (mul (add 1 (mul s s)) (add 1 (mul s s)))) := ⟨_, rfl⟩
  rw [← hr]
  have hV : ((decV s : Nat) : Fp) = -(r255C.d * (1 - (s : Fp) ^ 2) ^ 2) - (1 + (s : Fp) ^ 2) ^ 2 := by
    unfold decV
    rw [sub_cast, neg_cast]
    simp only [mul_cast, sub_cast, add_cast, Nat.cast_one]
    show -((r255D : Fp) * _) - _ = -((r255D : Fp) * _) - _
    ring
  have harg : ((mul (decV s) (mul (add 1 (mul s s)) (add 1 (mul s s))) : Nat) : Fp) = decV s * (1 + (s : Fp) ^ 2) ^ 2 := by
    simp only [mul_cast, add_cast, Nat.cast_one]
    ring
  obtain ⟨x, hx⟩ : ∃ x, x = abs (mul (mul 2 s) (mul r.2 (add 1 (mul s s)))) := ⟨_, rfl⟩
  obtain ⟨y, hy⟩ : ∃ y, y = mul (sub 1 (mul s s)) (mul (mul r.2 (mul r.2 (add 1 (mul s s)))) (decV s)) := ⟨_, rfl⟩
  have e : decFrom s r = if !r.1 || isNeg (mul x y) || y == 0 then none else some ⟨x, y⟩ := by rw [hx, hy]; rfl
  rw [e]
  have hxl : x < r255P := by rw [hx]; exact abs_lt (mul_lt _ _)
  have hyl : y < r255P := by rw [hy]; exact mul_lt _ _
  have hxn : fpSign.nn (x : Fp) := by rw [hx]; exact (abs_spec (mul_lt _ _)).1
  have hxc : (x : Fp) ^ 2 = (2 * s * (r.2 * (1 + (s : Fp) ^ 2))) ^ 2 := by
    rw [hx, (abs_spec (mul_lt _ _)).2]
    simp only [mul_cast, add_cast]
    push_cast
    ring
  have hyc : (y : Fp) = (1 - (s : Fp) ^ 2) * (r.2 * (r.2 * (1 + (s : Fp) ^ 2)) * decV s) := by
    rw [hy]
    simp only [mul_cast, add_cast, sub_cast]
    push_cast
    ring
  have main : (decV s : Fp) * (1 + (s : Fp) ^ 2) ^ 2 * (r.2 : Fp) ^ 2 = 1 →
      (y : Fp) ^ 2 - (x : Fp) ^ 2 = 1 + r255C.d * (x : Fp) ^ 2 * (y : Fp) ^ 2 ∧ (s : Fp) ^ 2 * (1 + y) = 1 - y :=
    fun h => EdPt.dec_on hV h hxc hyc
  constructor
  · intro P hP
    split at hP
    · simp at hP
    · rename_i hc
      simp only [Bool.or_eq_true, Bool.not_eq_true', not_or, Bool.not_eq_false] at hc
      obtain ⟨⟨c1, c2⟩, c3⟩ := hc
      rw [Option.some.injEq] at hP
      subst hP
      have hroot : (decV s : Fp) * (1 + (s : Fp) ^ 2) ^ 2 * (r.2 : Fp) ^ 2 = 1 := by
        have := (sqrtRatio_spec (u := 1) (v := mul (decV s) (mul (add 1 (mul s s)) (add 1 (mul s s)))) (by decide +kernel)).2.2.1
        rw [← hr, harg, Nat.cast_one] at this
        exact this c1
      obtain ⟨m1, m2⟩ := main hroot
      refine ⟨⟨hxl, hyl, m1⟩, hxn, ?_, ?_, ns, m2⟩
      · rw [isNeg_iff (mul_lt _ _), not_not, mul_cast] at c2
        exact c2
      · rw [beq_iff hyl p_pos, Nat.cast_zero] at c3
        exact c3
  · intro R hR
    obtain ⟨w, hw, hw2⟩ := EdPt.dec_sq _ c_cast c_ne hR.rel
    have h1 := EdPt.one_add_ne r255C.two_ne hR.rel
    have hsr := sqrtRatio_one (v := mul (decV s) (mul (add 1 (mul s s)) (add 1 (mul s s)))) (z := w * (1 + (s : Fp) ^ 2))
      (mul_ne_zero hw h1) (by rw [harg, hV, hw2]; ring)
    rw [← hr, harg] at hsr
    obtain ⟨c1, hroot⟩ := hsr
    obtain ⟨m1, m2⟩ := main hroot
    have yy : (y : Fp) = R.y := EdPt.y_of_rel r255C.two_ne m2 hR.rel
    have xx : (x : Fp) = R.x := by
      have := EdPt.eq_or_neg (P := (⟨x, y, m1⟩ : R255E)) (Q := R) yy
      refine fpSign.eq_of_sq ?_ hxn hR.nx
      rcases this with h | h
      · have h' : (x : Fp) = R.x := congrArg EdPt.x h
        rw [h']
      · have h' : (x : Fp) = -R.x := congrArg EdPt.x h
        rw [h']; ring
    have c2 : isNeg (mul x y) = false := by
      rw [← Bool.not_eq_true, isNeg_iff (mul_lt _ _), not_not, mul_cast, xx, yy]
      exact hR.nt
    have c3 : (y == 0) = false := by
      rw [← Bool.not_eq_true, beq_iff hyl p_pos, Nat.cast_zero, yy]
      exact hR.ny
    rw [c1, c2, c3, if_neg (by decide)]
    unfold R255E.coords
    rw [← xx, ← yy, ZMod.val_natCast_of_lt hxl, ZMod.val_natCast_of_lt hyl]

/-! ### the map from field elements -/

/-- the map after the root -/
def mapFrom (s v N : Nat) : WPoint :=
  ⟨(divMod r255P (mul (mul 2 s) v * add 1 (mul s s) : Nat) (mul N sqrtADm1 * add 1 (mul s s) : Nat)).toNat,
    (divMod r255P (sub 1 (mul s s) * mul N sqrtADm1 : Nat) (mul N sqrtADm1 * add 1 (mul s s) : Nat)).toNat⟩

theorem mapFrom_even {s v N : Nat} (hN : (N : Fp) ≠ 0) (hs : 1 + (s : Fp) ^ 2 ≠ 0)
    (on : ∀ x y : Fp, x * (N * sqrtADm1) = 2 * s * v → y * (1 + (s : Fp) ^ 2) = 1 - (s : Fp) ^ 2 →
      y ^ 2 - x ^ 2 = 1 + r255C.d * x ^ 2 * y ^ 2) : R255Legal (mapFrom s v N) := by
  have hw3 : ((add 1 (mul s s) : Nat) : Fp) = 1 + (s : Fp) ^ 2 := by
    rw [add_cast, mul_cast, Nat.cast_one]; ring
  have hw1 : ((mul N sqrtADm1 : Nat) : Fp) = N * sqrtADm1 := mul_cast _ _
  have hden : (((mul N sqrtADm1 * add 1 (mul s s) : Nat) : Int) : Fp) = N * sqrtADm1 * (1 + (s : Fp) ^ 2) := by
    rw [Int.cast_natCast, Nat.cast_mul, hw1, hw3]
  have hne : (N : Fp) * sqrtADm1 * (1 + (s : Fp) ^ 2) ≠ 0 := mul_ne_zero (mul_ne_zero hN c_ne) hs
  have hd0 : (((mul N sqrtADm1 * add 1 (mul s s) : Nat) : Int) : Fp) ≠ 0 := by rw [hden]; exact hne
  have hx : ((mapFrom s v N).x : Fp) * (N * sqrtADm1) = 2 * s * v := by
    show (((divMod r255P _ _).toNat : ℕ) : Fp) * _ = _
    rw [divMod_cast hd0, hden, Int.cast_natCast, Nat.cast_mul, hw3, mul_cast, mul_cast, mul_div_mul_right _ _ hs,
      div_mul_cancel₀ _ (mul_ne_zero hN c_ne)]
    push_cast
    ring
  have hy : ((mapFrom s v N).y : Fp) * (1 + (s : Fp) ^ 2) = 1 - (s : Fp) ^ 2 := by
    show (((divMod r255P _ _).toNat : ℕ) : Fp) * _ = _
    rw [divMod_cast hd0, hden, Int.cast_natCast, Nat.cast_mul, hw1, sub_cast, mul_cast, mul_comm (N * sqrtADm1 : Fp),
      mul_div_mul_right _ _ (mul_ne_zero hN c_ne), div_mul_cancel₀ _ hs]
    push_cast
    ring
  have hl : EdLegal (mapFrom s v N) := ⟨divMod_lt _ _, divMod_lt _ _, on _ _ hx hy⟩
  obtain ⟨Q, hQ⟩ := EdPt.even_of_rel (R := hl.pt) (s := (s : Fp)) _ c_cast c_ne nonsq_mul (by rw [hl.pt_y]; linear_combination hy)
  exact r255Legal_of hl Q hQ

theorem d_ne_one : (r255D : Fp) ≠ 1 := by
  intro h
  have : ((r255D : Nat) : Fp) = ((1 : Nat) : Fp) := by rw [h, Nat.cast_one]
  exact absurd (cast_inj (by decide +kernel) (by decide +kernel) this) (by decide +kernel)

/-- **every value of the map is the double of a point** -/
theorem map_even (t : Nat) : R255Legal (map t) := by
  obtain ⟨r, hr⟩ : ∃ r, r = mul sqrtM1 (mul t t) := ⟨_, rfl⟩
  obtain ⟨u, hu⟩ : ∃ u, u = mul (add r 1) (sub 1 (mul r255D r255D)) := ⟨_, rfl⟩
  obtain ⟨v, hv⟩ : ∃ v, v = mul (sub (neg 1) (mul r r255D)) (add r r255D) := ⟨_, rfl⟩
  obtain ⟨q, hq⟩ : ∃ q, q = sqrtRatio u v := ⟨_, rfl⟩
  obtain ⟨s, hs⟩ : ∃ s, s = if q.1 then q.2 else neg (abs (mul q.2 t)) := ⟨_, rfl⟩
  obtain ⟨N, hN⟩ : ∃ N, N = sub (mul (mul (if q.1 then neg 1 else r) (sub r 1)) (mul (sub r255D 1) (sub r255D 1))) v := ⟨_, rfl⟩
  have e : map t = mapFrom s v N := by
    rw [hN, hs, hq, hv, hu, hr]; rfl
  rw [e]
  have hi := i_cast
  have hrc : (r : Fp) = sqrtM1 * (t : Fp) ^ 2 := by rw [hr, mul_cast, mul_cast]; ring
  have huc : (u : Fp) = (r + 1) * (1 - r255D * r255D) := by rw [hu, mul_cast, add_cast, sub_cast, mul_cast, Nat.cast_one]
  have hvc : (v : Fp) = (-1 - r * r255D) * (r + r255D) := by rw [hv, mul_cast, sub_cast, neg_cast, mul_cast, add_cast, Nat.cast_one]
  have hul : u < r255P := by rw [hu]; exact mul_lt _ _
  obtain ⟨-, -, s1, s2, s3⟩ := sqrtRatio_spec (u := u) (v := v) hul
  rw [← hq] at s1 s2 s3
  by_cases hv0 : (v : Fp) = 0
  · -- division by zero: the identity
    have hd0 : (r255D : Fp) ≠ 0 := EdPt.d_ne (C := r255C)
    have hd1 := d_ne_one
    have hdm : (-1 - r255D : Fp) ≠ 0 := ad_ne
    have hr0 : (r : Fp) ≠ 0 ∧ (r : Fp) ≠ 1 ∧ (r : Fp) ≠ -1 := by
      rw [hvc] at hv0
      rcases mul_eq_zero.mp hv0 with h | h
      · refine ⟨?_, ?_, ?_⟩ <;> intro h' <;> rw [h'] at h
        · rw [zero_mul, sub_zero, neg_eq_zero] at h
          exact one_ne_zero h
        · exact hdm (by linear_combination h)
        · exact hd1 (by linear_combination h)
      · refine ⟨?_, ?_, ?_⟩ <;> intro h' <;> rw [h'] at h
        · exact hd0 (by linear_combination h)
        · exact hdm (by linear_combination -h)
        · exact hd1 (by linear_combination h)
    have hu0 : (u : Fp) ≠ 0 := by
      rw [huc]
      refine mul_ne_zero (fun h => hr0.2.2 (by linear_combination h)) ?_
      intro h
      have : (-1 - r255D : Fp) * (r255D - 1) = 0 := by linear_combination h
      exact (mul_ne_zero hdm (sub_ne_zero.mpr hd1)) this
    have hq1 : q.1 = false := by
      rw [← Bool.not_eq_true]
      intro h
      apply hu0
      rw [← s1 h, hv0, zero_mul]
    have hq2 := s3 hv0
    rw [hq1] at hs hN
    have hs0 : (s : Fp) = 0 := by
      rw [hs, hq2, if_neg (by decide), neg_cast]
      have : abs (mul 0 t) = 0 := by unfold mul; rw [zero_mul, Nat.zero_mod]; rfl
      rw [this, Nat.cast_zero, neg_zero]
    have hNc : (N : Fp) = r * (r - 1) * ((r255D - 1) * (r255D - 1)) := by
      rw [hN, if_neg (by decide), sub_cast, hv0]
      simp only [mul_cast, sub_cast, Nat.cast_one]
      ring
    have hN0 : (N : Fp) ≠ 0 := by
      rw [hNc]
      have h1 := sub_ne_zero.mpr hd1
      exact mul_ne_zero (mul_ne_zero hr0.1 (sub_ne_zero.mpr hr0.2.1)) (mul_ne_zero h1 h1)
    refine mapFrom_even hN0 (by rw [hs0]; simp) ?_
    intro x y hx hy
    rw [hs0] at hx hy
    have hx0 : x = 0 := (mul_eq_zero.mp (show x * (N * sqrtADm1) = 0 by linear_combination hx)).resolve_right (mul_ne_zero hN0 c_ne)
    have hy1 : y = 1 := by linear_combination hy
    rw [hx0, hy1]; ring
  · have hquartic : (-(r255C.d * (1 - (s : Fp) ^ 2) ^ 2) - (1 + (s : Fp) ^ 2) ^ 2) * (v : Fp) ^ 2 = (-1 - r255C.d) * (N : Fp) ^ 2 := by
      cases hq1 : q.1 with
      | true =>
        rw [hq1] at hs hN
        rw [if_pos rfl] at hs hN
        refine EdPt.map_square (r := (r : Fp)) huc hvc ?_ ?_
        · rw [hN, sub_cast]
          simp only [mul_cast, sub_cast, neg_cast, Nat.cast_one]
          rfl
        · rw [hs]; exact s1 hq1
      | false =>
        rw [hq1] at hs hN
        rw [if_neg (by decide)] at hs hN
        refine EdPt.map_nonsquare (r := (r : Fp)) huc hvc ?_ ?_
        · rw [hN, sub_cast]
          simp only [mul_cast, sub_cast, Nat.cast_one]
          rfl
        · have h1 := (s2 hq1).2 hv0
          have h2 : (s : Fp) ^ 2 = (q.2 : Fp) ^ 2 * (t : Fp) ^ 2 := by
            rw [hs, neg_cast, neg_sq, (abs_spec (mul_lt _ _)).2, mul_cast]; ring
          rw [h2, hrc]
          linear_combination (t : Fp) ^ 2 * h1
    obtain ⟨n1, n2, n3⟩ := EdPt.map_on _ c_cast hv0 hquartic
    exact mapFrom_even n1 n2 n3

theorem fromPieces_even : ∀ l : List Bytes, R255Legal (fromPieces l)
  | [] => ⟨edZero_legal, edZero, edZero_legal, by decide +kernel⟩
  | [_] => map_even _
  | _ :: c :: bs => (r255Add_spec (map_even _) (fromPieces_even (c :: bs))).1

theorem fromUniform_even (b : Bytes) : R255Legal (fromUniform b) := fromPieces_even _

/-! ### bytes -/

theorem p_lt : r255P < 256 ^ 32 := by decide +kernel

theorem toBytes_length {s : Nat} (h : s < r255P) : (toBytes s).length = 32 := by
  unfold toBytes
  rw [List.length_reverse, fillBytes_length (h.trans p_lt)]

theorem ofBytes_toBytes (s : Nat) : ofBytes (toBytes s) = s := by
  unfold ofBytes toBytes
  rw [List.reverse_reverse, setBytes_fillBytes]

theorem toBytes_ofBytes {b : Bytes} (h : b.length = 32) : toBytes (ofBytes b) = b := by
  unfold ofBytes toBytes
  rw [← List.reverse_inj, List.reverse_reverse]
  have hlt : setBytes b.reverse < 256 ^ 32 := by
    have := setBytes_lt b.reverse
    rwa [List.length_reverse, h] at this
  refine setBytes_inj ?_ (setBytes_fillBytes _ _)
  rw [fillBytes_length hlt, List.length_reverse, h]

theorem toBytes_inj {s t : Nat} (h : toBytes s = toBytes t) : s = t := by
  rw [← ofBytes_toBytes s, h, ofBytes_toBytes]

theorem nn_cast {s : Nat} (h : s < r255P) : fpSign.nn (s : Fp) ↔ s % 2 = 0 := by
  show (s : Fp).val % 2 = 0 ↔ _
  rw [ZMod.val_natCast_of_lt h]

/-! ### encoding and decoding -/

theorem decode_iff (b : Bytes) (Q : WPoint) : decode b = some Q ↔
    b.length = 32 ∧ ofBytes b < r255P ∧ ∃ h : EdLegal Q, EdPt.EncRep fpSign h.pt (ofBytes b : Fp) := by
  unfold decode
  by_cases hl : b.length = 32
  · rw [if_pos hl]
    dsimp only
    by_cases hs : ofBytes b < r255P
    · by_cases hn : fpSign.nn (ofBytes b : Fp)
      · have hb : isNeg (ofBytes b) = false := by rw [← Bool.not_eq_true, isNeg_iff hs, not_not]; exact hn
        rw [hb, if_pos (by simpa using hs)]
        obtain ⟨d1, d2⟩ := decodeS_spec hn
        constructor
        · exact fun h => ⟨hl, hs, d1 Q h⟩
        · rintro ⟨-, -, h, e⟩
          rw [d2 _ e]
          congr 1
          exact EdLegal.inj (coords_legal _) h (coords_pt _)
      · have hb : isNeg (ofBytes b) = true := (isNeg_iff hs).mpr hn
        rw [hb, if_neg (by simp)]
        constructor
        · intro h; simp at h
        · rintro ⟨-, -, h, e⟩
          exact absurd e.ns hn
    · rw [if_neg (by simp [hs])]
      constructor
      · intro h; simp at h
      · rintro ⟨-, h, -⟩; exact absurd h hs
  · rw [if_neg hl]
    constructor
    · intro h; simp at h
    · rintro ⟨h, -⟩; exact absurd h hl

theorem R255Legal_of_rep {Q : WPoint} {s : Fp} (h : EdLegal Q) (e : EdPt.EncRep fpSign h.pt s) : R255Legal Q := by
  obtain ⟨A, hA⟩ := EdPt.even_of_rel _ c_cast c_ne nonsq_mul e.rel
  exact r255Legal_of h A hA

theorem encode_rep {P : WPoint} (hP : R255Legal P) :
    ∃ R : R255E, 4 • R = 4 • hP.1.pt ∧ EdPt.EncRep fpSign R (encodeS P : Fp) := encodeS_spec hP.1 hP.half

theorem encode_canonical {P Q : WPoint} (hP : R255Legal P) (hQ : R255Legal Q) : encode P = encode Q ↔ edEqual P Q = true := by
  obtain ⟨R, e1, r1⟩ := encode_rep hP
  obtain ⟨S, e2, r2⟩ := encode_rep hQ
  rw [edEqual_iff hP.1 hQ.1]
  constructor
  · intro h
    have hs := toBytes_inj h
    rw [hs] at r1
    rw [← e1, ← e2, r1.inj r2]
  · intro h
    have := (r1.unique r2 (by rw [e1, e2, h])).2
    unfold encode
    rw [cast_inj (encodeS_lt P) (encodeS_lt Q) this]

theorem decode_encode {P : WPoint} (hP : R255Legal P) : ∃ Q, decode (encode P) = some Q ∧ edEqual P Q = true := by
  obtain ⟨R, e1, r1⟩ := encode_rep hP
  refine ⟨R255E.coords R, (decode_iff _ _).mpr ⟨toBytes_length (encodeS_lt P), ?_, coords_legal R, ?_⟩, ?_⟩
  · unfold encode; rw [ofBytes_toBytes]; exact encodeS_lt P
  · unfold encode; rw [ofBytes_toBytes, coords_pt]; exact r1
  · rw [edEqual_iff hP.1 (coords_legal R), coords_pt, e1]

theorem decode_even {b : Bytes} {Q : WPoint} (h : decode b = some Q) : R255Legal Q ∧ encode Q = b := by
  obtain ⟨hl, hs, hQ, e⟩ := (decode_iff _ _).mp h
  have hL := R255Legal_of_rep hQ e
  refine ⟨hL, ?_⟩
  obtain ⟨R, e1, r1⟩ := encode_rep hL
  have := (r1.unique e e1).2
  unfold encode
  rw [cast_inj (encodeS_lt Q) hs this, toBytes_ofBytes hl]

/-- the element accepted bytes stand for -/
noncomputable def decDen (b : {b : Bytes // (decode b).isSome = true}) : R255Group := r255Den ((decode b.1).get b.2)

theorem decDen_eq {b : Bytes} (h : (decode b).isSome = true) {Q : WPoint} (e : decode b = some Q) : decDen ⟨b, h⟩ = r255Den Q := by
  unfold decDen
  congr 1
  exact Option.get_of_eq_some h e

/-- accepted bytes and elements of the group are the same -/
theorem decode_card : Nat.card {b : Bytes // (decode b).isSome = true} = r255N := by
  rw [← r255Group_card]
  refine Nat.card_congr (Equiv.ofBijective decDen ⟨?_, ?_⟩)
  · rintro ⟨a, ha⟩ ⟨b, hb⟩ h
    obtain ⟨P, hP⟩ := Option.isSome_iff_exists.mp ha
    obtain ⟨Q, hQ⟩ := Option.isSome_iff_exists.mp hb
    rw [decDen_eq ha hP, decDen_eq hb hQ] at h
    obtain ⟨p1, p2⟩ := decode_even hP
    obtain ⟨q1, q2⟩ := decode_even hQ
    have := (encode_canonical p1 q1).mpr ((edEqual_den p1 q1).mpr h)
    rw [p2, q2] at this
    exact Subtype.ext this
  · intro M
    -- M is a multiple of the base point
    have hm : M ∈ AddSubgroup.zmultiples (r255Den edBase) := mem_zmultiples_of_prime_card r255Group_card r255Base_ne
    obtain ⟨k, hk⟩ := AddSubgroup.mem_zmultiples_iff.mp hm
    obtain ⟨P, l, d⟩ : ∃ P, R255Legal P ∧ r255Den P = k • r255Den edBase := ⟨_, r255Mul_spec edBase_even k⟩
    obtain ⟨Q, hQ, he⟩ := decode_encode l
    have hs : (decode (encode P)).isSome = true := by rw [hQ]; rfl
    have e1 := (edEqual_den l (decode_even hQ).1).mp he
    have e2 : r255Den Q = M := by rw [← e1, d, hk]
    exact ⟨⟨encode P, hs⟩, (decDen_eq hs hQ).trans e2⟩

end R255
end MscPoc
