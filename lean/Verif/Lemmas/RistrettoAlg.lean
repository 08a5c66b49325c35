import Verif.Lemmas.Edwards

/-!
# Algebra of Ristretto encodings over any field
-/

set_option autoImplicit false

namespace MscPoc

/-- a choice of sign: of `x` and `-x` one is non-negative -/
structure FieldSign (F : Type) [Field F] where
  nn : F → Prop
  zero : nn 0
  total : ∀ x, nn x ∨ nn (-x)
  anti : ∀ x, nn x → nn (-x) → x = 0

namespace FieldSign
variable {F : Type} [Field F] (σ : FieldSign F)

theorem eq_of_sq {x y : F} (h : x ^ 2 = y ^ 2) (hx : σ.nn x) (hy : σ.nn y) : x = y := by
  rcases sq_eq_sq_iff_eq_or_eq_neg.mp h with h | h
  · exact h
  · have : y = 0 := σ.anti y hy (h ▸ hx)
    rw [h, this, neg_zero]

end FieldSign

namespace EdPt
variable {F : Type} [Field F] {C : EdCurve F}

/-- the non-negative `s` encodes the point, which is the distinguished one of its class -/
structure EncRep (σ : FieldSign F) (R : EdPt C) (s : F) : Prop where
  nx : σ.nn R.x
  nt : σ.nn (R.x * R.y)
  ny : R.y ≠ 0
  ns : σ.nn s
  rel : s ^ 2 * (1 + R.y) = 1 - R.y

/-- `1 + d y²` does not vanish -/
theorem dy_ne (y : F) : 1 + C.d * y ^ 2 ≠ 0 := by
  intro h
  have hy : y ≠ 0 := by rintro rfl; simp at h
  refine C.d_nonsq ⟨C.i / y, ?_⟩
  have hi := C.i_sq
  rw [div_mul_div_comm, hi, eq_div_iff (mul_ne_zero hy hy)]
  linear_combination h

/-- points with the same `y` differ by the sign of `x` -/
theorem eq_or_neg {P Q : EdPt C} (h : P.y = Q.y) : P = Q ∨ P = -Q := by
  have h1 := P.on
  have h2 := Q.on
  have hx : P.x ^ 2 = Q.x ^ 2 := by
    have hd := dy_ne (C := C) Q.y
    rw [h] at h1
    refine mul_right_cancel₀ hd ?_
    linear_combination h2 - h1
  rcases sq_eq_sq_iff_eq_or_eq_neg.mp hx with e | e
  · exact Or.inl (EdPt.ext e h)
  · exact Or.inr (EdPt.ext e h)

theorem y_of_rel {y y' s : F} (h2 : (2 : F) ≠ 0) (h : s ^ 2 * (1 + y) = 1 - y) (h' : s ^ 2 * (1 + y') = 1 - y') : y = y' := by
  have hs : 1 + s ^ 2 ≠ 0 := by
    intro h0
    apply h2
    linear_combination (1 + y) * h0 - h
  refine mul_right_cancel₀ hs ?_
  linear_combination h - h'

theorem EncRep.inj {σ : FieldSign F} {R R' : EdPt C} {s : F} (h : EncRep σ R s) (h' : EncRep σ R' s) : R = R' := by
  have hy := y_of_rel C.two_ne h.rel h'.rel
  rcases eq_or_neg hy with e | e
  · exact e
  · have hx : R.x = -R'.x := by rw [e]; rfl
    have h0 := σ.anti R'.x h'.nx (hx ▸ h.nx)
    refine EdPt.ext ?_ hy
    rw [hx, h0, neg_zero]

theorem x_zero {R : EdPt C} (h : R.x = 0) : R.y = 1 ∨ R.y = -1 := by
  have := R.on
  rw [h] at this
  exact sq_eq_one_iff_of_ne this
where
  sq_eq_one_iff_of_ne {y d : F} (h : y ^ 2 - (0 : F) ^ 2 = 1 + d * (0 : F) ^ 2 * y ^ 2) : y = 1 ∨ y = -1 := by
    have : (y - 1) * (y + 1) = 0 := by linear_combination h
    rcases mul_eq_zero.mp this with h | h
    · exact Or.inl (by linear_combination h)
    · exact Or.inr (by linear_combination h)

theorem rel_ne {y s : F} (h2 : (2 : F) ≠ 0) (h : s ^ 2 * (1 + y) = 1 - y) : y ≠ -1 := by
  rintro rfl
  apply h2
  linear_combination -h

theorem EncRep.unique {σ : FieldSign F} {R R' : EdPt C} {s s' : F} (h : EncRep σ R s) (h' : EncRep σ R' s') (e : 4 • R = 4 • R') :
    R = R' ∧ s = s' := by
  have hR : R = R' := by
    rcases (ristretto_iff R R').mp ((ristretto_eq R R').mpr e) with rfl | rfl | rfl | rfl
    · rfl
    · exfalso
      have hx := h'.nx
      rw [add_t2_x] at hx
      have hx0 := σ.anti _ h.nx hx
      have r' := h'.rel
      rw [add_t2_y] at r'
      rcases x_zero hx0 with hy | hy
      · exact rel_ne C.two_ne r' (by rw [hy])
      · exact rel_ne C.two_ne h.rel hy
    · exfalso
      have ht := h'.nt
      rw [add_t4_x, add_t4_y, show C.i * R.y * (C.i * R.x) = -(R.x * R.y) by linear_combination R.x * R.y * C.i_sq] at ht
      have := σ.anti _ h.nt ht
      rcases mul_eq_zero.mp this with h0 | h0
      · apply h'.ny
        rw [add_t4_y, h0, mul_zero]
      · exact h.ny h0
    · exfalso
      have ht := h'.nt
      rw [add_t2_x, add_t2_y, add_t4_x, add_t4_y,
        show -(C.i * R.y) * -(C.i * R.x) = -(R.x * R.y) by linear_combination R.x * R.y * C.i_sq] at ht
      have := σ.anti _ h.nt ht
      rcases mul_eq_zero.mp this with h0 | h0
      · apply h'.ny
        rw [add_t2_y, add_t4_y, h0, mul_zero, neg_zero]
      · exact h.ny h0
  subst hR
  refine ⟨rfl, σ.eq_of_sq ?_ h.ns h'.ns⟩
  have h1 : 1 + R.y ≠ 0 := by
    intro h0
    exact rel_ne C.two_ne h.rel (by linear_combination h0)
  refine mul_right_cancel₀ h1 ?_
  rw [h.rel, h'.rel]

/-! ### doubles -/

/-- `(1 - y²)(1 + x²) = -(1 + d) x² y²` -/
theorem key (R : EdPt C) : (1 - R.y ^ 2) * (1 + R.x ^ 2) = (-1 - C.d) * R.x ^ 2 * R.y ^ 2 := by
  have := R.on
  linear_combination -this

/-- for a double, `1 - y²` is a square times `-1 - d` -/
theorem double_sq (Q : EdPt C) : ∃ z, 1 - (Q + Q).y ^ 2 = (-1 - C.d) * z ^ 2 := by
  have hd := den2 Q Q
  have on := Q.on
  refine ⟨2 * Q.x * Q.y / (1 - C.d * Q.x * Q.x * Q.y * Q.y), ?_⟩
  have e : (Q + Q).y * (1 - C.d * Q.x * Q.x * Q.y * Q.y) = Q.y * Q.y + Q.x * Q.x := div_mul_cancel₀ _ hd
  rw [div_pow]
  refine mul_right_cancel₀ (pow_ne_zero 2 hd) ?_
  rw [mul_assoc (-1 - C.d), div_mul_cancel₀ _ (pow_ne_zero 2 hd)]
  linear_combination (-((Q + Q).y * (1 - C.d * Q.x * Q.x * Q.y * Q.y)) - (Q.y * Q.y + Q.x * Q.x)) * e +
    (3 - C.d * Q.x ^ 2 * Q.y ^ 2 - Q.y ^ 2 + Q.x ^ 2) * on + 4 * key Q

/-- the point whose double has the given `s`, from a root of the quadratic equation for its `x²` -/
theorem half_of_root (c : F) (hc : c ^ 2 = -1 - C.d) (hc0 : c ≠ 0) {R : EdPt C} {s q : F} (hs : s ≠ 0)
    (rel : s ^ 2 * (1 + R.y) = 1 - R.y) (root : s ^ 2 * (1 + q ^ 2) * (1 - C.d * q ^ 2) = c ^ 2 * q ^ 2) :
    ∃ Q : EdPt C, R = Q + Q := by
  have hq : q ≠ 0 := by
    rintro rfl
    apply hs
    have : s ^ 2 = 0 := by linear_combination root
    exact pow_eq_zero_iff (two_ne_zero) |>.mp this
  have hX : 1 + q ^ 2 ≠ 0 := by
    intro h
    have : c ^ 2 * q ^ 2 = 0 := by linear_combination s ^ 2 * (1 - C.d * q ^ 2) * h - root
    rcases mul_eq_zero.mp this with h | h
    · exact hc0 (pow_eq_zero_iff two_ne_zero |>.mp h)
    · exact hq (pow_eq_zero_iff two_ne_zero |>.mp h)
  obtain ⟨y, hy⟩ : ∃ y, y * (c * q) = s * (1 + q ^ 2) := ⟨s * (1 + q ^ 2) / (c * q), div_mul_cancel₀ _ (mul_ne_zero hc0 hq)⟩
  have hy2 : y ^ 2 * (c ^ 2 * q ^ 2) = s ^ 2 * (1 + q ^ 2) ^ 2 := by
    linear_combination (y * (c * q) + s * (1 + q ^ 2)) * hy
  have hcq : c ^ 2 * q ^ 2 ≠ 0 := mul_ne_zero (pow_ne_zero 2 hc0) (pow_ne_zero 2 hq)
  have on : y ^ 2 - q ^ 2 = 1 + C.d * q ^ 2 * y ^ 2 := by
    have : y ^ 2 * (1 - C.d * q ^ 2) = 1 + q ^ 2 := by
      refine mul_right_cancel₀ hcq ?_
      linear_combination (1 - C.d * q ^ 2) * hy2 + (1 + q ^ 2) * root
    linear_combination this
  let Q : EdPt C := ⟨q, y, on⟩
  have h1 : 1 - y ^ 2 = s ^ 2 * (1 + q ^ 2) := by
    refine mul_right_cancel₀ hX ?_
    have := key Q
    change (1 - y ^ 2) * (1 + q ^ 2) = (-1 - C.d) * q ^ 2 * y ^ 2 at this
    rw [this, ← hc]
    linear_combination hy2
  have hD : 1 - C.d * q * q * y * y ≠ 0 := den2 Q Q
  have relQ : s ^ 2 * (1 + (Q + Q).y) = 1 - (Q + Q).y := by
    have e : (Q + Q).y * (1 - C.d * q * q * y * y) = y * y + q * q := div_mul_cancel₀ _ hD
    refine mul_right_cancel₀ hD ?_
    linear_combination (s ^ 2 + 1) * e + (s ^ 2 - 1) * on - 2 * h1
  rcases eq_or_neg (y_of_rel C.two_ne rel relQ) with e | e
  · exact ⟨Q, e⟩
  · exact ⟨-Q, by rw [e, neg_add]⟩

/-- **halving**: a point with `(1 - y) = s² (1 + y)` is a double -/
theorem even_of_rel (c : F) (hc : c ^ 2 = -1 - C.d) (hc0 : c ≠ 0)
    (nonsq : ∀ a b : F, ¬ IsSquare a → ¬ IsSquare b → IsSquare (a * b))
    {R : EdPt C} {s : F} (rel : s ^ 2 * (1 + R.y) = 1 - R.y) : ∃ Q : EdPt C, R = Q + Q := by
  have h2 := C.two_ne
  have hd0 := d_ne (C := C)
  by_cases hs : s = 0
  · refine ⟨0, ?_⟩
    have hy : R.y = (0 : EdPt C).y := by
      rw [hs] at rel
      rw [zero_y]
      linear_combination rel
    rw [add_zero]
    rcases eq_or_neg hy with e | e
    · exact e
    · rw [e, neg_zero]
  have hx : R.x ≠ 0 := by
    intro h0
    rcases x_zero h0 with hy | hy
    · apply hs
      rw [hy] at rel
      have : s ^ 2 = 0 := (mul_eq_zero.mp (show s ^ 2 * 2 = 0 by linear_combination rel)).resolve_right h2
      exact pow_eq_zero_iff two_ne_zero |>.mp this
    · exact rel_ne h2 rel hy
  -- a root of v
  obtain ⟨w, hw⟩ : ∃ w, w * R.x = 2 * s := ⟨2 * s / R.x, div_mul_cancel₀ _ hx⟩
  have h1s : 1 + s ^ 2 ≠ 0 := by
    intro h0
    apply h2
    linear_combination (1 + R.y) * h0 - rel
  have hw2 : w ^ 2 = -C.d * (1 - s ^ 2) ^ 2 - (1 + s ^ 2) ^ 2 := by
    have hy : R.y * (1 + s ^ 2) = 1 - s ^ 2 := by linear_combination rel
    have on := R.on
    refine mul_right_cancel₀ (pow_ne_zero 2 hx) ?_
    have : w ^ 2 * R.x ^ 2 = 4 * s ^ 2 := by linear_combination (w * R.x + 2 * s) * hw
    rw [this]
    linear_combination (-(1 + s ^ 2) ^ 2) * on + (1 - C.d * R.x ^ 2) * (R.y * (1 + s ^ 2) + 1 - s ^ 2) * hy
  have hds : 2 * C.d * s ^ 2 ≠ 0 := mul_ne_zero (mul_ne_zero h2 hd0) (pow_ne_zero 2 hs)
  -- the two candidates for x²
  have cand : ∀ e : F, e ^ 2 = 1 → IsSquare ((-c ^ 2 + s ^ 2 * (1 - C.d) + e * c * w) / (2 * C.d * s ^ 2)) → ∃ Q : EdPt C, R = Q + Q := by
    rintro e he ⟨q, hq⟩
    rw [div_eq_iff hds] at hq
    refine half_of_root c hc hc0 (q := q) hs rel ?_
    have h4 : 4 * C.d * s ^ 2 ≠ 0 := by
      have := mul_ne_zero h2 hds
      intro h
      apply this
      linear_combination h
    refine mul_left_cancel₀ h4 ?_
    linear_combination (2 * C.d * s ^ 2 * q ^ 2 - (s ^ 2 * (1 - C.d) - c ^ 2) + e * c * w) * hq - c ^ 2 * w ^ 2 * he - c ^ 2 * hw2 -
      (-C.d * (1 - s ^ 2) ^ 2 - (1 + s ^ 2) ^ 2 + 2 * s ^ 2 * (1 - C.d) - c ^ 2 + 1 + C.d) * hc
  by_contra hno
  have n1 : ¬ IsSquare ((-c ^ 2 + s ^ 2 * (1 - C.d) + 1 * c * w) / (2 * C.d * s ^ 2)) := fun h => hno (cand 1 (by ring) h)
  have n2 : ¬ IsSquare ((-c ^ 2 + s ^ 2 * (1 - C.d) + (-1) * c * w) / (2 * C.d * s ^ 2)) := fun h => hno (cand (-1) (by ring) h)
  obtain ⟨z, hz⟩ := nonsq _ _ n1 n2
  apply C.d_nonsq
  have hp : (-c ^ 2 + s ^ 2 * (1 - C.d) + 1 * c * w) / (2 * C.d * s ^ 2) *
      ((-c ^ 2 + s ^ 2 * (1 - C.d) + (-1) * c * w) / (2 * C.d * s ^ 2)) * C.d = -1 := by
    rw [div_mul_div_comm, div_mul_eq_mul_div, div_eq_iff (mul_ne_zero hds hds)]
    linear_combination -C.d * c ^ 2 * hw2 - C.d * (-C.d * (1 - s ^ 2) ^ 2 - (1 + s ^ 2) ^ 2 + 2 * s ^ 2 * (1 - C.d) - c ^ 2 + 1 + C.d) * hc
  rw [hz] at hp
  have hz0 : z ≠ 0 := by
    rintro rfl
    simp at hp
  refine ⟨C.i / z, ?_⟩
  rw [div_mul_div_comm, C.i_sq, eq_div_iff (mul_ne_zero hz0 hz0), ← hp]
  ring

/-! ### what the encoder computes -/

theorem enc_plain {σ : FieldSign F} {R : EdPt C} {isr s : F} (h : (1 - R.y ^ 2) * (R.x * R.y) ^ 2 * isr ^ 2 = 1)
    (nt : σ.nn (R.x * R.y)) (nx : σ.nn R.x) (ns : σ.nn s) (hs : s ^ 2 = (isr * (R.x * R.y) * (1 - R.y)) ^ 2) : EncRep σ R s where
  nx := nx
  nt := nt
  ny := by
    intro h0
    rw [h0] at h
    simp at h
  ns := ns
  rel := by linear_combination (1 + R.y) * hs + (1 - R.y) * h

theorem enc_rotated {σ : FieldSign F} {R R' : EdPt C} {isr s k : F} (h : (1 - R.y ^ 2) * (R.x * R.y) ^ 2 * isr ^ 2 = 1)
    (hk : k ^ 2 * (-1 - C.d) = 1) (hy : R'.y ^ 2 = -R.x ^ 2)
    (nt : σ.nn (R'.x * R'.y)) (nx : σ.nn R'.x) (ns : σ.nn s) (hs : s ^ 2 = (isr * (1 - R.y ^ 2) * k * (1 - R'.y)) ^ 2) :
    EncRep σ R' s where
  nx := nx
  nt := nt
  ny := by
    intro h0
    rw [h0] at hy
    have hx : R.x ^ 2 = 0 := by linear_combination hy
    rw [mul_pow, hx] at h
    simp at h
  ns := ns
  rel := by
    have := key R
    linear_combination (1 + R'.y) * hs - isr ^ 2 * (1 - R.y ^ 2) ^ 2 * k ^ 2 * (1 - R'.y) * hy +
      isr ^ 2 * (1 - R.y ^ 2) * k ^ 2 * (1 - R'.y) * this + isr ^ 2 * (1 - R.y ^ 2) * (1 - R'.y) * R.x ^ 2 * R.y ^ 2 * hk +
      (1 - R'.y) * h

/-- the class of the identity -/
theorem enc_zero (σ : FieldSign F) : EncRep σ (0 : EdPt C) 0 where
  nx := σ.zero
  nt := by rw [zero_x, zero_mul]; exact σ.zero
  ny := by rw [zero_y]; exact one_ne_zero
  ns := σ.zero
  rel := by rw [zero_y]; ring

theorem four_of_zero {R : EdPt C} (h : R.x * R.y = 0) : 4 • (0 : EdPt C) = 4 • R := by
  refine ((ristretto_eq R 0).mp ?_).symm
  rw [zero_x, zero_y]
  rcases mul_eq_zero.mp h with h | h
  · left; rw [h]; ring
  · right; rw [h]; ring

theorem y_sq_ne_one {R : EdPt C} (hc0 : -1 - C.d ≠ 0) (h : R.x * R.y ≠ 0) : 1 - R.y ^ 2 ≠ 0 := by
  intro h0
  have := key R
  rw [h0, zero_mul] at this
  have h1 : (-1 - C.d) * (R.x * R.y) ^ 2 = 0 := by linear_combination -this
  rcases mul_eq_zero.mp h1 with h1 | h1
  · exact hc0 h1
  · exact h (pow_eq_zero_iff two_ne_zero |>.mp h1)

/-! ### what the decoder computes -/

/-- `v` of the decoder is a square if `s` encodes a point -/
theorem dec_sq (c : F) (hc : c ^ 2 = -1 - C.d) (hc0 : c ≠ 0) {R : EdPt C} {s : F} (rel : s ^ 2 * (1 + R.y) = 1 - R.y) :
    ∃ w, w ≠ 0 ∧ -(C.d * (1 - s ^ 2) ^ 2) - (1 + s ^ 2) ^ 2 = w ^ 2 := by
  have h2 := C.two_ne
  by_cases hs : s = 0
  · refine ⟨c, hc0, ?_⟩
    rw [hs, hc]
    ring
  have hx : R.x ≠ 0 := by
    intro h0
    rcases x_zero h0 with hy | hy
    · apply hs
      rw [hy] at rel
      have : s ^ 2 = 0 := (mul_eq_zero.mp (show s ^ 2 * 2 = 0 by linear_combination rel)).resolve_right h2
      exact pow_eq_zero_iff two_ne_zero |>.mp this
    · exact rel_ne h2 rel hy
  obtain ⟨w, hw⟩ : ∃ w, w * R.x = 2 * s := ⟨2 * s / R.x, div_mul_cancel₀ _ hx⟩
  refine ⟨w, ?_, ?_⟩
  · rintro rfl
    rw [zero_mul] at hw
    exact mul_ne_zero h2 hs hw.symm
  · have hy : R.y * (1 + s ^ 2) = 1 - s ^ 2 := by linear_combination rel
    have on := R.on
    refine mul_right_cancel₀ (pow_ne_zero 2 hx) ?_
    have : w ^ 2 * R.x ^ 2 = 4 * s ^ 2 := by linear_combination (w * R.x + 2 * s) * hw
    rw [this]
    linear_combination (1 + s ^ 2) ^ 2 * on - (1 - C.d * R.x ^ 2) * (R.y * (1 + s ^ 2) + 1 - s ^ 2) * hy

theorem one_add_ne {y s : F} (h2 : (2 : F) ≠ 0) (rel : s ^ 2 * (1 + y) = 1 - y) : 1 + s ^ 2 ≠ 0 := by
  intro h0
  apply h2
  linear_combination (1 + y) * h0 - rel

/-- the decoded coordinates -/
theorem dec_on {d s v r x y : F} (hv : v = -(d * (1 - s ^ 2) ^ 2) - (1 + s ^ 2) ^ 2) (hr : v * (1 + s ^ 2) ^ 2 * r ^ 2 = 1)
    (hx : x ^ 2 = (2 * s * (r * (1 + s ^ 2))) ^ 2) (hy : y = (1 - s ^ 2) * (r * (r * (1 + s ^ 2)) * v)) :
    y ^ 2 - x ^ 2 = 1 + d * x ^ 2 * y ^ 2 ∧ s ^ 2 * (1 + y) = 1 - y := by
  have h1 : y * (1 + s ^ 2) = 1 - s ^ 2 := by rw [hy]; linear_combination (1 - s ^ 2) * hr
  have h2 : v * x ^ 2 = 4 * s ^ 2 := by rw [hx]; linear_combination 4 * s ^ 2 * hr
  have hu : (1 + s ^ 2) ^ 2 ≠ 0 := by
    intro h0
    rw [h0] at hr
    simp at hr
  refine ⟨?_, by linear_combination h1⟩
  refine mul_right_cancel₀ hu ?_
  rw [hv] at h2
  linear_combination (1 - d * x ^ 2) * (y * (1 + s ^ 2) + 1 - s ^ 2) * h1 + h2

/-! ### the map -/

/-- the point given by `s` on the Jacobi quartic -/
theorem map_on (c : F) (hc : c ^ 2 = -1 - C.d) {s v N : F} (hv : v ≠ 0)
    (h : (-(C.d * (1 - s ^ 2) ^ 2) - (1 + s ^ 2) ^ 2) * v ^ 2 = (-1 - C.d) * N ^ 2) :
    N ≠ 0 ∧ 1 + s ^ 2 ≠ 0 ∧ ∀ x y : F, x * (N * c) = 2 * s * v → y * (1 + s ^ 2) = 1 - s ^ 2 →
      y ^ 2 - x ^ 2 = 1 + C.d * x ^ 2 * y ^ 2 := by
  have h2 := C.two_ne
  have hi := C.i_sq
  have hN : N ≠ 0 := by
    rintro rfl
    have h0 : -(C.d * (1 - s ^ 2) ^ 2) - (1 + s ^ 2) ^ 2 = 0 := by
      refine (mul_eq_zero.mp (show (-(C.d * (1 - s ^ 2) ^ 2) - (1 + s ^ 2) ^ 2) * v ^ 2 = 0 by linear_combination h)).resolve_right ?_
      exact pow_ne_zero 2 hv
    by_cases h1 : 1 - s ^ 2 = 0
    · apply h2
      have h3 : (1 + s ^ 2) ^ 2 = 0 := by linear_combination -h0 - C.d * (1 - s ^ 2) * h1
      have h4 : 1 + s ^ 2 = 0 := pow_eq_zero_iff two_ne_zero |>.mp h3
      linear_combination h1 + h4
    · refine C.d_nonsq ⟨C.i * (1 + s ^ 2) / (1 - s ^ 2), ?_⟩
      rw [div_mul_div_comm, eq_div_iff (mul_ne_zero h1 h1)]
      linear_combination -h0 - (1 + s ^ 2) ^ 2 * hi
  have hs : 1 + s ^ 2 ≠ 0 := by
    intro h0
    refine C.d_nonsq ⟨C.i * c * N / (2 * v), ?_⟩
    have h2v : 2 * v ≠ 0 := mul_ne_zero h2 hv
    rw [div_mul_div_comm, eq_div_iff (mul_ne_zero h2v h2v)]
    linear_combination -h - c ^ 2 * N ^ 2 * hi + N ^ 2 * hc + (C.d * (3 - s ^ 2) * v ^ 2 - (1 + s ^ 2) * v ^ 2) * h0
  refine ⟨hN, hs, fun x y hx hy => ?_⟩
  have hx2 : x ^ 2 * ((-(C.d * (1 - s ^ 2) ^ 2) - (1 + s ^ 2) ^ 2) * v ^ 2) = 4 * s ^ 2 * v ^ 2 := by
    rw [h, ← hc]
    linear_combination (x * (N * c) + 2 * s * v) * hx
  have hx3 : x ^ 2 * (-(C.d * (1 - s ^ 2) ^ 2) - (1 + s ^ 2) ^ 2) = 4 * s ^ 2 := by
    refine mul_right_cancel₀ (pow_ne_zero 2 hv) ?_
    linear_combination hx2
  refine mul_right_cancel₀ (pow_ne_zero 2 hs) ?_
  linear_combination (1 - C.d * x ^ 2) * (y * (1 + s ^ 2) + 1 - s ^ 2) * hy + hx3

/-- the two cases of the map lie on the quartic -/
theorem map_square {d r s v u N : F} (hu : u = (r + 1) * (1 - d * d)) (hv : v = (-1 - r * d) * (r + d))
    (hN : N = -1 * (r - 1) * ((d - 1) * (d - 1)) - v) (hs : v * s ^ 2 = u) :
    (-(d * (1 - s ^ 2) ^ 2) - (1 + s ^ 2) ^ 2) * v ^ 2 = (-1 - d) * N ^ 2 := by
  have h1 : v * (1 - s ^ 2) = v - u := by linear_combination -hs
  have h2 : v * (1 + s ^ 2) = v + u := by linear_combination hs
  calc (-(d * (1 - s ^ 2) ^ 2) - (1 + s ^ 2) ^ 2) * v ^ 2 = -(d * (v * (1 - s ^ 2)) ^ 2) - (v * (1 + s ^ 2)) ^ 2 := by ring
    _ = _ := by
      rw [h1, h2, hN, hu, hv]
      ring

theorem map_nonsquare {d r s v u N : F} (hu : u = (r + 1) * (1 - d * d)) (hv : v = (-1 - r * d) * (r + d))
    (hN : N = r * (r - 1) * ((d - 1) * (d - 1)) - v) (hs : v * s ^ 2 = r * u) :
    (-(d * (1 - s ^ 2) ^ 2) - (1 + s ^ 2) ^ 2) * v ^ 2 = (-1 - d) * N ^ 2 := by
  have h1 : v * (1 - s ^ 2) = v - r * u := by linear_combination -hs
  have h2 : v * (1 + s ^ 2) = v + r * u := by linear_combination hs
  calc (-(d * (1 - s ^ 2) ^ 2) - (1 + s ^ 2) ^ 2) * v ^ 2 = -(d * (v * (1 - s ^ 2)) ^ 2) - (v * (1 + s ^ 2)) ^ 2 := by ring
    _ = _ := by
      rw [h1, h2, hN, hu, hv]
      ring

end EdPt
end MscPoc
