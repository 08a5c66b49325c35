import Mathlib.AlgebraicGeometry.EllipticCurve.Affine.Point
import Mathlib.GroupTheory.Perm.Cycle.Type
import Mathlib.GroupTheory.SpecificGroups.Cyclic
import Mathlib.Algebra.Field.ZMod
import Mathlib.Tactic.FieldSimp
import Mathlib.Tactic.LinearCombination
import Verif.Lemmas.Prime

/-!
# Short Weierstrass curves over `ZMod p`: counting points

`y² = x³ + a x + b` without points of order two, together with one point of prime order `q > (2p + 1) / 3`, has exactly
`q` points: at most two points for every `x`, Lagrange, Cauchy.
-/

set_option autoImplicit false
set_option linter.unusedSectionVars false

namespace MscPoc

open WeierstrassCurve

/-- `y² = x³ + a x + b` -/
def swCurve {F : Type} [Field F] (a b : F) : Affine F := ⟨0, 0, 0, a, b⟩

section
variable {F : Type} [Field F] [DecidableEq F] {a b : F}

theorem sw_equation (x y : F) : (swCurve a b).Equation x y ↔ y ^ 2 = x ^ 3 + a * x + b := by
  rw [Affine.equation_iff]
  simp [swCurve]

theorem sw_nonsingular (h2 : (2 : F) ≠ 0) (hr : ∀ x : F, x ^ 3 + a * x + b ≠ 0) (x y : F) :
    (swCurve a b).Nonsingular x y ↔ y ^ 2 = x ^ 3 + a * x + b := by
  rw [Affine.nonsingular_iff', sw_equation]
  refine ⟨fun h => h.1, fun h => ⟨h, Or.inr ?_⟩⟩
  have hy : y ≠ 0 := by
    rintro rfl
    apply hr x
    rw [← h]; ring
  simp [swCurve, hy, h2]

theorem sw_nonsing_eq {x y : F} (h : (swCurve a b).Nonsingular x y) : y ^ 2 = x ^ 3 + a * x + b :=
  (sw_equation x y).mp h.1

theorem sw_negY (x y : F) : (swCurve a b).negY x y = -y := by
  simp [Affine.negY, swCurve]

theorem sw_y_ne (hr : ∀ x : F, x ^ 3 + a * x + b ≠ 0) {x y : F} (h : (swCurve a b).Nonsingular x y) : y ≠ 0 := by
  rintro rfl
  apply hr x
  rw [← sw_nonsing_eq h]; ring

/-- addition with a given slope -/
theorem sw_add_some {x₁ y₁ x₂ y₂ l x₃ y₃ : F} (h₁ : (swCurve a b).Nonsingular x₁ y₁) (h₂ : (swCurve a b).Nonsingular x₂ y₂)
    (hne : ¬(x₁ = x₂ ∧ y₁ = -y₂)) (hl : l = (swCurve a b).slope x₁ x₂ y₁ y₂)
    (hx : x₃ = l ^ 2 - x₁ - x₂) (hy : y₃ = l * (x₁ - x₃) - y₁) :
    ∃ h₃ : (swCurve a b).Nonsingular x₃ y₃, Affine.Point.some x₁ y₁ h₁ + Affine.Point.some x₂ y₂ h₂ = Affine.Point.some x₃ y₃ h₃ := by
  have hne' : ¬(x₁ = x₂ ∧ y₁ = (swCurve a b).negY x₂ y₂) := by rwa [sw_negY]
  have e := Affine.Point.add_some hne' (h₁ := h₁) (h₂ := h₂)
  have ex : (swCurve a b).addX x₁ x₂ ((swCurve a b).slope x₁ x₂ y₁ y₂) = x₃ := by
    rw [← hl, hx]; simp [Affine.addX, swCurve]
  have ey : (swCurve a b).addY x₁ x₂ y₁ ((swCurve a b).slope x₁ x₂ y₁ y₂) = y₃ := by
    rw [Affine.addY, sw_negY, Affine.negAddY, ex, ← hl, hy]; ring
  have h₃ : (swCurve a b).Nonsingular x₃ y₃ := by
    have := Affine.nonsingular_add h₁ h₂ hne'
    rwa [ex, ey] at this
  refine ⟨h₃, e.trans ?_⟩
  congr 1

theorem sw_slope_dbl (h2 : (2 : F) ≠ 0) {x y : F} (hy : y ≠ 0) :
    (swCurve a b).slope x x y y = (3 * x ^ 2 + a) / (2 * y) := by
  rw [Affine.slope_of_Y_ne rfl]
  · rw [sw_negY]
    simp only [swCurve]
    congr 1 <;> ring
  · rw [sw_negY]
    intro h
    apply hy
    have : 2 * y = 0 := by linear_combination h
    simpa [h2] using this

theorem sw_slope_add {x₁ y₁ x₂ y₂ : F} (hx : x₁ ≠ x₂) :
    (swCurve a b).slope x₁ x₂ y₁ y₂ = (y₁ - y₂) / (x₁ - x₂) := Affine.slope_of_X_ne hx

/-- doubling -/
theorem sw_dbl (h2 : (2 : F) ≠ 0) (hr : ∀ x : F, x ^ 3 + a * x + b ≠ 0) {x y l x₃ y₃ : F} (h : (swCurve a b).Nonsingular x y)
    (hl : l * (2 * y) = 3 * x ^ 2 + a) (hx : x₃ = l ^ 2 - x - x) (hy : y₃ = l * (x - x₃) - y) :
    ∃ h₃ : (swCurve a b).Nonsingular x₃ y₃, Affine.Point.some x y h + Affine.Point.some x y h = Affine.Point.some x₃ y₃ h₃ := by
  have y0 := sw_y_ne hr h
  refine sw_add_some h h ?_ ?_ hx hy
  · rintro ⟨_, e⟩
    apply y0
    have : 2 * y = 0 := by linear_combination e
    simpa [h2] using this
  · rw [sw_slope_dbl h2 y0, eq_div_iff (mul_ne_zero h2 y0), hl]

/-- addition of points with different `x` -/
theorem sw_add {x₁ y₁ x₂ y₂ l x₃ y₃ : F} (h₁ : (swCurve a b).Nonsingular x₁ y₁) (h₂ : (swCurve a b).Nonsingular x₂ y₂)
    (hne : x₁ ≠ x₂) (hl : l * (x₁ - x₂) = y₁ - y₂) (hx : x₃ = l ^ 2 - x₁ - x₂) (hy : y₃ = l * (x₁ - x₃) - y₁) :
    ∃ h₃ : (swCurve a b).Nonsingular x₃ y₃, Affine.Point.some x₁ y₁ h₁ + Affine.Point.some x₂ y₂ h₂ = Affine.Point.some x₃ y₃ h₃ := by
  refine sw_add_some h₁ h₂ (fun e => hne e.1) ?_ hx hy
  rw [sw_slope_add hne, eq_div_iff (sub_ne_zero.mpr hne), hl]

/-! ## Jacobian coordinates -/

/-- `(X : Y : Z)` are Jacobian coordinates of `P ≠ 0` -/
def JacRep (P : (swCurve a b).Point) (X Y Z : F) : Prop :=
  Z ≠ 0 ∧ ∃ h : (swCurve a b).Nonsingular (X / Z ^ 2) (Y / Z ^ 3), P = Affine.Point.some _ _ h

theorem JacRep.dbl (h2 : (2 : F) ≠ 0) (hr : ∀ x : F, x ^ 3 + a * x + b ≠ 0) {P : (swCurve a b).Point} {X Y Z X' Y' Z' S M : F}
    (h : JacRep P X Y Z) (hS : S = 4 * X * Y ^ 2) (hM : M = 3 * X ^ 2 + a * Z ^ 4) (hX : X' = M ^ 2 - 2 * S)
    (hY : Y' = M * (S - X') - 8 * Y ^ 4) (hZ : Z' = 2 * Y * Z) : JacRep (P + P) X' Y' Z' := by
  obtain ⟨z0, hn, rfl⟩ := h
  have y0 : Y ≠ 0 := by
    rintro rfl
    exact sw_y_ne hr hn (by simp)
  have z0' : Z' ≠ 0 := by rw [hZ]; exact mul_ne_zero (mul_ne_zero h2 y0) z0
  refine ⟨z0', sw_dbl h2 hr hn (l := M / Z') ?_ ?_ ?_⟩
  · rw [hM, hZ]; field_simp
  · rw [hX, hS, hM, hZ]; field_simp; ring
  · rw [hY, hX, hS, hM, hZ]; field_simp; ring

theorem JacRep.add {P : (swCurve a b).Point} {X Y Z X' Y' Z' H r gx gy : F} (hg : (swCurve a b).Nonsingular gx gy)
    (h : JacRep P X Y Z) (hH : H = gx * Z ^ 2 - X) (hr : r = gy * Z ^ 3 - Y) (hX : X' = r ^ 2 - H ^ 3 - 2 * X * H ^ 2)
    (hY : Y' = r * (X * H ^ 2 - X') - Y * H ^ 3) (hZ : Z' = Z * H) (h0 : H ≠ 0) :
    JacRep (P + Affine.Point.some gx gy hg) X' Y' Z' := by
  obtain ⟨z0, hn, rfl⟩ := h
  have z0' : Z' ≠ 0 := by rw [hZ]; exact mul_ne_zero z0 h0
  have hne : X / Z ^ 2 ≠ gx := by
    intro e
    apply h0
    rw [hH, ← e]; field_simp; ring
  have hXZ : X = gx * Z ^ 2 - H := by rw [hH]; ring
  have hYZ : Y = gy * Z ^ 3 - r := by rw [hr]; ring
  refine ⟨z0', sw_add hn hg hne (l := r / Z') ?_ ?_ ?_⟩
  · rw [hZ, hXZ, hYZ]; field_simp; ring
  · rw [hX, hXZ, hZ]; field_simp; ring
  · rw [hY, hX, hXZ, hYZ, hZ]; field_simp

/-! ## Counting -/

theorem sw_two_torsion (h2 : (2 : F) ≠ 0) (hr : ∀ x : F, x ^ 3 + a * x + b ≠ 0) (P : (swCurve a b).Point) (h : P + P = 0) : P = 0 := by
  cases P with
  | zero => rfl
  | some x y hn =>
    exfalso
    have y0 := sw_y_ne hr hn
    obtain ⟨h3, e⟩ := sw_dbl h2 hr hn (l := (3 * x ^ 2 + a) / (2 * y)) (by field_simp) rfl rfl
    rw [e] at h
    exact Affine.Point.some_ne_zero _ h

open Classical in
/-- a point as its `x` and one bit -/
noncomputable def sw_code (P : (swCurve a b).Point) : Option (F × Bool) :=
  match P with
  | .zero => none
  | .some x y _ => some (x, decide (∃ h : ∃ y, y ^ 2 = x ^ 3 + a * x + b, y = h.choose))

theorem sw_code_injective : Function.Injective (sw_code (a := a) (b := b)) := by
  intro P Q h
  cases P with
  | zero => cases Q with
    | zero => rfl
    | some x y hn => simp [sw_code] at h
  | some x y hn => cases Q with
    | zero => simp [sw_code] at h
    | some x' y' hn' =>
      simp only [sw_code, Option.some.injEq, Prod.mk.injEq, decide_eq_decide] at h
      obtain ⟨rfl, h⟩ := h
      have e1 := sw_nonsing_eq hn
      have e2 := sw_nonsing_eq hn'
      have ex : ∃ y, y ^ 2 = x ^ 3 + a * x + b := ⟨y, e1⟩
      have e3 := ex.choose_spec
      have k : (y = ex.choose ↔ y' = ex.choose) := by
        constructor
        · intro e; exact (h.mp ⟨ex, e⟩).choose_spec
        · intro e; exact (h.mpr ⟨ex, e⟩).choose_spec
      have hy : y = y' := by
        have c1 : y = ex.choose ∨ y = -ex.choose := sq_eq_sq_iff_eq_or_eq_neg.mp (e1.trans e3.symm)
        have c2 : y' = ex.choose ∨ y' = -ex.choose := sq_eq_sq_iff_eq_or_eq_neg.mp (e2.trans e3.symm)
        by_cases c : y = ex.choose
        · rw [c, k.mp c]
        · rw [c1.resolve_left c, c2.resolve_left (fun e => c (k.mpr e))]
      subst hy
      rfl

theorem sw_finite [Finite F] : Finite (swCurve a b).Point := Finite.of_injective _ sw_code_injective

theorem sw_card_le [Finite F] : Nat.card (swCurve a b).Point ≤ 2 * Nat.card F + 1 := by
  have := Nat.card_le_card_of_injective _ (sw_code_injective (a := a) (b := b))
  refine this.trans ?_
  have : Fintype F := Fintype.ofFinite F
  rw [Nat.card_eq_fintype_card, Nat.card_eq_fintype_card, Fintype.card_option, Fintype.card_prod, Fintype.card_bool]
  omega

/-- The number of points. -/
theorem sw_card [Finite F] (h2 : (2 : F) ≠ 0) (hr : ∀ x : F, x ^ 3 + a * x + b ≠ 0) {q : ℕ} (hq : q.Prime)
    (hb : 2 * Nat.card F + 1 < 3 * q) (G : (swCurve a b).Point) (hG : G ≠ 0) (hqG : q • G = 0) :
    Nat.card (swCurve a b).Point = q := by
  have := sw_finite (a := a) (b := b)
  have ho : addOrderOf G = q := by
    have : Fact q.Prime := ⟨hq⟩
    exact addOrderOf_eq_prime hqG hG
  have hd : q ∣ Nat.card (swCurve a b).Point := ho ▸ addOrderOf_dvd_natCard G
  have hle := sw_card_le (a := a) (b := b)
  obtain ⟨k, hk⟩ := hd
  have hpos : 0 < Nat.card (swCurve a b).Point := Nat.card_pos
  have k3 : k < 3 := by
    by_contra hc
    have : q * 3 ≤ q * k := Nat.mul_le_mul_left _ (by omega)
    omega
  have k0 : k ≠ 0 := by rintro rfl; omega
  have k2 : k ≠ 2 := by
    rintro rfl
    have : Fact (Nat.Prime 2) := ⟨Nat.prime_two⟩
    obtain ⟨x, hx⟩ := exists_prime_addOrderOf_dvd_card' (G := (swCurve a b).Point) 2 ⟨q, by rw [hk, mul_comm]⟩
    have e : x + x = 0 := by
      have := addOrderOf_nsmul_eq_zero x
      rwa [hx, two_nsmul] at this
    have := sw_two_torsion h2 hr x e
    rw [this, addOrderOf_zero] at hx
    omega
  have : k = 1 := by omega
  rw [hk, this, mul_one]

/-- every point is a multiple of the generator -/
theorem sw_cyclic {q : ℕ} (hq : q.Prime) (hc : Nat.card (swCurve a b).Point = q) (G : (swCurve a b).Point) (hG : G ≠ 0)
    (P : (swCurve a b).Point) : ∃ k : ℕ, k < q ∧ P = k • G := by
  have : Fact q.Prime := ⟨hq⟩
  have hfin : Finite (swCurve a b).Point := Nat.finite_of_card_ne_zero (by rw [hc]; exact hq.ne_zero)
  have hm : P ∈ AddSubgroup.zmultiples G := mem_zmultiples_of_prime_card hc hG
  have ho : addOrderOf G = q := addOrderOf_eq_prime (by rw [← hc]; exact card_nsmul_eq_zero') hG
  rw [← mem_multiples_iff_mem_zmultiples, AddSubmonoid.mem_multiples_iff] at hm
  obtain ⟨k, hk⟩ := hm
  refine ⟨k % q, Nat.mod_lt _ hq.pos, ?_⟩
  rw [← hk, ← ho, mod_addOrderOf_nsmul]

end
end MscPoc
