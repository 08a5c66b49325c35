import Mathlib.Algebra.Field.Basic
import Mathlib.Algebra.Group.Even
import Mathlib.Tactic.FieldSimp
import Mathlib.Tactic.LinearCombination
import Mathlib.Tactic.Ring

/-!
# The group of a complete twisted Edwards curve `-x² + y² = 1 + d x² y²`

The addition law is complete because `-1` is a square and `d` is not (Bernstein, Birkner, Joye, Lange, Peters, *Twisted
Edwards curves*).  Associativity is a polynomial identity modulo the three curve equations (Hales, *The group law for
Edwards curves*).
-/

set_option autoImplicit false

namespace MscPoc

/-- coefficients of a complete curve `-x² + y² = 1 + d x² y²` -/
structure EdCurve (F : Type) [Field F] where
  d : F
  i : F
  two_ne : (2 : F) ≠ 0
  i_sq : i * i = -1
  d_nonsq : ¬ IsSquare d

/-- points of the curve -/
@[ext] structure EdPt {F : Type} [Field F] (C : EdCurve F) where
  x : F
  y : F
  on : y ^ 2 - x ^ 2 = 1 + C.d * x ^ 2 * y ^ 2

namespace EdPt
variable {F : Type} [Field F] {C : EdCurve F}

theorem d_ne : C.d ≠ 0 := by
  intro h
  exact C.d_nonsq ⟨0, by rw [h]; ring⟩

theorem i_ne : C.i ≠ 0 := by
  intro h
  have := C.i_sq
  rw [h] at this
  simp at this

/-- the denominators of the addition law do not vanish -/
theorem complete (P Q : EdPt C) (e : F) (he : e * e = 1) : C.d * P.x * Q.x * P.y * Q.y ≠ e := by
  obtain ⟨x₁, y₁, h1⟩ := P
  obtain ⟨x₂, y₂, h2⟩ := Q
  dsimp only
  intro h
  have he0 : e ≠ 0 := by rintro rfl; simp at he
  have hxy : x₁ * y₁ ≠ 0 := by
    intro h0
    apply he0
    rw [← h]
    linear_combination C.d * x₂ * y₂ * h0
  have key : ∀ s : F, s * s = 1 → (C.i * x₁ + s * e * y₁) ^ 2 = C.d * (x₁ * y₁ * (C.i * x₂ + s * y₂)) ^ 2 := by
    intro s hs
    have hi := C.i_sq
    linear_combination (x₁ ^ 2 - C.d * x₁ ^ 2 * y₁ ^ 2 * x₂ ^ 2) * hi + (e ^ 2 * y₁ ^ 2 - C.d * x₁ ^ 2 * y₁ ^ 2 * y₂ ^ 2) * hs +
      y₁ ^ 2 * he + h1 - C.d * x₁ ^ 2 * y₁ ^ 2 * h2 - (C.d * x₁ * x₂ * y₁ * y₂ + e + 2 * s * C.i * x₁ * y₁ * 1) * h - he
  have z : ∀ s : F, s * s = 1 → C.i * x₂ + s * y₂ = 0 := by
    intro s hs
    by_contra hne
    have h0 : x₁ * y₁ * (C.i * x₂ + s * y₂) ≠ 0 := mul_ne_zero hxy hne
    apply C.d_nonsq
    refine ⟨(C.i * x₁ + s * e * y₁) / (x₁ * y₁ * (C.i * x₂ + s * y₂)), ?_⟩
    rw [div_mul_div_comm, eq_div_iff (mul_ne_zero h0 h0)]
    linear_combination -key s hs
  have z1 := z 1 (by ring)
  have z2 := z (-1) (by ring)
  have y0 : y₂ = 0 := by
    have : (2 : F) * y₂ = 0 := by linear_combination z1 - z2
    exact (mul_eq_zero.mp this).resolve_left C.two_ne
  apply he0
  rw [← h, y0, mul_zero]

theorem den1 (P Q : EdPt C) : 1 + C.d * P.x * Q.x * P.y * Q.y ≠ 0 := by
  intro h
  exact complete P Q (-1) (by ring) (by linear_combination h)

theorem den2 (P Q : EdPt C) : 1 - C.d * P.x * Q.x * P.y * Q.y ≠ 0 := by
  intro h
  exact complete P Q 1 (by ring) (by linear_combination -h)

theorem closure (d x₁ y₁ x₂ y₂ : F) (h1 : y₁ ^ 2 - x₁ ^ 2 = 1 + d * x₁ ^ 2 * y₁ ^ 2)
    (h2 : y₂ ^ 2 - x₂ ^ 2 = 1 + d * x₂ ^ 2 * y₂ ^ 2) (n1 : 1 + d * x₁ * x₂ * y₁ * y₂ ≠ 0) (n2 : 1 - d * x₁ * x₂ * y₁ * y₂ ≠ 0) :
    ((y₁ * y₂ + x₁ * x₂) / (1 - d * x₁ * x₂ * y₁ * y₂)) ^ 2 - ((x₁ * y₂ + y₁ * x₂) / (1 + d * x₁ * x₂ * y₁ * y₂)) ^ 2 =
    1 + d * ((x₁ * y₂ + y₁ * x₂) / (1 + d * x₁ * x₂ * y₁ * y₂)) ^ 2 * ((y₁ * y₂ + x₁ * x₂) / (1 - d * x₁ * x₂ * y₁ * y₂)) ^ 2 := by
  have h1' : y₁ ^ 2 - x₁ ^ 2 - 1 - d * x₁ ^ 2 * y₁ ^ 2 = 0 := by linear_combination h1
  have h2' : y₂ ^ 2 - x₂ ^ 2 - 1 - d * x₂ ^ 2 * y₂ ^ 2 = 0 := by linear_combination h2
  have key : (y₁ * y₂ + x₁ * x₂) ^ 2 * (1 + d * x₁ * x₂ * y₁ * y₂) ^ 2 - (x₁ * y₂ + y₁ * x₂) ^ 2 * (1 - d * x₁ * x₂ * y₁ * y₂) ^ 2 =
      (1 - d * x₁ * x₂ * y₁ * y₂) ^ 2 * (1 + d * x₁ * x₂ * y₁ * y₂) ^ 2 +
        d * (x₁ * y₂ + y₁ * x₂) ^ 2 * (y₁ * y₂ + x₁ * x₂) ^ 2 := by
    linear_combination
      (y₂^4-4*x₂^2*y₂^2-2*x₂^2*y₂^2*d+2*x₂^2*y₂^4+x₂^4-2*x₂^4*y₂^2-2*x₂^4*y₂^4*d-x₂^4*y₂^4*d^2-y₁^2*x₂^2*y₂^4*d
      +y₁^2*x₂^4*y₂^2*d+y₁^2*x₂^4*y₂^4*d^2+x₁^2*x₂^2*y₂^4*d-x₁^2*x₂^4*y₂^2*d-x₁^2*x₂^4*y₂^4*d^2
      +x₁^2*y₁^2*x₂^4*y₂^4*d^3) * h1' +
      (1+y₂^2-x₂^2+2*x₂^2*y₂^2+x₂^2*y₂^2*d-y₁^2*y₂^2+y₁^2*x₂^2-2*y₁^2*x₂^2*y₂^2-2*y₁^2*x₂^2*y₂^2*d+y₁^4*x₂^2*y₂^2*d
      +x₁^2*y₂^2-x₁^2*x₂^2+2*x₁^2*x₂^2*y₂^2+2*x₁^2*x₂^2*y₂^2*d+x₁^4*x₂^2*y₂^2*d) * h2'
  generalize 1 + d * x₁ * x₂ * y₁ * y₂ = m at *
  generalize 1 - d * x₁ * x₂ * y₁ * y₂ = n at *
  generalize x₁ * y₂ + y₁ * x₂ = a at *
  generalize y₁ * y₂ + x₁ * x₂ = b at *
  field_simp
  linear_combination key

instance : Zero (EdPt C) := ⟨⟨0, 1, by ring⟩⟩

instance : Neg (EdPt C) := ⟨fun P => ⟨-P.x, P.y, by have := P.on; linear_combination this⟩⟩

instance : Add (EdPt C) := ⟨fun P Q =>
  ⟨(P.x * Q.y + P.y * Q.x) / (1 + C.d * P.x * Q.x * P.y * Q.y), (P.y * Q.y + P.x * Q.x) / (1 - C.d * P.x * Q.x * P.y * Q.y),
    closure C.d P.x P.y Q.x Q.y P.on Q.on (den1 P Q) (den2 P Q)⟩⟩

theorem zero_x : (0 : EdPt C).x = 0 := rfl
theorem zero_y : (0 : EdPt C).y = 1 := rfl
theorem neg_x (P : EdPt C) : (-P).x = -P.x := rfl
theorem neg_y (P : EdPt C) : (-P).y = P.y := rfl
theorem add_x (P Q : EdPt C) : (P + Q).x = (P.x * Q.y + P.y * Q.x) / (1 + C.d * P.x * Q.x * P.y * Q.y) := rfl
theorem add_y (P Q : EdPt C) : (P + Q).y = (P.y * Q.y + P.x * Q.x) / (1 - C.d * P.x * Q.x * P.y * Q.y) := rfl

/-- the sum of three points over a common denominator -/
theorem triple (d x₁ y₁ x₂ y₂ x₃ y₃ : F) (n1 : 1 + d * x₁ * x₂ * y₁ * y₂ ≠ 0) (n2 : 1 - d * x₁ * x₂ * y₁ * y₂ ≠ 0)
    (X Y : F) (hX : X = (x₁ * y₂ + y₁ * x₂) / (1 + d * x₁ * x₂ * y₁ * y₂))
    (hY : Y = (y₁ * y₂ + x₁ * x₂) / (1 - d * x₁ * x₂ * y₁ * y₂)) (m1 : 1 + d * X * x₃ * Y * y₃ ≠ 0) (m2 : 1 - d * X * x₃ * Y * y₃ ≠ 0) :
    ((1 - d * x₁ * x₂ * y₁ * y₂) * (1 + d * x₁ * x₂ * y₁ * y₂) + d * (x₁ * y₂ + y₁ * x₂) * (y₁ * y₂ + x₁ * x₂) * x₃ * y₃ ≠ 0 ∧
      (X * y₃ + Y * x₃) / (1 + d * X * x₃ * Y * y₃) =
        ((x₁ * y₂ + y₁ * x₂) * (1 - d * x₁ * x₂ * y₁ * y₂) * y₃ + (y₁ * y₂ + x₁ * x₂) * (1 + d * x₁ * x₂ * y₁ * y₂) * x₃) /
        ((1 - d * x₁ * x₂ * y₁ * y₂) * (1 + d * x₁ * x₂ * y₁ * y₂) + d * (x₁ * y₂ + y₁ * x₂) * (y₁ * y₂ + x₁ * x₂) * x₃ * y₃)) ∧
    ((1 - d * x₁ * x₂ * y₁ * y₂) * (1 + d * x₁ * x₂ * y₁ * y₂) - d * (x₁ * y₂ + y₁ * x₂) * (y₁ * y₂ + x₁ * x₂) * x₃ * y₃ ≠ 0 ∧
      (Y * y₃ + X * x₃) / (1 - d * X * x₃ * Y * y₃) =
        ((y₁ * y₂ + x₁ * x₂) * (1 + d * x₁ * x₂ * y₁ * y₂) * y₃ + (x₁ * y₂ + y₁ * x₂) * (1 - d * x₁ * x₂ * y₁ * y₂) * x₃) /
        ((1 - d * x₁ * x₂ * y₁ * y₂) * (1 + d * x₁ * x₂ * y₁ * y₂) - d * (x₁ * y₂ + y₁ * x₂) * (y₁ * y₂ + x₁ * x₂) * x₃ * y₃)) := by
  rw [eq_div_iff n1] at hX
  rw [eq_div_iff n2] at hY
  generalize hD : d * x₁ * x₂ * y₁ * y₂ = D at *
  generalize x₁ * y₂ + y₁ * x₂ = a at *
  generalize y₁ * y₂ + x₁ * x₂ = b at *
  subst hX hY
  have e1 : (1 - D) * (1 + D) + d * (X * (1 + D)) * (Y * (1 - D)) * x₃ * y₃ = (1 - D) * (1 + D) * (1 + d * X * x₃ * Y * y₃) := by ring
  have e2 : (1 - D) * (1 + D) - d * (X * (1 + D)) * (Y * (1 - D)) * x₃ * y₃ = (1 - D) * (1 + D) * (1 - d * X * x₃ * Y * y₃) := by ring
  rw [e1, e2]
  refine ⟨⟨mul_ne_zero (mul_ne_zero n2 n1) m1, ?_⟩, mul_ne_zero (mul_ne_zero n2 n1) m2, ?_⟩
  · rw [div_eq_div_iff m1 (mul_ne_zero (mul_ne_zero n2 n1) m1)]; ring
  · rw [div_eq_div_iff m2 (mul_ne_zero (mul_ne_zero n2 n1) m2)]; ring

theorem assoc_x (d x₁ y₁ x₂ y₂ x₃ y₃ : F) (h1 : y₁ ^ 2 - x₁ ^ 2 - 1 - d * x₁ ^ 2 * y₁ ^ 2 = 0)
    (h2 : y₂ ^ 2 - x₂ ^ 2 - 1 - d * x₂ ^ 2 * y₂ ^ 2 = 0) (h3 : y₃ ^ 2 - x₃ ^ 2 - 1 - d * x₃ ^ 2 * y₃ ^ 2 = 0) :
    ((x₁ * y₂ + y₁ * x₂) * (1 - d * x₁ * x₂ * y₁ * y₂) * y₃ + (y₁ * y₂ + x₁ * x₂) * (1 + d * x₁ * x₂ * y₁ * y₂) * x₃) *
      ((1 - d * x₂ * x₃ * y₂ * y₃) * (1 + d * x₂ * x₃ * y₂ * y₃) + d * (x₂ * y₃ + y₂ * x₃) * (y₂ * y₃ + x₂ * x₃) * x₁ * y₁) =
    ((x₂ * y₃ + y₂ * x₃) * (1 - d * x₂ * x₃ * y₂ * y₃) * y₁ + (y₂ * y₃ + x₂ * x₃) * (1 + d * x₂ * x₃ * y₂ * y₃) * x₁) *
      ((1 - d * x₁ * x₂ * y₁ * y₂) * (1 + d * x₁ * x₂ * y₁ * y₂) + d * (x₁ * y₂ + y₁ * x₂) * (y₁ * y₂ + x₁ * x₂) * x₃ * y₃) := by
  linear_combination
    (-y₁*x₂*y₂^4*x₃^2*y₃*d-y₁*x₂^2*y₂^3*x₃*d-y₁*x₂^2*y₂^3*x₃^3*d-y₁*x₂^3*y₂^2*y₃*d+y₁*x₂^3*y₂^2*y₃^3*d
      +y₁*x₂^3*y₂^4*x₃^2*y₃*d^2+y₁*x₂^4*y₂*x₃*y₃^2*d+y₁*x₂^4*y₂^3*x₃*y₃^2*d^2+x₁*x₂*y₂^4*x₃*y₃^2*d-x₁*x₂^2*y₂^3*y₃*d
      +x₁*x₂^2*y₂^3*y₃^3*d-x₁*x₂^3*y₂^2*x₃*d-x₁*x₂^3*y₂^2*x₃^3*d-x₁*x₂^3*y₂^4*x₃*y₃^2*d^2-x₁*x₂^4*y₂*x₃^2*y₃*d
      -x₁*x₂^4*y₂^3*x₃^2*y₃*d^2) * h1 +
    (y₁*y₂*x₃-y₁*y₂*x₃*y₃^2+y₁*y₂*x₃^3+y₁*y₂*x₃^3*y₃^2*d+y₁*x₂*y₃-y₁*x₂*y₃^3+y₁*x₂*x₃^2*y₃+y₁*x₂*x₃^2*y₃^3*d
      -y₁*x₂*y₂^2*x₃^2*y₃*d-y₁*x₂^2*y₂*x₃*y₃^2*d-y₁^3*y₂*x₃+y₁^3*y₂*x₃*y₃^2-y₁^3*y₂*x₃^3-y₁^3*y₂*x₃^3*y₃^2*d
      -y₁^3*x₂*y₃+y₁^3*x₂*y₃^3-y₁^3*x₂*x₃^2*y₃-y₁^3*x₂*x₃^2*y₃^3*d+y₁^3*x₂*y₂^2*x₃^2*y₃*d+y₁^3*x₂^2*y₂*x₃*y₃^2*d
      +x₁*y₂*y₃-x₁*y₂*y₃^3+x₁*y₂*x₃^2*y₃+x₁*y₂*x₃^2*y₃^3*d+x₁*x₂*x₃-x₁*x₂*x₃*y₃^2+x₁*x₂*x₃^3+x₁*x₂*x₃^3*y₃^2*d
      +x₁*x₂*y₂^2*x₃*y₃^2*d+x₁*x₂^2*y₂*x₃^2*y₃*d-x₁*y₁^2*y₂*y₃+x₁*y₁^2*y₂*y₃^3-x₁*y₁^2*y₂*x₃^2*y₃
      -x₁*y₁^2*y₂*x₃^2*y₃^3*d-x₁*y₁^2*x₂*x₃+x₁*y₁^2*x₂*x₃*y₃^2-x₁*y₁^2*x₂*x₃^3-x₁*y₁^2*x₂*x₃^3*y₃^2*d
      -x₁*y₁^2*x₂*y₂^2*x₃*y₃^2*d+x₁*y₁^2*x₂*y₂^2*x₃^3*y₃^2*d^2-x₁*y₁^2*x₂^2*y₂*x₃^2*y₃*d
      -x₁*y₁^2*x₂^2*y₂*x₃^2*y₃^3*d^2+x₁^2*y₁*y₂*x₃-x₁^2*y₁*y₂*x₃*y₃^2+x₁^2*y₁*y₂*x₃^3+x₁^2*y₁*y₂*x₃^3*y₃^2*d
      +x₁^2*y₁*x₂*y₃-x₁^2*y₁*x₂*y₃^3+x₁^2*y₁*x₂*x₃^2*y₃+x₁^2*y₁*x₂*x₃^2*y₃^3*d-x₁^2*y₁*x₂*y₂^2*x₃^2*y₃*d
      -x₁^2*y₁*x₂*y₂^2*x₃^2*y₃^3*d^2-x₁^2*y₁*x₂^2*y₂*x₃*y₃^2*d+x₁^2*y₁*x₂^2*y₂*x₃^3*y₃^2*d^2+x₁^3*y₂*y₃-x₁^3*y₂*y₃^3
      +x₁^3*y₂*x₃^2*y₃+x₁^3*y₂*x₃^2*y₃^3*d+x₁^3*x₂*x₃-x₁^3*x₂*x₃*y₃^2+x₁^3*x₂*x₃^3+x₁^3*x₂*x₃^3*y₃^2*d
      +x₁^3*x₂*y₂^2*x₃*y₃^2*d+x₁^3*x₂^2*y₂*x₃^2*y₃*d) * h2 +
    (-y₁*y₂*x₃+y₁*y₂^3*x₃-y₁*x₂*y₃+y₁*x₂*y₂^2*y₃-y₁*x₂^2*y₂*x₃-y₁*x₂^3*y₃+y₁^3*y₂*x₃-y₁^3*y₂^3*x₃+y₁^3*x₂*y₃
      -y₁^3*x₂*y₂^2*y₃+y₁^3*x₂^2*y₂*x₃+y₁^3*x₂^3*y₃-x₁*y₂*y₃+x₁*y₂^3*y₃-x₁*x₂*x₃+x₁*x₂*y₂^2*x₃-x₁*x₂^2*y₂*y₃
      -x₁*x₂^3*x₃+x₁*y₁^2*y₂*y₃-x₁*y₁^2*y₂^3*y₃+x₁*y₁^2*x₂*x₃-x₁*y₁^2*x₂*y₂^2*x₃-x₁*y₁^2*x₂*y₂^2*x₃*d
      +x₁*y₁^2*x₂^2*y₂*y₃+x₁*y₁^2*x₂^2*y₂*y₃*d+x₁*y₁^2*x₂^3*x₃-x₁^2*y₁*y₂*x₃+x₁^2*y₁*y₂^3*x₃-x₁^2*y₁*x₂*y₃
      +x₁^2*y₁*x₂*y₂^2*y₃+x₁^2*y₁*x₂*y₂^2*y₃*d-x₁^2*y₁*x₂^2*y₂*x₃-x₁^2*y₁*x₂^2*y₂*x₃*d-x₁^2*y₁*x₂^3*y₃-x₁^3*y₂*y₃
      +x₁^3*y₂^3*y₃-x₁^3*x₂*x₃+x₁^3*x₂*y₂^2*x₃-x₁^3*x₂^2*y₂*y₃-x₁^3*x₂^3*x₃) * h3

theorem assoc_y (d x₁ y₁ x₂ y₂ x₃ y₃ : F) (h1 : y₁ ^ 2 - x₁ ^ 2 - 1 - d * x₁ ^ 2 * y₁ ^ 2 = 0)
    (h2 : y₂ ^ 2 - x₂ ^ 2 - 1 - d * x₂ ^ 2 * y₂ ^ 2 = 0) (h3 : y₃ ^ 2 - x₃ ^ 2 - 1 - d * x₃ ^ 2 * y₃ ^ 2 = 0) :
    ((y₁ * y₂ + x₁ * x₂) * (1 + d * x₁ * x₂ * y₁ * y₂) * y₃ + (x₁ * y₂ + y₁ * x₂) * (1 - d * x₁ * x₂ * y₁ * y₂) * x₃) *
      ((1 - d * x₂ * x₃ * y₂ * y₃) * (1 + d * x₂ * x₃ * y₂ * y₃) - d * (x₂ * y₃ + y₂ * x₃) * (y₂ * y₃ + x₂ * x₃) * x₁ * y₁) =
    ((y₂ * y₃ + x₂ * x₃) * (1 + d * x₂ * x₃ * y₂ * y₃) * y₁ + (x₂ * y₃ + y₂ * x₃) * (1 - d * x₂ * x₃ * y₂ * y₃) * x₁) *
      ((1 - d * x₁ * x₂ * y₁ * y₂) * (1 + d * x₁ * x₂ * y₁ * y₂) - d * (x₁ * y₂ + y₁ * x₂) * (y₁ * y₂ + x₁ * x₂) * x₃ * y₃) := by
  linear_combination
    (y₁*x₂*y₂^4*x₃*y₃^2*d-y₁*x₂^2*y₂^3*y₃*d+y₁*x₂^2*y₂^3*y₃^3*d-y₁*x₂^3*y₂^2*x₃*d-y₁*x₂^3*y₂^2*x₃^3*d
      -y₁*x₂^3*y₂^4*x₃*y₃^2*d^2-y₁*x₂^4*y₂*x₃^2*y₃*d-y₁*x₂^4*y₂^3*x₃^2*y₃*d^2-x₁*x₂*y₂^4*x₃^2*y₃*d-x₁*x₂^2*y₂^3*x₃*d
      -x₁*x₂^2*y₂^3*x₃^3*d-x₁*x₂^3*y₂^2*y₃*d+x₁*x₂^3*y₂^2*y₃^3*d+x₁*x₂^3*y₂^4*x₃^2*y₃*d^2+x₁*x₂^4*y₂*x₃*y₃^2*d
      +x₁*x₂^4*y₂^3*x₃*y₃^2*d^2) * h1 +
    (y₁*y₂*y₃-y₁*y₂*y₃^3+y₁*y₂*x₃^2*y₃+y₁*y₂*x₃^2*y₃^3*d+y₁*x₂*x₃-y₁*x₂*x₃*y₃^2+y₁*x₂*x₃^3+y₁*x₂*x₃^3*y₃^2*d
      +y₁*x₂*y₂^2*x₃*y₃^2*d+y₁*x₂^2*y₂*x₃^2*y₃*d-y₁^3*y₂*y₃+y₁^3*y₂*y₃^3-y₁^3*y₂*x₃^2*y₃-y₁^3*y₂*x₃^2*y₃^3*d
      -y₁^3*x₂*x₃+y₁^3*x₂*x₃*y₃^2-y₁^3*x₂*x₃^3-y₁^3*x₂*x₃^3*y₃^2*d-y₁^3*x₂*y₂^2*x₃*y₃^2*d-y₁^3*x₂^2*y₂*x₃^2*y₃*d
      +x₁*y₂*x₃-x₁*y₂*x₃*y₃^2+x₁*y₂*x₃^3+x₁*y₂*x₃^3*y₃^2*d+x₁*x₂*y₃-x₁*x₂*y₃^3+x₁*x₂*x₃^2*y₃+x₁*x₂*x₃^2*y₃^3*d
      -x₁*x₂*y₂^2*x₃^2*y₃*d-x₁*x₂^2*y₂*x₃*y₃^2*d-x₁*y₁^2*y₂*x₃+x₁*y₁^2*y₂*x₃*y₃^2-x₁*y₁^2*y₂*x₃^3
      -x₁*y₁^2*y₂*x₃^3*y₃^2*d-x₁*y₁^2*x₂*y₃+x₁*y₁^2*x₂*y₃^3-x₁*y₁^2*x₂*x₃^2*y₃-x₁*y₁^2*x₂*x₃^2*y₃^3*d
      +x₁*y₁^2*x₂*y₂^2*x₃^2*y₃*d+x₁*y₁^2*x₂*y₂^2*x₃^2*y₃^3*d^2+x₁*y₁^2*x₂^2*y₂*x₃*y₃^2*d
      -x₁*y₁^2*x₂^2*y₂*x₃^3*y₃^2*d^2+x₁^2*y₁*y₂*y₃-x₁^2*y₁*y₂*y₃^3+x₁^2*y₁*y₂*x₃^2*y₃+x₁^2*y₁*y₂*x₃^2*y₃^3*d
      +x₁^2*y₁*x₂*x₃-x₁^2*y₁*x₂*x₃*y₃^2+x₁^2*y₁*x₂*x₃^3+x₁^2*y₁*x₂*x₃^3*y₃^2*d+x₁^2*y₁*x₂*y₂^2*x₃*y₃^2*d
      -x₁^2*y₁*x₂*y₂^2*x₃^3*y₃^2*d^2+x₁^2*y₁*x₂^2*y₂*x₃^2*y₃*d+x₁^2*y₁*x₂^2*y₂*x₃^2*y₃^3*d^2+x₁^3*y₂*x₃
      -x₁^3*y₂*x₃*y₃^2+x₁^3*y₂*x₃^3+x₁^3*y₂*x₃^3*y₃^2*d+x₁^3*x₂*y₃-x₁^3*x₂*y₃^3+x₁^3*x₂*x₃^2*y₃+x₁^3*x₂*x₃^2*y₃^3*d
      -x₁^3*x₂*y₂^2*x₃^2*y₃*d-x₁^3*x₂^2*y₂*x₃*y₃^2*d) * h2 +
    (-y₁*y₂*y₃+y₁*y₂^3*y₃-y₁*x₂*x₃+y₁*x₂*y₂^2*x₃-y₁*x₂^2*y₂*y₃-y₁*x₂^3*x₃+y₁^3*y₂*y₃-y₁^3*y₂^3*y₃+y₁^3*x₂*x₃
      -y₁^3*x₂*y₂^2*x₃+y₁^3*x₂^2*y₂*y₃+y₁^3*x₂^3*x₃-x₁*y₂*x₃+x₁*y₂^3*x₃-x₁*x₂*y₃+x₁*x₂*y₂^2*y₃-x₁*x₂^2*y₂*x₃
      -x₁*x₂^3*y₃+x₁*y₁^2*y₂*x₃-x₁*y₁^2*y₂^3*x₃+x₁*y₁^2*x₂*y₃-x₁*y₁^2*x₂*y₂^2*y₃-x₁*y₁^2*x₂*y₂^2*y₃*d
      +x₁*y₁^2*x₂^2*y₂*x₃+x₁*y₁^2*x₂^2*y₂*x₃*d+x₁*y₁^2*x₂^3*y₃-x₁^2*y₁*y₂*y₃+x₁^2*y₁*y₂^3*y₃-x₁^2*y₁*x₂*x₃
      +x₁^2*y₁*x₂*y₂^2*x₃+x₁^2*y₁*x₂*y₂^2*x₃*d-x₁^2*y₁*x₂^2*y₂*y₃-x₁^2*y₁*x₂^2*y₂*y₃*d-x₁^2*y₁*x₂^3*x₃-x₁^3*y₂*x₃
      +x₁^3*y₂^3*x₃-x₁^3*x₂*y₃+x₁^3*x₂*y₂^2*y₃-x₁^3*x₂^2*y₂*x₃-x₁^3*x₂^3*y₃) * h3

theorem on' (P : EdPt C) : P.y ^ 2 - P.x ^ 2 - 1 - C.d * P.x ^ 2 * P.y ^ 2 = 0 := by
  have := P.on
  linear_combination this

theorem add_comm' (P Q : EdPt C) : P + Q = Q + P := by
  ext
  · rw [add_x, add_x]
    congr 1 <;> ring
  · rw [add_y, add_y]
    congr 1 <;> ring

theorem add_assoc' (P Q R : EdPt C) : P + Q + R = P + (Q + R) := by
  rw [add_comm' P (Q + R)]
  obtain ⟨⟨a1, a2⟩, a3, a4⟩ := triple C.d P.x P.y Q.x Q.y R.x R.y (den1 P Q) (den2 P Q) (P + Q).x (P + Q).y rfl rfl
    (den1 (P + Q) R) (den2 (P + Q) R)
  obtain ⟨⟨b1, b2⟩, b3, b4⟩ := triple C.d Q.x Q.y R.x R.y P.x P.y (den1 Q R) (den2 Q R) (Q + R).x (Q + R).y rfl rfl
    (den1 (Q + R) P) (den2 (Q + R) P)
  ext
  · rw [add_x (P + Q), add_x (Q + R), a2, b2, div_eq_div_iff a1 b1]
    exact assoc_x C.d P.x P.y Q.x Q.y R.x R.y P.on' Q.on' R.on'
  · rw [add_y (P + Q), add_y (Q + R), a4, b4, div_eq_div_iff a3 b3]
    exact assoc_y C.d P.x P.y Q.x Q.y R.x R.y P.on' Q.on' R.on'

theorem zero_add' (P : EdPt C) : 0 + P = P := by
  ext
  · rw [add_x, zero_x, zero_y]; simp
  · rw [add_y, zero_x, zero_y]; simp

theorem neg_add' (P : EdPt C) : -P + P = 0 := by
  have h := P.on
  have n := den2 (-P) P
  rw [neg_x, neg_y] at n
  ext
  · rw [add_x, neg_x, neg_y, zero_x, div_eq_zero_iff]
    left; ring
  · rw [add_y, neg_x, neg_y, zero_y, div_eq_one_iff_eq n]
    linear_combination h

instance : AddCommGroup (EdPt C) where
  add_assoc := add_assoc'
  zero_add := zero_add'
  add_zero P := by rw [add_comm', zero_add']
  neg_add_cancel := neg_add'
  add_comm := add_comm'
  nsmul := nsmulRec
  zsmul := zsmulRec

/-! ## Torsion -/

/-- a point of order 4 -/
def t4 : EdPt C := ⟨C.i, 0, by have := C.i_sq; linear_combination -this⟩

/-- the point of order 2 -/
def t2 : EdPt C := ⟨0, -1, by ring⟩

theorem add_t2 (P : EdPt C) : P + t2 = ⟨-P.x, -P.y, by have := P.on; linear_combination this⟩ := by
  ext
  · rw [add_x]; simp [t2]
  · rw [add_y]; simp [t2]

theorem add_t4 (P : EdPt C) :
    P + t4 = ⟨C.i * P.y, C.i * P.x, by
      have := P.on; have hi := C.i_sq
      linear_combination (P.x ^ 2 - P.y ^ 2 - C.d * P.x ^ 2 * P.y ^ 2 * (C.i * C.i - 1)) * hi + this⟩ := by
  ext
  · rw [add_x]; simp [t4, mul_comm]
  · rw [add_y]; simp [t4, mul_comm]

theorem add_t2_x (P : EdPt C) : (P + t2).x = -P.x := by rw [add_t2]
theorem add_t2_y (P : EdPt C) : (P + t2).y = -P.y := by rw [add_t2]
theorem add_t4_x (P : EdPt C) : (P + t4).x = C.i * P.y := by rw [add_t4]
theorem add_t4_y (P : EdPt C) : (P + t4).y = C.i * P.x := by rw [add_t4]

theorem t4_add : (t4 : EdPt C) + t4 = t2 := by
  rw [add_t4]
  ext
  · simp [t4, t2]
  · show C.i * C.i = -1
    exact C.i_sq

theorem t2_add : (t2 : EdPt C) + t2 = 0 := by
  rw [add_t2]
  ext
  · simp [t2, zero_x]
  · simp [t2, zero_y]

theorem t2_ne : (t2 : EdPt C) ≠ 0 := by
  intro h
  have := congrArg EdPt.y h
  rw [zero_y] at this
  have h1 : (-1 : F) = 1 := this
  apply C.two_ne
  linear_combination -h1

/-- two points on one line through the origin are equal or differ by the point of order 2 -/
theorem line_iff (P Q : EdPt C) : P.x * Q.y = P.y * Q.x ↔ Q = P ∨ Q = P + t2 := by
  constructor
  · intro h
    have hP := P.on
    have hQ := Q.on
    -- `Q` is a multiple `t P`
    obtain ⟨t, hx, hy⟩ : ∃ t, Q.x = t * P.x ∧ Q.y = t * P.y := by
      by_cases hy : P.y = 0
      · have hx : P.x ≠ 0 := by
          intro hx
          rw [hx, hy] at hP
          simp at hP
        refine ⟨Q.x / P.x, by field_simp, ?_⟩
        rw [hy, zero_mul] at h
        rw [hy, mul_zero]
        exact (mul_eq_zero.mp h).resolve_left hx
      · refine ⟨Q.y / P.y, ?_, by field_simp⟩
        field_simp
        linear_combination -h
    rw [hx, hy] at hQ
    -- `(t² - 1) (1 - d t² x² y²) = 0`
    have h0 : (t ^ 2 - 1) * (1 - C.d * (t * P.x * P.y) ^ 2) = 0 := by linear_combination hQ - t ^ 2 * hP
    rcases mul_eq_zero.mp h0 with h1 | h1
    · have : (t - 1) * (t + 1) = 0 := by linear_combination h1
      rcases mul_eq_zero.mp this with h2 | h2
      · left
        have ht : t = 1 := by linear_combination h2
        ext
        · rw [hx, ht, one_mul]
        · rw [hy, ht, one_mul]
      · right
        have ht : t = -1 := by linear_combination h2
        rw [add_t2]
        ext
        · rw [hx, ht]; ring
        · rw [hy, ht]; ring
    · exfalso
      have hne : t * P.x * P.y ≠ 0 := by
        intro hz
        rw [hz] at h1
        simp at h1
      apply C.d_nonsq
      refine ⟨1 / (t * P.x * P.y), ?_⟩
      rw [div_mul_div_comm, eq_div_iff (mul_ne_zero hne hne)]
      linear_combination -h1
  · rintro (rfl | rfl)
    · ring
    · rw [add_t2]; ring

/-- the test for equality of Ristretto elements compares points up to the points of order dividing 4 -/
theorem ristretto_iff (P Q : EdPt C) : (P.x * Q.y = P.y * Q.x ∨ P.x * Q.x = P.y * Q.y) ↔
    Q = P ∨ Q = P + t2 ∨ Q = P + t4 ∨ Q = P + t4 + t2 := by
  have h2 : P.x * Q.x = P.y * Q.y ↔ (P + t4).x * Q.y = (P + t4).y * Q.x := by
    rw [add_t4]
    dsimp only
    constructor
    · intro h; linear_combination -C.i * h
    · intro h
      have : C.i * (P.x * Q.x - P.y * Q.y) = 0 := by linear_combination -h
      have := (mul_eq_zero.mp this).resolve_left i_ne
      linear_combination this
  rw [h2, line_iff, line_iff]
  constructor
  · rintro ((h | h) | (h | h)) <;> simp [h]
  · rintro (h | h | h | h) <;> simp [h]

theorem two_torsion (P : EdPt C) (h : P + P = 0) : P = 0 ∨ P = t2 := by
  have hn : P = -P := by rw [eq_neg_iff_add_eq_zero]; exact h
  have hx : P.x = -P.x := congrArg EdPt.x hn
  have x0 : P.x = 0 := by
    have : (2 : F) * P.x = 0 := by linear_combination hx
    exact (mul_eq_zero.mp this).resolve_left C.two_ne
  have hon := P.on
  rw [x0] at hon
  have : (P.y - 1) * (P.y + 1) = 0 := by linear_combination hon
  rcases mul_eq_zero.mp this with h1 | h1
  · left; ext
    · exact x0
    · rw [zero_y]; linear_combination h1
  · right; ext
    · exact x0
    · show P.y = -1
      linear_combination h1

theorem half_t2 (P : EdPt C) (h : P + P = t2) : P = t4 ∨ P = t4 + t2 := by
  have hx := congrArg EdPt.x h
  rw [add_x] at hx
  have hx : (P.x * P.y + P.y * P.x) / (1 + C.d * P.x * P.x * P.y * P.y) = 0 := hx
  rw [div_eq_zero_iff, or_iff_left (den1 P P)] at hx
  have h0 : (2 : F) * (P.x * P.y) = 0 := by linear_combination hx
  rcases mul_eq_zero.mp ((mul_eq_zero.mp h0).resolve_left C.two_ne) with x0 | y0
  · exfalso
    have hy := congrArg EdPt.y h
    rw [add_y, x0] at hy
    have hon := P.on
    rw [x0] at hon
    have hy : (P.y * P.y + 0 * 0) / (1 - C.d * 0 * 0 * P.y * P.y) = -1 := hy
    have hy' : P.y * P.y = -1 := by simpa using hy
    apply C.two_ne
    linear_combination hy' - hon
  · have hon := P.on
    rw [y0] at hon
    have hi := C.i_sq
    have : (P.x - C.i) * (P.x + C.i) = 0 := by linear_combination -hon - hi
    rw [add_t2]
    rcases mul_eq_zero.mp this with h1 | h1
    · left; ext
      · show P.x = C.i
        linear_combination h1
      · exact y0
    · right; ext
      · show P.x = -C.i
        linear_combination h1
      · show P.y = -0
        rw [y0, neg_zero]

/-- the points of order dividing 4 -/
theorem four_torsion (P : EdPt C) : 4 • P = 0 ↔ P = 0 ∨ P = t2 ∨ P = t4 ∨ P = t4 + t2 := by
  have e4 : 4 • P = (P + P) + (P + P) := by
    rw [show 4 = 2 + 2 from rfl, add_nsmul, two_nsmul]
  rw [e4]
  constructor
  · intro h
    rcases two_torsion _ h with h1 | h1
    · rcases two_torsion _ h1 with h2 | h2 <;> simp [h2]
    · rcases half_t2 _ h1 with h2 | h2 <;> simp [h2]
  · have q : ((t4 : EdPt C) + t2) + (t4 + t2) = t2 := by
      rw [add_add_add_comm, t4_add, t2_add, add_zero]
    rintro (rfl | rfl | rfl | rfl)
    · simp
    · rw [t2_add, add_zero]
    · rw [t4_add, t2_add]
    · rw [q, t2_add]

/-- the equality test of Ristretto in terms of the group -/
theorem ristretto_eq (P Q : EdPt C) : (P.x * Q.y = P.y * Q.x ∨ P.x * Q.x = P.y * Q.y) ↔ 4 • P = 4 • Q := by
  have h : 4 • P = 4 • Q ↔ 4 • (Q - P) = 0 := by rw [smul_sub, sub_eq_zero, eq_comm]
  rw [ristretto_iff, h, four_torsion, sub_eq_zero, sub_eq_iff_eq_add', sub_eq_iff_eq_add', sub_eq_iff_eq_add', add_assoc]

end EdPt
end MscPoc
