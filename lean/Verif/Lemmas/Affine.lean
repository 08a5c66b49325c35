import Verif.Lemmas.SWCompute
import Verif.Lemmas.PrimeCerts
import Verif.Lemmas.Vec
import Verif.Model.Curve
import Verif.Spec.Lawful
import Mathlib.Algebra.Module.ZMod

/-!
# The textbook affine arithmetic computes the group of the curve
-/

set_option autoImplicit false
set_option linter.unusedSectionVars false

namespace MscPoc

open WeierstrassCurve

section
variable {p : ℕ} [hp : Fact p.Prime] {A B : ZMod p} {a : Int} (hA : (a : ZMod p) = A)

/-- legal coordinate pairs of `y² = x³ + A x + B` modulo `p`: the identity `(0, 0)`, or reduced coordinates on the curve -/
def ALegal (A B : ZMod p) (P : WPoint) : Prop :=
  P = ⟨0, 0⟩ ∨ (P.x < p ∧ P.y < p ∧ (P.y : ZMod p) ^ 2 = (P.x : ZMod p) ^ 3 + A * (P.x : ZMod p) + B)

open Classical in
/-- the curve point a coordinate pair stands for -/
noncomputable def aDen (A B : ZMod p) (P : WPoint) : (swCurve A B).Point :=
  if h : P ≠ ⟨0, 0⟩ ∧ (swCurve A B).Nonsingular (P.x : ZMod p) (P.y : ZMod p) then
    Affine.Point.some _ _ h.2
  else 0

theorem aDen_zero : aDen A B ⟨0, 0⟩ = 0 := by
  unfold aDen
  rw [dif_neg]
  rintro ⟨h, _⟩
  exact h rfl

theorem aDen_some {P : WPoint} (h0 : P ≠ ⟨0, 0⟩)
    (h : (swCurve A B).Nonsingular (P.x : ZMod p) (P.y : ZMod p)) :
    aDen A B P = Affine.Point.some _ _ h := by
  unfold aDen
  rw [dif_pos ⟨h0, h⟩]

theorem affCast_inj {x y : ℕ} (hx : x < p) (hy : y < p) (h : (x : ZMod p) = (y : ZMod p)) : x = y := by
  rw [ZMod.natCast_eq_natCast_iff'] at h
  rwa [Nat.mod_eq_of_lt hx, Nat.mod_eq_of_lt hy] at h

theorem toNat_emod_lt (n : Int) : (n % p).toNat < p := by
  have h0 : (0 : Int) < p := by exact_mod_cast hp.out.pos
  have := Int.emod_nonneg n h0.ne'
  have := Int.emod_lt_of_pos n h0
  omega

theorem toNat_emod_cast (n : Int) : (((n % p).toNat : ℕ) : ZMod p) = (n : ZMod p) := by
  have h0 : (0 : Int) < p := by exact_mod_cast hp.out.pos
  have e : (((n % p).toNat : ℕ) : Int) = n % p := Int.toNat_of_nonneg (Int.emod_nonneg n h0.ne')
  have : (((n % p).toNat : ℕ) : ZMod p) = ((n % p : Int) : ZMod p) := by
    rw [← e]; push_cast; rfl
  rw [this, ZMod.intCast_mod]

theorem emod_cast (n : Int) : ((n % p : Int) : ZMod p) = (n : ZMod p) := ZMod.intCast_mod _ _

theorem divMod_spec {num den : Int} (h : (den : ZMod p) ≠ 0) :
    (divMod p num den : ZMod p) * (den : ZMod p) = (num : ZMod p) := by
  unfold divMod
  have hg : Int.gcd den p = 1 := by
    have hd : ¬ (p : Int) ∣ den := fun hd => h ((ZMod.intCast_zmod_eq_zero_iff_dvd _ _).mpr hd)
    have hpi : Prime (p : Int) := Nat.prime_iff_prime_int.mp hp.out
    rw [Int.gcd_comm, ← Int.isCoprime_iff_gcd_eq_one]
    exact (Prime.coprime_iff_not_dvd hpi).mpr hd
  have hi : modInverse den p = some (Int.gcdA (den % p) p % p) := by
    unfold modInverse; rw [if_pos hg]
  have := modInverse_spec (q := p) hi
  rw [hi]
  simp only [Option.getD_some]
  rw [emod_cast, Int.cast_mul, mul_assoc, mul_comm _ (den : ZMod p), this, mul_one]

variable (noroot : ∀ x : ZMod p, x ^ 3 + A * x + B ≠ 0) (h2 : (2 : ZMod p) ≠ 0)

include noroot h2

theorem ALegal.cases {P : WPoint} (h : ALegal A B P) :
    (P = ⟨0, 0⟩ ∧ aDen A B P = 0) ∨
    (P ≠ ⟨0, 0⟩ ∧ P.x < p ∧ P.y < p ∧
      ∃ hn : (swCurve A B).Nonsingular (P.x : ZMod p) (P.y : ZMod p),
        aDen A B P = Affine.Point.some _ _ hn) := by
  by_cases h0 : P = ⟨0, 0⟩
  · exact Or.inl ⟨h0, by rw [h0, aDen_zero]⟩
  · obtain ⟨hx, hy, ho⟩ := h.resolve_left h0
    have hn := (sw_nonsingular h2 noroot _ _).mpr ho
    exact Or.inr ⟨h0, hx, hy, hn, aDen_some h0 hn⟩

theorem aLegal_of_nonsing {P : WPoint} (hx : P.x < p) (hy : P.y < p)
    (hn : (swCurve A B).Nonsingular (P.x : ZMod p) (P.y : ZMod p)) :
    ALegal A B P ∧ aDen A B P = Affine.Point.some _ _ hn := by
  have h0 : P ≠ ⟨0, 0⟩ := by
    rintro rfl
    exact sw_y_ne noroot hn (by simp)
  exact ⟨Or.inr ⟨hx, hy, sw_nonsing_eq hn⟩, aDen_some h0 hn⟩

theorem aDen_inj {P Q : WPoint} (hP : ALegal A B P) (hQ : ALegal A B Q) (h : aDen A B P = aDen A B Q) : P = Q := by
  rcases hP.cases noroot h2 with ⟨p0, dp⟩ | ⟨p0, px, py, pn, dp⟩ <;> rcases hQ.cases noroot h2 with ⟨q0, dq⟩ | ⟨q0, qx, qy, qn, dq⟩
  · rw [p0, q0]
  · rw [dp, dq] at h; exact absurd h.symm (Affine.Point.some_ne_zero _)
  · rw [dp, dq] at h; exact absurd h (Affine.Point.some_ne_zero _)
  · rw [dp, dq] at h
    injection h with e1 e2
    cases P; cases Q
    simp only [WPoint.mk.injEq]
    exact ⟨affCast_inj px qx e1, affCast_inj py qy e2⟩

theorem affNeg_spec {P : WPoint} (hP : ALegal A B P) : ALegal A B (affNeg p P) ∧ aDen A B (affNeg p P) = -aDen A B P := by
  rcases hP.cases noroot h2 with ⟨rfl, dp⟩ | ⟨p0, px, py, pn, dp⟩
  · have : affNeg p ⟨0, 0⟩ = ⟨0, 0⟩ := by simp [affNeg]
    rw [this, dp, neg_zero]; exact ⟨Or.inl rfl, rfl⟩
  · have ey : ((affNeg p P).y : ZMod p) = -(P.y : ZMod p) := by
      simp only [affNeg]; rw [toNat_emod_cast]; push_cast; rfl
    have hn : (swCurve A B).Nonsingular ((affNeg p P).x : ZMod p) ((affNeg p P).y : ZMod p) := by
      rw [ey, sw_nonsingular h2 noroot]
      have := sw_nonsing_eq pn
      simp only [affNeg]
      rw [neg_sq, this]
    obtain ⟨l, d⟩ := aLegal_of_nonsing noroot h2 (P := affNeg p P) px (toNat_emod_lt _) hn
    refine ⟨l, ?_⟩
    rw [d, dp, Affine.Point.neg_some]
    congr 1
    rw [sw_negY, ey]

include hA in
theorem affAdd_spec {P Q : WPoint} (hP : ALegal A B P) (hQ : ALegal A B Q) :
    ALegal A B (affAdd p a P Q) ∧ aDen A B (affAdd p a P Q) = aDen A B P + aDen A B Q := by
  rcases hP.cases noroot h2 with ⟨p0, dp⟩ | ⟨p0, px, py, pn, dp⟩
  · unfold affAdd
    rw [if_pos p0, dp, zero_add]
    exact ⟨hQ, rfl⟩
  rcases hQ.cases noroot h2 with ⟨q0, dq⟩ | ⟨q0, qx, qy, qn, dq⟩
  · unfold affAdd
    rw [if_neg p0, if_pos q0, dq, add_zero]
    exact ⟨hP, rfl⟩
  by_cases c1 : P.x = Q.x ∧ (P.y + Q.y) % p = 0
  · have e : affAdd p a P Q = ⟨0, 0⟩ := by unfold affAdd; rw [if_neg p0, if_neg q0, if_pos c1]
    rw [e, aDen_zero, dp, dq]
    refine ⟨Or.inl rfl, (Affine.Point.add_of_Y_eq (by rw [c1.1]) ?_).symm⟩
    rw [sw_negY]
    have : ((P.y + Q.y : ℕ) : ZMod p) = 0 := (ZMod.natCast_eq_zero_iff _ _).mpr (Nat.dvd_of_mod_eq_zero c1.2)
    push_cast at this
    linear_combination this
  · obtain ⟨l, hl⟩ : ∃ l : Int, l = if P.x = Q.x then divMod p (3 * P.x * P.x + a) (2 * P.y)
      else divMod p ((P.y : Int) - Q.y) ((P.x : Int) - Q.x) := ⟨_, rfl⟩
    have e : affAdd p a P Q = ⟨((l * l - P.x - Q.x) % p).toNat,
        ((l * (P.x - (l * l - P.x - Q.x) % p) - P.y) % p).toNat⟩ := by
      unfold affAdd; rw [if_neg p0, if_neg q0, if_neg c1]; dsimp only; rw [← hl]
    have ex : ((affAdd p a P Q).x : ZMod p) = (l : ZMod p) ^ 2 - (P.x : ZMod p) - (Q.x : ZMod p) := by
      rw [e]; dsimp only; rw [toNat_emod_cast]; push_cast; ring
    have ey : ((affAdd p a P Q).y : ZMod p) = (l : ZMod p) * ((P.x : ZMod p) - ((affAdd p a P Q).x : ZMod p)) - (P.y : ZMod p) := by
      rw [ex, e]; dsimp only; rw [toNat_emod_cast]; push_cast; ring
    have hx3 : (affAdd p a P Q).x < p := by rw [e]; exact toNat_emod_lt _
    have hy3 : (affAdd p a P Q).y < p := by rw [e]; exact toNat_emod_lt _
    have key : ∃ h₃ : (swCurve A B).Nonsingular ((affAdd p a P Q).x : ZMod p) ((affAdd p a P Q).y : ZMod p),
        Affine.Point.some _ _ pn + Affine.Point.some _ _ qn = Affine.Point.some _ _ h₃ := by
      by_cases c2 : P.x = Q.x
      · rw [if_pos c2] at hl
        have y0 := sw_y_ne noroot pn
        have hyy : P.y = Q.y := by
          have e1 := sw_nonsing_eq pn
          have e2 := sw_nonsing_eq qn
          rw [c2] at e1
          rcases sq_eq_sq_iff_eq_or_eq_neg.mp (e1.trans e2.symm) with h | h
          · exact affCast_inj py qy h
          · exfalso
            apply c1
            refine ⟨c2, Nat.mod_eq_zero_of_dvd ((ZMod.natCast_eq_zero_iff _ _).mp ?_)⟩
            push_cast
            rw [h]; ring
        have hPQ : Q = P := by
          cases P; cases Q; simp only at c2 hyy; rw [c2, hyy]
        subst hPQ
        refine sw_dbl h2 noroot pn (l := (l : ZMod p)) ?_ ex ey
        have := divMod_spec (p := p) (num := 3 * Q.x * Q.x + a) (den := 2 * Q.y) (by
          push_cast; exact mul_ne_zero h2 y0)
        rw [← hl] at this
        push_cast at this
        rw [this, ← hA]; ring
      · rw [if_neg c2] at hl
        have hne : (P.x : ZMod p) ≠ (Q.x : ZMod p) := fun h => c2 (affCast_inj px qx h)
        refine sw_add pn qn hne (l := (l : ZMod p)) ?_ ex ey
        have := divMod_spec (p := p) (num := (P.y : Int) - Q.y) (den := (P.x : Int) - Q.x) (by
          push_cast; exact sub_ne_zero.mpr hne)
        rw [← hl] at this
        push_cast at this
        exact this
    obtain ⟨h₃, hadd⟩ := key
    obtain ⟨lg, d⟩ := aLegal_of_nonsing noroot h2 hx3 hy3 h₃
    exact ⟨lg, by rw [d, dp, dq, hadd]⟩

include hA in
theorem affMulGo_spec {P : WPoint} (hP : ALegal A B P) : ∀ (fuel k : ℕ), k < 2 ^ fuel →
    ALegal A B (affMulGo p a fuel k P) ∧ aDen A B (affMulGo p a fuel k P) = k • aDen A B P := by
  intro fuel
  induction fuel with
  | zero =>
    intro k hk
    have : k = 0 := by simpa using hk
    subst this
    exact ⟨Or.inl rfl, by rw [zero_nsmul]; exact aDen_zero⟩
  | succ f ih =>
    intro k hk
    have hk2 : k / 2 < 2 ^ f := by rw [Nat.div_lt_iff_lt_mul (by norm_num)]; rwa [pow_succ] at hk
    obtain ⟨l1, d1⟩ := ih (k / 2) hk2
    obtain ⟨l2, d2⟩ := affAdd_spec hA noroot h2 l1 l1
    unfold affMulGo
    by_cases c1 : k = 0
    · rw [if_pos c1, c1, zero_nsmul]; exact ⟨Or.inl rfl, aDen_zero⟩
    · rw [if_neg c1]
      dsimp only
      by_cases c2 : k % 2 = 1
      · rw [if_pos c2]
        obtain ⟨l3, d3⟩ := affAdd_spec hA noroot h2 l2 hP
        refine ⟨l3, ?_⟩
        rw [d3, d2, d1, ← add_nsmul, ← succ_nsmul, show k / 2 + k / 2 + 1 = k by omega]
      · rw [if_neg c2]
        refine ⟨l2, ?_⟩
        rw [d2, d1, ← add_nsmul, show k / 2 + k / 2 = k by omega]

end
end MscPoc
