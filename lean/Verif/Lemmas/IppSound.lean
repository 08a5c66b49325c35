import Verif.Spec.Extract
import Verif.Lemmas.Ipp2
import Mathlib.LinearAlgebra.Vandermonde
import Mathlib.Tactic.FieldSimp
import Mathlib.Tactic.Module
import Mathlib.Tactic.LinearCombination

/-!
# Special soundness of the inner-product argument: algebra
-/

set_option autoImplicit false

namespace MscPoc

section alg
variable {F M : Type} [Field F] [AddCommGroup M] [Module F M]

theorem Comb.val_add (n : ℕ) (g h : ℕ → M) (u : M) (v w : Comb F) :
    (v + w).val n g h u = v.val n g h u + w.val n g h u := by
  simp only [Comb.val, Prod.fst_add, Prod.snd_add, Pi.add_apply, add_smul, Finset.sum_add_distrib]; abel

theorem Comb.val_smul (n : ℕ) (g h : ℕ → M) (u : M) (c : F) (w : Comb F) :
    (c • w).val n g h u = c • w.val n g h u := by
  simp only [Comb.val, Prod.smul_fst, Prod.smul_snd, Pi.smul_apply, smul_add, smul_eq_mul, mul_smul, Finset.smul_sum]

theorem Comb.val_sub (n : ℕ) (g h : ℕ → M) (u : M) (v w : Comb F) :
    (v - w).val n g h u = v.val n g h u - w.val n g h u := by
  have := Comb.val_add n g h u (v - w) w
  rw [sub_add_cancel] at this
  rw [this, add_sub_cancel_right]

/-- the folded generators -/
def foldG (n : ℕ) (x y : F) (g : ℕ → M) : ℕ → M := fun i => x • g i + y • g (n + i)

theorem Comb.val_unfold (n : ℕ) (g h : ℕ → M) (u : M) (x : F) (w : Comb F) :
    (w.unfold n x).val (2 * n) g h u = w.val n (foldG n x⁻¹ x g) (foldG n x x⁻¹ h) u := by
  have key : ∀ (f : ℕ → F) (g : ℕ → M) (a b : F),
      ∑ i ∈ Finset.range (2 * n), (if i < n then a * f i else b * f (i - n)) • g i =
        ∑ i ∈ Finset.range n, f i • foldG n a b g i := by
    intro f g a b
    rw [two_mul, Finset.sum_range_add, ← Finset.sum_add_distrib]
    apply Finset.sum_congr rfl
    intro i hi
    rw [Finset.mem_range] at hi
    rw [if_pos hi, if_neg (by omega), Nat.add_sub_cancel_left]
    simp only [foldG]
    module
  simp only [Comb.val, Comb.unfold, key]

theorem Comb.unfold_zero (n : ℕ) (x : F) (hx : x ≠ 0) (w : Comb F) (h : (w.unfold n x).Zero (2 * n)) : w.Zero n := by
  obtain ⟨h1, h2, h3⟩ := h
  refine ⟨fun i hi => ?_, fun i hi => ?_, h3⟩
  · have := h1 i (by omega)
    simp only [Comb.unfold, if_pos hi, mul_eq_zero, inv_eq_zero, hx, false_or] at this
    exact this
  · have := h2 i (by omega)
    simp only [Comb.unfold, if_pos hi, mul_eq_zero, hx, false_or] at this
    exact this

/-- interpolation in any module -/
theorem interp_spec {W : Type} [AddCommGroup W] [Module F W] (s0 s1 s2 : F) (h0 : s0 ≠ 0) (h1 : s1 ≠ 0) (h2 : s2 ≠ 0)
    (h01 : s0 ≠ s1) (h02 : s0 ≠ s2) (h12 : s1 ≠ s2) (L P R : W) :
    (s0 * ((s0 - s1) * (s0 - s2))⁻¹) • (s0 • L + P + s0⁻¹ • R) +
      (s1 * ((s1 - s0) * (s1 - s2))⁻¹) • (s1 • L + P + s1⁻¹ • R) +
      (s2 * ((s2 - s0) * (s2 - s1))⁻¹) • (s2 • L + P + s2⁻¹ • R) = L ∧
    (-(s1 + s2) * (s0 * ((s0 - s1) * (s0 - s2))⁻¹)) • (s0 • L + P + s0⁻¹ • R) +
      (-(s0 + s2) * (s1 * ((s1 - s0) * (s1 - s2))⁻¹)) • (s1 • L + P + s1⁻¹ • R) +
      (-(s0 + s1) * (s2 * ((s2 - s0) * (s2 - s1))⁻¹)) • (s2 • L + P + s2⁻¹ • R) = P ∧
    (s1 * s2 * (s0 * ((s0 - s1) * (s0 - s2))⁻¹)) • (s0 • L + P + s0⁻¹ • R) +
      (s0 * s2 * (s1 * ((s1 - s0) * (s1 - s2))⁻¹)) • (s1 • L + P + s1⁻¹ • R) +
      (s0 * s1 * (s2 * ((s2 - s0) * (s2 - s1))⁻¹)) • (s2 • L + P + s2⁻¹ • R) = R := by
  have e01 := sub_ne_zero.mpr h01
  have e02 := sub_ne_zero.mpr h02
  have e12 := sub_ne_zero.mpr h12
  have e10 := sub_ne_zero.mpr h01.symm
  have e20 := sub_ne_zero.mpr h02.symm
  have e21 := sub_ne_zero.mpr h12.symm
  refine ⟨?_, ?_, ?_⟩ <;> match_scalars <;> field_simp <;> ring

/-- interpolation is exact at its three points -/
theorem interp_points (s0 s1 s2 : F) (h0 : s0 ≠ 0) (h1 : s1 ≠ 0) (h2 : s2 ≠ 0)
    (h01 : s0 ≠ s1) (h02 : s0 ≠ s2) (h12 : s1 ≠ s2) (W0 W1 W2 : Comb F) :
    let r := interp s0 s1 s2 W0 W1 W2
    s0 • r.1 + r.2.1 + s0⁻¹ • r.2.2 = W0 ∧ s1 • r.1 + r.2.1 + s1⁻¹ • r.2.2 = W1 ∧
      s2 • r.1 + r.2.1 + s2⁻¹ • r.2.2 = W2 := by
  have e01 := sub_ne_zero.mpr h01
  have e02 := sub_ne_zero.mpr h02
  have e12 := sub_ne_zero.mpr h12
  have e10 := sub_ne_zero.mpr h01.symm
  have e20 := sub_ne_zero.mpr h02.symm
  have e21 := sub_ne_zero.mpr h12.symm
  simp only [interp]
  refine ⟨?_, ?_, ?_⟩ <;> match_scalars <;> field_simp <;> ring

theorem vanish4 (s : Fin 4 → F) (hs : Function.Injective s) (a b c d : F)
    (h : ∀ i, a * s i ^ 3 + b * s i ^ 2 + c * s i + d = 0) : a = 0 ∧ b = 0 ∧ c = 0 ∧ d = 0 := by
  have := Matrix.eq_zero_of_forall_index_sum_pow_mul_eq_zero (v := ![d, c, b, a]) hs (by
    intro j
    rw [Fin.sum_univ_four]
    simp
    linear_combination h j)
  have h0 := congrFun this 0
  have h1 := congrFun this 1
  have h2 := congrFun this 2
  have h3 := congrFun this 3
  simp at h0 h1 h2 h3
  exact ⟨h3, h2, h1, h0⟩

/-- an opening of `P` to its own inner product -/
def Opens (n : ℕ) (g h : ℕ → M) (u P : M) (w : Comb F) : Prop :=
  w.val n g h u = P ∧ w.2.2 = ∑ i ∈ Finset.range n, w.1 i * w.2.1 i

/-- a non-trivial relation between the generators -/
def IsRelation (n : ℕ) (g h : ℕ → M) (u : M) (w : Comb F) : Prop := w.val n g h u = 0 ∧ ¬ w.Zero n

theorem round_open_val (n : ℕ) (g h : ℕ → M) (u P L R : M) (x : Fin 4 → F) (w : Fin 4 → Comb F) (hx : ∀ i, x i ≠ 0)
    (hd : ∀ i j, x i ^ 2 = x j ^ 2 → i = j)
    (hv : ∀ i, (w i).val n (foldG n (x i)⁻¹ (x i) g) (foldG n (x i) (x i)⁻¹ h) u = x i ^ 2 • L + P + (x i ^ 2)⁻¹ • R) :
    (roundOpening n x w).val (2 * n) g h u = P ∧ (roundRelation n x w).val (2 * n) g h u = 0 := by
  have h01 : x 0 ^ 2 ≠ x 1 ^ 2 := fun h => by simpa using hd _ _ h
  have h02 : x 0 ^ 2 ≠ x 2 ^ 2 := fun h => by simpa using hd _ _ h
  have h12 : x 1 ^ 2 ≠ x 2 ^ 2 := fun h => by simpa using hd _ _ h
  obtain ⟨i1, i2, i3⟩ := interp_spec _ _ _ (pow_ne_zero 2 (hx 0)) (pow_ne_zero 2 (hx 1)) (pow_ne_zero 2 (hx 2)) h01 h02 h12 L P R
  constructor
  · simp only [roundOpening, interp, Comb.val_add, Comb.val_smul, Comb.val_unfold, hv]
    exact i2
  · simp only [roundRelation, interp, Comb.val_add, Comb.val_smul, Comb.val_sub, Comb.val_unfold, hv]
    rw [i1, i2, i3, sub_self]

theorem round_open_product (n : ℕ) (x : Fin 4 → F) (w : Fin 4 → Comb F) (hx : ∀ i, x i ≠ 0)
    (hd : ∀ i j, x i ^ 2 = x j ^ 2 → i = j) (hw : ∀ i, (w i).2.2 = ∑ j ∈ Finset.range n, (w i).1 j * (w i).2.1 j)
    (hz : (roundRelation n x w).Zero (2 * n)) :
    (roundOpening n x w).2.2 = ∑ j ∈ Finset.range (2 * n), (roundOpening n x w).1 j * (roundOpening n x w).2.1 j := by
  have h01 : x 0 ^ 2 ≠ x 1 ^ 2 := fun h => by simpa using hd _ _ h
  have h02 : x 0 ^ 2 ≠ x 2 ^ 2 := fun h => by simpa using hd _ _ h
  have h12 : x 1 ^ 2 ≠ x 2 ^ 2 := fun h => by simpa using hd _ _ h
  obtain ⟨i0, i1, i2⟩ := interp_points _ _ _ (pow_ne_zero 2 (hx 0)) (pow_ne_zero 2 (hx 1)) (pow_ne_zero 2 (hx 2)) h01 h02 h12
    ((w 0).unfold n (x 0)) ((w 1).unfold n (x 1)) ((w 2).unfold n (x 2))
  unfold roundRelation at hz
  unfold roundOpening
  dsimp only at i0 i1 i2 hz
  generalize interp (x 0 ^ 2) (x 1 ^ 2) (x 2 ^ 2) ((w 0).unfold n (x 0)) ((w 1).unfold n (x 1)) ((w 2).unfold n (x 2)) = r at *
  obtain ⟨rL, rP, rR⟩ := r
  dsimp only at i0 i1 i2 hz ⊢
  -- the four points, coordinate by coordinate
  have hA : ∀ i, ∀ j < 2 * n, ((w i).unfold n (x i)).1 j = x i ^ 2 * rL.1 j + rP.1 j + (x i ^ 2)⁻¹ * rR.1 j := by
    intro i j hj
    fin_cases i
    · exact (congrFun (congrArg Prod.fst i0) j).symm
    · exact (congrFun (congrArg Prod.fst i1) j).symm
    · exact (congrFun (congrArg Prod.fst i2) j).symm
    · exact (sub_eq_zero.mp (hz.1 j hj)).symm
  have hB : ∀ i, ∀ j < 2 * n, ((w i).unfold n (x i)).2.1 j = x i ^ 2 * rL.2.1 j + rP.2.1 j + (x i ^ 2)⁻¹ * rR.2.1 j := by
    intro i j hj
    fin_cases i
    · exact (congrFun (congrArg (fun z => z.2.1) i0) j).symm
    · exact (congrFun (congrArg (fun z => z.2.1) i1) j).symm
    · exact (congrFun (congrArg (fun z => z.2.1) i2) j).symm
    · exact (sub_eq_zero.mp (hz.2.1 j hj)).symm
  have hC : ∀ i, (w i).2.2 = x i ^ 2 * rL.2.2 + rP.2.2 + (x i ^ 2)⁻¹ * rR.2.2 := by
    intro i
    fin_cases i
    · exact (congrArg (fun z => z.2.2) i0).symm
    · exact (congrArg (fun z => z.2.2) i1).symm
    · exact (congrArg (fun z => z.2.2) i2).symm
    · exact (sub_eq_zero.mp hz.2.2).symm
  clear i0 i1 i2 hz h01 h02 h12
  have hinj : Function.Injective (fun i => x i ^ 2) := fun i j h => hd i j h
  -- what the folded openings are
  have ha : ∀ i, ∀ j < n, (w i).1 j = x i * rP.1 j + (x i)⁻¹ * rP.1 (n + j) := by
    intro i j hj
    have hlo : ∀ i, (x i)⁻¹ * (w i).1 j = x i ^ 2 * rL.1 j + rP.1 j + (x i ^ 2)⁻¹ * rR.1 j := by
      intro i
      have := hA i j (by omega)
      simpa only [Comb.unfold, if_pos hj] using this
    have hhi : ∀ i, x i * (w i).1 j = x i ^ 2 * rL.1 (n + j) + rP.1 (n + j) + (x i ^ 2)⁻¹ * rR.1 (n + j) := by
      intro i
      have := hA i (n + j) (by omega)
      simpa only [Comb.unfold, if_neg (show ¬ n + j < n by omega), Nat.add_sub_cancel_left] using this
    obtain ⟨c1, c2, c3, c4⟩ := vanish4 _ hinj (rL.1 j) (rP.1 j - rL.1 (n + j)) (rR.1 j - rP.1 (n + j)) (-rR.1 (n + j)) (by
      intro i
      have e1 := hlo i
      have e2 := hhi i
      have hxi := hx i
      field_simp at e1 e2
      apply mul_left_cancel₀ hxi
      linear_combination (-x i ^ 3) * e1 + x i * e2)
    have e := hlo i
    rw [c1, sub_eq_zero.mp c3] at e
    have hxi := hx i
    field_simp at e ⊢
    linear_combination e
  have hb : ∀ i, ∀ j < n, (w i).2.1 j = (x i)⁻¹ * rP.2.1 j + x i * rP.2.1 (n + j) := by
    intro i j hj
    have hlo : ∀ i, x i * (w i).2.1 j = x i ^ 2 * rL.2.1 j + rP.2.1 j + (x i ^ 2)⁻¹ * rR.2.1 j := by
      intro i
      have := hB i j (by omega)
      simpa only [Comb.unfold, if_pos hj] using this
    have hhi : ∀ i, (x i)⁻¹ * (w i).2.1 j = x i ^ 2 * rL.2.1 (n + j) + rP.2.1 (n + j) + (x i ^ 2)⁻¹ * rR.2.1 (n + j) := by
      intro i
      have := hB i (n + j) (by omega)
      simpa only [Comb.unfold, if_neg (show ¬ n + j < n by omega), Nat.add_sub_cancel_left] using this
    obtain ⟨c1, c2, c3, c4⟩ := vanish4 _ hinj (rL.2.1 (n + j)) (rP.2.1 (n + j) - rL.2.1 j) (rR.2.1 (n + j) - rP.2.1 j) (-rR.2.1 j) (by
      intro i
      have e1 := hlo i
      have e2 := hhi i
      have hxi := hx i
      field_simp at e1 e2
      apply mul_left_cancel₀ hxi
      linear_combination (-x i ^ 3) * e2 + x i * e1)
    have e := hhi i
    rw [c1, sub_eq_zero.mp c3] at e
    have hxi := hx i
    field_simp at e ⊢
    linear_combination e
  have hc : ∀ i, (w i).2.2 = x i ^ 2 * (∑ j ∈ Finset.range n, rP.1 j * rP.2.1 (n + j)) +
      ∑ j ∈ Finset.range (2 * n), rP.1 j * rP.2.1 j + (x i ^ 2)⁻¹ * ∑ j ∈ Finset.range n, rP.1 (n + j) * rP.2.1 j := by
    intro i
    rw [hw i, two_mul, Finset.sum_range_add, Finset.mul_sum, Finset.mul_sum, ← Finset.sum_add_distrib,
      ← Finset.sum_add_distrib, ← Finset.sum_add_distrib]
    apply Finset.sum_congr rfl
    intro j hj
    rw [Finset.mem_range] at hj
    rw [ha i j hj, hb i j hj]
    have hxi := hx i
    field_simp
    ring
  obtain ⟨_, _, c3, _⟩ := vanish4 _ hinj 0 (rL.2.2 - ∑ j ∈ Finset.range n, rP.1 j * rP.2.1 (n + j))
    (rP.2.2 - ∑ j ∈ Finset.range (2 * n), rP.1 j * rP.2.1 j) (rR.2.2 - ∑ j ∈ Finset.range n, rP.1 (n + j) * rP.2.1 j) (by
      intro i
      have e := (hC i).symm.trans (hc i)
      have hxi := hx i
      generalize (∑ j ∈ Finset.range n, rP.1 j * rP.2.1 (n + j)) = X at *
      generalize (∑ j ∈ Finset.range (2 * n), rP.1 j * rP.2.1 j) = Y at *
      generalize (∑ j ∈ Finset.range n, rP.1 (n + j) * rP.2.1 j) = Z at *
      field_simp at e
      linear_combination e)
  exact sub_eq_zero.mp c3

/-- One round: from openings of the folded commitment for four challenges, an opening or a relation. -/
theorem round_extract (n : ℕ) (g h : ℕ → M) (u P L R : M) (x : Fin 4 → F) (w : Fin 4 → Comb F) (hx : ∀ i, x i ≠ 0)
    (hd : ∀ i j, x i ^ 2 = x j ^ 2 → i = j)
    (hw : ∀ i, Opens n (foldG n (x i)⁻¹ (x i) g) (foldG n (x i) (x i)⁻¹ h) u (P + x i ^ 2 • L + (x i)⁻¹ ^ 2 • R) (w i)) :
    ((roundRelation n x w).Zero (2 * n) → Opens (2 * n) g h u P (roundOpening n x w)) ∧
    (¬ (roundRelation n x w).Zero (2 * n) → IsRelation (2 * n) g h u (roundRelation n x w)) := by
  obtain ⟨h1, h2⟩ := round_open_val n g h u P L R x w hx hd (by
    intro i; rw [(hw i).1, inv_pow]; abel)
  exact ⟨fun hz => ⟨h1, round_open_product n x w hx hd (fun i => (hw i).2) hz⟩, fun hz => ⟨h2, hz⟩⟩

/-- the check of the remaining rounds, on the level of the abstract group -/
def RoundsHold (u : M) (A B : F) : List (M × M × F) → (ℕ → M) → (ℕ → M) → M → Prop
  | [], g, h, P => P = A • g 0 + B • h 0 + (A * B) • u
  | (L, R, x) :: t, g, h, P =>
    RoundsHold u A B t (foldG (2 ^ t.length) x⁻¹ x g) (foldG (2 ^ t.length) x x⁻¹ h) (P + x ^ 2 • L + x⁻¹ ^ 2 • R)

/-- what an extraction result must satisfy -/
def Extracted.Valid (n : ℕ) (g h : ℕ → M) (u P : M) : Extracted F → Prop
  | .opening w => Opens n g h u P w
  | .relation w => IsRelation n g h u w

theorem IsRelation.unfold {n : ℕ} {g h : ℕ → M} {u : M} {x : F} {w : Comb F} (hx : x ≠ 0)
    (hr : IsRelation n (foldG n x⁻¹ x g) (foldG n x x⁻¹ h) u w) : IsRelation (2 * n) g h u (w.unfold n x) :=
  ⟨by rw [Comb.val_unfold]; exact hr.1, fun hz => hr.2 (Comb.unfold_zero n x hx w hz)⟩

omit [Field F] in
theorem IPTree.length_of_mem {E : Type} {k : ℕ} (t : IPTree E F k) (p : IPPath E F) (h : t.Mem p) : p.rounds.length = k := by
  induction t generalizing p with
  | leaf A B => rw [show p = _ from h]; rfl
  | node L R x sub ih =>
    obtain ⟨i, t, ht, rfl⟩ := h
    rw [List.length_cons, ih i t ht]

theorem IPTree.extract_valid [DecidableEq F] {E : Type} (den : E → M) (u : M) {k : ℕ} (t : IPTree E F k) (hg : t.Good)
    (g h : ℕ → M) (P : M)
    (hacc : ∀ p, t.Mem p → RoundsHold u (p.A : F) p.B (p.rounds.map (fun r => (den r.1, den r.2.1, r.2.2))) g h P) :
    t.extract.Valid (2 ^ k) g h u P := by
  induction t generalizing g h P with
  | leaf A B =>
    have := hacc _ rfl
    simp only [List.map_nil, RoundsHold] at this
    refine ⟨?_, ?_⟩
    · simp [Comb.val, this]
    · simp
  | @node k L R x sub ih =>
    obtain ⟨hx, hd, hs⟩ := hg
    have hsub : ∀ i, (sub i).extract.Valid (2 ^ k) (foldG (2 ^ k) (x i)⁻¹ (x i) g) (foldG (2 ^ k) (x i) (x i)⁻¹ h) u
        (P + x i ^ 2 • den L + (x i)⁻¹ ^ 2 • den R) := by
      intro i
      apply ih i (hs i)
      intro p hp
      have := hacc _ ⟨i, p, hp, rfl⟩
      simp only [List.map_cons, RoundsHold, List.length_map, (sub i).length_of_mem p hp] at this
      exact this
    have hpow : 2 ^ (k + 1) = 2 * 2 ^ k := by rw [pow_succ]; ring
    rw [hpow]
    unfold IPTree.extract
    have s0 := hsub 0
    have s1 := hsub 1
    have s2 := hsub 2
    have s3 := hsub 3
    cases e0 : (sub 0).extract with
    | relation r => rw [e0] at s0; exact IsRelation.unfold (hx 0) s0
    | opening w0 =>
    cases e1 : (sub 1).extract with
    | relation r => rw [e1] at s1; exact IsRelation.unfold (hx 1) s1
    | opening w1 =>
    cases e2 : (sub 2).extract with
    | relation r => rw [e2] at s2; exact IsRelation.unfold (hx 2) s2
    | opening w2 =>
    cases e3 : (sub 3).extract with
    | relation r => rw [e3] at s3; exact IsRelation.unfold (hx 3) s3
    | opening w3 =>
      rw [e0] at s0
      rw [e1] at s1
      rw [e2] at s2
      rw [e3] at s3
      obtain ⟨r1, r2⟩ := round_extract (2 ^ k) g h u P (den L) (den R) x ![w0, w1, w2, w3] hx hd (by
        intro i
        fin_cases i
        · exact s0
        · exact s1
        · exact s2
        · exact s3)
      dsimp only
      rw [hpow]
      split
      · next hz => exact r1 hz
      · next hz => exact r2 hz

/-- two trees with different challenges on `U` -/
theorem ipExtract_valid [DecidableEq F] {E : Type} (den : E → M) (U : M) {k : ℕ} (c y y' : F) (hy : y ≠ 0) (hy' : y' ≠ 0)
    (hyy : y ≠ y') (t t' : IPTree E F k) (hg : t.Good) (hg' : t'.Good) (g h : ℕ → M) (P : M)
    (hacc : ∀ p, t.Mem p →
      RoundsHold (y • U) (p.A : F) p.B (p.rounds.map (fun r => (den r.1, den r.2.1, r.2.2))) g h (P + (y * c) • U))
    (hacc' : ∀ p, t'.Mem p →
      RoundsHold (y' • U) (p.A : F) p.B (p.rounds.map (fun r => (den r.1, den r.2.1, r.2.2))) g h (P + (y' * c) • U)) :
    match ipExtract c y y' t t' with
    | .opening w => Comb.val (2 ^ k) g h U (w.1, w.2.1, (0 : F)) = P ∧
        c = ∑ i ∈ Finset.range (2 ^ k), w.1 i * w.2.1 i ∧ w.2.2 = c
    | .relation w => IsRelation (2 ^ k) g h U w := by
  have v := t.extract_valid den _ hg g h _ hacc
  have v' := t'.extract_valid den _ hg' g h _ hacc'
  have hrel : ∀ (z : F) (w : Comb F), z ≠ 0 → IsRelation (2 ^ k) g h (z • U) w →
      IsRelation (2 ^ k) g h U (w.1, w.2.1, z * w.2.2) := by
    intro z w hz hr
    refine ⟨?_, fun h0 => hr.2 ⟨h0.1, h0.2.1, ?_⟩⟩
    · rw [← hr.1]; simp only [Comb.val, smul_smul, mul_comm]
    · rcases mul_eq_zero.mp h0.2.2 with h1 | h1
      · exact absurd h1 hz
      · exact h1
  unfold ipExtract
  cases e : t.extract with
  | relation r => rw [e] at v; exact hrel y r hy v
  | opening w =>
  cases e' : t'.extract with
  | relation r => rw [e'] at v'; exact hrel y' r hy' v'
  | opening w' =>
    rw [e] at v
    rw [e'] at v'
    dsimp only
    have hdiff : Comb.val (2 ^ k) g h U ((w.1 - w'.1, w.2.1 - w'.2.1, y * (w.2.2 - c) - y' * (w'.2.2 - c)) : Comb F) = 0 := by
      have a1 := v.1
      have a2 := v'.1
      simp only [Comb.val] at a1 a2 ⊢
      simp only [Pi.sub_apply, sub_smul, Finset.sum_sub_distrib]
      linear_combination (norm := module) a1 - a2
    by_cases hz : Comb.Zero (2 ^ k) ((w.1 - w'.1, w.2.1 - w'.2.1, y * (w.2.2 - c) - y' * (w'.2.2 - c)) : Comb F)
    · rw [if_pos hz]
      obtain ⟨z1, z2, z3⟩ := hz
      have p1 := v.2
      have p2 := v'.2
      have hsame : w'.2.2 = w.2.2 := by
        rw [p1, p2]
        apply Finset.sum_congr rfl
        intro i hi
        rw [Finset.mem_range] at hi
        have q1 := z1 i hi
        have q2 := z2 i hi
        simp only [Pi.sub_apply, sub_eq_zero] at q1 q2
        rw [q1, q2]
      have hc : w.2.2 = c := by
        rw [hsame, ← sub_mul] at z3
        rcases mul_eq_zero.mp z3 with h1 | h1
        · exact absurd (sub_eq_zero.mp h1) hyy
        · exact sub_eq_zero.mp h1
      refine ⟨?_, by rw [← p1, hc], hc⟩
      have a1 := v.1
      rw [hc.symm] at a1
      simp only [Comb.val] at a1 ⊢
      linear_combination (norm := module) a1
    · rw [if_neg hz]; exact ⟨hdiff, hz⟩

end alg

end MscPoc
