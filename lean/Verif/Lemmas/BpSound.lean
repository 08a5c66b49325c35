import Mathlib.Algebra.Polynomial.Roots
import Mathlib.Tactic.FieldSimp
import Mathlib.Tactic.LinearCombination
import Verif.Lemmas.IppSound2
import Verif.Spec.BpExtract

/-!
# Special soundness of the range proof: the algebra
-/

set_option autoImplicit false

namespace MscPoc

section
variable {F M : Type} [Field F] [AddCommGroup M] [Module F M]
variable (n : ℕ) (G H U : M) (g h : ℕ → M)

theorem GComb.val_add (w w' : GComb F) : (w + w').val n G H U g h = w.val n G H U g h + w'.val n G H U g h := by
  simp only [GComb.val, Prod.fst_add, Prod.snd_add, Pi.add_apply, add_smul, Finset.sum_add_distrib]
  abel

theorem GComb.val_smul (c : F) (w : GComb F) : (c • w).val n G H U g h = c • w.val n G H U g h := by
  simp only [GComb.val, Prod.smul_fst, Prod.smul_snd, Pi.smul_apply, smul_eq_mul, smul_add, Finset.smul_sum, mul_smul]

theorem GComb.val_sub (w w' : GComb F) : (w - w').val n G H U g h = w.val n G H U g h - w'.val n G H U g h := by
  have e : w - w' = w + (-1 : F) • w' := by rw [neg_one_smul, sub_eq_add_neg]
  rw [e, GComb.val_add, GComb.val_smul, neg_one_smul, sub_eq_add_neg]

theorem combA_val {y z : F} {a b : BpAns F} {A S : M} (hx : a.x ≠ b.x) (ha : (a.comb y z).val n G H U g h = A + a.x • S)
    (hb : (b.comb y z).val n G H U g h = A + b.x • S) : (combA y z a b).val n G H U g h = A := by
  unfold combA
  rw [GComb.val_smul, GComb.val_sub, GComb.val_smul, GComb.val_smul, ha, hb]
  have h0 : b.x - a.x ≠ 0 := sub_ne_zero.mpr (Ne.symm hx)
  have e : b.x • (A + a.x • S) - a.x • (A + b.x • S) = (b.x - a.x) • A := by module
  rw [e, smul_smul, inv_mul_cancel₀ h0, one_smul]

theorem combS_val {y z : F} {a b : BpAns F} {A S : M} (hx : a.x ≠ b.x) (ha : (a.comb y z).val n G H U g h = A + a.x • S)
    (hb : (b.comb y z).val n G H U g h = A + b.x • S) : (combS y z a b).val n G H U g h = S := by
  unfold combS
  rw [GComb.val_smul, GComb.val_sub, ha, hb]
  have h0 : b.x - a.x ≠ 0 := sub_ne_zero.mpr (Ne.symm hx)
  have e : (A + b.x • S) - (A + a.x • S) = (b.x - a.x) • S := by module
  rw [e, smul_smul, inv_mul_cancel₀ h0, one_smul]

/-- the two combinations give back the answers -/
theorem comb_split {y z : F} {a b : BpAns F} (hx : a.x ≠ b.x) :
    a.comb y z = combA y z a b + a.x • combS y z a b ∧ b.comb y z = combA y z a b + b.x • combS y z a b := by
  have h0 : b.x - a.x ≠ 0 := sub_ne_zero.mpr (Ne.symm hx)
  unfold combA combS
  constructor
  · have e : (b.x - a.x)⁻¹ • (b.x • a.comb y z - a.x • b.comb y z) + a.x • (b.x - a.x)⁻¹ • (b.comb y z - a.comb y z) =
        ((b.x - a.x)⁻¹ * (b.x - a.x)) • a.comb y z := by module
    rw [e, inv_mul_cancel₀ h0, one_smul]
  · have e : (b.x - a.x)⁻¹ • (b.x • a.comb y z - a.x • b.comb y z) + b.x • (b.x - a.x)⁻¹ • (b.comb y z - a.comb y z) =
        ((b.x - a.x)⁻¹ * (b.x - a.x)) • b.comb y z := by module
    rw [e, inv_mul_cancel₀ h0, one_smul]

theorem atZero_poly {x0 x1 x2 : F} (h01 : x0 ≠ x1) (h02 : x0 ≠ x2) (h12 : x1 ≠ x2) (c0 c1 c2 : F) :
    atZero x0 x1 x2 (c0 + x0 * c1 + x0 ^ 2 * c2) (c0 + x1 * c1 + x1 ^ 2 * c2) (c0 + x2 * c1 + x2 ^ 2 * c2) = c0 := by
  have a1 : x1 - x0 ≠ 0 := sub_ne_zero.mpr h01.symm
  have a2 : x2 - x0 ≠ 0 := sub_ne_zero.mpr h02.symm
  have a3 : x2 - x1 ≠ 0 := sub_ne_zero.mpr h12.symm
  have a4 : x0 - x1 ≠ 0 := sub_ne_zero.mpr h01
  have a5 : x0 - x2 ≠ 0 := sub_ne_zero.mpr h02
  have a6 : x1 - x2 ≠ 0 := sub_ne_zero.mpr h12
  unfold atZero
  field_simp
  ring

/-- the weights of `atZero` -/
theorem atZero_smul {x0 x1 x2 : F} (h01 : x0 ≠ x1) (h02 : x0 ≠ x2) (h12 : x1 ≠ x2) {t0 t1 t2 s0 s1 s2 : F} {C T1 T2 : M}
    (e0 : t0 • G + s0 • H = C + x0 • T1 + x0 ^ 2 • T2) (e1 : t1 • G + s1 • H = C + x1 • T1 + x1 ^ 2 • T2)
    (e2 : t2 • G + s2 • H = C + x2 • T1 + x2 ^ 2 • T2) :
    atZero x0 x1 x2 t0 t1 t2 • G + atZero x0 x1 x2 s0 s1 s2 • H = C := by
  have w0 := atZero_poly h01 h02 h12 1 0 0
  have w1 := atZero_poly h01 h02 h12 0 1 0
  have w2 := atZero_poly h01 h02 h12 0 0 1
  unfold atZero at *
  set k0 := x1 * x2 * ((x1 - x0) * (x2 - x0))⁻¹
  set k1 := x0 * x2 * ((x0 - x1) * (x2 - x1))⁻¹
  set k2 := x0 * x1 * ((x0 - x2) * (x1 - x2))⁻¹
  have w0' : k0 + k1 + k2 = 1 := by linear_combination w0
  have w1' : k0 * x0 + k1 * x1 + k2 * x2 = 0 := by linear_combination w1
  have w2' : k0 * x0 ^ 2 + k1 * x1 ^ 2 + k2 * x2 ^ 2 = 0 := by linear_combination w2
  have e : (k0 * t0 + k1 * t1 + k2 * t2) • G + (k0 * s0 + k1 * s1 + k2 * s2) • H =
      k0 • (t0 • G + s0 • H) + k1 • (t1 • G + s1 • H) + k2 • (t2 • G + s2 • H) := by module
  rw [e, e0, e1, e2]
  have e' : k0 • (C + x0 • T1 + x0 ^ 2 • T2) + k1 • (C + x1 • T1 + x1 ^ 2 • T2) + k2 • (C + x2 • T1 + x2 ^ 2 • T2) =
      (k0 + k1 + k2) • C + (k0 * x0 + k1 * x1 + k2 * x2) • T1 + (k0 * x0 ^ 2 + k1 * x1 ^ 2 + k2 * x2 ^ 2) • T2 := by module
  rw [e', w0', w1', w2', one_smul, zero_smul, zero_smul, add_zero, add_zero]

theorem openV_val {y z : F} (hz : z ≠ 0) {a : Fin 3 → BpAns F} (hd : ∀ i j, (a i).x = (a j).x → i = j) {V T1 T2 : M}
    (e : ∀ i, (a i).tp • G + (a i).tx • H = z ^ 2 • V + deltaSpec n y z • G + (a i).x • T1 + (a i).x ^ 2 • T2) :
    (openV n y z a).1 • G + (openV n y z a).2 • H = V := by
  have h01 : (a 0).x ≠ (a 1).x := fun h => absurd (hd _ _ h) (by decide)
  have h02 : (a 0).x ≠ (a 2).x := fun h => absurd (hd _ _ h) (by decide)
  have h12 : (a 1).x ≠ (a 2).x := fun h => absurd (hd _ _ h) (by decide)
  have he := atZero_smul G H h01 h02 h12 (e 0) (e 1) (e 2)
  unfold openV
  set t := atZero (a 0).x (a 1).x (a 2).x (a 0).tp (a 1).tp (a 2).tp
  set s := atZero (a 0).x (a 1).x (a 2).x (a 0).tx (a 1).tx (a 2).tx
  have h2 : z ^ 2 ≠ 0 := pow_ne_zero 2 hz
  have : (((z ^ 2)⁻¹ * (t - deltaSpec n y z)) • G + ((z ^ 2)⁻¹ * s) • H) =
      (z ^ 2)⁻¹ • ((t • G + s • H) - deltaSpec n y z • G) := by module
  dsimp only
  rw [this, he, add_sub_cancel_right, smul_smul, inv_mul_cancel₀ h2, one_smul]

/-- all candidates are relations -/
theorem nodeRels_val {y₀ z₀ y z : F} (hz₀ : z₀ ≠ 0) (hz : z ≠ 0) {a₀ a : Fin 3 → BpAns F} (hd₀ : ∀ i j, (a₀ i).x = (a₀ j).x → i = j)
    (hd : ∀ i j, (a i).x = (a j).x → i = j) {V A S T1 T2 T1' T2' : M}
    (e₀ : ∀ i, ((a₀ i).comb y₀ z₀).val n G H U g h = A + (a₀ i).x • S)
    (e : ∀ i, ((a i).comb y z).val n G H U g h = A + (a i).x • S)
    (f₀ : ∀ i, (a₀ i).tp • G + (a₀ i).tx • H = z₀ ^ 2 • V + deltaSpec n y₀ z₀ • G + (a₀ i).x • T1 + (a₀ i).x ^ 2 • T2)
    (f : ∀ i, (a i).tp • G + (a i).tx • H = z ^ 2 • V + deltaSpec n y z • G + (a i).x • T1' + (a i).x ^ 2 • T2') :
    ∀ w ∈ nodeRels n y₀ z₀ a₀ y z a, w.val n G H U g h = 0 := by
  have hA := combA_val n G H U g h (fun hx => absurd (hd _ _ hx) (by decide)) (e 0) (e 1)
  have hS := combS_val n G H U g h (fun hx => absurd (hd _ _ hx) (by decide)) (e 0) (e 1)
  have hA₀ := combA_val n G H U g h (fun hx => absurd (hd₀ _ _ hx) (by decide)) (e₀ 0) (e₀ 1)
  have hS₀ := combS_val n G H U g h (fun hx => absurd (hd₀ _ _ hx) (by decide)) (e₀ 0) (e₀ 1)
  have hV := openV_val n G H hz hd f
  have hV₀ := openV_val n G H hz₀ hd₀ f₀
  intro w hw
  unfold nodeRels at hw
  simp only [List.mem_cons, List.not_mem_nil, or_false] at hw
  rcases hw with rfl | rfl | rfl | rfl
  · rw [GComb.val_sub, GComb.val_add, GComb.val_smul, hA, hS, e 2, sub_self]
  · rw [GComb.val_sub, hA, hA₀, sub_self]
  · rw [GComb.val_sub, hS, hS₀, sub_self]
  · simp only [GComb.val, Pi.zero_apply, zero_smul, Finset.sum_const_zero, add_zero]
    have : ((openV n y z a).1 - (openV n y₀ z₀ a₀).1) • G + ((openV n y z a).2 - (openV n y₀ z₀ a₀).2) • H =
        ((openV n y z a).1 • G + (openV n y z a).2 • H) - ((openV n y₀ z₀ a₀).1 • G + (openV n y₀ z₀ a₀).2 • H) := by module
    rw [this, hV, hV₀, sub_self]

end

/-! ## The equations between the committed vectors and the value -/

section
variable {F : Type} [Field F]

theorem zero_sub_iff {n : ℕ} {w w' : GComb F} (h : (w - w').Zero n) :
    (∀ i < n, w.2.1 i = w'.2.1 i) ∧ ∀ i < n, w.2.2 i = w'.2.2 i :=
  ⟨fun i hi => sub_eq_zero.mp (h.2.2.2.1 i hi), fun i hi => sub_eq_zero.mp (h.2.2.2.2 i hi)⟩

/-- the answers of a node when no relation was found -/
theorem node_answers {n : ℕ} {y₀ z₀ y z : F} {a₀ a : Fin 3 → BpAns F} (hy : y ≠ 0) (hd : ∀ i j, (a i).x = (a j).x → i = j)
    (hz : ∀ w ∈ nodeRels n y₀ z₀ a₀ y z a, w.Zero n) (i : Fin 3) (m : ℕ) (hm : m < n) :
    (a i).l m = (combA y₀ z₀ (a₀ 0) (a₀ 1)).2.1 m - z + (a i).x * (combS y₀ z₀ (a₀ 0) (a₀ 1)).2.1 m ∧
    (a i).r m = y ^ m * ((combA y₀ z₀ (a₀ 0) (a₀ 1)).2.2 m + z + (a i).x * (combS y₀ z₀ (a₀ 0) (a₀ 1)).2.2 m) + z ^ 2 * 2 ^ m := by
  obtain ⟨r1, r2, r3, _⟩ : _ ∧ _ ∧ _ ∧ _ := by simpa [nodeRels] using hz
  obtain ⟨s0, s1⟩ := comb_split (y := y) (z := z) (show (a 0).x ≠ (a 1).x from fun hx => absurd (hd _ _ hx) (by decide))
  obtain ⟨u1, u2⟩ := zero_sub_iff r2
  obtain ⟨v1, v2⟩ := zero_sub_iff r3
  obtain ⟨t1, t2⟩ := zero_sub_iff r1
  have key : ((a i).comb y z).2.1 m = (combA y z (a 0) (a 1)).2.1 m + (a i).x * (combS y z (a 0) (a 1)).2.1 m ∧
      ((a i).comb y z).2.2 m = (combA y z (a 0) (a 1)).2.2 m + (a i).x * (combS y z (a 0) (a 1)).2.2 m := by
    fin_cases i
    · exact ⟨congrFun (congrArg (fun w : GComb F => w.2.1) s0) m, congrFun (congrArg (fun w : GComb F => w.2.2) s0) m⟩
    · exact ⟨congrFun (congrArg (fun w : GComb F => w.2.1) s1) m, congrFun (congrArg (fun w : GComb F => w.2.2) s1) m⟩
    · exact ⟨(t1 m hm).symm, (t2 m hm).symm⟩
  obtain ⟨k1, k2⟩ := key
  rw [u1 m hm, v1 m hm] at k1
  rw [u2 m hm, v2 m hm] at k2
  simp only [BpAns.comb] at k1 k2
  have hp : y ^ m ≠ 0 := pow_ne_zero m hy
  refine ⟨by linear_combination k1, ?_⟩
  have : (a i).r m - z ^ 2 * 2 ^ m = y ^ m * ((y ^ m)⁻¹ * ((a i).r m - z ^ 2 * 2 ^ m)) := by
    rw [← mul_assoc, mul_inv_cancel₀ hp, one_mul]
  linear_combination this + y ^ m * k2

/-- the polynomial whose coefficients are the equations -/
noncomputable def weakPoly (n : ℕ) (v : F) (aL aR : ℕ → F) : Polynomial F :=
  (∑ i ∈ Finset.range n, (Polynomial.C (aL i * aR i) * Polynomial.X ^ i +
    Polynomial.C (aL i - aR i - 1) * Polynomial.X ^ (i + 1))) +
    Polynomial.C ((∑ i ∈ Finset.range n, aL i * 2 ^ i) - v) * Polynomial.X ^ 2

theorem weakPoly_coeff (n : ℕ) (v : F) (aL aR : ℕ → F) (j : ℕ) : (weakPoly n v aL aR).coeff j = weakEq n v aL aR j := by
  unfold weakPoly weakEq
  rw [Polynomial.coeff_add, Polynomial.finsetSum_coeff, Polynomial.coeff_C_mul_X_pow]
  congr 1
  simp only [Polynomial.coeff_add, Polynomial.coeff_C_mul_X_pow, Finset.sum_add_distrib]
  congr 1
  · rw [Finset.sum_ite_eq]; simp
  · cases j with
    | zero => simp
    | succ j =>
      simp only [Nat.add_right_cancel_iff, Nat.add_sub_cancel]
      rw [Finset.sum_ite_eq]
      simp

theorem pows_sum (c : F) (n : ℕ) : (pows c n).sum = ∑ i ∈ Finset.range n, c ^ i := by
  induction n with
  | zero => simp [pows]
  | succ n ih =>
    rw [Finset.sum_range_succ, ← ih]
    simp [pows, List.range_succ]

theorem weakPoly_degree (n : ℕ) (v : F) (aL aR : ℕ → F) (hn : 0 < n) : (weakPoly n v aL aR).natDegree ≤ n + 1 := by
  refine Polynomial.natDegree_le_iff_coeff_eq_zero.mpr fun j hj => ?_
  rw [weakPoly_coeff]
  unfold weakEq
  rw [if_neg (by omega), if_neg (by omega), if_neg (by omega)]
  simp

theorem weakRange_of_eval {n : ℕ} (hn : 0 < n) {v : F} {aL aR : ℕ → F} {ι : Type} [Fintype ι] (hc : n + 1 < Fintype.card ι)
    (y : ι → F) (hy : Function.Injective y) (h : ∀ j, (weakPoly n v aL aR).eval (y j) = 0) : WeakRange n v aL aR := by
  have : weakPoly n v aL aR = 0 :=
    Polynomial.eq_zero_of_natDegree_lt_card_of_eval_eq_zero _ hy h ((weakPoly_degree n v aL aR hn).trans_lt hc)
  intro j
  rw [← weakPoly_coeff, this, Polynomial.coeff_zero]

/-- the equation at one node -/
def nodeEq (n : ℕ) (v : F) (aL aR : ℕ → F) (y z : F) : F :=
  (∑ i ∈ Finset.range n, aL i * aR i * y ^ i) + z * (∑ i ∈ Finset.range n, (aL i - aR i - 1) * y ^ i) +
    z ^ 2 * ((∑ i ∈ Finset.range n, aL i * 2 ^ i) - v)

theorem nodeEq_form (n : ℕ) (v : F) (aL aR : ℕ → F) (y z : F) : nodeEq n v aL aR y z =
    (∑ i ∈ Finset.range n, (aL i - z) * (y ^ i * (aR i + z) + z ^ 2 * 2 ^ i)) - deltaSpec n y z - z ^ 2 * v := by
  unfold nodeEq deltaSpec
  rw [pows_sum, pows_sum]
  induction n with
  | zero => simp
  | succ n ih =>
    simp only [Finset.sum_range_succ]
    linear_combination ih

theorem weakPoly_eval (n : ℕ) (v : F) (aL aR : ℕ → F) (y : F) : (weakPoly n v aL aR).eval y = nodeEq n v aL aR y y := by
  unfold weakPoly nodeEq
  simp only [Polynomial.eval_add, Polynomial.eval_finsetSum, Polynomial.eval_mul, Polynomial.eval_C, Polynomial.eval_pow,
    Polynomial.eval_X]
  induction n with
  | zero => simp; ring
  | succ n ih =>
    simp only [Finset.sum_range_succ]
    linear_combination ih

/-- at every node the equation holds, when no relation was found -/
theorem node_eval {n : ℕ} {y₀ z₀ y z : F} {a₀ a : Fin 3 → BpAns F} (hy : y ≠ 0) (hz0 : z ≠ 0) (hd : ∀ i j, (a i).x = (a j).x → i = j)
    (hz : ∀ w ∈ nodeRels n y₀ z₀ a₀ y z a, w.Zero n) (ht : ∀ i, (a i).tp = ∑ m ∈ Finset.range n, (a i).l m * (a i).r m) :
    nodeEq n (openV n y₀ z₀ a₀).1 (combA y₀ z₀ (a₀ 0) (a₀ 1)).2.1 (combA y₀ z₀ (a₀ 0) (a₀ 1)).2.2 y z = 0 := by
  obtain ⟨_, _, _, r4⟩ : _ ∧ _ ∧ _ ∧ _ := by simpa [nodeRels] using hz
  have hv : (openV n y z a).1 = (openV n y₀ z₀ a₀).1 := sub_eq_zero.mp r4.1
  have h01 : (a 0).x ≠ (a 1).x := fun h => absurd (hd _ _ h) (by decide)
  have h02 : (a 0).x ≠ (a 2).x := fun h => absurd (hd _ _ h) (by decide)
  have h12 : (a 1).x ≠ (a 2).x := fun h => absurd (hd _ _ h) (by decide)
  have hans := node_answers hy hd hz
  set aL := (combA y₀ z₀ (a₀ 0) (a₀ 1)).2.1
  set aR := (combA y₀ z₀ (a₀ 0) (a₀ 1)).2.2
  set sL := (combS y₀ z₀ (a₀ 0) (a₀ 1)).2.1
  set sR := (combS y₀ z₀ (a₀ 0) (a₀ 1)).2.2
  have ht' : ∀ i, (a i).tp = (∑ m ∈ Finset.range n, (aL m - z) * (y ^ m * (aR m + z) + z ^ 2 * 2 ^ m)) +
      (a i).x * (∑ m ∈ Finset.range n, (sL m * (y ^ m * (aR m + z) + z ^ 2 * 2 ^ m) + (aL m - z) * (y ^ m * sR m))) +
      (a i).x ^ 2 * ∑ m ∈ Finset.range n, sL m * (y ^ m * sR m) := by
    intro i
    rw [ht i, Finset.mul_sum, Finset.mul_sum, ← Finset.sum_add_distrib, ← Finset.sum_add_distrib]
    refine Finset.sum_congr rfl fun m hm => ?_
    rw [(hans i m (Finset.mem_range.mp hm)).1, (hans i m (Finset.mem_range.mp hm)).2]
    ring
  rw [nodeEq_form, ← hv]
  unfold openV
  dsimp only
  rw [ht' 0, ht' 1, ht' 2, atZero_poly h01 h02 h12]
  have h2 : z ^ 2 ≠ 0 := pow_ne_zero 2 hz0
  rw [← mul_assoc, mul_inv_cancel₀ h2, one_mul]
  ring

end

end MscPoc
