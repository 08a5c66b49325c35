import Verif.Model.Bp
import Mathlib.Algebra.BigOperators.Group.Finset.Basic
import Mathlib.Algebra.BigOperators.Ring.Finset
import Mathlib.Data.Nat.Digits.Lemmas
import Mathlib.Tactic.Ring
import Mathlib.Tactic.IntervalCases

/-!
# Lemmas for the helper functions
-/

set_option autoImplicit false

namespace MscPoc

theorem decompose_length (u : Int) : ∀ (l : ℕ) (x : Int), (decompose x u l).length = l
  | 0, _ => rfl
  | l + 1, x => by simp [decompose, decompose_length u l]

theorem decompose_digit {u : Int} (hu : 0 < u) : ∀ (l : ℕ) (x d : Int), d ∈ decompose x u l → 0 ≤ d ∧ d < u
  | 0, _, d, h => by simp [decompose] at h
  | l + 1, x, d, h => by
    rcases List.mem_cons.mp h with rfl | h
    · exact ⟨Int.emod_nonneg _ hu.ne', Int.emod_lt_of_pos _ hu⟩
    · exact decompose_digit hu l _ d h

/-- positional value, least significant digit first -/
def posValue (u : Int) : List Int → Int
  | [] => 0
  | d :: ds => d + u * posValue u ds

theorem posValue_eq_sum (u : Int) (ds : List Int) :
    posValue u ds = ∑ i ∈ Finset.range ds.length, ds.getD i 0 * u ^ i := by
  induction ds with
  | nil => simp [posValue]
  | cons d ds ih =>
    rw [posValue, ih, List.length_cons, Finset.sum_range_succ']
    simp only [List.getD_cons_succ, List.getD_cons_zero, pow_succ, pow_zero, mul_one, Finset.mul_sum]
    rw [add_comm]
    congr 1
    apply Finset.sum_congr rfl
    intros; ring

theorem decompose_value {u : Int} (hu : 0 < u) : ∀ (l : ℕ) (x : Int), posValue u (decompose x u l) = x % u ^ l
  | 0, x => by simp [decompose, posValue, Int.emod_one]
  | l + 1, x => by
    rw [decompose, posValue, decompose_value hu l, pow_succ, mul_comm (u ^ l) u]
    rw [Int.emod_def x u, Int.emod_def (x / u), Int.emod_def x, Int.ediv_ediv_of_nonneg hu.le]
    ring

theorem posValue_unique {u : Int} : ∀ (a b : List Int), a.length = b.length →
    (∀ d ∈ a, 0 ≤ d ∧ d < u) → (∀ d ∈ b, 0 ≤ d ∧ d < u) → posValue u a = posValue u b → a = b
  | [], [], _, _, _, _ => rfl
  | [], _ :: _, h, _, _, _ => by simp at h
  | _ :: _, [], h, _, _, _ => by simp at h
  | d :: a, e :: b, h, ha, hb, hv => by
    have h1 := ha d (by simp)
    have h2 := hb e (by simp)
    simp only [posValue] at hv
    have hd : d = e := by
      have := congrArg (· % u) hv
      simp only [Int.add_mul_emod_self_left] at this
      rwa [Int.emod_eq_of_lt h1.1 h1.2, Int.emod_eq_of_lt h2.1 h2.2] at this
    subst hd
    have hu : 0 < u := by omega
    have : posValue u a = posValue u b := by
      have := add_left_cancel hv
      exact Int.eq_of_mul_eq_mul_left hu.ne' this
    rw [posValue_unique a b (by simpa using h) (fun x hx => ha x (by simp [hx])) (fun x hx => hb x (by simp [hx])) this]

theorem posValue_bounds {u : Int} (hu : 0 < u) : ∀ (a : List Int), (∀ d ∈ a, 0 ≤ d ∧ d < u) →
    0 ≤ posValue u a ∧ posValue u a < u ^ a.length
  | [], _ => by simp [posValue]
  | d :: a, ha => by
    have h1 := ha d (by simp)
    have ih := posValue_bounds hu a (fun x hx => ha x (by simp [hx]))
    simp only [posValue, List.length_cons, pow_succ]
    constructor
    · have := mul_nonneg hu.le ih.1; omega
    · have h3 : posValue u a + 1 ≤ u ^ a.length := by omega
      have := mul_le_mul_of_nonneg_left h3 hu.le
      rw [mul_comm (u ^ a.length) u]
      rw [mul_add, mul_one] at this
      omega

theorem computeARE_ok (a : List Int) (h : ∀ d ∈ a, d = 0 ∨ d = 1) : computeARE a = .ok (a.map (· - 1)) := by
  induction a with
  | nil => rfl
  | cons d a ih =>
    have ih := ih (fun x hx => h x (by simp [hx]))
    rcases h d (by simp) with rfl | rfl
    · simp [computeARE, ih]; rfl
    · simp [computeARE, ih]; rfl

theorem computeARE_error (a : List Int) (h : ∃ d ∈ a, d ≠ 0 ∧ d ≠ 1) :
    computeARE a = .error "input contains non-binary element" := by
  induction a with
  | nil => simp at h
  | cons d a ih =>
    unfold computeARE
    by_cases h0 : d = 0
    · rw [if_pos h0, ih]
      · rfl
      · obtain ⟨e, he, h1, h2⟩ := h
        rcases List.mem_cons.mp he with rfl | he
        · exact absurd h0 h1
        · exact ⟨e, he, h1, h2⟩
    · rw [if_neg h0]
      by_cases h1 : d = 1
      · rw [if_pos h1, ih]
        · rfl
        · obtain ⟨e, he, h2, h3⟩ := h
          rcases List.mem_cons.mp he with rfl | he
          · exact absurd h1 h3
          · exact ⟨e, he, h2, h3⟩
      · rw [if_neg h1]

theorem isPowerOfTwo_toNat (x : BitVec 64) : isPowerOfTwo x = true ↔ ∃ k : ℕ, x.toNat = 2 ^ k := by
  have h := @Nat.ne_zero_and_sub_one_eq_zero_iff_isPowerOfTwo x.toNat
  have hi : x.toNat.isPowerOfTwo ↔ ∃ k : ℕ, x.toNat = 2 ^ k := Iff.rfl
  rw [← hi, ← h]
  unfold isPowerOfTwo
  simp only [Bool.and_eq_true, bne_iff_ne, ne_eq, beq_iff_eq]
  by_cases h0 : x = 0#64
  · subst h0; simp
  · have hn : x.toNat ≠ 0 := by
      intro hc; exact h0 (by apply BitVec.eq_of_toNat_eq; simpa using hc)
    have h0' : ¬ x = 0 := h0
    simp only [h0', not_false_eq_true, hn, true_and]
    have hs : (x - 1).toNat = x.toNat - 1 := by
      rw [BitVec.toNat_sub_of_le]
      · rfl
      · rw [BitVec.le_def]; simp; omega
    constructor
    · intro h
      have := congrArg BitVec.toNat h
      rw [BitVec.toNat_and, hs] at this
      simpa using this
    · intro h
      apply BitVec.eq_of_toNat_eq
      rw [BitVec.toNat_and, hs]
      simpa using h

/-- decimal printing of naturals is injective -/
theorem natDec_inj {m n : ℕ} (h : natDec m = natDec n) : m = n := by
  have key : ∀ (a b : List ℕ), (∀ x ∈ a, x < 10) → (∀ x ∈ b, x < 10) →
      a.map (fun d => UInt8.ofNat (d + 48)) = b.map (fun d => UInt8.ofNat (d + 48)) → a = b := by
    intro a
    induction a with
    | nil => intro b _ _ h; cases b with
      | nil => rfl
      | cons _ _ => simp at h
    | cons x a ih => intro b ha hb h; cases b with
      | nil => simp at h
      | cons y b =>
        simp only [List.map_cons, List.cons.injEq] at h
        have h1 := ha x (by simp)
        have h2 := hb y (by simp)
        have hxy : x = y := by
          have := congrArg UInt8.toNat h.1
          simp only [UInt8.toNat_ofNat'] at this
          omega
        rw [hxy, ih b (fun z hz => ha z (by simp [hz])) (fun z hz => hb z (by simp [hz])) h.2]
  have dlt : ∀ n x, x ∈ (Nat.digits 10 n).reverse → x < 10 := by
    intro n x hx
    exact Nat.digits_lt_base (by norm_num) (List.mem_reverse.mp hx)
  have nz : ∀ n : ℕ, n ≠ 0 → (Nat.digits 10 n).reverse.map (fun d => UInt8.ofNat (d + 48)) ≠ [48] := by
    intro n hn hc
    have := key _ [0] (dlt n) (by simp) (by rw [hc]; rfl)
    have h2 : Nat.digits 10 n = [0] := by
      have := congrArg List.reverse this
      simpa using this
    have h3 := Nat.ofDigits_digits 10 n
    rw [h2] at h3
    simp at h3
    omega
  unfold natDec at h
  by_cases hm : m = 0 <;> by_cases hn : n = 0
  · omega
  · rw [if_pos hm, if_neg hn] at h; exact absurd h.symm (nz n hn)
  · rw [if_neg hm, if_pos hn] at h; exact absurd h (nz m hm)
  · rw [if_neg hm, if_neg hn] at h
    have := List.reverse_injective (key _ _ (dlt m) (dlt n) h)
    exact Nat.digits_inj_iff.mp this

theorem mapM_some_iff {α β : Type} (f : α → Option β) : ∀ (l : List α) (r : List β),
    l.mapM f = some r ↔ l.map f = r.map some
  | [], r => by simp
  | a :: l, r => by
    rw [List.mapM_cons]
    simp only [Option.bind_eq_bind, Option.bind_eq_some_iff]
    constructor
    · rintro ⟨b, hb, bs, hbs, h⟩
      simp only [Option.pure_def, Option.some.injEq] at h
      subst h
      simp [hb, (mapM_some_iff f l bs).mp hbs]
    · intro h
      cases r with
      | nil => simp at h
      | cons b bs =>
        simp only [List.map_cons, List.cons.injEq] at h
        exact ⟨b, h.1, bs, (mapM_some_iff f l bs).mpr h.2, rfl⟩

theorem mapSeeds_iff {E : Type} {GP : Grp E} {seed : ℕ → Bytes} {n : ℕ} {l : List E} :
    mapSeeds GP seed n = some l ↔ (List.range n).map (fun i => GP.mapToGroup (seed i)) = l.map some :=
  mapM_some_iff _ _ _

theorem mapSeeds_length {E : Type} {GP : Grp E} {seed : ℕ → Bytes} {n : ℕ} {l : List E}
    (h : mapSeeds GP seed n = some l) : l.length = n := by
  have := congrArg List.length (mapSeeds_iff.mp h)
  simpa using this.symm

theorem mapSeeds_isSome {E : Type} {GP : Grp E} (seed : ℕ → Bytes) (n : ℕ)
    (h : ∀ i < n, ∃ e, GP.mapToGroup (seed i) = some e) : ∃ l, mapSeeds GP seed n = some l := by
  induction n with
  | zero => exact ⟨[], by simp [mapSeeds]⟩
  | succ n ih =>
    obtain ⟨l, hl⟩ := ih fun i hi => h i (by omega)
    obtain ⟨e, he⟩ := h n (by omega)
    refine ⟨l ++ [e], mapSeeds_iff.mpr ?_⟩
    rw [List.range_succ, List.map_append, mapSeeds_iff.mp hl]
    simp [he]

/-- the strings that are hashed to the group for a range of `n` bits -/
def SetupSeed (n : ℕ) (s : Bytes) : Prop := s = SEEDH ∨ s = SEEDU ∨ ∃ i < n, s = seedG i ∨ s = seedHh i

end MscPoc
