import Verif.Lemmas.Basic
import Verif.Lemmas.Vec
import Verif.Lemmas.BpModel
import Verif.Toy
import Mathlib.Algebra.Field.ZMod
import Mathlib.Tactic.FieldSimp
import Mathlib.Tactic.LinearCombination

/-!
# C10–C15, C22, C25 — helper functions, set-up and commitments
-/

set_option autoImplicit false

namespace MscPoc

/-- **C10** `Decompose`: `l` digits in `[0,u)` whose positional value is `x mod u^l`. -/
theorem C10_decompose (x u : Int) (l : ℕ) (hu : 2 ≤ u) :
    (decompose x u l).length = l ∧ (∀ d ∈ decompose x u l, 0 ≤ d ∧ d < u) ∧
    ∑ i ∈ Finset.range l, (decompose x u l).getD i 0 * u ^ i = x % u ^ l := by
  refine ⟨decompose_length u l x, decompose_digit (by omega) l x, ?_⟩
  have := posValue_eq_sum u (decompose x u l)
  rw [decompose_length] at this
  rw [← this, decompose_value (by omega)]

/-- C10: the value is `x` itself exactly when `0 ≤ x < u^l`. -/
theorem C10_decompose_exact (x u : Int) (l : ℕ) (hu : 2 ≤ u) :
    ∑ i ∈ Finset.range l, (decompose x u l).getD i 0 * u ^ i = x ↔ 0 ≤ x ∧ x < u ^ l := by
  rw [(C10_decompose x u l hu).2.2]
  have hp : 0 < u ^ l := pow_pos (by omega) l
  constructor
  · intro h
    exact ⟨h ▸ Int.emod_nonneg _ hp.ne', h ▸ Int.emod_lt_of_pos _ hp⟩
  · rintro ⟨h1, h2⟩; exact Int.emod_eq_of_lt h1 h2

/-- C10: digits are unique. -/
theorem C10_digits_unique (x u : Int) (l : ℕ) (hu : 2 ≤ u) (ds : List Int) (hl : ds.length = l)
    (hd : ∀ d ∈ ds, 0 ≤ d ∧ d < u)
    (hv : ∑ i ∈ Finset.range l, ds.getD i 0 * u ^ i = x % u ^ l) : ds = decompose x u l := by
  apply posValue_unique ds _ (by rw [hl, decompose_length]) hd (decompose_digit (by omega) l x)
  rw [posValue_eq_sum, hl, hv, decompose_value (by omega)]

/-- C10 on concrete values, one of them negative. -/
example : decompose 13 2 6 = [1, 0, 1, 1, 0, 0] ∧ decompose (-3) 2 4 = [1, 0, 1, 1] ∧ decompose 777 10 2 = [7, 7] := by
  decide

/-- **C11** `computeAR`: `a - 1` on bit vectors, an error exactly on vectors with a non-bit. -/
theorem C11_computeAR (a : List Int) :
    ((∀ d ∈ a, d = 0 ∨ d = 1) → computeARE a = .ok (a.map (· - 1))) ∧
    ((∃ e, computeARE a = .error e) ↔ ∃ d ∈ a, d ≠ 0 ∧ d ≠ 1) := by
  refine ⟨computeARE_ok a, ?_, fun h => ⟨_, computeARE_error a h⟩⟩
  rintro ⟨e, he⟩
  by_contra hc
  have : ∀ d ∈ a, d = 0 ∨ d = 1 := by
    intro d hd
    by_contra h
    exact hc ⟨d, hd, by omega⟩
  rw [computeARE_ok a this] at he
  cases he

example : computeARE [1, 0, 0, 1] = .ok [0, -1, -1, 0] ∧
    computeARE [1, 2, 0] = .error "input contains non-binary element" := ⟨rfl, rfl⟩

/-- **C12** `VectorAdd`, `VectorSub`, `VectorMul`: componentwise modular operation; error exactly on length mismatch. -/
theorem C12_vector_binary (a b : List Int) (N : Int) (hN : 0 < N) :
    ((∃ e, vectorAddE a b N = .error e) ↔ a.length ≠ b.length) ∧
    ((∃ e, vectorSubE a b N = .error e) ↔ a.length ≠ b.length) ∧
    ((∃ e, vectorMulE a b N = .error e) ↔ a.length ≠ b.length) ∧
    (∀ r, vectorAddE a b N = .ok r → r.length = a.length ∧ ∀ (i : ℕ) x y, a[i]? = some x → b[i]? = some y →
      r[i]? = some ((x + y) % N) ∧ 0 ≤ (x + y) % N ∧ (x + y) % N < N) ∧
    (∀ r, vectorSubE a b N = .ok r → r.length = a.length ∧ ∀ (i : ℕ) x y, a[i]? = some x → b[i]? = some y →
      r[i]? = some ((x - y) % N) ∧ 0 ≤ (x - y) % N ∧ (x - y) % N < N) ∧
    (∀ r, vectorMulE a b N = .ok r → r.length = a.length ∧ ∀ (i : ℕ) x y, a[i]? = some x → b[i]? = some y →
      r[i]? = some ((x * y) % N) ∧ 0 ≤ (x * y) % N ∧ (x * y) % N < N) := by
  have hb : ∀ z : Int, 0 ≤ z % N ∧ z % N < N := fun z => ⟨Int.emod_nonneg _ hN.ne', Int.emod_lt_of_pos _ hN⟩
  by_cases h : a.length = b.length
  · simp only [vectorAddE, vectorSubE, vectorMulE, h, ne_eq, not_true_eq_false, if_false, reduceCtorEq, exists_false,
      Except.ok.injEq]
    refine ⟨trivial, trivial, trivial, ?_, ?_, ?_⟩ <;>
    · rintro r rfl
      refine ⟨by simp [h], fun i x y hx hy => ⟨by simp [List.getElem?_zipWith, hx, hy], (hb _).1, (hb _).2⟩⟩
  · simp [vectorAddE, vectorSubE, vectorMulE, h]

/-- C12 `VectorScalarMul`, `VectorAddConst`. -/
theorem C12_vector_unary (a : List Int) (c N : Int) (hN : 0 < N) (i : ℕ) (x : Int) (hx : a[i]? = some x) :
    (vectorScalarMul a c N).length = a.length ∧ (vectorAddConst a c N).length = a.length ∧
    (vectorScalarMul a c N)[i]? = some ((x * c) % N) ∧ (vectorAddConst a c N)[i]? = some ((x + c) % N) ∧
    0 ≤ (x * c) % N ∧ (x * c) % N < N ∧ 0 ≤ (x + c) % N ∧ (x + c) % N < N :=
  ⟨by simp [vectorScalarMul], by simp [vectorAddConst], by simp [vectorScalarMul, hx], by simp [vectorAddConst, hx],
    Int.emod_nonneg _ hN.ne', Int.emod_lt_of_pos _ hN, Int.emod_nonneg _ hN.ne', Int.emod_lt_of_pos _ hN⟩

/-- C12 `VectorECAdd`. -/
theorem C12_vectorECAdd {E : Type} (GP : Grp E) (a b : List E) :
    ((∃ e, vectorECAddE GP a b = .error e) ↔ a.length ≠ b.length) ∧
    (∀ r, vectorECAddE GP a b = .ok r → r.length = a.length ∧ ∀ (i : ℕ) x y, a[i]? = some x → b[i]? = some y →
      r[i]? = some (GP.add x y)) := by
  by_cases h : a.length = b.length
  · simp only [vectorECAddE, h, ne_eq, not_true_eq_false, if_false, reduceCtorEq, exists_false, Except.ok.injEq]
    refine ⟨trivial, ?_⟩
    rintro r rfl
    exact ⟨by simp [h], fun i x y hx hy => by simp [List.getElem?_zipWith, hx, hy]⟩
  · simp [vectorECAddE, h]

/-- the integer inner product -/
def intDot (a b : List Int) : Int := (List.zipWith (· * ·) a b).sum

theorem scalarProductGo_eq (N : Int) (a b : List Int) (acc : Int) :
    scalarProductGo N a b acc % N = (acc + intDot a b) % N := by
  induction a generalizing b acc with
  | nil => simp [scalarProductGo, intDot]
  | cons x a ih => cases b with
    | nil => simp [scalarProductGo, intDot]
    | cons y b =>
      rw [scalarProductGo, ih]
      simp only [intDot, List.zipWith_cons_cons, List.sum_cons]
      rw [Int.emod_add_emod, add_assoc]

theorem scalarProductGo_reduced (N : Int) (a b : List Int) (acc : Int) (h : acc % N = acc) :
    scalarProductGo N a b acc % N = scalarProductGo N a b acc := by
  induction a generalizing b acc with
  | nil => simpa [scalarProductGo] using h
  | cons x a ih => cases b with
    | nil => simpa [scalarProductGo] using h
    | cons y b => rw [scalarProductGo, ih]; exact Int.emod_emod _ _

theorem vectorInnerProductGo_eq (N : Int) (a b : List Int) (acc : Int) (h : a.length = b.length) :
    ∃ r, vectorInnerProductGo N a b acc = some r ∧ r % N = (acc + intDot a b) % N := by
  induction a generalizing b acc with
  | nil => exact ⟨acc, rfl, by simp [intDot]⟩
  | cons x a ih => cases b with
    | nil => simp at h
    | cons y b =>
      obtain ⟨r, h1, h2⟩ := ih b (acc + (x * y) % N) (by simpa using h)
      refine ⟨r, h1, ?_⟩
      rw [h2]
      simp only [intDot, List.zipWith_cons_cons, List.sum_cons]
      rw [← Int.emod_emod_of_dvd _ (dvd_refl N), add_right_comm, Int.add_emod_emod]
      rw [Int.emod_emod_of_dvd _ (dvd_refl N)]
      congr 1
      ring

/-- C12 `ScalarProduct` and `VectorInnerProduct` are both the inner product modulo `N` on equal lengths;
`ScalarProduct` has no result on different lengths. -/
theorem C12_inner_products (a b : List Int) (N : Int) :
    (a.length = b.length → scalarProduct a b N = some (intDot a b % N) ∧
      vectorInnerProduct a b N = some (intDot a b % N)) ∧
    (a.length ≠ b.length → scalarProduct a b N = none) := by
  constructor
  · intro h
    constructor
    · unfold scalarProduct
      rw [if_neg (not_not.mpr h), ← scalarProductGo_reduced N a b 0 (by simp), scalarProductGo_eq, zero_add]
    · obtain ⟨r, h1, h2⟩ := vectorInnerProductGo_eq N a b 0 h
      unfold vectorInnerProduct
      rw [h1, Option.map_some, h2, zero_add]
  · intro h
    unfold scalarProduct
    rw [if_pos h]

theorem powerOfGo_getElem (x N : Int) : ∀ (n i : ℕ) (c : Int), i < n → 1 ≤ i →
    (powerOfGo x N n c)[i]? = some (c * x ^ i % N)
  | 0, i, c, h, _ => by omega
  | n + 1, 0, c, _, h => by omega
  | n + 1, 1, c, h, _ => by
    cases n with
    | zero => omega
    | succ n => simp [powerOfGo]
  | n + 1, i + 2, c, h, _ => by
    rw [powerOfGo, List.getElem?_cons_succ, powerOfGo_getElem x N n (i + 1) _ (by omega) (by omega)]
    rw [Int.mul_emod, Int.emod_emod_of_dvd _ (dvd_refl N), ← Int.mul_emod]
    congr 2
    ring

/-- C12 `powerOf`: entry 0 is 1, entry `i ≥ 1` is `x^i mod N`. -/
theorem C12_powerOf (x N : Int) (n : ℕ) :
    (powerOf x n N).length = n ∧ (0 < n → (powerOf x n N)[0]? = some 1) ∧
    ∀ i, 1 ≤ i → i < n → (powerOf x n N)[i]? = some (x ^ i % N) := by
  refine ⟨powerOf_length x N n, ?_, ?_⟩
  · intro h
    cases n with
    | zero => omega
    | succ n => simp [powerOf, powerOfGo]
  · intro i h1 h2
    rw [powerOf, powerOfGo_getElem x N n i 1 h2 h1, one_mul]

/-- C12 `VectorExp` is the multi-scalar product; nil (a later panic) on length mismatch. -/
theorem C12_vectorExp {E : Type} {GP : Grp E} {q : ℕ} {M : Type} [AddCommGroup M] [Module (ZMod q) M]
    (L : Lawful GP q M) (g : List E) (a : List Int) (hg : ∀ e ∈ g, L.V e) :
    (g.length ≠ a.length → vectorExp GP g a = none) ∧
    (g.length = a.length → ∃ r, vectorExp GP g a = some r ∧ L.V r ∧
      L.den r = (List.zipWith (fun (e : E) (s : Int) => (s : ZMod q) • L.den e) g a).sum) := by
  constructor
  · intro h; unfold vectorExp; rw [if_pos h]
  · intro h
    obtain ⟨r, hr⟩ := Lawful.vectorExp_isSome (GP := GP) h
    obtain ⟨_, h2, h3⟩ := L.vectorExp_spec hg hr
    refine ⟨r, hr, h2, ?_⟩
    rw [h3, msm, Lawful.denV, castV, List.zipWith_map]

/-- C12 on concrete vectors. -/
example : vectorAddE [1, 2, 96] [5, -9, 7] 101 = .ok [6, 94, 2] ∧ scalarProduct [1, 2, 3] [4, 5, 99] 101 = some 8 ∧
    vectorInnerProduct [1, 2, 3] [4, 5, 99] 101 = some 8 ∧ powerOf 7 5 101 = [1, 7, 49, 40, 78] ∧
    vectorExp (toyGrp 101) [3, 5] [10, 20] = some 29 := by decide +kernel

/-- **C13** `IsPowerOfTwo` on int64: the 63 positive powers of two and, contrary to its documentation, the most
negative value. -/
theorem C13_isPowerOfTwo (x : BitVec 64) :
    isPowerOfTwo x = true ↔ (∃ k < 63, x.toInt = 2 ^ k) ∨ x.toInt = -2 ^ 63 := by
  rw [isPowerOfTwo_toNat]
  have hlt := x.isLt
  constructor
  · rintro ⟨k, hk⟩
    have hk64 : k < 64 := by
      rw [hk] at hlt
      exact (Nat.pow_lt_pow_iff_right (by norm_num)).mp hlt
    by_cases h63 : k = 63
    · right
      subst h63
      rw [BitVec.toInt_eq_toNat_cond, hk]; norm_num
    · left
      refine ⟨k, by omega, ?_⟩
      have : 2 ^ k ≤ 2 ^ 62 := Nat.pow_le_pow_right (by norm_num) (by omega)
      rw [BitVec.toInt_eq_toNat_cond, if_pos (by omega), hk]
      push_cast; rfl
  · rintro (⟨k, hk, h⟩ | h)
    · refine ⟨k, ?_⟩
      have hp : (0 : Int) < 2 ^ k := pow_pos (by norm_num) k
      rw [BitVec.toInt_eq_toNat_cond] at h
      split at h
      · exact_mod_cast h
      · omega
    · refine ⟨63, ?_⟩
      rw [BitVec.toInt_eq_toNat_cond] at h
      split at h <;> omega

example : isPowerOfTwo 4096#64 = true ∧ isPowerOfTwo 4097#64 = false ∧ isPowerOfTwo 0#64 = false ∧
    isPowerOfTwo (BitVec.intMin 64) = true := by decide

/-- the admissible bit lengths -/
theorem exp_pow2 (j : ℕ) (hj : j < 63) :
    isPowerOfTwo (BitVec.ofNat 64 j) = true ↔ j = 1 ∨ j = 2 ∨ j = 4 ∨ j = 8 ∨ j = 16 ∨ j = 32 := by
  interval_cases j <;> decide

theorem log2_run {nan64 b : BitVec 64} : ∀ j < 63, b.toInt = 2 ^ j →
    isPowerOfTwo b = true ∧ log2Int64 nan64 b = BitVec.ofNat 64 j := by
  intro j hj hbj
  have hpos : (0 : Int) < 2 ^ j := pow_pos (by norm_num) j
  refine ⟨(C13_isPowerOfTwo b).mpr (Or.inl ⟨j, hj, hbj⟩), ?_⟩
  unfold log2Int64
  rw [if_pos (by omega)]
  have hn : b.toNat = 2 ^ j := by
    rw [BitVec.toInt_eq_toNat_cond] at hbj
    have := b.isLt
    split at hbj
    · exact_mod_cast hbj
    · omega
  rw [hn, Nat.log2_two_pow]

/-- `Setup` succeeds for an admissible range end when the seeds it needs can be hashed. -/
theorem bpSetup_succeeds {E : Type} (SP : Grp E) (n : ℕ) (hmap : ∀ s, SetupSeed n s → ∃ e, SP.mapToGroup s = some e)
    (nan64 b : BitVec 64) (hn : n = 1 ∨ n = 2 ∨ n = 4 ∨ n = 8 ∨ n = 16 ∨ n = 32) (hbn : b.toInt = 2 ^ n) :
    ∃ p, bpSetup nan64 b SP = some (.ok p) ∧ p.N = n ∧ p.Gg.length = n ∧ p.Hh.length = n := by
  obtain ⟨H, hH⟩ := hmap SEEDH (Or.inl rfl)
  have hn63 : n < 63 := by omega
  obtain ⟨h1, h2⟩ := log2_run (nan64 := nan64) n hn63 hbn
  have h3 := (exp_pow2 n hn63).mpr hn
  obtain ⟨Gg, hG⟩ := mapSeeds_isSome seedG n fun i hi => hmap _ (Or.inr (Or.inr ⟨i, hi, Or.inl rfl⟩))
  obtain ⟨Hh, hHh⟩ := mapSeeds_isSome seedHh n fun i hi => hmap _ (Or.inr (Or.inr ⟨i, hi, Or.inr rfl⟩))
  have hti : (BitVec.ofNat 64 n).toInt = n := by
    rcases hn with rfl | rfl | rfl | rfl | rfl | rfl <;> decide
  have htn : (BitVec.ofNat 64 n).toNat = n := by
    rcases hn with rfl | rfl | rfl | rfl | rfl | rfl <;> decide
  refine ⟨{ N := n, G := SP.mulGen 1, H := H, Gg := Gg, Hh := Hh, GP := SP }, ?_, rfl, mapSeeds_length hG,
    mapSeeds_length hHh⟩
  unfold bpSetup
  simp only [h1, h2, h3, hH, hti, htn, Bool.not_true, Bool.false_eq_true, if_false, Option.bind_eq_bind, Option.bind_some,
    hG, hHh]
  rw [if_neg (by omega), if_neg (by omega)]

/-- **C14** `Setup` accepts exactly six range ends; every other `b` is reported as an error; nothing panics. -/
theorem C14_setup {E : Type} (SP : Grp E) (hmap : ∀ s, SetupSeed 32 s → ∃ e, SP.mapToGroup s = some e) (nan64 b : BitVec 64)
    (hb : b.toInt ≠ -2 ^ 63) :
    (∀ n : ℕ, (n = 1 ∨ n = 2 ∨ n = 4 ∨ n = 8 ∨ n = 16 ∨ n = 32) → b.toInt = 2 ^ n →
      ∃ p, bpSetup nan64 b SP = some (.ok p) ∧ p.N = n ∧ p.Gg.length = n ∧ p.Hh.length = n) ∧
    ((∀ n : ℕ, (n = 1 ∨ n = 2 ∨ n = 4 ∨ n = 8 ∨ n = 16 ∨ n = 32) → b.toInt ≠ 2 ^ n) →
      bpSetup nan64 b SP = some (.error "range end is not a power of 2") ∨
      bpSetup nan64 b SP = some (.error "range end is a power of 2, but it's exponent should also be.")) := by
  obtain ⟨H, hH⟩ := hmap SEEDH (Or.inl rfl)
  constructor
  · intro n hn hbn
    refine bpSetup_succeeds SP n (fun s hs => hmap s ?_) nan64 b hn hbn
    rcases hs with h | h | ⟨i, hi, h⟩
    · exact Or.inl h
    · exact Or.inr (Or.inl h)
    · exact Or.inr (Or.inr ⟨i, by omega, h⟩)
  · intro hno
    by_cases hp : isPowerOfTwo b = true
    · right
      rcases (C13_isPowerOfTwo b).mp hp with ⟨j, hj, hbj⟩ | h
      · obtain ⟨h1, h2⟩ := log2_run (nan64 := nan64) j hj hbj
        have h3 : isPowerOfTwo (BitVec.ofNat 64 j) = false := by
          rw [Bool.eq_false_iff]
          intro hc
          exact hno j ((exp_pow2 j hj).mp hc) hbj
        unfold bpSetup
        simp [h1, h2, h3, hH]
      · exact absurd h hb
    · left
      unfold bpSetup
      simp [hp]

/-- C14: the third error message is unreachable for every `b` other than the most negative one. -/
theorem C14_error_unreachable {E : Type} (SP : Grp E) (hmap : ∀ s, SetupSeed 32 s → ∃ e, SP.mapToGroup s = some e) (nan64 b : BitVec 64)
    (hb : b.toInt ≠ -2 ^ 63) :
    bpSetup nan64 b SP ≠ some (.error "range end can not be greater than 2**32") := by
  intro hc
  by_cases h : ∀ n : ℕ, (n = 1 ∨ n = 2 ∨ n = 4 ∨ n = 8 ∨ n = 16 ∨ n = 32) → b.toInt ≠ 2 ^ n
  · rcases (C14_setup SP hmap nan64 b hb).2 h with h | h <;> · rw [h] at hc; simp at hc
  · push Not at h
    obtain ⟨n, hn, hbn⟩ := h
    obtain ⟨p, hp, _⟩ := (C14_setup SP hmap nan64 b hb).1 n hn hbn
    rw [hp] at hc; simp at hc

/-- C14: the excluded value.  Where the NaN conversion yields the most negative int64 (amd64), `Setup` panics. -/
theorem C14_intMin_panics {E : Type} (SP : Grp E) (H : E) (hH : SP.mapToGroup SEEDH = some H) :
    bpSetup (BitVec.intMin 64) (BitVec.intMin 64) SP = none := by
  have h1 : isPowerOfTwo (BitVec.intMin 64) = true := by decide
  have h2 : log2Int64 (BitVec.intMin 64) (BitVec.intMin 64) = BitVec.intMin 64 := by decide
  have h3 : ¬ (32 < (BitVec.intMin 64).toInt) := by decide
  have h4 : (BitVec.intMin 64).toInt < 0 := by decide
  unfold bpSetup
  simp only [h1, h2, hH, Bool.not_true, Bool.false_eq_true, if_false, Option.bind_eq_bind, Option.bind_some, h3, h4, if_true]

/-- C14: the toy group has a total hash-to-group; both outcomes on it. -/
example : (∀ s, ∃ e, (toyGrp 101).mapToGroup s = some e) ∧
    ((bpSetup 0 16#64 (toyGrp 101)).map (fun r => match r with | .ok p => p.N | .error _ => 0)) = some 4 ∧
    ((bpSetup 0 8#64 (toyGrp 101)).map (fun r => match r with | .ok p => p.N | .error _ => 0)) = some 0 :=
  ⟨fun s => ⟨_, rfl⟩, by decide +kernel, by decide +kernel⟩

/-- **C15** The seeds of `H`, the `Gg[i]`, the `Hh[i]` and `Uu` are pairwise distinct. -/
theorem C15_seeds_distinct (i j : ℕ) :
    (seedG i = seedG j ↔ i = j) ∧ (seedHh i = seedHh j ↔ i = j) ∧ seedG i ≠ seedHh j ∧
    seedG i ≠ SEEDH ∧ seedG i ≠ SEEDU ∧ seedHh i ≠ SEEDH ∧ seedHh i ≠ SEEDU ∧ SEEDH ≠ SEEDU := by
  have lH : SEEDH.length = 36 := by decide
  have lU : SEEDU.length = 36 := by decide
  have lg : (seedG i).length = 37 + (natDec i).length := by simp [seedG, lH, ascii]; omega
  have lh : (seedHh i).length = 37 + (natDec i).length := by simp [seedHh, lH, ascii]; omega
  refine ⟨⟨fun h => ?_, fun h => by rw [h]⟩, ⟨fun h => ?_, fun h => by rw [h]⟩, fun h => ?_, fun h => ?_, fun h => ?_,
    fun h => ?_, fun h => ?_, by decide⟩
  · exact natDec_inj (List.append_cancel_left h)
  · exact natDec_inj (List.append_cancel_left h)
  · simp only [seedG, seedHh, List.append_assoc] at h
    have := List.append_cancel_left h
    simp [ascii] at this
  · rw [h] at lg; omega
  · rw [h] at lg; omega
  · rw [h] at lh; omega
  · rw [h] at lh; omega

/-- C15: `Setup` derives generator `i` from seed `i`, and `setupInnerProduct(nil, nil, N)` re-derives exactly them. -/
theorem C15_generators {E : Type} (SP : Grp E) (nan64 b : BitVec 64) (p : BPParams E)
    (h : bpSetup nan64 b SP = some (.ok p)) :
    p.G = SP.mulGen 1 ∧ SP.mapToGroup SEEDH = some p.H ∧ p.GP = SP ∧
    (∀ i < p.N, SP.mapToGroup (seedG i) = p.Gg[i]? ∧ SP.mapToGroup (seedHh i) = p.Hh[i]?) ∧
    (∀ ip, setupInnerProduct SP none none p.N = some (.ok ip) → ip.Gg = p.Gg ∧ ip.Hh = p.Hh ∧
      SP.mapToGroup SEEDU = some ip.Uu) := by
  unfold bpSetup at h
  split at h
  · simp at h
  · unbind h with H eH
    dsimp only at h
    split at h
    · simp at h
    · split at h
      · simp at h
      · split at h
        · simp at h
        · unbind h with Gg eG
          unbind h with Hh eHh
          simp only [Option.some.injEq, Except.ok.injEq] at h
          subst h
          refine ⟨rfl, eH, rfl, ?_, ?_⟩
          · intro i hi
            have h1 := congrArg (fun l => l[i]?) (mapSeeds_iff.mp eG)
            have h2 := congrArg (fun l => l[i]?) (mapSeeds_iff.mp eHh)
            simp only [List.getElem?_map, List.getElem?_range hi, Option.map_some] at h1 h2
            constructor
            · cases hg : Gg[i]? with
              | none => simp [hg] at h1
              | some e => simpa [hg] using h1
            · cases hg : Hh[i]? with
              | none => simp [hg] at h2
              | some e => simpa [hg] using h2
          · intro ip hip
            unfold setupInnerProduct at hip
            split at hip
            · simp at hip
            · simp only [Int.toNat_natCast] at hip
              unbind hip with a ea
              unbind hip with c ec
              unbind hip with u eu
              simp only [Option.some.injEq, Except.ok.injEq] at hip
              subst hip
              rw [eG] at ea
              rw [eHh] at ec
              exact ⟨(Option.some.inj ea).symm, (Option.some.inj ec).symm, eu⟩

example : seedG 12 ≠ seedHh 12 ∧ ∃ p, bpSetup 0 16#64 (toyGrp 101) = some (.ok p) ∧
    ∃ ip, setupInnerProduct (toyGrp 101) none none p.N = some (.ok ip) := by
  refine ⟨(C15_seeds_distinct 12 12).2.2.1, ?_⟩
  obtain ⟨p, hp, hN, _⟩ := (C14_setup (toyGrp 101) (fun s _ => ⟨_, rfl⟩) 0 16#64 (by decide)).1 4 (by simp) (by decide)
  refine ⟨p, hp, ?_⟩
  rw [hN]
  obtain ⟨a, ha⟩ := mapSeeds_isSome (GP := toyGrp 101) seedG 4 fun _ _ => ⟨_, rfl⟩
  obtain ⟨b, hb⟩ := mapSeeds_isSome (GP := toyGrp 101) seedHh 4 fun _ _ => ⟨_, rfl⟩
  exact ⟨_, by unfold setupInnerProduct; simp [ha, hb]; rfl⟩

/-- **C22** `HashBP` is documented to return two challenges; both are always the same number. -/
theorem C22_challenges_equal {E : Type} (sha : Bytes → Bytes) (GP : Grp E) (A S : E) :
    (hashBP sha GP A S).1 = (hashBP sha GP A S).2 ∧
    (hashBP sha GP A S).1 = (setBytes (sha (GP.str A ++ GP.str S)) : ℕ) := ⟨rfl, rfl⟩

example : hashBP (fun b => b) (toyGrp 101) 7 8 = (55 * 256 + 56, 55 * 256 + 56) := by decide +kernel

section pedersen
variable {E : Type} {GP : Grp E} {q : ℕ} {M : Type} [AddCommGroup M] [Module (ZMod q) M]

/-- **C25** Pedersen commitments are homomorphic. -/
theorem C25_homomorphic (L : Lawful GP q M) (h : E) (hh : L.V h) (x1 r1 x2 r2 : Int) :
    L.den (GP.add (pedersenCommit GP x1 r1 h) (pedersenCommit GP x2 r2 h)) =
      L.den (pedersenCommit GP (x1 + x2) (r1 + r2) h) ∧
    GP.isEqual (GP.add (pedersenCommit GP x1 r1 h) (pedersenCommit GP x2 r2 h))
      (pedersenCommit GP (x1 + x2) (r1 + r2) h) = true := by
  have hd : L.den (GP.add (pedersenCommit GP x1 r1 h) (pedersenCommit GP x2 r2 h)) =
      L.den (pedersenCommit GP (x1 + x2) (r1 + r2) h) := by
    rw [L.den_add (L.V_pedersen hh _ _) (L.V_pedersen hh _ _), L.den_pedersen hh, L.den_pedersen hh, L.den_pedersen hh]
    push_cast
    module
  exact ⟨hd, (L.isEqual_iff (L.V_add (L.V_pedersen hh _ _) (L.V_pedersen hh _ _)) (L.V_pedersen hh _ _)).mpr hd⟩

/-- C25: perfectly hiding — if `H` generates freely, every commitment opens to every value with exactly one
`r ∈ [0,N)`. -/
theorem C25_hiding [NeZero q] (L : Lawful GP q M) (h : E) (hh : L.V h)
    (hgen : ∀ m : M, ∃! c : ZMod q, c • L.den h = m) (x r x' : Int) :
    ∃! r' : Int, 0 ≤ r' ∧ r' < GP.N ∧
      GP.isEqual (pedersenCommit GP x' r' h) (pedersenCommit GP x r h) = true := by
  have heq : ∀ r' : Int, GP.isEqual (pedersenCommit GP x' r' h) (pedersenCommit GP x r h) = true ↔
      (r' : ZMod q) • L.den h = ((x : ZMod q) - x') • L.g + (r : ZMod q) • L.den h := by
    intro r'
    rw [L.isEqual_iff (L.V_pedersen hh _ _) (L.V_pedersen hh _ _), L.den_pedersen hh, L.den_pedersen hh]
    constructor
    · intro h; linear_combination (norm := module) h
    · intro h; linear_combination (norm := module) h
  obtain ⟨c, hc, huniq⟩ := hgen (((x : ZMod q) - x') • L.g + (r : ZMod q) • L.den h)
  refine ⟨(c.val : Int), ⟨by omega, ?_, ?_⟩, ?_⟩
  · rw [L.N_eq]; exact_mod_cast c.val_lt
  · rw [heq]; simpa using hc
  · rintro r' ⟨h1, h2, h3⟩
    rw [heq] at h3
    have := huniq _ h3
    rw [L.N_eq] at h2
    rw [← this, ZMod.val_intCast, Int.emod_eq_of_lt h1 h2]

/-- C25: binding up to a discrete-log relation. -/
theorem C25_binding [Fact q.Prime] (L : Lawful GP q M) (h : E) (hh : L.V h) (x1 r1 x2 r2 : Int)
    (heq : GP.isEqual (pedersenCommit GP x1 r1 h) (pedersenCommit GP x2 r2 h) = true) :
    ((x1 : ZMod q) ≠ x2 → L.g = (((r2 : ZMod q) - r1) / ((x1 : ZMod q) - x2)) • L.den h) ∧
    ((r1 : ZMod q) ≠ r2 → L.den h = (((x2 : ZMod q) - x1) / ((r1 : ZMod q) - r2)) • L.g) := by
  rw [L.isEqual_iff (L.V_pedersen hh _ _) (L.V_pedersen hh _ _), L.den_pedersen hh, L.den_pedersen hh] at heq
  constructor
  · intro hx
    have hx' : (x1 : ZMod q) - x2 ≠ 0 := sub_ne_zero.mpr hx
    have h1 : ((x1 : ZMod q) - x2) • L.g = ((r2 : ZMod q) - r1) • L.den h := by
      linear_combination (norm := module) heq
    rw [div_eq_inv_mul, mul_smul, ← h1, smul_smul, inv_mul_cancel₀ hx', one_smul]
  · intro hr
    have hr' : (r1 : ZMod q) - r2 ≠ 0 := sub_ne_zero.mpr hr
    have h1 : ((r1 : ZMod q) - r2) • L.den h = ((x2 : ZMod q) - x1) • L.g := by
      linear_combination (norm := module) heq
    rw [div_eq_inv_mul, mul_smul, ← h1, smul_smul, inv_mul_cancel₀ hr', one_smul]

/-- C25: in the toy group of order 7 with `H = 3` the hiding hypothesis holds, and there is a double opening. -/
example : (∀ m : ZMod 7, ∃! c : ZMod 7, c • (toyLawful 7).den 3 = m) ∧ (toyLawful 7).V 3 ∧
    (toyGrp 7).isEqual (pedersenCommit (toyGrp 7) 2 1 3) (pedersenCommit (toyGrp 7) 5 0 3) = true := by
  refine ⟨?_, ⟨by decide, by decide⟩, by decide +kernel⟩
  intro m
  refine ⟨5 * m, ?_, ?_⟩
  · change 5 * m * ((3 : Int) : ZMod 7) = m
    revert m; decide
  · intro c hc
    change c * ((3 : Int) : ZMod 7) = m at hc
    revert m c; decide

end pedersen
end MscPoc
