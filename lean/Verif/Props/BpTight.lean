import Verif.Lemmas.BpRange
import Verif.Props.BpSound

/-!
# C62 — the extracted relation is exactly what the range proof gives
-/

set_option autoImplicit false

namespace MscPoc

section
variable {F : Type} [Field F]

theorem rangeForm_weak (n : ℕ) (a b : List F) (ha : a.length = n) (hb : b.length = n) (v y : F) :
    rangeForm n a b y y - y ^ 2 * v = (weakPoly n v (fun i => a.getD i 0) (fun i => b.getD i 0)).eval y := by
  have pg : ∀ (c : F) (i : ℕ), i < n → (pows c n).getD i 0 = c ^ i := fun c i hi => by
    simp [pows, List.getD, List.getElem?_range hi]
  unfold rangeForm weakPoly
  rw [dot_eq_sum _ _ n ha (by simp [pows_length, hb]), dot_eq_sum _ _ n ha (pows_length _ _),
    dot_eq_sum _ _ n (pows_length _ _) hb, dot_eq_sum _ _ n ha (pows_length _ _), pows_sum]
  simp only [Polynomial.eval_add, Polynomial.eval_finsetSum, Polynomial.eval_mul, Polynomial.eval_C, Polynomial.eval_pow,
    Polynomial.eval_X]
  have z : ∀ i, i < n → (List.zipWith (· * ·) (pows y n) b).getD i 0 = y ^ i * b.getD i 0 := fun i hi => by
    have h1 : i < b.length := by omega
    simp [pows, List.getD, List.getElem?_zipWith, List.getElem?_range hi, List.getElem?_eq_getElem h1]
  have e1 : ∑ i ∈ Finset.range n, a.getD i 0 * (List.zipWith (· * ·) (pows y n) b).getD i 0 =
      ∑ i ∈ Finset.range n, a.getD i 0 * (y ^ i * b.getD i 0) :=
    Finset.sum_congr rfl fun i hi => by rw [z i (Finset.mem_range.mp hi)]
  have e2 : ∑ i ∈ Finset.range n, a.getD i 0 * (pows y n).getD i 0 = ∑ i ∈ Finset.range n, a.getD i 0 * y ^ i :=
    Finset.sum_congr rfl fun i hi => by rw [pg y i (Finset.mem_range.mp hi)]
  have e3 : ∑ i ∈ Finset.range n, (pows y n).getD i 0 * b.getD i 0 = ∑ i ∈ Finset.range n, y ^ i * b.getD i 0 :=
    Finset.sum_congr rfl fun i hi => by rw [pg y i (Finset.mem_range.mp hi)]
  have e4 : ∑ i ∈ Finset.range n, a.getD i 0 * (pows (2 : F) n).getD i 0 = ∑ i ∈ Finset.range n, a.getD i 0 * 2 ^ i :=
    Finset.sum_congr rfl fun i hi => by rw [pg 2 i (Finset.mem_range.mp hi)]
  rw [e1, e2, e3, e4]
  clear z pg e1 e2 e3 e4 ha hb
  induction n with
  | zero => simp; ring
  | succ n ih =>
    simp only [Finset.sum_range_succ] at ih ⊢
    linear_combination ih

theorem weakRange_eval {n : ℕ} {v : F} {aL aR : ℕ → F} (h : WeakRange n v aL aR) (y : F) : (weakPoly n v aL aR).eval y = 0 := by
  have : weakPoly n v aL aR = 0 := by
    ext j
    rw [weakPoly_coeff, h j, Polynomial.coeff_zero]
  rw [this, Polynomial.eval_zero]

/-- `WeakRange` only looks at the first `n` entries -/
theorem weakRange_congr {n : ℕ} {v : F} {a b a' b' : ℕ → F} (ha : ∀ i < n, a i = a' i) (hb : ∀ i < n, b i = b' i)
    (h : WeakRange n v a b) : WeakRange n v a' b' := by
  intro j
  rw [← h j]
  unfold weakEq
  have s : ∑ i ∈ Finset.range n, a i * 2 ^ i = ∑ i ∈ Finset.range n, a' i * 2 ^ i :=
    Finset.sum_congr rfl fun i hi => by rw [ha i (Finset.mem_range.mp hi)]
  rw [s]
  congr 2
  · split
    · rw [ha j (by assumption), hb j (by assumption)]
    · rfl
  · split
    · rw [ha (j - 1) (by omega), hb (j - 1) (by omega)]
    · rfl

/-! ## What the relation says about the value -/

/-- **C62** For one bit the relation is what it should be: the value is a bit. -/
theorem C62_one_bit {v : F} {aL aR : ℕ → F} (h : WeakRange 1 v aL aR) : v = 0 ∨ v = 1 := by
  have h0 := h 0
  have h1 := h 1
  have h2 := h 2
  simp [weakEq] at h0 h1 h2
  have hv : v = aL 0 := by linear_combination -h2
  rcases h0 with h0 | h0
  · exact .inl (by rw [hv, h0])
  · exact .inr (by rw [hv]; linear_combination h1 + h0)

/-- **C62** For two or more bits the relation does not restrict the value: every field element has vectors with the relation. -/
theorem C62_any_value (n : ℕ) (hn : 2 ≤ n) (v : F) : ∃ aL aR : ℕ → F, WeakRange n v aL aR := by
  refine ⟨fun _ => 0, fun i => if i = 1 then -1 - v else -1, fun j => ?_⟩
  unfold weakEq
  by_cases h2 : j = 2
  · subst h2
    simp [hn]
  · rw [if_neg h2]
    by_cases hj : 0 < j ∧ j ≤ n
    · rw [if_pos hj]
      dsimp only
      rw [if_neg (show ¬ j - 1 = 1 by omega)]
      simp
    · rw [if_neg hj]; simp

end

/-- the bits of `v` satisfy the relation, for every `n` -/
theorem C62_bits {F : Type} [Field F] (n : ℕ) (bits : ℕ → F) (hb : ∀ i < n, bits i = 0 ∨ bits i = 1) :
    WeakRange n (∑ i ∈ Finset.range n, bits i * 2 ^ i) bits (fun i => bits i - 1) := by
  intro j
  unfold weakEq
  have h1 : (if j < n then bits j * (bits j - 1) else 0) = 0 := by
    split
    · rcases hb j (by assumption) with h | h <;> rw [h] <;> simp
    · rfl
  rw [h1]
  simp

/-! ## Every solution gives accepted proofs, and only solutions do -/

section
variable {E M : Type} {q : ℕ} [AddCommGroup M] [Module (ZMod q) M] [Fact q.Prime]
variable (params : BPParams E) (L : Lawful params.GP q M) (k : ℕ) (hO : ParamsOK params L k)
variable (V : E) (vV : L.V V) (v : ZMod q) (aL aR : List Int) (lL : aL.length = 2 ^ k) (lR : aR.length = 2 ^ k)
include hO vV lL lR

/-- **C62** A prover who knows an opening of `V` and vectors that satisfy the relation convinces the verifier under every digest
function, with every choice of the random numbers. -/
theorem C62_tight (sha : Bytes → Bytes) (rnd : BPRand) (hV : L.den V = v • L.g + (rnd.gamma : ZMod q) • L.den params.H)
    (hW : WeakRange (2 ^ k) v (fun i => (aL.map (Int.cast : Int → ZMod q)).getD i 0)
      (fun i => (aR.map (Int.cast : Int → ZMod q)).getD i 0))
    (pf : BulletProof E) (lsL : rnd.sL.length = 2 ^ k) (lsR : rnd.sR.length = 2 ^ k)
    (h : proveFrom sha params rnd V aL aR = some (.ok pf)) : pf.verify sha = some true := by
  obtain ⟨_, _, _, _, _, _, _, _, hv⟩ := proveFrom_exact params L k hO sha rnd V vV aL aR pf lL lR lsL lsR h
  obtain ⟨b, hb, hiff⟩ := hv _ rfl
  set y : ZMod q := ((roundChallenge sha params.GP pf.A pf.S : Int) : ZMod q)
  have hr := rangeForm_weak (2 ^ k) (castV q aL) (castV q aR) (by simp [castV, lL]) (by simp [castV, lR]) v y
  have h0 := weakRange_eval hW y
  have hr' : rangeForm (2 ^ k) (castV q aL) (castV q aR) y y = y ^ 2 * v := by
    rw [show castV q aL = aL.map (Int.cast : Int → ZMod q) from rfl,
      show castV q aR = aR.map (Int.cast : Int → ZMod q) from rfl] at hr ⊢
    rw [h0] at hr
    linear_combination hr
  rw [hb, hiff.mpr]
  rw [hr', hV]
  module

/-- **C62** Conversely: if `proveFrom` with the same vectors is accepted under more than `N + 1` digest functions that give different
first challenges, then the vectors satisfy the relation. -/
theorem C62_only {ι : Type} [Fintype ι] (hc : 2 ^ k + 1 < Fintype.card ι) (sha : ι → Bytes → Bytes) (rnd : ι → BPRand) (γ : Int)
    (hγ : ∀ j, (rnd j).gamma = γ) (hV : L.den V = v • L.g + (γ : ZMod q) • L.den params.H) (hg : L.g ≠ 0)
    (pf : ι → BulletProof E) (lsL : ∀ j, (rnd j).sL.length = 2 ^ k) (lsR : ∀ j, (rnd j).sR.length = 2 ^ k)
    (h : ∀ j, proveFrom (sha j) params (rnd j) V aL aR = some (.ok (pf j)))
    (hy : Function.Injective fun j => ((roundChallenge (sha j) params.GP (pf j).A (pf j).S : Int) : ZMod q))
    (hacc : ∀ j, (pf j).verify (sha j) = some true) :
    WeakRange (2 ^ k) v (fun i => (aL.map (Int.cast : Int → ZMod q)).getD i 0)
      (fun i => (aR.map (Int.cast : Int → ZMod q)).getD i 0) := by
  refine weakRange_of_eval (by positivity) hc _ hy fun j => ?_
  obtain ⟨_, _, _, _, _, _, _, _, hv⟩ := proveFrom_exact params L k hO (sha j) (rnd j) V vV aL aR (pf j) lL lR (lsL j) (lsR j) (h j)
  obtain ⟨b, hb, hiff⟩ := hv _ rfl
  rw [hacc j] at hb
  have e := hiff.mp (Option.some.inj hb).symm
  set y : ZMod q := ((roundChallenge (sha j) params.GP (pf j).A (pf j).S : Int) : ZMod q) with hy'
  have hr := rangeForm_weak (2 ^ k) (castV q aL) (castV q aR) (by simp [castV, lL]) (by simp [castV, lR]) v y
  rw [hV, hγ j] at e
  have e' : (rangeForm (2 ^ k) (castV q aL) (castV q aR) y y - y ^ 2 * v) • L.g = 0 := by
    linear_combination (norm := module) e
  rw [hr] at e'
  exact (smul_eq_zero.mp e').resolve_right hg

end

/-! ## A concrete tree

Two bits; the commitment is to 50, the vectors are the forger's.  All 96 transcripts come from `proveFrom`. -/

/-- parameters for two bits modulo 101 -/
def exB1 : BPParams Int := { N := 2, G := 1, H := 7, Gg := [3, 5], Hh := [2, 4], GP := toyGrp 101 }
def exR1 : BPRand := { gamma := 17, alpha := 5, sL := [1, 20], sR := [9, 8], rho := 3, tau1 := 2, tau2 := 90 }
/-- a digest function that gives the challenges `y`, `x`, `c`, `r` for the strings of `A`, `S`; of `T1`, `T2`; of the first step of
the inner-product argument; and of `L`, `R` -/
def exShaT (t : Int × Int) (y x c r : Nat) : Bytes → Bytes := fun b =>
  if b = bigDec 31 ++ bigDec 73 then [UInt8.ofNat y] else if b = bigDec t.1 ++ bigDec t.2 then [UInt8.ofNat x]
  else if 5 < b.length then [UInt8.ofNat c] else [UInt8.ofNat r]
/-- the prover with the forged vectors for the value 50 -/
def exRun (sha : Bytes → Bytes) : Option (BulletProof Int) :=
  match proveFrom sha exB1 exR1 (pedersenCommit (toyGrp 101) 50 17 7) [0, 0] (forgeAR 2 50) with
  | some (.ok pf) => some pf
  | _ => none
/-- `T1`, `T2` -/
def exT12 (y : Nat) : Int × Int := ((exRun (exShaT (-1, 0) y 1 1 1)).map fun p => (p.T1, p.T2)).getD (0, 0)
def exPf (y x c r : Nat) : Option (BulletProof Int) := exRun (exShaT (exT12 y) y x c r)
def exIPT (y x c : Nat) : IPTree Int (ZMod 101) 1 :=
  let o := exPf y x c 2
  .node (((o.map fun p => p.InnerProductProof.L.headD 0)).getD 0) (((o.map fun p => p.InnerProductProof.R.headD 0)).getD 0)
    ![2, 3, 4, 5] (fun i => .leaf (((exPf y x c (i + 2)).bind fun p => p.InnerProductProof.A).getD 0)
      (((exPf y x c (i + 2)).bind fun p => p.InnerProductProof.B).getD 0))
def exBpLeaf (y x : Nat) : BpLeaf Int (ZMod 101) 1 :=
  let o := exPf y x 6 2
  { x := x, Tprime := (o.bind (·.Tprime)).getD 0, Taux := (o.bind (·.Taux)).getD 0, Mu := (o.bind (·.Mu)).getD 0
    P := (o.map (·.InnerProductProof.P)).getD 0, c := 6, c' := 11, t := exIPT y x 6, t' := exIPT y x 11 }
def exBpTree : BpTree Int (ZMod 101) 1 where
  V := pedersenCommit (toyGrp 101) 50 17 7
  A := 31
  S := 73
  node j := { y := (j : Nat) + 2, T1 := (exT12 (j + 2)).1, T2 := (exT12 (j + 2)).2, leaf := fun i => exBpLeaf (j + 2) (i + 7) }

theorem exB1_ok : ParamsOK exB1 (toyLawful 101) 1 :=
  ⟨rfl, by unfold toyLawful; decide, by unfold toyLawful exB1; decide, by unfold toyLawful exB1; decide, rfl, rfl,
    fun _ h => toy_map 101 h⟩

/-- the updated generators -/
def exHp (j : Fin 4) : List Int := (updateGenerators exB1.GP exB1.Hh (exBpTree.node j).y exB1.N).getD []

/-- the transcript at `j`, `i`, for the `m`-th answer in the tree for `c` -/
def exPath (j : Fin 4) (i : Fin 3) (c : Nat) (m : Fin 4) : IPPath Int (ZMod 101) :=
  { rounds := [((((exPf (j + 2) (i + 7) c 2).map fun p => p.InnerProductProof.L.headD 0)).getD 0,
      (((exPf (j + 2) (i + 7) c 2).map fun p => p.InnerProductProof.R.headD 0)).getD 0, ![2, 3, 4, 5] m)]
    A := ((exPf (j + 2) (i + 7) c (m + 2)).bind fun p => p.InnerProductProof.A).getD 0
    B := ((exPf (j + 2) (i + 7) c (m + 2)).bind fun p => p.InnerProductProof.B).getD 0 }

theorem exIPT_mem (j : Fin 4) (i : Fin 3) (c : Nat) (p : IPPath Int (ZMod 101)) (h : (exIPT (j + 2) (i + 7) c).Mem p) :
    ∃ m, p = exPath j i c m := by
  obtain ⟨m, t, ht, rfl⟩ := h
  rw [show t = _ from ht]
  exact ⟨m, rfl⟩

/-- acceptance of one transcript -/
def exPathOk (j : Fin 4) (i : Fin 3) (c : Nat) (m : Fin 4) : Bool :=
  let sha := exShaT (exT12 (j + 2)) (j + 2) (i + 7) c (m + 2)
  let nd := exBpTree.node j
  let lf := nd.leaf i
  let p := exPath j i c m
  decide (roundChallenge sha exB1.GP exBpTree.A exBpTree.S = nd.y) &&
    decide ((roundChallenge sha exB1.GP nd.T1 nd.T2 : ZMod 101) = lf.x) &&
    decide ((ippChallenge sha exB1.GP exB1.Gg (exHp j) lf.P lf.Tprime : ZMod 101) = c) &&
    decide (∀ r ∈ p.rounds, (roundChallenge sha exB1.GP r.1 r.2.1 : ZMod 101) = r.2.2) &&
    decide ((exBpTree.proof exB1 20 (exHp j) nd lf p).verify sha = some true)

theorem exPathOk_all : ∀ j i m, exPathOk j i 6 m = true ∧ exPathOk j i 11 m = true := by decide +kernel

theorem exPathOk_spec {j : Fin 4} {i : Fin 3} {c : Nat} {m : Fin 4} (h : exPathOk j i c m = true) :
    exBpTree.PathOk exB1 20 (exHp j) (exBpTree.node j) ((exBpTree.node j).leaf i) c (exPath j i c m) := by
  unfold exPathOk at h
  simp only [Bool.and_eq_true, decide_eq_true_eq] at h
  obtain ⟨⟨⟨⟨h1, h2⟩, h3⟩, h4⟩, h5⟩ := h
  exact ⟨_, h1, h2, h3, h4, h5⟩

theorem exBpTree_accepted : exBpTree.Accepted exB1 20 := by
  intro j
  refine ⟨exHp j, ?_, fun i p => ⟨fun h => ?_, fun h => ?_⟩⟩
  · revert j; decide +kernel
  · obtain ⟨m, rfl⟩ := exIPT_mem j i 6 p h
    exact exPathOk_spec (exPathOk_all j i m).1
  · obtain ⟨m, rfl⟩ := exIPT_mem j i 11 p h
    exact exPathOk_spec (exPathOk_all j i m).2

theorem exBpTree_distinct : exBpTree.Distinct := by
  refine ⟨by decide +kernel, by decide +kernel, by decide +kernel, by decide +kernel, fun j i => ⟨?_, ?_⟩⟩
  · exact ⟨by decide, by decide, fun _ => trivial⟩
  · exact ⟨by decide, by decide, fun _ => trivial⟩

theorem exBpTree_legal : exBpTree.Legal (params := exB1) (toyLawful 101) where
  V := by unfold toyLawful; decide +kernel
  A := by unfold toyLawful; decide +kernel
  S := by unfold toyLawful; decide +kernel
  com := by unfold toyLawful; decide +kernel
  P := by unfold toyLawful; decide +kernel
  ip := by
    have key : ∀ j i m, (∀ r ∈ (exPath j i 6 m).rounds, (toyLawful 101).V r.1 ∧ (toyLawful 101).V r.2.1) ∧
        ∀ r ∈ (exPath j i 11 m).rounds, (toyLawful 101).V r.1 ∧ (toyLawful 101).V r.2.1 := by
      unfold toyLawful; decide +kernel
    intro j i p hp
    rcases hp with hp | hp
    · obtain ⟨m, rfl⟩ := exIPT_mem j i 6 p hp
      exact (key j i m).1
    · obtain ⟨m, rfl⟩ := exIPT_mem j i 11 p hp
      exact (key j i m).2

/-- C62: the tree meets all hypotheses, and the extractor returns the opening 50, 17 with the forger's vectors: a value that is not
in `[0, 4)`. -/
example : exBpTree.Distinct ∧ exBpTree.Accepted exB1 20 ∧
    exBpTree.Legal (params := exB1) (toyLawful 101) ∧ ParamsOK exB1 (toyLawful 101) 1 ∧ (toyLawful 101).V 20 ∧
    (match exBpTree.extract with
     | .opening v γ α aL aR => v == 50 && γ == 17 && α == 5 && firstN 2 aL == [0, 0] && firstN 2 aR == [-1, -51]
     | .relation _ => false) = true :=
  ⟨exBpTree_distinct, exBpTree_accepted, exBpTree_legal, exB1_ok, by unfold toyLawful; decide, by decide +kernel⟩

/-- C62: solutions for the three statements about `WeakRange`: the bits of 2, and the forger's vectors for 50. -/
example :
    WeakRange 2 (2 : ZMod 101) (fun i => [0, 1].getD i 0) (fun i => [-1, 0].getD i 0) ∧
    WeakRange 2 (50 : ZMod 101) (fun i => [0, 0].getD i 0) (fun i => [-1, -51].getD i 0) ∧
    ¬WeakRange 2 (50 : ZMod 101) (fun i => [0, 0].getD i 0) (fun i => [-1, -1].getD i 0) ∧
    WeakRange 1 (1 : ZMod 101) (fun _ => 1) (fun _ => 0) := by
  refine ⟨fun j => ?_, fun j => ?_, fun h => absurd (h 2) (by decide +kernel), fun j => ?_⟩
  all_goals
    by_cases hj : j < 3
    · interval_cases j <;> decide +kernel
    · unfold weakEq
      rw [if_neg (by omega), if_neg (by omega), if_neg (by omega)]
      simp

/-- C62: the prover of `C62_tight` with these vectors is accepted (here for the digest 3). -/
example : ((exRun fun _ => [3]).bind fun p => p.verify fun _ => [3]) = some true := by decide +kernel

end MscPoc
