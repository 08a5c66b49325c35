import Verif.Lemmas.Ipp
import Verif.Lemmas.Bytes
import Verif.Spec.Ipp
import Mathlib.Algebra.Field.ZMod
import Mathlib.RingTheory.Coprime.Lemmas

/-!
# Exact behaviour of the inner-product verifier
-/

set_option autoImplicit false

namespace MscPoc

theorem fromByteArray_eq (b : Bytes) : fromByteArray b = signedVal b := by
  unfold fromByteArray signedVal
  rw [pow_mul, pow_mul]
  norm_num only
  cases b with
  | nil => simp [setBytes]
  | cons d b =>
    have h1 := setBytes_lt b
    simp only [List.headD_cons, List.length_cons, setBytes_cons, pow_succ]
    have h2 : 128 ≤ d.toNat ↔ 256 ^ b.length * 256 ≤ 2 * (d.toNat * 256 ^ b.length + setBytes b) := by
      constructor
      · intro h
        have := Nat.mul_le_mul_right (256 ^ b.length) h
        omega
      · intro h
        by_contra hc
        have : d.toNat * 256 ^ b.length ≤ 127 * 256 ^ b.length := Nat.mul_le_mul_right _ (by omega)
        omega
    simp only [h2]

section shape
variable {E : Type} {GP : Grp E}

theorem hashIPLoop_eq (g h : List E) :
    hashIPLoop GP g h = if g.length ≤ h.length then
      some (List.zipWith (fun a b => GP.str a ++ GP.str b) g h).flatten else none := by
  induction g generalizing h with
  | nil => simp [hashIPLoop]
  | cons a g ih => cases h with
    | nil => simp [hashIPLoop]
    | cons b h =>
      simp only [hashIPLoop, ih, List.length_cons, Nat.add_le_add_iff_right]
      split <;> simp

theorem hashIP_eq (sha : Bytes → Bytes) (g h : List E) (P : E) (c : Int) :
    hashIP sha GP g h P c = if g.length ≤ h.length then some (ippChallenge sha GP g h P c) else none := by
  unfold hashIP ippChallenge ippDigest
  rw [hashIPLoop_eq]
  split <;> simp [fromByteArray_eq]

theorem hashBP_fst (sha : Bytes → Bytes) (A S : E) : (hashBP sha GP A S).1 = roundChallenge sha GP A S := rfl

/-- The halving step for arbitrary lengths, when the challenge is invertible. -/
theorem foldGens_some {g h : List E} {x xi : Int} {n : ℕ} (hi : modInverse x GP.N = some xi)
    (hg : n ≤ g.length) (hh : n ≤ h.length) :
    foldGens GP g h x n = some
      (vectorECAdd GP ((g.take n).map (fun e => GP.mul e xi)) ((g.drop n).map (fun e => GP.mul e x)),
       vectorECAdd GP ((h.take n).map (fun e => GP.mul e x)) ((h.drop n).map (fun e => GP.mul e xi))) := by
  have h1 : sliceTo g n = some (g.take n) := by unfold sliceTo; rw [if_pos hg]
  have h2 : sliceFrom g n = some (g.drop n) := by unfold sliceFrom; rw [if_pos hg]
  have h3 : sliceTo h n = some (h.take n) := by unfold sliceTo; rw [if_pos hh]
  have h4 : sliceFrom h n = some (h.drop n) := by unfold sliceFrom; rw [if_pos hh]
  unfold foldGens
  simp only [h1, h2, h3, h4, hi, vectorScalarExp_some, Option.bind_eq_bind, Option.bind_some]

theorem foldGens_le {g h g' h' : List E} {x : Int} {n : ℕ} (hf : foldGens GP g h x n = some (g', h')) :
    n ≤ g.length ∧ n ≤ h.length := by
  unfold foldGens at hf
  simp only [Option.bind_eq_bind, Option.bind_eq_some_iff] at hf
  obtain ⟨s, hs, _, _, _, _, _, _, t, ht, _⟩ := hf
  exact ⟨(sliceTo_spec hs).1, (sliceTo_spec ht).1⟩

theorem vectorECAdd_length (a b : List E) :
    (vectorECAdd GP a b).length = if a.length = b.length then a.length else 0 := by
  unfold vectorECAdd vectorECAddE
  split
  · simp [dropErr, *]
  · rename_i h
    have h := not_not.mp h
    simp [dropErr, h]

theorem ecAdd_half (l : List E) (n : ℕ) (f f' : E → E) (h : l.length = 2 * n) :
    (vectorECAdd GP ((l.take n).map f) ((l.drop n).map f')).length = n := by
  rw [vectorECAdd_length]
  simp only [List.length_map, List.length_take, List.length_drop]
  rw [if_pos (by omega)]; omega

theorem ecAdd_odd (l : List E) (n : ℕ) (f f' : E → E) (hn : n ≤ l.length) (h : l.length ≠ 2 * n) :
    vectorECAdd GP ((l.take n).map f) ((l.drop n).map f') = [] := by
  apply List.eq_nil_of_length_eq_zero
  rw [vectorECAdd_length]
  simp only [List.length_map, List.length_take, List.length_drop]
  rw [if_neg (by omega)]

theorem modInverse_isSome_iff (x N : Int) : (∃ i, modInverse x N = some i) ↔ Int.gcd x N = 1 := by
  unfold modInverse; split <;> simp [*]

theorem gcd_sq (x N : Int) (h : Int.gcd x N = 1) : Int.gcd (x * x % N) N = 1 := by
  rw [Int.gcd_emod]
  have : IsCoprime x N := Int.isCoprime_iff_gcd_eq_one.mpr h
  exact Int.isCoprime_iff_gcd_eq_one.mp (IsCoprime.mul_left this this)

theorem gcd_of_sq (x N : Int) (h : Int.gcd (x * x % N) N = 1) : Int.gcd x N = 1 := by
  rw [Int.gcd_emod] at h
  have : IsCoprime (x * x) N := Int.isCoprime_iff_gcd_eq_one.mpr h
  exact Int.isCoprime_iff_gcd_eq_one.mp (IsCoprime.of_mul_left_left this)

/-- Shape of the generator vectors after the loop. -/
theorem ipVerifyLoop_isSome (sha : Bytes → Bytes) (Ls Rs g h : List E) (P : E) (n : ℕ)
    (hL : Ls.length ≤ Rs.length) (hg : g.length = n) (hd : 2 ^ Ls.length ∣ n) (hn : 0 < n)
    (hh : Ls ≠ [] → h.length = n) (hh0 : 0 < h.length)
    (hx : ∀ p ∈ List.zip Ls Rs, Int.gcd (roundChallenge sha GP p.1 p.2) GP.N = 1) :
    ∃ g0 gs h0 hs P', ipVerifyLoop sha GP Ls Rs g h P n = some (g0 :: gs, h0 :: hs, P') := by
  induction Ls generalizing Rs g h P n with
  | nil =>
    cases g with
    | nil => simp at hg; omega
    | cons g0 gs => cases h with
      | nil => simp at hh0
      | cons h0 hs => exact ⟨g0, gs, h0, hs, P, rfl⟩
  | cons L Ls ih => cases Rs with
    | nil => simp at hL
    | cons R Rs =>
      obtain ⟨m, hm⟩ := hd
      simp only [List.length_cons, pow_succ] at hm
      have hhalf : n / 2 = 2 ^ Ls.length * m := by
        rw [hm, show 2 ^ Ls.length * 2 * m = 2 * (2 ^ Ls.length * m) by ring]; omega
      have hn2 : n = 2 * (n / 2) := by rw [hhalf, hm]; ring
      have hgc := hx (L, R) (by simp)
      obtain ⟨xi, hxi⟩ := (modInverse_isSome_iff _ _).mpr hgc
      obtain ⟨x2i, hx2i⟩ := (modInverse_isSome_iff _ _).mpr (gcd_sq _ _ hgc)
      have hhl := hh (by simp)
      unfold ipVerifyLoop
      simp only [hashBP_fst, Option.bind_eq_bind]
      rw [foldGens_some hxi (by omega) (by omega)]
      simp only [Option.bind_some, hx2i]
      apply ih
      · simpa using hL
      · exact ecAdd_half _ _ _ _ (by omega)
      · rw [hhalf]; exact Dvd.intro _ rfl
      · omega
      · intro _; exact ecAdd_half _ _ _ _ (by omega)
      · rw [ecAdd_half _ _ _ _ (by omega)]; omega
      · intro p hp; exact hx p (by simp [hp])

theorem ipVerifyLoop_nil (sha : Bytes → Bytes) (Ls Rs g h : List E) (P : E) (n : ℕ) (r)
    (hr : ipVerifyLoop sha GP Ls Rs g h P n = some r) (hg : g = [] ∨ h = []) : r.1 = [] ∨ r.2.1 = [] := by
  induction Ls generalizing Rs g h P n with
  | nil =>
    simp only [ipVerifyLoop, Option.some.injEq] at hr
    subst hr; exact hg
  | cons L Ls ih => cases Rs with
    | nil => simp [ipVerifyLoop] at hr
    | cons R Rs =>
      unfold ipVerifyLoop at hr
      unbind hr with gh hf
      obtain ⟨g', h'⟩ := gh
      unbind hr with x2i hx2i
      refine ih _ _ _ _ _ hr ?_
      obtain ⟨l1, l2⟩ := foldGens_le hf
      obtain ⟨xi, hxi⟩ := (modInverse_isSome_iff _ _).mpr (gcd_of_sq _ _
        ((modInverse_isSome_iff _ _).mp ⟨x2i, hx2i⟩))
      rw [foldGens_some hxi l1 l2] at hf
      simp only [Option.some.injEq, Prod.mk.injEq] at hf
      obtain ⟨rfl, rfl⟩ := hf
      rcases hg with rfl | rfl
      · left; apply List.eq_nil_of_length_eq_zero; rw [vectorECAdd_length]; simp
      · right; apply List.eq_nil_of_length_eq_zero; rw [vectorECAdd_length]; simp

theorem ipVerifyLoop_shape (sha : Bytes → Bytes) (Ls Rs g h : List E) (P : E) (n : ℕ) (g0 h0 : E) (gs hs : List E)
    (P' : E) (hg : g.length = n) (hr : ipVerifyLoop sha GP Ls Rs g h P n = some (g0 :: gs, h0 :: hs, P')) :
    Ls.length ≤ Rs.length ∧ 2 ^ Ls.length ∣ n ∧ 0 < n ∧ (Ls ≠ [] → h.length = n) ∧ 0 < h.length ∧
      ∀ p ∈ List.zip Ls Rs, Int.gcd (roundChallenge sha GP p.1 p.2) GP.N = 1 := by
  induction Ls generalizing Rs g h P n with
  | nil =>
    simp only [ipVerifyLoop, Option.some.injEq, Prod.mk.injEq] at hr
    obtain ⟨rfl, rfl, rfl⟩ := hr
    simp at hg
    simp; omega
  | cons L Ls ih => cases Rs with
    | nil => simp [ipVerifyLoop] at hr
    | cons R Rs =>
      unfold ipVerifyLoop at hr
      unbind hr with gh hf
      obtain ⟨g', h'⟩ := gh
      unbind hr with x2i hx2i
      obtain ⟨l1, l2⟩ := foldGens_le hf
      have hgc := gcd_of_sq _ _ ((modInverse_isSome_iff _ _).mp ⟨x2i, hx2i⟩)
      obtain ⟨xi, hxi⟩ := (modInverse_isSome_iff _ _).mpr hgc
      rw [foldGens_some hxi l1 l2] at hf
      simp only [Option.some.injEq, Prod.mk.injEq] at hf
      obtain ⟨rfl, rfl⟩ := hf
      have hne := ipVerifyLoop_nil sha _ _ _ _ _ _ _ hr
      by_cases hgl : n = 2 * (n / 2)
      · by_cases hhl : h.length = 2 * (n / 2)
        · obtain ⟨i1, i2, i3, i4, i5, i6⟩ := ih Rs _ _ _ _ (ecAdd_half _ _ _ _ (by omega)) hr
          refine ⟨by simpa using i1, ?_, by omega, fun _ => by omega, by omega, ?_⟩
          · rw [List.length_cons, pow_succ, hgl, mul_comm]; exact Nat.mul_dvd_mul_left 2 i2
          · intro p hp
            rcases List.mem_cons.mp hp with rfl | hp
            · exact hgc
            · exact i6 p hp
        · exfalso
          have := hne (Or.inr (ecAdd_odd _ _ _ _ l2 (by omega)))
          simp at this
      · exfalso
        have := hne (Or.inl (ecAdd_odd _ _ _ _ l1 (by omega)))
        simp at this

end shape

section svec
variable {F : Type} [Field F]

/-- the coefficient vector of the folded generators -/
def sVec : List F → List F
  | [] => [1]
  | x :: xs => (sVec xs).map (· * x⁻¹) ++ (sVec xs).map (· * x)

theorem sVec_length (xs : List F) : (sVec xs).length = 2 ^ xs.length := by
  induction xs with
  | nil => rfl
  | cons x xs ih => simp [sVec, ih, pow_succ]; ring

theorem sCoeff_high (xs : List F) (k i : ℕ) (h : xs.length ≤ k) : sCoeff xs (2 ^ k + i) = sCoeff xs i := by
  induction xs with
  | nil => rfl
  | cons x xs ih =>
    simp only [List.length_cons] at h
    simp only [sCoeff]
    rw [Nat.testBit_two_pow_add_gt (by omega), ih (by omega)]

theorem sVec_eq (xs : List F) : sVec xs = (List.range (2 ^ xs.length)).map (sCoeff xs) := by
  induction xs with
  | nil => simp [sVec, sCoeff]
  | cons x xs ih =>
    rw [sVec, ih, List.length_cons, pow_succ, mul_two, List.range_add, List.map_append]
    congr 1
    · simp only [List.map_map]
      apply List.map_congr_left
      intro i hi
      simp only [List.mem_range] at hi
      simp only [Function.comp, sCoeff]
      rw [Nat.testBit_lt_two_pow hi]
      simp [mul_comm]
    · simp only [List.map_map]
      apply List.map_congr_left
      intro i hi
      simp only [List.mem_range] at hi
      simp only [Function.comp, sCoeff]
      rw [Nat.testBit_two_pow_add_eq, Nat.testBit_lt_two_pow hi, sCoeff_high _ _ _ (le_refl _)]
      simp [mul_comm]

theorem sCoeff_inv (xs : List F) (i : ℕ) : sCoeff (xs.map (·⁻¹)) i = (sCoeff xs i)⁻¹ := by
  induction xs with
  | nil => simp [sCoeff]
  | cons x xs ih =>
    simp only [List.map_cons, sCoeff, List.length_map, ih, mul_inv]
    split <;> simp

end svec

theorem gcd_eq_one_iff {q : ℕ} [hq : Fact q.Prime] (x : Int) : Int.gcd x q = 1 ↔ (x : ZMod q) ≠ 0 := by
  rw [Ne, ZMod.intCast_zmod_eq_zero_iff_dvd, Int.gcd_comm, Int.gcd, Int.natAbs_natCast,
    ← Nat.coprime_iff_gcd_eq_one, Nat.Prime.coprime_iff_not_dvd hq.out, Int.natCast_dvd]

theorem mem_zipWith_of_zip {α β γ : Type} (f : α → β → γ) (l : List α) (r : List β) (p : α × β)
    (hp : p ∈ List.zip l r) : f p.1 p.2 ∈ List.zipWith f l r := by
  rw [← List.map_uncurry_zip_eq_zipWith]
  exact List.mem_map.mpr ⟨p, hp, rfl⟩

section value
variable {E : Type} {GP : Grp E} {q : ℕ} [Fact q.Prime] {M : Type} [AddCommGroup M] [Module (ZMod q) M]

theorem msm_split_scale (g : List M) (s : List (ZMod q)) (n : ℕ) (hg : g.length = 2 * n) (hs : s.length = n)
    (c d : ZMod q) :
    msm (List.zipWith (· + ·) ((g.take n).map (c • ·)) ((g.drop n).map (d • ·))) s =
      msm g (s.map (· * c) ++ s.map (· * d)) := by
  rw [msm_add_left _ _ _ (by simp; omega), msm_map_smul, msm_map_smul]
  conv_rhs => rw [← List.take_append_drop n g]
  rw [msm_append _ _ _ _ (by simp; omega), msm_map_mul, msm_map_mul]

/-- Sum of the round contributions `xⱼ²·Lⱼ + xⱼ⁻²·Rⱼ`. -/
def roundSum (xs : List (ZMod q)) (Ls Rs : List M) : M :=
  msm Ls (xs.map (fun x => x * x)) + msm Rs (xs.map (fun x => x⁻¹ * x⁻¹))

theorem Lawful.ipVerifyLoop_value (L : Lawful GP q M) (sha : Bytes → Bytes) (Ls : List E) :
    ∀ (Rs g h : List E) (P g0 h0 : E) (P' : E) (gs hs : List E), g.length = 2 ^ Ls.length → h.length = 2 ^ Ls.length →
    (∀ e ∈ g, L.V e) → (∀ e ∈ h, L.V e) → (∀ e ∈ Ls, L.V e) → (∀ e ∈ Rs, L.V e) → L.V P →
    ipVerifyLoop sha GP Ls Rs g h P (2 ^ Ls.length) = some (g0 :: gs, h0 :: hs, P') →
    L.V g0 ∧ L.V h0 ∧ L.V P' ∧
      L.den g0 = msm (L.denV g) (sVec ((List.zipWith (roundChallenge sha GP) Ls Rs).map (Int.cast : Int → ZMod q))) ∧
      L.den h0 = msm (L.denV h)
        (sVec ((List.zipWith (roundChallenge sha GP) Ls Rs).map (fun x => ((x : Int) : ZMod q)⁻¹))) ∧
      L.den P' = L.den P +
        roundSum ((List.zipWith (roundChallenge sha GP) Ls Rs).map (Int.cast : Int → ZMod q)) (L.denV Ls) (L.denV Rs) := by
  induction Ls with
  | nil =>
    intro Rs g h P g0 h0 P' gs hs hg hh vg vh vL vR vP hr
    simp only [ipVerifyLoop, Option.some.injEq, Prod.mk.injEq] at hr
    obtain ⟨rfl, rfl, rfl⟩ := hr
    simp only [List.length_nil, pow_zero, List.length_cons, Nat.add_eq_right, List.length_eq_zero_iff] at hg hh
    subst hg hh
    refine ⟨vg _ (by simp), vh _ (by simp), vP, ?_, ?_, ?_⟩
    · simp [sVec]
    · simp [sVec]
    · simp [roundSum]
  | cons Le Ls ih =>
    intro Rs g h P g0 h0 P' gs hs hg hh vg vh vL vR vP hr
    cases Rs with
    | nil => simp [ipVerifyLoop] at hr
    | cons Re Rs =>
      have vLe := vL Le (by simp)
      have vRe := vR Re (by simp)
      have hpow : 2 ^ (Le :: Ls).length = 2 * 2 ^ Ls.length := by rw [List.length_cons, pow_succ]; ring
      have hhalf : 2 ^ (Le :: Ls).length / 2 = 2 ^ Ls.length := by omega
      have hpos : 0 < 2 ^ Ls.length := Nat.two_pow_pos _
      unfold ipVerifyLoop at hr
      unbind hr with gh hf
      obtain ⟨g', h'⟩ := gh
      unbind hr with x2i hx2i
      rw [hhalf] at hf hr
      rw [hpow] at hg hh
      obtain ⟨xi, hxi, hxx, lg', lh', vg', vh', dg', dh'⟩ := L.foldGens_spec hpos hg hh vg vh hf
      have vP1 : L.V (GP.add P (GP.mul Le ((hashBP sha GP Le Re).1 * (hashBP sha GP Le Re).1 % GP.N))) :=
        L.V_add vP (L.V_mul _ vLe)
      obtain ⟨i1, i2, i3, i4, i5, i6⟩ := ih Rs g' h' _ g0 h0 P' gs hs lg' lh' vg' vh'
        (fun e he => vL e (by simp [he])) (fun e he => vR e (by simp [he])) (L.V_add vP1 (L.V_mul _ vRe)) hr
      rw [hashBP_fst] at *
      have hinv : ((xi : Int) : ZMod q) = ((roundChallenge sha GP Le Re : Int) : ZMod q)⁻¹ :=
        eq_inv_of_mul_eq_one_right hxx
      have hx2 := modInverse_spec (q := q) (by rw [← L.N_eq]; exact hx2i)
      rw [L.cast_modN] at hx2
      have hx2' : ((x2i : Int) : ZMod q) = (((roundChallenge sha GP Le Re : Int) : ZMod q) *
          ((roundChallenge sha GP Le Re : Int) : ZMod q))⁻¹ := by
        push_cast at hx2
        exact eq_inv_of_mul_eq_one_right hx2
      have ls : (List.zipWith (roundChallenge sha GP) Ls Rs).length = Ls.length := by
        have := (ipVerifyLoop_shape sha Ls Rs g' h' _ _ g0 h0 gs hs P' lg' hr).1
        simp; omega
      refine ⟨i1, i2, i3, ?_, ?_, ?_⟩
      · rw [i4, dg', msm_split_scale _ _ (2 ^ Ls.length) (by simp [hg]) (by rw [sVec_length, List.length_map, ls]), hinv]
        rfl
      · rw [i5, dh', msm_split_scale _ _ (2 ^ Ls.length) (by simp [hh]) (by rw [sVec_length, List.length_map, ls]), hinv]
        simp only [List.zipWith_cons_cons, List.map_cons, sVec, inv_inv]
      · rw [i6, L.den_add vP1 (L.V_mul _ vRe), L.den_add vP (L.V_mul _ vLe), L.den_mul _ vLe, L.den_mul _ vRe, hx2',
          L.cast_modN]
        simp only [List.zipWith_cons_cons, List.map_cons, roundSum, msm_cons, Lawful.denV_cons, mul_inv]
        push_cast
        abel

end value

section core
variable {E : Type} {GP : Grp E} {q : ℕ} {M : Type} [AddCommGroup M] [Module (ZMod q) M]

/-- What `InnerProductProof.Verify` computes, in terms of the loop's result. -/
theorem Lawful.ipVerify_core (L : Lawful GP q M) (sha : Bytes → Bytes) (pf : IPProof E) (hGP : pf.Params.GP = GP)
    (Cc A B : Int) (hC : pf.Cc = some Cc) (hA : pf.A = some A) (hB : pf.B = some B)
    (vP : L.V pf.P) (vU : L.V pf.Params.Uu) (hgh : pf.Params.Gg.length ≤ pf.Params.Hh.length)
    (x : Int) (hx : x = ippChallenge sha GP pf.Params.Gg pf.Params.Hh pf.P Cc)
    (g0 h0 P' : E) (gs hs : List E) (v0 : L.V g0) (v1 : L.V h0) (v2 : L.V P')
    (hl : ipVerifyLoop sha GP pf.L pf.R pf.Params.Gg pf.Params.Hh
      (GP.add pf.P (GP.mul (GP.mul pf.Params.Uu x) Cc)) pf.Params.Gg.length = some (g0 :: gs, h0 :: hs, P')) :
    ∃ b, pf.verify sha = some b ∧
      (b = true ↔ L.den P' = (A : ZMod q) • L.den g0 + (B : ZMod q) • L.den h0 +
        ((x : ZMod q) * (A * B)) • L.den pf.Params.Uu) := by
  subst hGP
  unfold IPProof.verify
  simp only [hC, hA, hB, Option.bind_eq_bind, Option.bind_some, hashIP_eq, hgh, if_true, computePP, ← hx, hl,
    List.getElem?_cons_zero]
  have vux := L.V_mul x vU
  refine ⟨_, rfl, ?_⟩
  rw [L.isIdentity_iff (L.V_add (L.V_neg v2) (L.V_add (L.V_add (L.V_mul _ v0) (L.V_mul _ v1)) (L.V_mul _ vux))),
    L.den_add (L.V_neg v2) (L.V_add (L.V_add (L.V_mul _ v0) (L.V_mul _ v1)) (L.V_mul _ vux)), L.den_neg v2,
    L.den_add (L.V_add (L.V_mul _ v0) (L.V_mul _ v1)) (L.V_mul _ vux), L.den_add (L.V_mul _ v0) (L.V_mul _ v1),
    L.den_mul _ v0, L.den_mul _ v1, L.den_mul _ vux, L.den_mul _ vU, L.cast_modN, neg_add_eq_zero, smul_smul]
  push_cast
  rw [mul_comm (x : ZMod q)]

end core

end MscPoc
