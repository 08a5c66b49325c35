import Verif.Lemmas.Ipp2

/-!
# C16, C17, C26 — the inner-product argument
-/

set_option autoImplicit false

namespace MscPoc

variable {E : Type} {GP : Grp E} {q : ℕ} {M : Type} [AddCommGroup M] [Module (ZMod q) M]

/-- Exact verdict on an honestly built inner-product proof, for any claimed `P` and `c`. -/
theorem ipp_honest_exact (L : Lawful GP q M) (sha : Bytes → Bytes) (k : ℕ) (a b : List Int) (P : E) (c : Int)
    (params : IPParams E) (pf : IPProof E) (hGP : params.GP = GP)
    (ha : a.length = 2 ^ k) (hb : b.length = 2 ^ k) (hg : params.Gg.length = 2 ^ k) (hh : params.Hh.length = 2 ^ k)
    (vg : ∀ e ∈ params.Gg, L.V e) (vh : ∀ e ∈ params.Hh, L.V e) (vu : L.V params.Uu) (vP : L.V P)
    (hp : proveInnerProduct sha a b P c params = some (.ok pf)) :
    pf.P = P ∧ pf.Cc = some c ∧ pf.Params = params ∧ pf.L.length = k ∧ pf.R.length = k ∧
    ∃ v, pf.verify sha = some v ∧ (v = true ↔
      L.den P + ((ippChallenge sha GP params.Gg params.Hh P c : ZMod q) * c) • L.den params.Uu =
      msm (L.denV params.Gg) (castV q a) + msm (L.denV params.Hh) (castV q b) +
        ((ippChallenge sha GP params.Gg params.Hh P c : ZMod q) * dot (castV q a) (castV q b)) • L.den params.Uu) := by
  subst hGP
  unfold proveInnerProduct at hp
  rw [if_neg (by omega)] at hp
  simp only [hashIP_eq, hg, hh, le_refl, if_true, Option.bind_eq_bind, Option.bind_some, computePP, ha,
    Option.bind_eq_some_iff] at hp
  obtain ⟨⟨pa, pb, LL, RR⟩, hrec, hp⟩ := hp
  simp only [Option.some.injEq, Except.ok.injEq] at hp
  subst hp
  have vux := L.V_mul (ippChallenge sha params.GP params.Gg params.Hh P c) vu
  have vPP : L.V (params.GP.add P (params.GP.mul (params.GP.mul params.Uu
      (ippChallenge sha params.GP params.Gg params.Hh P c)) c)) := L.V_add vP (L.V_mul _ vux)
  obtain ⟨Ls, Rs, hLL, hRR, lL, lR, vLs, vRs, g0, h0, P', hloop, v0, v1, v2, hden⟩ :=
    L.bip_complete sha k a b params.Gg params.Hh _ _ _ [] [] pa pb LL RR ha hb hg hh vg vh vux vPP hrec
  simp only [List.nil_append] at hLL hRR
  subst hLL hRR
  refine ⟨rfl, rfl, rfl, lL, lR, ?_⟩
  rw [← hg] at hloop
  obtain ⟨v, hv, hvi⟩ := L.ipVerify_core sha
    { P := P, Cc := some c, A := some pa, B := some pb, L := LL, R := RR, Params := params } rfl c pa pb rfl rfl rfl
    vP vu (by simp [hg, hh]) _ rfl g0 h0 P' [] [] v0 v1 v2 hloop
  refine ⟨v, hv, hvi.trans ?_⟩
  rw [hden, L.den_add vP (L.V_mul _ vux), L.den_mul _ vux, L.den_mul _ vu]
  simp only [smul_smul]
  constructor
  · intro h
    linear_combination (norm := module) h
  · intro h
    linear_combination (norm := module) h

/-- **C16** Inner-product argument completeness. -/
theorem C16_ipp_complete (L : Lawful GP q M) (sha : Bytes → Bytes) (k : ℕ) (a b : List Int) (P : E) (c : Int)
    (params : IPParams E) (pf : IPProof E) (hGP : params.GP = GP)
    (ha : a.length = 2 ^ k) (hb : b.length = 2 ^ k) (hg : params.Gg.length = 2 ^ k) (hh : params.Hh.length = 2 ^ k)
    (vg : ∀ e ∈ params.Gg, L.V e) (vh : ∀ e ∈ params.Hh, L.V e) (vu : L.V params.Uu) (vP : L.V P)
    (hP : L.den P = msm (L.denV params.Gg) (castV q a) + msm (L.denV params.Hh) (castV q b))
    (hc : (c : ZMod q) = dot (castV q a) (castV q b))
    (hp : proveInnerProduct sha a b P c params = some (.ok pf)) :
    pf.verify sha = some true ∧ pf.L.length = k ∧ pf.R.length = k := by
  obtain ⟨_, _, _, h4, h5, v, hv, hvi⟩ :=
    ipp_honest_exact L sha k a b P c params pf hGP ha hb hg hh vg vh vu vP hp
  refine ⟨?_, h4, h5⟩
  rw [hv, hvi.mpr]
  rw [hP, hc]

/-- A wrong inner product (or commitment) is caught whenever the first challenge and `u` are non-degenerate. -/
theorem C16_ipp_wrong_product_rejected [Fact q.Prime] (L : Lawful GP q M) (sha : Bytes → Bytes) (k : ℕ)
    (a b : List Int) (P : E) (c : Int)
    (params : IPParams E) (pf : IPProof E) (hGP : params.GP = GP)
    (ha : a.length = 2 ^ k) (hb : b.length = 2 ^ k) (hg : params.Gg.length = 2 ^ k) (hh : params.Hh.length = 2 ^ k)
    (vg : ∀ e ∈ params.Gg, L.V e) (vh : ∀ e ∈ params.Hh, L.V e) (vu : L.V params.Uu) (vP : L.V P)
    (hP : L.den P = msm (L.denV params.Gg) (castV q a) + msm (L.denV params.Hh) (castV q b))
    (hc : (c : ZMod q) ≠ dot (castV q a) (castV q b)) (hu : L.den params.Uu ≠ 0)
    (hx : (ippChallenge sha GP params.Gg params.Hh P c : ZMod q) ≠ 0)
    (hp : proveInnerProduct sha a b P c params = some (.ok pf)) :
    pf.verify sha = some false := by
  obtain ⟨_, _, _, _, _, v, hv, hvi⟩ :=
    ipp_honest_exact L sha k a b P c params pf hGP ha hb hg hh vg vh vu vP hp
  rw [hv]
  cases v with
  | false => rfl
  | true =>
    exfalso
    have h := hvi.mp rfl
    rw [hP] at h
    have h2 := add_left_cancel h
    rw [← sub_eq_zero, ← sub_smul, ← mul_sub] at h2
    rcases smul_eq_zero.mp h2 with h3 | h3
    · rcases mul_eq_zero.mp h3 with h4 | h4
      · exact hx h4
      · exact hc (sub_eq_zero.mp h4)
    · exact hu h3

/-- a tiny hash function for the examples -/
def exSha : Bytes → Bytes := fun b => [UInt8.ofNat (b.length + 3)]

/-- inner-product parameters for the examples, in the additive group modulo 101 -/
def exIP : IPParams Int := { Gg := [3, 5, 7, 9], Hh := [2, 4, 8, 16], Uu := 11, GP := toyGrp 101 }

instance : Fact (Nat.Prime 101) := ⟨by decide +kernel⟩

/-- C16, C17: a concrete four-element run meets all hypotheses (the prover returns, generators are legal). -/
example : (∀ e ∈ exIP.Gg, (toyLawful 101).V e) ∧ (∀ e ∈ exIP.Hh, (toyLawful 101).V e) ∧ (toyLawful 101).V exIP.Uu ∧
    (match commitInnerProduct (toyGrp 101) exIP.Gg exIP.Hh [1, 2, 3, 4] [5, 6, 7, 8] with
     | some P => (match proveInnerProduct exSha [1, 2, 3, 4] [5, 6, 7, 8] P 70 exIP with
        | some (.ok pf) => pf.verify exSha == some true
        | _ => false)
     | none => false) = true ∧ scalarProduct [1, 2, 3, 4] [5, 6, 7, 8] 101 = some 70 := by
  unfold toyLawful
  decide +kernel

/-- **C17** Inner-product verification equals the closed-form multi-exponentiation check. -/
theorem C17_ipp_closed_form [Fact q.Prime] (L : Lawful GP q M) (sha : Bytes → Bytes) (pf : IPProof E) (k : ℕ)
    (Cc A B : Int) (hGP : pf.Params.GP = GP) (hC : pf.Cc = some Cc) (hA : pf.A = some A) (hB : pf.B = some B)
    (hL : pf.L.length = k) (hR : k ≤ pf.R.length)
    (hg : pf.Params.Gg.length = 2 ^ k) (hh : pf.Params.Hh.length = 2 ^ k)
    (vg : ∀ e ∈ pf.Params.Gg, L.V e) (vh : ∀ e ∈ pf.Params.Hh, L.V e) (vu : L.V pf.Params.Uu) (vP : L.V pf.P)
    (vL : ∀ e ∈ pf.L, L.V e) (vR : ∀ e ∈ pf.R, L.V e)
    -- the round challenges, and the challenge for `u`
    (xs : List (ZMod q)) (x : ZMod q)
    (hxs : xs = (List.zipWith (roundChallenge sha GP) pf.L pf.R).map (fun i : Int => (i : ZMod q)))
    (hx : x = (ippChallenge sha GP pf.Params.Gg pf.Params.Hh pf.P Cc : ZMod q))
    (hinv : ∀ y ∈ xs, y ≠ 0) :
    ∃ v, pf.verify sha = some v ∧ (v = true ↔
      L.den pf.P + (x * Cc) • L.den pf.Params.Uu +
        (msm (L.denV pf.L) (xs.map (fun y => y ^ 2)) + msm (L.denV pf.R) (xs.map (fun y => y⁻¹ ^ 2))) =
      msm (L.denV pf.Params.Gg) ((List.range (2 ^ k)).map (fun i => A * sCoeff xs i)) +
        msm (L.denV pf.Params.Hh) ((List.range (2 ^ k)).map (fun i => B * (sCoeff xs i)⁻¹)) +
        (x * A * B) • L.den pf.Params.Uu) := by
  subst hGP
  have hgcd : ∀ p ∈ List.zip pf.L pf.R, Int.gcd (roundChallenge sha pf.Params.GP p.1 p.2) pf.Params.GP.N = 1 := by
    intro p hp
    have hne : ((roundChallenge sha pf.Params.GP p.1 p.2 : Int) : ZMod q) ≠ 0 := by
      apply hinv
      rw [hxs]
      exact List.mem_map.mpr ⟨_, mem_zipWith_of_zip _ _ _ p hp, rfl⟩
    rw [L.N_eq]
    exact (gcd_eq_one_iff _).mpr hne
  have hlen : xs.length = k := by rw [hxs, List.length_map, List.length_zipWith]; omega
  obtain ⟨g0, gs, h0, hs, P', hl⟩ := ipVerifyLoop_isSome (GP := pf.Params.GP) sha pf.L pf.R pf.Params.Gg pf.Params.Hh
    (pf.Params.GP.add pf.P (pf.Params.GP.mul (pf.Params.GP.mul pf.Params.Uu
      (ippChallenge sha pf.Params.GP pf.Params.Gg pf.Params.Hh pf.P Cc)) Cc)) (2 ^ k)
    (by omega) hg (by rw [hL]) (Nat.two_pow_pos k) (fun _ => hh) (by rw [hh]; exact Nat.two_pow_pos k) hgcd
  have vux := L.V_mul (ippChallenge sha pf.Params.GP pf.Params.Gg pf.Params.Hh pf.P Cc) vu
  have vPP := L.V_add vP (L.V_mul Cc vux)
  obtain ⟨v0, v1, v2, d0, d1, d2⟩ := L.ipVerifyLoop_value sha pf.L pf.R pf.Params.Gg pf.Params.Hh _ g0 h0 P' gs hs
    (by rw [hL, hg]) (by rw [hL, hh]) vg vh vL vR vPP (by rw [hL]; exact hl)
  rw [← hg] at hl
  obtain ⟨v, hv, hvi⟩ := L.ipVerify_core sha pf rfl Cc A B hC hA hB vP vu (by omega) _ rfl g0 h0 P' gs hs v0 v1 v2 hl
  refine ⟨v, hv, hvi.trans ?_⟩
  have e1 : (List.range (2 ^ k)).map (fun i => (A : ZMod q) * sCoeff xs i) = (sVec xs).map (· * (A : ZMod q)) := by
    rw [sVec_eq, hlen, List.map_map]
    apply List.map_congr_left; intro i _; simp [mul_comm]
  have e2 : (List.range (2 ^ k)).map (fun i => (B : ZMod q) * (sCoeff xs i)⁻¹) =
      (sVec (xs.map (·⁻¹))).map (· * (B : ZMod q)) := by
    rw [sVec_eq, List.length_map, hlen, List.map_map]
    apply List.map_congr_left; intro i _
    simp only [Function.comp, sCoeff_inv, mul_comm]
  have e3 : xs.map (·⁻¹) = (List.zipWith (roundChallenge sha pf.Params.GP) pf.L pf.R).map
      (fun x => ((x : Int) : ZMod q)⁻¹) := by rw [hxs, List.map_map]; rfl
  rw [e1, e2, msm_map_mul, msm_map_mul, e3, d2, d0, d1, roundSum, ← hxs, L.den_add vP (L.V_mul Cc vux),
    L.den_mul _ vux, L.den_mul _ vu, smul_smul, ← hx]
  simp only [pow_two, mul_assoc, mul_comm (Cc : ZMod q) x]

/-- C17: a concrete proof with four generators meets the hypotheses (and an extra `R` entry is ignored). -/
example :
    (match commitInnerProduct (toyGrp 101) exIP.Gg exIP.Hh [1, 2, 3, 4] [5, 6, 7, 8] with
     | some P => (match proveInnerProduct exSha [1, 2, 3, 4] [5, 6, 7, 8] P 70 exIP with
        | some (.ok pf) => pf.L.length == 2 && pf.R.length == 2 &&
            ({ pf with R := pf.R ++ [1] }).verify exSha == some true &&
            (List.zipWith (roundChallenge exSha (toyGrp 101)) pf.L pf.R).all (fun x => x % 101 != 0)
        | _ => false)
     | none => false) = true := by
  decide +kernel

/-- **C26** Exactly which inner-product proofs the verifier can process without crashing. -/
theorem C26_ipp_verify_total_iff (sha : Bytes → Bytes) (pf : IPProof E) :
    (∃ v, pf.verify sha = some v) ↔
      pf.Cc ≠ none ∧ pf.A ≠ none ∧ pf.B ≠ none ∧ pf.L.length ≤ pf.R.length ∧
      0 < pf.Params.Gg.length ∧ pf.Params.Gg.length ≤ pf.Params.Hh.length ∧
      2 ^ pf.L.length ∣ pf.Params.Gg.length ∧ (pf.L ≠ [] → pf.Params.Hh.length = pf.Params.Gg.length) ∧
      ∀ p ∈ List.zip pf.L pf.R, Int.gcd (roundChallenge sha pf.Params.GP p.1 p.2) pf.Params.GP.N = 1 := by
  constructor
  · rintro ⟨v, hv⟩
    unfold IPProof.verify at hv
    unbind hv with Cc hC
    unbind hv with x hx
    unbind hv with r hl
    obtain ⟨g', h', P'⟩ := r
    unbind hv with A hA
    unbind hv with B hB
    unbind hv with g0 hg0
    unbind hv with h0 hh0
    cases g' with
    | nil => simp at hg0
    | cons g1 gs => cases h' with
      | nil => simp at hh0
      | cons h1 hs =>
        obtain ⟨s1, s2, s3, s4, s5, s6⟩ := ipVerifyLoop_shape sha _ _ _ _ _ _ g1 h1 gs hs P' rfl hl
        rw [hashIP_eq] at hx
        have hle : pf.Params.Gg.length ≤ pf.Params.Hh.length := by
          by_contra hc; rw [if_neg hc] at hx; cases hx
        exact ⟨by simp [hC], by simp [hA], by simp [hB], s1, s3, hle, s2, s4, s6⟩
  · rintro ⟨hC, hA, hB, h1, h2, h3, h4, h5, h6⟩
    obtain ⟨Cc, hC⟩ := Option.ne_none_iff_exists'.mp hC
    obtain ⟨A, hA⟩ := Option.ne_none_iff_exists'.mp hA
    obtain ⟨B, hB⟩ := Option.ne_none_iff_exists'.mp hB
    obtain ⟨g0, gs, h0, hs, P', hl⟩ := ipVerifyLoop_isSome (GP := pf.Params.GP) sha pf.L pf.R pf.Params.Gg pf.Params.Hh
      (pf.Params.GP.add pf.P (pf.Params.GP.mul (pf.Params.GP.mul pf.Params.Uu
        (ippChallenge sha pf.Params.GP pf.Params.Gg pf.Params.Hh pf.P Cc)) Cc)) pf.Params.Gg.length
      h1 rfl h4 h2 h5 (by omega) h6
    unfold IPProof.verify
    simp only [hC, hA, hB, Option.bind_eq_bind, Option.bind_some, hashIP_eq, h3, if_true, computePP, hl,
      List.getElem?_cons_zero]
    exact ⟨_, rfl⟩

/-- C26 for `2^k` generators: more than `k` rounds crash, `k' ≤ k` rounds do not. -/
theorem C26_ipp_rounds (sha : Bytes → Bytes) (pf : IPProof E) (k : ℕ) (Cc A B : Int)
    (hC : pf.Cc = some Cc) (hA : pf.A = some A) (hB : pf.B = some B)
    (hg : pf.Params.Gg.length = 2 ^ k) (hh : pf.Params.Hh.length = 2 ^ k) (hR : pf.L.length ≤ pf.R.length)
    (hx : ∀ p ∈ List.zip pf.L pf.R, Int.gcd (roundChallenge sha pf.Params.GP p.1 p.2) pf.Params.GP.N = 1) :
    pf.verify sha = none ↔ k < pf.L.length := by
  have h := C26_ipp_verify_total_iff sha pf
  rw [← not_iff_not, ← ne_eq, Option.ne_none_iff_exists', h, hC, hA, hB, hg, hh]
  simp only [ne_eq, reduceCtorEq, not_false_eq_true, hR, le_refl, implies_true, true_and, not_lt]
  rw [Nat.pow_dvd_pow_iff_le_right (by norm_num)]
  exact ⟨fun h => h.2.1, fun h => ⟨Nat.two_pow_pos k, h, hx⟩⟩

/-- C26: both outcomes occur: a run with two rounds is processed, one with three crashes, as does a
missing scalar or a count of generators that is not divisible. -/
example :
    let pf : IPProof Int := { P := 5, Cc := some 1, A := some 2, B := some 3, L := [7, 8], R := [9, 10], Params := exIP }
    (pf.verify exSha).isSome = true ∧
    ({ pf with L := [7, 8, 9], R := [9, 10, 11] } : IPProof Int).verify exSha = none ∧
    ({ pf with A := none } : IPProof Int).verify exSha = none ∧
    ({ pf with R := [9] } : IPProof Int).verify exSha = none ∧
    ({ pf with Params := { exIP with Gg := [3, 5, 7], Hh := [2, 4, 8] } } : IPProof Int).verify exSha = none := by
  decide +kernel

end MscPoc
