import Verif.Lemmas.BpVerify
import Verif.Props.Ipp

/-!
# Acceptance by three vanishing sums of multiples with integer factors
-/

set_option autoImplicit false

namespace MscPoc

variable {E : Type} {GP : Grp E} {q : ℕ} {M : Type} [AddCommGroup M] [Module (ZMod q) M]

/-- the factors of the generators of the inner-product argument; pairs of a round challenge and its inverse -/
def sVecI : List (Int × Int) → List Int
  | [] => [1]
  | x :: xs => (sVecI xs).map (· * x.2) ++ (sVecI xs).map (· * x.1)

/-- the factors of the inner-product equation -/
def ippCoefs (x c a b : Int) (prs : List (Int × Int)) : List Int :=
  [1, x * (c - a * b)] ++ (prs.map (fun p => p.1 * p.1) ++ (prs.map (fun p => p.2 * p.2) ++
    ((sVecI prs).map (fun s => -(a * s)) ++ (sVecI (prs.map Prod.swap)).map (fun s => -(b * s)))))

/-- the points of the inner-product equation -/
def ippPts {α : Type} (P U : α) (L R g h : List α) : List α := [P, U] ++ (L ++ (R ++ (g ++ h)))

theorem sVecI_cast [Fact q.Prime] (prs : List (Int × Int)) (h : ∀ p ∈ prs, ((p.1 : ZMod q) * (p.2 : ZMod q)) = 1) :
    castV q (sVecI prs) = sVec (prs.map fun p => (p.1 : ZMod q)) := by
  induction prs with
  | nil => simp [sVecI, sVec]
  | cons p prs ih =>
    have hp := h p (by simp)
    have e : (p.2 : ZMod q) = (p.1 : ZMod q)⁻¹ := eq_inv_of_mul_eq_one_right hp
    have ih' := ih fun p hp => h p (by simp [hp])
    rw [List.map_cons, sVec, ← ih', sVecI, castV, List.map_append, List.map_map, List.map_map, List.map_map, List.map_map, ← e]
    congr 1 <;> apply List.map_congr_left <;> intro i _ <;> simp

theorem sVecI_length (prs : List (Int × Int)) : (sVecI prs).length = 2 ^ prs.length := by
  induction prs with
  | nil => rfl
  | cons p prs ih => simp [sVecI, ih, pow_succ]; ring

theorem msm_castV_neg (g : List M) (a : Int) (s : List Int) :
    msm g (castV q (s.map fun s => -(a * s))) = -((a : ZMod q) • msm g (castV q s)) := by
  rw [← neg_smul, ← msm_map_mul]
  congr 1
  rw [castV, List.map_map, List.map_map]
  apply List.map_congr_left
  intro i _
  simp [mul_comm]

theorem Lawful.ipVerify_true [Fact q.Prime] (L : Lawful GP q M) (sha : Bytes → Bytes) (pf : IPProof E)
    (Cc A B x : Int) (prs : List (Int × Int))
    (hGP : pf.Params.GP = GP) (hC : pf.Cc = some Cc) (hA : pf.A = some A) (hB : pf.B = some B)
    (hL : pf.L.length = prs.length) (hR : pf.R.length = prs.length)
    (hg : pf.Params.Gg.length = 2 ^ prs.length) (hh : pf.Params.Hh.length = 2 ^ prs.length)
    (vg : ∀ e ∈ pf.Params.Gg, L.V e) (vh : ∀ e ∈ pf.Params.Hh, L.V e) (vu : L.V pf.Params.Uu) (vP : L.V pf.P)
    (vL : ∀ e ∈ pf.L, L.V e) (vR : ∀ e ∈ pf.R, L.V e)
    (hxs : List.zipWith (roundChallenge sha GP) pf.L pf.R = prs.map Prod.fst)
    (hx : ippChallenge sha GP pf.Params.Gg pf.Params.Hh pf.P Cc = x)
    (hinv : ∀ p ∈ prs, p.1 * p.2 % q = 1)
    (hz : msm (L.denV (ippPts pf.P pf.Params.Uu pf.L pf.R pf.Params.Gg pf.Params.Hh)) (castV q (ippCoefs x Cc A B prs)) = 0) :
    pf.verify sha = some true := by
  have hinv' : ∀ p ∈ prs, ((p.1 : ZMod q) * (p.2 : ZMod q)) = 1 := by
    intro p hp
    have := congrArg (Int.cast : Int → ZMod q) (hinv p hp)
    rw [ZMod.intCast_mod] at this
    simpa using this
  obtain ⟨v, hv, hi⟩ := C17_ipp_closed_form L sha pf prs.length Cc A B hGP hC hA hB hL hR.ge hg hh vg vh vu vP vL vR
    (prs.map fun p => (p.1 : ZMod q)) (x : ZMod q) (by rw [hxs, List.map_map]; rfl) (by rw [hx]) (by
      intro y hy
      obtain ⟨p, hp, rfl⟩ := List.mem_map.mp hy
      intro h0
      have := hinv' p hp
      rw [h0, zero_mul] at this
      exact zero_ne_one this)
  have e1 : (List.range (2 ^ prs.length)).map (fun i => (A : ZMod q) * sCoeff (prs.map fun p => (p.1 : ZMod q)) i) =
      (castV q (sVecI prs)).map (· * (A : ZMod q)) := by
    rw [sVecI_cast prs hinv', sVec_eq, List.length_map, List.map_map]
    apply List.map_congr_left; intro i _; simp [mul_comm]
  have e2 : (List.range (2 ^ prs.length)).map (fun i => (B : ZMod q) * (sCoeff (prs.map fun p => (p.1 : ZMod q)) i)⁻¹) =
      (castV q (sVecI (prs.map Prod.swap))).map (· * (B : ZMod q)) := by
    rw [sVecI_cast (prs.map Prod.swap) (by
      intro p hp
      obtain ⟨r, hr, rfl⟩ := List.mem_map.mp hp
      rw [← hinv' r hr, mul_comm]; rfl), sVec_eq, List.length_map, List.length_map, List.map_map, List.map_map]
    have : (prs.map ((fun p : Int × Int => (p.1 : ZMod q)) ∘ Prod.swap)) = (prs.map fun p => (p.1 : ZMod q)).map (·⁻¹) := by
      rw [List.map_map]
      apply List.map_congr_left
      intro p hp
      exact eq_inv_of_mul_eq_one_right (hinv' p hp)
    rw [this]
    apply List.map_congr_left; intro i _
    simp only [Function.comp, sCoeff_inv, mul_comm]
  rw [e1, e2, msm_map_mul, msm_map_mul] at hi
  have e3 : (prs.map fun p => (p.1 : ZMod q)).map (fun y => y ^ 2) = castV q (prs.map fun p => p.1 * p.1) := by
    rw [castV, List.map_map, List.map_map]
    apply List.map_congr_left; intro p _; simp [pow_two]
  have e4 : (prs.map fun p => (p.1 : ZMod q)).map (fun y => y⁻¹ ^ 2) = castV q (prs.map fun p => p.2 * p.2) := by
    rw [castV, List.map_map, List.map_map]
    apply List.map_congr_left; intro p hp
    simp only [Function.comp, ← eq_inv_of_mul_eq_one_right (hinv' p hp), pow_two, Int.cast_mul]
  rw [e3, e4] at hi
  rw [hv, hi.mpr]
  unfold ippPts ippCoefs at hz
  have ap : ∀ a b : List E, L.denV (a ++ b) = L.denV a ++ L.denV b := fun a b => List.map_append
  have ac : ∀ a b : List Int, castV q (a ++ b) = castV q a ++ castV q b := fun a b => List.map_append
  rw [ap, ac, msm_append _ _ _ _ (by simp), ap, ac, msm_append _ _ _ _ (by simp [hL]), ap, ac,
    msm_append _ _ _ _ (by simp [hR]), ap, ac, msm_append _ _ _ _ (by simp [hg, sVecI_length]), msm_castV_neg, msm_castV_neg] at hz
  simp only [denV_cons, denV_nil, List.map_cons, List.map_nil, msm_cons, msm_nil_left, Int.cast_one, Int.cast_mul,
    Int.cast_sub, one_smul, add_zero] at hz
  linear_combination (norm := module) hz

/-- the factors of equation (65) -/
def bpCoefs65 (N : ℕ) (y x tp tx : Int) : List Int :=
  [tp - ((y - y ^ 2) * (pows y N).sum - y ^ 3 * (pows 2 N).sum), tx, -(y * y), -x, -(x * x)]

/-- the factors of equation (67) -/
def bpCoefs67 (N : ℕ) (y yi x mu : Int) : List Int :=
  [mu, 1, -1, -x] ++ (List.replicate N y ++ (List.range N).map (fun i => -(yi ^ i * (y ^ i * y + 2 ^ i * (y * y)))))

theorem castV_pows (y : Int) (n : ℕ) : castV q (pows y n) = pows (y : ZMod q) n := by
  unfold pows castV
  rw [List.map_map]
  apply List.map_congr_left; intro i _; simp

theorem sum_castV (l : List Int) : ((l.sum : Int) : ZMod q) = (castV q l).sum := by
  induction l with
  | nil => simp
  | cons a l ih => simp [ih]

theorem msm_zipWith_smul (ps e : List (ZMod q)) (hs : List M) :
    msm (List.zipWith (fun c m => c • m) ps hs) e = msm hs (List.zipWith (· * ·) ps e) := by
  induction ps generalizing e hs with
  | nil => simp
  | cons p ps ih =>
    cases hs with
    | nil => simp
    | cons h hs =>
      cases e with
      | nil => simp
      | cons e es =>
        simp only [List.zipWith_cons_cons, msm_cons, ih, smul_smul]
        rw [mul_comm]

theorem Lawful.bpVerify_true [Fact q.Prime] (pf : BulletProof E) (L : Lawful pf.Params.GP q M) (hV : BPValid pf L)
    (sha : Bytes → Bytes) (tp tx mu y yi x : Int) (hN : 2 ≤ pf.Params.N)
    (h2 : pf.Tprime = some tp) (h3 : pf.Taux = some tx) (h4 : pf.Mu = some mu)
    (h5 : pf.InnerProductProof.verify sha = some true)
    (hy : roundChallenge sha pf.Params.GP pf.A pf.S = y) (hx : roundChallenge sha pf.Params.GP pf.T1 pf.T2 = x)
    (hyi : y * yi % q = 1)
    (h65 : msm [L.g, L.den pf.Params.H, L.den pf.V, L.den pf.T1, L.den pf.T2]
      (castV q (bpCoefs65 pf.Params.N y x tp tx)) = 0)
    (h67 : msm ([L.den pf.Params.H, L.den pf.InnerProductProof.P, L.den pf.A, L.den pf.S] ++
      (L.denV pf.Params.Gg ++ L.denV pf.Params.Hh)) (castV q (bpCoefs67 pf.Params.N y yi x mu)) = 0) :
    pf.verify sha = some true := by
  have hyi' : (y : ZMod q) * (yi : ZMod q) = 1 := by
    have := congrArg (Int.cast : Int → ZMod q) hyi
    rw [ZMod.intCast_mod] at this
    simpa using this
  have hgcd : Int.gcd y pf.Params.GP.N = 1 := by
    rw [L.N_eq]
    exact (gcd_eq_one_iff _).mpr (left_ne_zero_of_mul_eq_one hyi')
  obtain ⟨hp, hhp⟩ := updateGenerators_isSome (GP := pf.Params.GP) (by omega) hV.lenH.ge (fun _ => hgcd)
  obtain ⟨_, lhp, _, yi', hyy, dhp⟩ := L.updateGenerators_spec hV.lenH hV.Hh hhp
  have eyi : yi' = (yi : ZMod q) := by
    have h := hyy hN
    have hne : (y : ZMod q) ≠ 0 := left_ne_zero_of_mul_eq_one hyi'
    exact mul_left_cancel₀ hne (h.trans hyi'.symm)
  obtain ⟨v, hv, hi⟩ := Lawful.bpVerify_core pf L hV sha hp tp tx mu true (by rw [hy]; exact hhp) h2 h3 h4 h5
    (y : ZMod q) (x : ZMod q) (by rw [hy]) (by rw [hx])
  rw [hv, hi.mpr]
  refine ⟨?_, ?_, rfl⟩
  · unfold bpCoefs65 at h65
    simp only [List.map_cons, List.map_nil, msm_cons, msm_nil_left, Int.cast_sub, Int.cast_mul, Int.cast_neg, Int.cast_pow,
      sum_castV, castV_pows, add_zero, Int.cast_ofNat] at h65
    unfold deltaSpec
    linear_combination (norm := module) h65
  · rw [dhp, eyi, msm_zipWith_smul]
    have ac : ∀ a b : List Int, castV q (a ++ b) = castV q a ++ castV q b := fun a b => List.map_append
    unfold bpCoefs67 at h67
    rw [ac, msm_append _ _ _ _ (by simp), ac, msm_append _ _ _ _ (by simp [hV.lenG])] at h67
    have e1 : msm (L.denV pf.Params.Gg) (castV q (List.replicate pf.Params.N y)) = (y : ZMod q) • (L.denV pf.Params.Gg).sum := by
      rw [castV, List.map_replicate, ← hV.lenG, ← L.denV_length, msm_replicate]
    have e2 : castV q ((List.range pf.Params.N).map (fun i => -(yi ^ i * (y ^ i * y + 2 ^ i * (y * y))))) =
        (List.zipWith (· * ·) (pows (yi : ZMod q) pf.Params.N) (List.zipWith (· + ·)
            (List.zipWith (· * ·) (pows (y : ZMod q) pf.Params.N) (List.replicate pf.Params.N (y : ZMod q)))
            ((pows 2 pf.Params.N).map (· * ((y : ZMod q) * (y : ZMod q)))))).map (· * (-1)) := by
      apply List.ext_getElem
      · simp [pows]
      · intro i h1 h2
        simp [pows]
    rw [e1, e2, msm_map_mul] at h67
    simp only [List.map_cons, List.map_nil, msm_cons, msm_nil_left, Int.cast_one, Int.cast_neg, add_zero] at h67
    linear_combination (norm := module) h67

end MscPoc
