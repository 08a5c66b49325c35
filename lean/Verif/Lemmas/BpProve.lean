import Verif.Lemmas.BpVerify
import Verif.Props.Ipp

/-!
# Exact verdict on proofs built by `Prove` from arbitrary vectors
-/

set_option autoImplicit false

namespace MscPoc

variable {E : Type} {q : ℕ} {M : Type} [AddCommGroup M] [Module (ZMod q) M]

/-- parameters are legal and sized `2^k` -/
structure ParamsOK (params : BPParams E) (L : Lawful params.GP q M) (k : ℕ) : Prop where
  N : params.N = 2 ^ k
  H : L.V params.H
  Gg : ∀ e ∈ params.Gg, L.V e
  Hh : ∀ e ∈ params.Hh, L.V e
  lenG : params.Gg.length = 2 ^ k
  lenH : params.Hh.length = 2 ^ k
  /-- the generator that `Prove` derives for the inner-product argument -/
  U : ∀ e, params.GP.mapToGroup SEEDU = some e → L.V e

/-- `⟨aL, yⁿ∘aR⟩ + z⟨aL - 1 - aR, yⁿ⟩ + z²⟨aL, 2ⁿ⟩` -/
def rangeForm {F : Type} [CommRing F] (n : ℕ) (aL aR : List F) (y z : F) : F :=
  dot aL (List.zipWith (· * ·) (pows y n) aR) + z * (dot aL (pows y n) - dot (pows y n) aR - (pows y n).sum) +
    z ^ 2 * dot aL (pows 2 n)

theorem proveFrom_exact (params : BPParams E) (L : Lawful params.GP q M) (k : ℕ) (hO : ParamsOK params L k)
    (sha : Bytes → Bytes) (rnd : BPRand) (V : E) (vV : L.V V) (aL aR : List Int) (pf : BulletProof E)
    (lL : aL.length = 2 ^ k) (lR : aR.length = 2 ^ k) (lsL : rnd.sL.length = 2 ^ k) (lsR : rnd.sR.length = 2 ^ k)
    (h : proveFrom sha params rnd V aL aR = some (.ok pf)) :
    pf.V = V ∧ pf.Params = params ∧ pf.InnerProductProof.Cc = pf.Tprime ∧ pf.Tprime ≠ none ∧
    pf.InnerProductProof.Params.GP = params.GP ∧ pf.InnerProductProof.Params.Gg = params.Gg ∧
    some pf.InnerProductProof.Params.Hh =
      updateGenerators params.GP params.Hh (roundChallenge sha params.GP pf.A pf.S) params.N ∧
    some pf.InnerProductProof.Params.Uu = params.GP.mapToGroup SEEDU ∧
    ∀ (y : ZMod q), y = (roundChallenge sha params.GP pf.A pf.S : Int) →
    ∃ v, pf.verify sha = some v ∧ (v = true ↔
      rangeForm (2 ^ k) (castV q aL) (castV q aR) y y • L.g + (y ^ 2 * rnd.gamma) • L.den params.H =
        y ^ 2 • L.den V) := by
  have hN := hO.N
  unfold proveFrom at h
  unbind h with A eA
  unbind h with S eS
  simp only [hashBP_fst, hashBP_snd] at h
  set yi := roundChallenge sha params.GP A S with hyi
  unbind h with aLb eLb
  unbind h with aRb eRb
  obtain ⟨_, eLb⟩ := sliceTo_spec eLb
  obtain ⟨_, eRb⟩ := sliceTo_spec eRb
  rw [hN, List.take_of_length_le (by omega)] at eLb eRb
  subst eLb eRb
  unbind h with t1l et1l
  unbind h with t1r et1r
  unbind h with t2 et2
  rw [L.N_eq] at et1l et1r et2
  have ct1l := vectorInnerProduct_spec et1l
  have ct1r := vectorInnerProduct_spec et1r
  have ct2 := vectorInnerProduct_spec et2
  set T1 := pedersenCommit params.GP ((t1l + t1r) % params.GP.N) rnd.tau1 params.H with hT1
  set T2 := pedersenCommit params.GP t2 rnd.tau2 params.H with hT2
  set xi := roundChallenge sha params.GP T1 T2 with hxi
  set bl := vectorAdd (vectorAddConst aLb (-yi) params.GP.N) (vectorScalarMul rnd.sL xi params.GP.N) params.GP.N with hbl
  set br := vectorAdd (vectorMul (powerOf yi params.N params.GP.N)
    (vectorAdd (vectorAdd (vectorCopy yi params.N) aRb params.GP.N) (vectorScalarMul rnd.sR xi params.GP.N) params.GP.N)
    params.GP.N) (vectorScalarMul (powerOf 2 params.N params.GP.N) (yi * yi) params.GP.N) params.GP.N with hbr
  unbind h with th eth
  unbind h with hp ehp
  unbind h with ipp eipp
  have hNpos : ¬ ((params.N : Int) ≤ 0) := by rw [hN]; have := Nat.two_pow_pos k; omega
  unfold setupInnerProduct at eipp
  rw [if_neg hNpos] at eipp
  simp only [Option.bind_eq_bind, Option.bind_some] at eipp
  unbind eipp with Uu eU
  simp only [Option.some.injEq] at eipp
  subst eipp
  simp only at h
  unbind h with cm ecm
  unbind h with ipr eipr
  cases ipr with
  | error e => simp at h
  | ok ip =>
  simp only [Option.some.injEq, Except.ok.injEq] at h
  obtain ⟨npos, lhp, vhp, yinv, hyinv, dhp⟩ := L.updateGenerators_spec (by rw [hO.lenH, hN]) hO.Hh ehp
  -- casts of the vectors
  obtain ⟨vA, dA⟩ := L.commitVector_spec (by omega) (by omega) (by rw [hO.lenG, hN]) (by rw [hO.lenH, hN]) hO.Gg hO.Hh hO.H eA
  obtain ⟨vS, dS⟩ := L.commitVector_spec (by omega) (by omega) (by rw [hO.lenG, hN]) (by rw [hO.lenH, hN]) hO.Gg hO.Hh hO.H eS
  have l1 : (vectorAddConst aLb (-yi) params.GP.N).length = (vectorScalarMul rnd.sL xi params.GP.N).length := by
    simp [vectorAddConst, vectorScalarMul, lL, lsL]
  have lbl : bl.length = 2 ^ k := by
    rw [hbl, vectorAdd_eq l1]; simp [vectorAddConst, vectorScalarMul, lL, lsL]
  have l2 : (vectorCopy yi params.N).length = aRb.length := by simp [vectorCopy, hN, lR]
  have l3 : (vectorAdd (vectorCopy yi params.N) aRb params.GP.N).length = (vectorScalarMul rnd.sR xi params.GP.N).length := by
    rw [vectorAdd_eq l2]; simp [vectorCopy, hN, lR, vectorScalarMul, lsR]
  have l4 : (powerOf yi params.N params.GP.N).length = (vectorAdd (vectorAdd (vectorCopy yi params.N) aRb params.GP.N)
      (vectorScalarMul rnd.sR xi params.GP.N) params.GP.N).length := by
    rw [vectorAdd_eq l3, vectorAdd_eq l2]; simp [powerOf_length, vectorCopy, vectorScalarMul, hN, lR, lsR]
  have l5 : (vectorMul (powerOf yi params.N params.GP.N)
    (vectorAdd (vectorAdd (vectorCopy yi params.N) aRb params.GP.N) (vectorScalarMul rnd.sR xi params.GP.N) params.GP.N)
    params.GP.N).length = (vectorScalarMul (powerOf 2 params.N params.GP.N) (yi * yi) params.GP.N).length := by
    rw [vectorMul_eq l4, List.length_zipWith, ← l4]; simp [powerOf_length, vectorScalarMul]
  have lbr : br.length = 2 ^ k := by
    rw [hbr, vectorAdd_eq l5, List.length_zipWith, l5]; simp [powerOf_length, vectorScalarMul, hN]
  have l6 : (powerOf yi params.N params.GP.N).length = (vectorAdd (vectorCopy yi params.N) aRb params.GP.N).length := by
    rw [vectorAdd_eq l2]; simp [powerOf_length, vectorCopy, hN, lR]
  have l7 : (vectorMul (powerOf yi params.N params.GP.N) (vectorAdd (vectorCopy yi params.N) aRb params.GP.N)
      params.GP.N).length = (vectorScalarMul (powerOf 2 params.N params.GP.N) (yi * yi) params.GP.N).length := by
    rw [vectorMul_eq l6, List.length_zipWith, ← l6]; simp [powerOf_length, vectorScalarMul]
  have l8 : (powerOf yi params.N params.GP.N).length = rnd.sR.length := by simp [powerOf_length, hN, lsR]
  have hNq := L.N_eq
  have cz : castV q (vectorAdd (vectorCopy yi params.N) aRb params.GP.N) = (castV q aRb).map ((yi : ZMod q) + ·) := by
    rw [hNq, cast_vectorAdd l2, castV_replicate, hN, ← lR]
    clear * -
    induction aRb with
    | nil => simp
    | cons a l ih => simp [List.replicate_succ, ih]
  set y : ZMod q := (yi : ZMod q) with hydef
  set x : ZMod q := (xi : ZMod q) with hxdef
  set FL := castV q aLb with hFL
  set FR := castV q aRb with hFR
  set SL := castV q rnd.sL with hSL
  set SR := castV q rnd.sR with hSR
  have c1 : castV q bl = List.zipWith (· + ·) (FL.map (· + -y)) (SL.map (· * x)) := by
    rw [hbl]; rw [hNq] at l1 ⊢
    rw [cast_vectorAdd l1, cast_vectorAddConst, cast_vectorScalarMul]; push_cast; rfl
  have cw : castV q (vectorScalarMul (powerOf 2 params.N params.GP.N) (yi * yi) params.GP.N) =
      (pows (2 : ZMod q) (2 ^ k)).map (· * (y * y)) := by
    rw [hNq, cast_vectorScalarMul, powerOf_cast, hN]; push_cast; rfl
  have c2 : castV q br = List.zipWith (· + ·) (List.zipWith (· * ·) (pows y (2 ^ k))
      (List.zipWith (· + ·) (FR.map (y + ·)) (SR.map (· * x)))) ((pows (2 : ZMod q) (2 ^ k)).map (· * (y * y))) := by
    rw [hbr, ← cw, ← cz]; rw [hNq] at l3 l4 l5 ⊢
    rw [cast_vectorAdd l5, cast_vectorMul l4, cast_vectorAdd l3, cast_vectorScalarMul (q := q) rnd.sR, powerOf_cast, hN]
  have c3 : castV q (vectorAdd (vectorMul (powerOf yi params.N params.GP.N) (vectorAdd (vectorCopy yi params.N) aRb params.GP.N)
      params.GP.N) (vectorScalarMul (powerOf 2 params.N params.GP.N) (yi * yi) params.GP.N) params.GP.N) =
      List.zipWith (· + ·) (List.zipWith (· * ·) (pows y (2 ^ k)) (FR.map (y + ·)))
        ((pows (2 : ZMod q) (2 ^ k)).map (· * (y * y))) := by
    rw [← cw, ← cz]; rw [hNq] at l6 l7 ⊢
    rw [cast_vectorAdd l7, cast_vectorMul l6, powerOf_cast, hN]
  have c4 : castV q (vectorMul (powerOf yi params.N params.GP.N) rnd.sR params.GP.N) =
      List.zipWith (· * ·) (pows y (2 ^ k)) SR := by
    rw [hNq] at l8 ⊢
    rw [cast_vectorMul l8, powerOf_cast, hN]
  have c5 : castV q (vectorAddConst aLb (-yi) params.GP.N) = FL.map (· + -y) := by
    rw [hNq, cast_vectorAddConst]; push_cast; rfl
  rw [← hNq] at ct1l ct1r ct2
  rw [c3] at ct1l
  rw [c4, c5] at ct1r
  rw [c4] at ct2
  rw [hNq] at eth
  have cth := (scalarProduct_spec eth).2
  rw [c1, c2] at cth
  have fl : FL.length = 2 ^ k := by simp [hFL, lL]
  have fr : FR.length = 2 ^ k := by simp [hFR, lR]
  have sl : SL.length = 2 ^ k := by simp [hSL, lsL]
  have sr : SR.length = 2 ^ k := by simp [hSR, lsR]
  -- the inner-product part
  have vU := hO.U _ eU
  obtain ⟨gcm, hgcm⟩ := Lawful.vectorExp_isSome (GP := params.GP) (gs := params.Gg) (as := bl) (by rw [hO.lenG, lbl])
  obtain ⟨hcm, hhcm⟩ := Lawful.vectorExp_isSome (GP := params.GP) (gs := hp) (as := br) (by rw [lhp, hN, lbr])
  obtain ⟨_, vg, dg⟩ := L.vectorExp_spec hO.Gg hgcm
  obtain ⟨_, vh, dh⟩ := L.vectorExp_spec vhp hhcm
  have hcm' : cm = params.GP.add gcm hcm := by
    unfold commitInnerProduct at ecm
    simp only [hgcm, hhcm, Option.bind_eq_bind, Option.bind_some, Option.some.injEq] at ecm
    exact ecm.symm
  have vcm : L.V cm := hcm' ▸ L.V_add vg vh
  have dcm : L.den cm = msm (L.denV params.Gg) (castV q bl) + msm (L.denV hp) (castV q br) := by
    rw [hcm', L.den_add vg vh, dg, dh]
  obtain ⟨p1, p2, p3, _, _, _⟩ := ipp_honest_exact L sha k bl br cm th _ ip rfl lbl lbr hO.lenG (by simp [lhp, hN])
    hO.Gg vhp vU vcm eipr
  obtain ⟨ipOK, _, _⟩ := C16_ipp_complete L sha k bl br cm th _ ip rfl lbl lbr hO.lenG (by simp [lhp, hN])
    hO.Gg vhp vU vcm dcm (by rw [cth, c1, c2]) eipr
  subst h
  refine ⟨rfl, rfl, p2, by simp, by rw [p3], by rw [p3], by rw [p3]; exact ehp.symm, by rw [p3]; exact eU.symm, ?_⟩
  intro y' hy'
  have hyy : y' = y := hy'
  clear hy'
  subst hyy
  have vT1 : L.V T1 := L.V_pedersen hO.H _ _
  have vT2 : L.V T2 := L.V_pedersen hO.H _ _
  have dT1 := L.den_pedersen hO.H ((t1l + t1r) % params.GP.N) rnd.tau1
  have dT2 := L.den_pedersen hO.H t2 rnd.tau2
  rw [← hT1, L.cast_modN] at dT1
  rw [← hT2] at dT2
  have key := L.bpVerify_core (q := q) (M := M) (BulletProof.mk V A S T1 T2
      (some ((rnd.tau2 * (xi * xi) + rnd.tau1 * xi + yi * yi * rnd.gamma) % params.GP.N))
      (some ((rnd.rho * xi + rnd.alpha) % params.GP.N)) (some th) ip params)
    { V := vV, A := vA, S := vS, T1 := vT1, T2 := vT2, H := hO.H, Gg := hO.Gg, Hh := hO.Hh, P := by simpa [p1] using vcm,
      lenG := by rw [hO.lenG, hN], lenH := by rw [hO.lenH, hN] }
    sha hp th _ _ true ehp rfl rfl rfl ipOK y x rfl rfl
  obtain ⟨v, hv, hvi⟩ := key
  refine ⟨v, hv, hvi.trans ?_⟩
  simp only [p1, and_true]
  have c67 : (((rnd.rho * xi + rnd.alpha) % params.GP.N : Int) : ZMod q) • L.den params.H + L.den cm =
      L.den A + x • L.den S - y • (L.denV params.Gg).sum +
        msm (L.denV hp) (List.zipWith (· + ·)
          (List.zipWith (· * ·) (pows y params.N) (List.replicate params.N y))
          ((pows 2 params.N).map (· * (y * y)))) := by
    rw [dcm, c1, c2, msm_l y x _ _ _ (by simp [hO.lenG, fl]) (by simp [hO.lenG, sl]),
      msm_add_right _ _ _ (by simp [pows_length, fr, sr]), msm_add_right _ _ _ (by simp [pows_length]), dhp, hN,
      msm_scaled y yinv (2 ^ k) _ _ (by rw [← hN]; exact hyinv) (by simp [hO.lenH]) (by simp [fr, sr]),
      msm_scaled y yinv (2 ^ k) _ _ (by rw [← hN]; exact hyinv) (by simp [hO.lenH]) (by simp),
      msm_add_right _ _ _ (by simp [fr, sr]), msm_map_mul, dA, dS, L.cast_modN]
    have hadd : (FR.map (y + ·)) = List.zipWith (· + ·) (List.replicate (2 ^ k) y) FR := by
      rw [← fr]
      clear * -
      induction FR with
      | nil => simp
      | cons a l ih => simp [List.replicate_succ, ih]
    rw [hadd, msm_add_right _ _ _ (by simp [fr])]
    push_cast
    rw [← hxdef]
    module
  have e65 : (th : ZMod q) = rangeForm (2 ^ k) FL FR y y + deltaSpec (2 ^ k) y y + x * (t1l + t1r) + x ^ 2 * t2 := by
    rw [cth, br_shape x _ _ _ _ (by simp [pows_length, fr]) (by simp [pows_length, sr]) (by simp [pows_length]),
      dot_expand x _ _ _ _ (by simp [fl, sl]) (by simp [pows_length, fr, sr]),
      bp_scalar y FL FR _ _ (by omega) (by simp [pows_length, fl]) (by simp [pows_length, fl]), ← ct1l, ← ct1r, ← ct2]
    unfold rangeForm deltaSpec
    ring
  refine (and_iff_left c67).trans ?_
  simp only [dT1, dT2, L.cast_modN, e65, hN]
  push_cast
  rw [← hxdef, ← hydef]
  constructor
  · intro h
    linear_combination (norm := module) h
  · intro h
    linear_combination (norm := module) h

end MscPoc
