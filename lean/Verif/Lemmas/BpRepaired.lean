import Verif.Lemmas.BpProve
import Verif.Lemmas.BpProgress
import Verif.Spec.BpRepaired

/-!
# Exact verdict of the repaired range-proof verifier
-/

set_option autoImplicit false

namespace MscPoc

variable {E : Type} {q : ℕ} {M : Type} [AddCommGroup M] [Module (ZMod q) M]

theorem Lawful.verifyC_core (pf : BulletProof E) (L : Lawful pf.Params.GP q M) (hV : BPValid pf L) (ch : Challenges E) (sha : Bytes → Bytes)
    (hp : List E) (tp tx mu : Int) (b : Bool)
    (h1 : updateGenerators pf.Params.GP pf.Params.Hh (ch.y pf.A pf.S) pf.Params.N = some hp)
    (h2 : pf.Tprime = some tp) (h3 : pf.Taux = some tx) (h4 : pf.Mu = some mu)
    (h5 : pf.InnerProductProof.verify sha = some b)
    (y z x : ZMod q) (hy : y = ((ch.y pf.A pf.S) : Int)) (hz : z = ((ch.z pf.A pf.S) : Int))
    (hx : x = ((ch.x pf.T1 pf.T2) : Int)) :
    ∃ v, pf.verifyC ch sha = some v ∧ (v = true ↔
      ((tp : ZMod q) • L.g + (tx : ZMod q) • L.den pf.Params.H =
        z ^ 2 • L.den pf.V + deltaSpec pf.Params.N y z • L.g + x • L.den pf.T1 + x ^ 2 • L.den pf.T2) ∧
      ((mu : ZMod q) • L.den pf.Params.H + L.den pf.InnerProductProof.P =
        L.den pf.A + x • L.den pf.S - z • (L.denV pf.Params.Gg).sum +
          msm (L.denV hp) (List.zipWith (· + ·)
            (List.zipWith (· * ·) (pows y pf.Params.N) (List.replicate pf.Params.N z))
            ((pows 2 pf.Params.N).map (· * (z * z))))) ∧
      b = true) := by
  obtain ⟨_, lhp, vhp, _⟩ := L.updateGenerators_spec hV.lenH hV.Hh h1
  obtain ⟨dlt, hd⟩ := delta_isSome pf.Params.N pf.Params.GP.N (ch.y pf.A pf.S)
    (ch.z pf.A pf.S)
  obtain ⟨gm, hgm⟩ := Lawful.vectorExp_isSome (GP := pf.Params.GP) (gs := pf.Params.Gg)
    (as := vectorCopy (pf.Params.GP.N - (ch.z pf.A pf.S)) pf.Params.N)
    (by simp [vectorCopy, hV.lenG])
  have ee : (pf.Params.N) = hp.length := lhp.symm
  set e0 := vectorAdd (vectorMul (powerOf (ch.y pf.A pf.S) pf.Params.N pf.Params.GP.N)
        (vectorCopy (ch.z pf.A pf.S) pf.Params.N) pf.Params.GP.N)
      (vectorScalarMul (powerOf 2 pf.Params.N pf.Params.GP.N)
        ((ch.z pf.A pf.S) * (ch.z pf.A pf.S) % pf.Params.GP.N)
        pf.Params.GP.N) pf.Params.GP.N with he0
  have lmul : (powerOf (ch.y pf.A pf.S) pf.Params.N pf.Params.GP.N).length =
      (vectorCopy (ch.z pf.A pf.S) pf.Params.N).length := by
    simp [powerOf_length, vectorCopy]
  have ladd : (vectorMul (powerOf (ch.y pf.A pf.S) pf.Params.N pf.Params.GP.N)
        (vectorCopy (ch.z pf.A pf.S) pf.Params.N) pf.Params.GP.N).length =
      (vectorScalarMul (powerOf 2 pf.Params.N pf.Params.GP.N)
        ((ch.z pf.A pf.S) * (ch.z pf.A pf.S) % pf.Params.GP.N)
        pf.Params.GP.N).length := by
    rw [vectorMul_eq lmul]
    simp [powerOf_length, vectorCopy, vectorScalarMul]
  have le0 : hp.length = e0.length := by
    rw [he0, vectorAdd_eq ladd, vectorMul_eq lmul]
    simp [powerOf_length, vectorCopy, vectorScalarMul, lhp]
  have ce0 : castV q e0 = List.zipWith (· + ·)
            (List.zipWith (· * ·) (pows y pf.Params.N) (List.replicate pf.Params.N z))
            ((pows 2 pf.Params.N).map (· * (z * z))) := by
    rw [he0]
    have hN := L.N_eq
    rw [hN] at ladd ⊢
    rw [hN] at lmul
    rw [cast_vectorAdd ladd, cast_vectorMul lmul, cast_vectorScalarMul, powerOf_cast, powerOf_cast, castV_replicate,
      cast_emod, hy, hz]
    simp
  obtain ⟨he, hhe⟩ := Lawful.vectorExp_isSome (GP := pf.Params.GP) le0
  obtain ⟨_, vgm, dgm⟩ := L.vectorExp_spec hV.Gg hgm
  obtain ⟨_, vhe, dhe⟩ := L.vectorExp_spec vhp hhe
  have dgm' : L.den gm = -(z • (L.denV pf.Params.Gg).sum) := by
    rw [dgm, castV_replicate, ← hV.lenG, ← L.denV_length, msm_replicate, L.N_eq]
    push_cast
    rw [ZMod.natCast_self, zero_sub, neg_smul, hz]
  have dd : (dlt : ZMod q) = deltaSpec pf.Params.N y z := by
    rw [L.N_eq] at hd
    rw [delta_spec hd, hy, hz]
  rw [ce0] at dhe
  refine ⟨(pf.Params.GP.isEqual (pf.Params.GP.add (pf.Params.GP.add (pf.Params.GP.add
      (pf.Params.GP.mul pf.V ((ch.z pf.A pf.S) * (ch.z pf.A pf.S) % pf.Params.GP.N))
      (pf.Params.GP.mulGen dlt))
      (pf.Params.GP.mul pf.T1 ((ch.x pf.T1 pf.T2))))
      (pf.Params.GP.mul pf.T2 ((ch.x pf.T1 pf.T2) * (ch.x pf.T1 pf.T2) % pf.Params.GP.N)))
      (pedersenCommit pf.Params.GP tp tx pf.Params.H) &&
    pf.Params.GP.isIdentity (pf.Params.GP.sub
      (pf.Params.GP.add (pf.Params.GP.mul pf.Params.H mu) pf.InnerProductProof.P)
      (pf.Params.GP.add (pf.Params.GP.add (pf.Params.GP.add pf.A (pf.Params.GP.mul pf.S ((ch.x pf.T1 pf.T2)))) gm) he)) && b), ?_, ?_⟩
  · unfold BulletProof.verifyC
    simp only [h1, h2, h3, h4, h5, hd, hgm, Option.bind_eq_bind, Option.bind_some]
    rw [← he0, hhe]
    simp only [Option.bind_some]
  · simp only [Bool.and_eq_true]
    have v1 := L.V_mul ((ch.z pf.A pf.S) * (ch.z pf.A pf.S) % pf.Params.GP.N) hV.V
    have v2 := L.V_mulGen dlt
    have v3 := L.V_mul ((ch.x pf.T1 pf.T2)) hV.T1
    have v4 := L.V_mul ((ch.x pf.T1 pf.T2) * (ch.x pf.T1 pf.T2) % pf.Params.GP.N) hV.T2
    have v5 := L.V_mul ((ch.x pf.T1 pf.T2)) hV.S
    have w1 := L.V_add v1 v2
    have w2 := L.V_add w1 v3
    have w3 := L.V_add w2 v4
    have u1 := L.V_add hV.A v5
    have u2 := L.V_add u1 vgm
    have u3 := L.V_add u2 vhe
    have t1 := L.V_mul mu hV.H
    have t2 := L.V_add t1 hV.P
    rw [L.isEqual_iff w3 (L.V_pedersen hV.H tp tx), L.isIdentity_iff (L.V_sub t2 u3), L.den_sub t2 u3,
      L.den_pedersen hV.H, L.den_add w2 v4, L.den_add w1 v3, L.den_add v1 v2, L.den_mul _ hV.V, L.den_mulGen,
      L.den_mul _ hV.T1, L.den_mul _ hV.T2, L.den_add t1 hV.P, L.den_mul _ hV.H, L.den_add u2 vhe,
      L.den_add u1 vgm, L.den_add hV.A v5, L.den_mul _ hV.S, dhe, dgm', sub_eq_zero, L.cast_modN, L.cast_modN,
      Int.cast_mul, Int.cast_mul, ← hz, ← hx, dd, ← sub_eq_add_neg, and_assoc, ← pow_two, ← pow_two]
    constructor
    · rintro ⟨a, b, c⟩; exact ⟨a.symm, b, c⟩
    · rintro ⟨a, b, c⟩; exact ⟨a.symm, b, c⟩

theorem proveC_exact (params : BPParams E) (L : Lawful params.GP q M) (k : ℕ) (hO : ParamsOK params L k)
    (ch : Challenges E) (sha : Bytes → Bytes) (rnd : BPRand) (D : E) (vD : L.V D)
    (V : Int → Int → E) (vV : ∀ z x, L.V (V z x)) (aL aR : List Int) (pf : BulletProof E)
    (lL : aL.length = 2 ^ k) (lR : aR.length = 2 ^ k) (lsL : rnd.sL.length = 2 ^ k) (lsR : rnd.sR.length = 2 ^ k)
    (h : proveC ch sha params rnd D V aL aR = some (.ok pf)) :
    pf.V = V (ch.z pf.A pf.S) (ch.x pf.T1 pf.T2) ∧ pf.Params = params ∧ pf.InnerProductProof.Cc = pf.Tprime ∧ pf.Tprime ≠ none ∧
    pf.InnerProductProof.Params.GP = params.GP ∧ pf.InnerProductProof.Params.Gg = params.Gg ∧
    some pf.InnerProductProof.Params.Hh =
      updateGenerators params.GP params.Hh (ch.y pf.A pf.S) params.N ∧
    some pf.InnerProductProof.Params.Uu = params.GP.mapToGroup SEEDU ∧
    ∀ (y z x : ZMod q), y = (ch.y pf.A pf.S : Int) → z = (ch.z pf.A pf.S : Int) → x = (ch.x pf.T1 pf.T2 : Int) →
    ∃ v, pf.verifyC ch sha = some v ∧ (v = true ↔
      rangeForm (2 ^ k) (castV q aL) (castV q aR) y z • L.g + (z ^ 2 * rnd.gamma) • L.den params.H =
        z ^ 2 • L.den pf.V + x • L.den D) := by
  have hN := hO.N
  unfold proveC at h
  unbind h with A eA
  unbind h with S eS
  dsimp only at h
  set yi := ch.y A S with hyi
  set zi := ch.z A S with hzi
  unbind h with aLb eLb
  unbind h with aRb eRb
  obtain ⟨_, eLb⟩ := sliceTo_spec eLb
  obtain ⟨_, eRb⟩ := sliceTo_spec eRb
  rw [hN, List.take_of_length_le (by omega)] at eLb eRb
  subst eLb eRb
  unbind h with t1l et1l
  unbind h with t1r et1r
  unbind h with t2 et2
  rw [L.N_eq] at et1l et1r et2
  have ct1l := vectorInnerProduct_spec et1l
  have ct1r := vectorInnerProduct_spec et1r
  have ct2 := vectorInnerProduct_spec et2
  set T1 := params.GP.add (pedersenCommit params.GP ((t1l + t1r) % params.GP.N) rnd.tau1 params.H) D with hT1
  set T2 := pedersenCommit params.GP t2 rnd.tau2 params.H with hT2
  set xi := ch.x T1 T2 with hxi
  set bl := vectorAdd (vectorAddConst aLb (-zi) params.GP.N) (vectorScalarMul rnd.sL xi params.GP.N) params.GP.N with hbl
  set br := vectorAdd (vectorMul (powerOf yi params.N params.GP.N)
    (vectorAdd (vectorAdd (vectorCopy zi params.N) aRb params.GP.N) (vectorScalarMul rnd.sR xi params.GP.N) params.GP.N)
    params.GP.N) (vectorScalarMul (powerOf 2 params.N params.GP.N) (zi * zi) params.GP.N) params.GP.N with hbr
  unbind h with th eth
  unbind h with hp ehp
  unbind h with ipp eipp
  have hNpos : ¬ ((params.N : Int) ≤ 0) := by rw [hN]; have := Nat.two_pow_pos k; omega
  unfold setupInnerProduct at eipp
  rw [if_neg hNpos] at eipp
  simp only [Option.bind_eq_bind, Option.bind_some] at eipp
  unbind eipp with Uu eU
  simp only [Option.some.injEq] at eipp
  subst eipp
  simp only at h
  unbind h with cm ecm
  unbind h with ipr eipr
  cases ipr with
  | error e => simp at h
  | ok ip =>
  simp only [Option.some.injEq, Except.ok.injEq] at h
  obtain ⟨npos, lhp, vhp, yinv, hyinv, dhp⟩ := L.updateGenerators_spec (by rw [hO.lenH, hN]) hO.Hh ehp
  -- casts of the vectors
  obtain ⟨vA, dA⟩ := L.commitVector_spec (by omega) (by omega) (by rw [hO.lenG, hN]) (by rw [hO.lenH, hN]) hO.Gg hO.Hh hO.H eA
  obtain ⟨vS, dS⟩ := L.commitVector_spec (by omega) (by omega) (by rw [hO.lenG, hN]) (by rw [hO.lenH, hN]) hO.Gg hO.Hh hO.H eS
  have l1 : (vectorAddConst aLb (-zi) params.GP.N).length = (vectorScalarMul rnd.sL xi params.GP.N).length := by
    simp [vectorAddConst, vectorScalarMul, lL, lsL]
  have lbl : bl.length = 2 ^ k := by
    rw [hbl, vectorAdd_eq l1]; simp [vectorAddConst, vectorScalarMul, lL, lsL]
  have l2 : (vectorCopy zi params.N).length = aRb.length := by simp [vectorCopy, hN, lR]
  have l3 : (vectorAdd (vectorCopy zi params.N) aRb params.GP.N).length = (vectorScalarMul rnd.sR xi params.GP.N).length := by
    rw [vectorAdd_eq l2]; simp [vectorCopy, hN, lR, vectorScalarMul, lsR]
  have l4 : (powerOf yi params.N params.GP.N).length = (vectorAdd (vectorAdd (vectorCopy zi params.N) aRb params.GP.N)
      (vectorScalarMul rnd.sR xi params.GP.N) params.GP.N).length := by
    rw [vectorAdd_eq l3, vectorAdd_eq l2]; simp [powerOf_length, vectorCopy, vectorScalarMul, hN, lR, lsR]
  have l5 : (vectorMul (powerOf yi params.N params.GP.N)
    (vectorAdd (vectorAdd (vectorCopy zi params.N) aRb params.GP.N) (vectorScalarMul rnd.sR xi params.GP.N) params.GP.N)
    params.GP.N).length = (vectorScalarMul (powerOf 2 params.N params.GP.N) (zi * zi) params.GP.N).length := by
    rw [vectorMul_eq l4, List.length_zipWith, ← l4]; simp [powerOf_length, vectorScalarMul]
  have lbr : br.length = 2 ^ k := by
    rw [hbr, vectorAdd_eq l5, List.length_zipWith, l5]; simp [powerOf_length, vectorScalarMul, hN]
  have l6 : (powerOf yi params.N params.GP.N).length = (vectorAdd (vectorCopy zi params.N) aRb params.GP.N).length := by
    rw [vectorAdd_eq l2]; simp [powerOf_length, vectorCopy, hN, lR]
  have l7 : (vectorMul (powerOf yi params.N params.GP.N) (vectorAdd (vectorCopy zi params.N) aRb params.GP.N)
      params.GP.N).length = (vectorScalarMul (powerOf 2 params.N params.GP.N) (zi * zi) params.GP.N).length := by
    rw [vectorMul_eq l6, List.length_zipWith, ← l6]; simp [powerOf_length, vectorScalarMul]
  have l8 : (powerOf yi params.N params.GP.N).length = rnd.sR.length := by simp [powerOf_length, hN, lsR]
  have hNq := L.N_eq
  have cz : castV q (vectorAdd (vectorCopy zi params.N) aRb params.GP.N) = (castV q aRb).map ((zi : ZMod q) + ·) := by
    rw [hNq, cast_vectorAdd l2, castV_replicate, hN, ← lR]
    clear * -
    induction aRb with
    | nil => simp
    | cons a l ih => simp [List.replicate_succ, ih]
  set y : ZMod q := (yi : ZMod q) with hydef
  set z : ZMod q := (zi : ZMod q) with hzdef
  set x : ZMod q := (xi : ZMod q) with hxdef
  set FL := castV q aLb with hFL
  set FR := castV q aRb with hFR
  set SL := castV q rnd.sL with hSL
  set SR := castV q rnd.sR with hSR
  have c1 : castV q bl = List.zipWith (· + ·) (FL.map (· + -z)) (SL.map (· * x)) := by
    rw [hbl]; rw [hNq] at l1 ⊢
    rw [cast_vectorAdd l1, cast_vectorAddConst, cast_vectorScalarMul]; push_cast; rfl
  have cw : castV q (vectorScalarMul (powerOf 2 params.N params.GP.N) (zi * zi) params.GP.N) =
      (pows (2 : ZMod q) (2 ^ k)).map (· * (z * z)) := by
    rw [hNq, cast_vectorScalarMul, powerOf_cast, hN]; push_cast; rfl
  have c2 : castV q br = List.zipWith (· + ·) (List.zipWith (· * ·) (pows y (2 ^ k))
      (List.zipWith (· + ·) (FR.map (z + ·)) (SR.map (· * x)))) ((pows (2 : ZMod q) (2 ^ k)).map (· * (z * z))) := by
    rw [hbr, ← cw, ← cz]; rw [hNq] at l3 l4 l5 ⊢
    rw [cast_vectorAdd l5, cast_vectorMul l4, cast_vectorAdd l3, cast_vectorScalarMul (q := q) rnd.sR, powerOf_cast, hN]
  have c3 : castV q (vectorAdd (vectorMul (powerOf yi params.N params.GP.N) (vectorAdd (vectorCopy zi params.N) aRb params.GP.N)
      params.GP.N) (vectorScalarMul (powerOf 2 params.N params.GP.N) (zi * zi) params.GP.N) params.GP.N) =
      List.zipWith (· + ·) (List.zipWith (· * ·) (pows y (2 ^ k)) (FR.map (z + ·)))
        ((pows (2 : ZMod q) (2 ^ k)).map (· * (z * z))) := by
    rw [← cw, ← cz]; rw [hNq] at l6 l7 ⊢
    rw [cast_vectorAdd l7, cast_vectorMul l6, powerOf_cast, hN]
  have c4 : castV q (vectorMul (powerOf yi params.N params.GP.N) rnd.sR params.GP.N) =
      List.zipWith (· * ·) (pows y (2 ^ k)) SR := by
    rw [hNq] at l8 ⊢
    rw [cast_vectorMul l8, powerOf_cast, hN]
  have c5 : castV q (vectorAddConst aLb (-zi) params.GP.N) = FL.map (· + -z) := by
    rw [hNq, cast_vectorAddConst]; push_cast; rfl
  rw [← hNq] at ct1l ct1r ct2
  rw [c3] at ct1l
  rw [c4, c5] at ct1r
  rw [c4] at ct2
  rw [hNq] at eth
  have cth := (scalarProduct_spec eth).2
  rw [c1, c2] at cth
  have fl : FL.length = 2 ^ k := by simp [hFL, lL]
  have fr : FR.length = 2 ^ k := by simp [hFR, lR]
  have sl : SL.length = 2 ^ k := by simp [hSL, lsL]
  have sr : SR.length = 2 ^ k := by simp [hSR, lsR]
  -- the inner-product part
  have vU := hO.U _ eU
  obtain ⟨gcm, hgcm⟩ := Lawful.vectorExp_isSome (GP := params.GP) (gs := params.Gg) (as := bl) (by rw [hO.lenG, lbl])
  obtain ⟨hcm, hhcm⟩ := Lawful.vectorExp_isSome (GP := params.GP) (gs := hp) (as := br) (by rw [lhp, hN, lbr])
  obtain ⟨_, vg, dg⟩ := L.vectorExp_spec hO.Gg hgcm
  obtain ⟨_, vh, dh⟩ := L.vectorExp_spec vhp hhcm
  have hcm' : cm = params.GP.add gcm hcm := by
    unfold commitInnerProduct at ecm
    simp only [hgcm, hhcm, Option.bind_eq_bind, Option.bind_some, Option.some.injEq] at ecm
    exact ecm.symm
  have vcm : L.V cm := hcm' ▸ L.V_add vg vh
  have dcm : L.den cm = msm (L.denV params.Gg) (castV q bl) + msm (L.denV hp) (castV q br) := by
    rw [hcm', L.den_add vg vh, dg, dh]
  obtain ⟨p1, p2, p3, _, _, _⟩ := ipp_honest_exact L sha k bl br cm th _ ip rfl lbl lbr hO.lenG (by simp [lhp, hN])
    hO.Gg vhp vU vcm eipr
  obtain ⟨ipOK, _, _⟩ := C16_ipp_complete L sha k bl br cm th _ ip rfl lbl lbr hO.lenG (by simp [lhp, hN])
    hO.Gg vhp vU vcm dcm (by rw [cth, c1, c2]) eipr
  subst h
  refine ⟨rfl, rfl, p2, by simp, by rw [p3], by rw [p3], by rw [p3]; exact ehp.symm, by rw [p3]; exact eU.symm, ?_⟩
  intro y' z' x' hy' hz' hx'
  have hyy : y' = y := hy'
  have hzz : z' = z := hz'
  have hxx : x' = x := hx'
  clear hy' hz' hx'
  subst hyy hzz hxx
  have vT1 : L.V T1 := L.V_add (L.V_pedersen hO.H _ _) vD
  have vT2 : L.V T2 := L.V_pedersen hO.H _ _
  have dT1 := L.den_add (L.V_pedersen hO.H ((t1l + t1r) % params.GP.N) rnd.tau1) vD
  have dT2 := L.den_pedersen hO.H t2 rnd.tau2
  rw [← hT1, L.den_pedersen hO.H, L.cast_modN] at dT1
  rw [← hT2] at dT2
  have key := L.verifyC_core (q := q) (M := M) (BulletProof.mk (V zi xi) A S T1 T2
      (some ((rnd.tau2 * (xi * xi) + rnd.tau1 * xi + zi * zi * rnd.gamma) % params.GP.N))
      (some ((rnd.rho * xi + rnd.alpha) % params.GP.N)) (some th) ip params)
    { V := vV zi xi, A := vA, S := vS, T1 := vT1, T2 := vT2, H := hO.H, Gg := hO.Gg, Hh := hO.Hh, P := by simpa [p1] using vcm,
      lenG := by rw [hO.lenG, hN], lenH := by rw [hO.lenH, hN] }
    ch sha hp th _ _ true ehp rfl rfl rfl ipOK y z x rfl rfl rfl
  obtain ⟨v, hv, hvi⟩ := key
  refine ⟨v, hv, hvi.trans ?_⟩
  simp only [p1, and_true]
  have c67 : (((rnd.rho * xi + rnd.alpha) % params.GP.N : Int) : ZMod q) • L.den params.H + L.den cm =
      L.den A + x • L.den S - z • (L.denV params.Gg).sum +
        msm (L.denV hp) (List.zipWith (· + ·)
          (List.zipWith (· * ·) (pows y params.N) (List.replicate params.N z))
          ((pows 2 params.N).map (· * (z * z)))) := by
    rw [dcm, c1, c2, msm_l z x _ _ _ (by simp [hO.lenG, fl]) (by simp [hO.lenG, sl]),
      msm_add_right _ _ _ (by simp [pows_length, fr, sr]), msm_add_right _ _ _ (by simp [pows_length]), dhp, hN,
      msm_scaled y yinv (2 ^ k) _ _ (by rw [← hN]; exact hyinv) (by simp [hO.lenH]) (by simp [fr, sr]),
      msm_scaled y yinv (2 ^ k) _ _ (by rw [← hN]; exact hyinv) (by simp [hO.lenH]) (by simp),
      msm_add_right _ _ _ (by simp [fr, sr]), msm_map_mul, dA, dS, L.cast_modN]
    have hadd : (FR.map (z + ·)) = List.zipWith (· + ·) (List.replicate (2 ^ k) z) FR := by
      rw [← fr]
      clear * -
      induction FR with
      | nil => simp
      | cons a l ih => simp [List.replicate_succ, ih]
    rw [hadd, msm_add_right _ _ _ (by simp [fr])]
    push_cast
    rw [← hxdef]
    module
  have e65 : (th : ZMod q) = rangeForm (2 ^ k) FL FR y z + deltaSpec (2 ^ k) y z + x * (t1l + t1r) + x ^ 2 * t2 := by
    rw [cth, br_shape x _ _ _ _ (by simp [pows_length, fr]) (by simp [pows_length, sr]) (by simp [pows_length]),
      dot_expand x _ _ _ _ (by simp [fl, sl]) (by simp [pows_length, fr, sr]),
      bp_scalar z FL FR _ _ (by omega) (by simp [pows_length, fl]) (by simp [pows_length, fl]), ← ct1l, ← ct1r, ← ct2]
    unfold rangeForm deltaSpec
    ring
  refine (and_iff_left c67).trans ?_
  simp only [dT1, dT2, L.cast_modN, e65, hN]
  push_cast
  rw [← hxdef, ← hzdef]
  constructor
  · intro h
    linear_combination (norm := module) h
  · intro h
    linear_combination (norm := module) h

/-- The prover returns under a hash function whose digests are all invertible, and under any other hash function that
agrees with it on the digests of this run. -/
theorem proveC_agree (params : BPParams E) (k : ℕ) (hN : params.N = 2 ^ k) (lenG : params.Gg.length = 2 ^ k)
    (lenH : params.Hh.length = 2 ^ k) (Uu : E) (eU : params.GP.mapToGroup SEEDU = some Uu) (ch : Challenges E)
    (sha sha' : Bytes → Bytes) (hgood : ∀ l r : E, GoodPair sha' params.GP l r)
    (rnd : BPRand) (D : E) (V : Int → Int → E) (aL aR : List Int)
    (lL : aL.length = 2 ^ k) (lR : aR.length = 2 ^ k) (lsL : rnd.sL.length = 2 ^ k) (lsR : rnd.sR.length = 2 ^ k)
    (A S : E) (eA : commitVector params.GP aL aR rnd.alpha params.H params.Gg params.Hh params.N = some A)
    (eS : commitVector params.GP rnd.sL rnd.sR rnd.rho params.H params.Gg params.Hh params.N = some S)
    (hunit : Int.gcd (ch.y A S) params.GP.N = 1) :
    ∃ pf, proveC ch sha' params rnd D V aL aR = some (.ok pf) ∧ pf.A = A ∧ pf.S = S ∧
      ((∀ Cc, pf.InnerProductProof.Cc = some Cc →
         ippChallenge sha params.GP pf.InnerProductProof.Params.Gg pf.InnerProductProof.Params.Hh
          pf.InnerProductProof.P Cc =
         ippChallenge sha' params.GP pf.InnerProductProof.Params.Gg pf.InnerProductProof.Params.Hh
          pf.InnerProductProof.P Cc) →
       (∀ p ∈ List.zip pf.InnerProductProof.L pf.InnerProductProof.R,
         roundChallenge sha params.GP p.1 p.2 = roundChallenge sha' params.GP p.1 p.2) →
       proveC ch sha params rnd D V aL aR = some (.ok pf)) := by
  have hpos : 0 < 2 ^ k := Nat.two_pow_pos k
  have hNpos : ¬ ((params.N : Int) ≤ 0) := by omega
  obtain ⟨y, hy⟩ : ∃ y, ch.y A S = y := ⟨_, rfl⟩
  obtain ⟨z, hz⟩ : ∃ z, ch.z A S = z := ⟨_, rfl⟩
  have c1 : vectorConvertToBig aL params.N = some aL := by
    unfold vectorConvertToBig sliceTo; rw [if_pos (by omega), List.take_of_length_le (by omega)]
  have c2 : vectorConvertToBig aR params.N = some aR := by
    unfold vectorConvertToBig sliceTo; rw [if_pos (by omega), List.take_of_length_le (by omega)]
  obtain ⟨l0, hl0⟩ : ∃ l, vectorAddConst aL (-z) params.GP.N = l := ⟨_, rfl⟩
  have ll0 : l0.length = 2 ^ k := hl0 ▸ vectorAddConst_len lL
  obtain ⟨aRzn, haRzn⟩ : ∃ l, vectorAdd (vectorCopy z params.N) aR params.GP.N = l := ⟨_, rfl⟩
  have laRzn : aRzn.length = 2 ^ k := haRzn ▸ vectorAdd_len (by simp [vectorCopy, hN]) lR
  obtain ⟨yP, hyP⟩ : ∃ l, powerOf y params.N params.GP.N = l := ⟨_, rfl⟩
  have lyP : yP.length = 2 ^ k := by rw [← hyP, powerOf_length, hN]
  obtain ⟨p2, hp2⟩ : ∃ l, vectorScalarMul (powerOf 2 params.N params.GP.N) (z * z) params.GP.N = l := ⟨_, rfl⟩
  have lp2 : p2.length = 2 ^ k := hp2 ▸ vectorScalarMul_len (by rw [powerOf_length, hN])
  obtain ⟨r0, hr0⟩ : ∃ l, vectorAdd (vectorMul yP aRzn params.GP.N) p2 params.GP.N = l := ⟨_, rfl⟩
  have lr0 : r0.length = 2 ^ k := hr0 ▸ vectorAdd_len (vectorMul_len lyP laRzn) lp2
  obtain ⟨r1, hr1⟩ : ∃ l, vectorMul yP rnd.sR params.GP.N = l := ⟨_, rfl⟩
  have lr1 : r1.length = 2 ^ k := hr1 ▸ vectorMul_len lyP lsR
  obtain ⟨t1l, et1l⟩ := vectorInnerProduct_isSome rnd.sL r0 params.GP.N (lsL.trans lr0.symm).le
  obtain ⟨t1r, et1r⟩ := vectorInnerProduct_isSome l0 r1 params.GP.N (ll0.trans lr1.symm).le
  obtain ⟨t2, et2⟩ := vectorInnerProduct_isSome rnd.sL r1 params.GP.N (lsL.trans lr1.symm).le
  obtain ⟨T1, hT1⟩ : ∃ e, params.GP.add (pedersenCommit params.GP ((t1l + t1r) % params.GP.N) rnd.tau1 params.H) D = e := ⟨_, rfl⟩
  obtain ⟨T2, hT2⟩ : ∃ e, pedersenCommit params.GP t2 rnd.tau2 params.H = e := ⟨_, rfl⟩
  obtain ⟨x, hx⟩ : ∃ e, ch.x T1 T2 = e := ⟨_, rfl⟩
  obtain ⟨bl, hbl⟩ : ∃ l, vectorAdd l0 (vectorScalarMul rnd.sL x params.GP.N) params.GP.N = l := ⟨_, rfl⟩
  have lbl : bl.length = 2 ^ k := hbl ▸ vectorAdd_len ll0 (vectorScalarMul_len lsL)
  obtain ⟨br, hbr⟩ : ∃ l, vectorAdd (vectorMul yP (vectorAdd aRzn (vectorScalarMul rnd.sR x params.GP.N) params.GP.N)
    params.GP.N) p2 params.GP.N = l := ⟨_, rfl⟩
  have lbr : br.length = 2 ^ k :=
    hbr ▸ vectorAdd_len (vectorMul_len lyP (vectorAdd_len laRzn (vectorScalarMul_len lsR))) lp2
  obtain ⟨th, eth⟩ : ∃ t, scalarProduct bl br params.GP.N = some t :=
    ⟨scalarProductGo params.GP.N bl br 0, by unfold scalarProduct; rw [if_neg (not_not.mpr (lbl.trans lbr.symm))]⟩
  obtain ⟨hp, ehp⟩ := updateGenerators_isSome (GP := params.GP) (Hh := params.Hh) (y := y) (n := params.N) (hN ▸ hpos)
    (hN.trans lenH.symm).le (fun _ => hy ▸ hunit)
  have lhp : hp.length = 2 ^ k := (updateGenerators_len ehp).trans hN
  obtain ⟨ipp, hipp⟩ : ∃ i : IPParams E, i = { Gg := params.Gg, Hh := hp, Uu := Uu, GP := params.GP } := ⟨_, rfl⟩
  have eipp : setupInnerProduct params.GP (some params.Gg) (some hp) params.N = some (.ok ipp) := by
    unfold setupInnerProduct
    rw [if_neg hNpos]
    simp [eU, hipp]
  obtain ⟨gcm, hgcm⟩ := Lawful.vectorExp_isSome (GP := params.GP) (gs := params.Gg) (as := bl) (lenG.trans lbl.symm)
  obtain ⟨hcm, hhcm⟩ := Lawful.vectorExp_isSome (GP := params.GP) (gs := hp) (as := br) (lhp.trans lbr.symm)
  obtain ⟨cm, ecm⟩ : ∃ c, commitInnerProduct params.GP params.Gg hp bl br = some c :=
    ⟨params.GP.add gcm hcm, by unfold commitInnerProduct; simp [hgcm, hhcm]⟩
  obtain ⟨u, hu⟩ : ∃ c, ippChallenge sha' params.GP params.Gg hp cm th = c := ⟨_, rfl⟩
  obtain ⟨pa, pb, Ls, Rs, h1, _, _, h2⟩ := bip_agree (GP := params.GP) sha sha' hgood k bl br params.Gg hp
    (params.GP.mul Uu u) (params.GP.add cm (params.GP.mul (params.GP.mul Uu u) th)) [] [] lbl lbr lenG lhp
  simp only [List.nil_append] at h1 h2
  have pip : ∀ s, ippChallenge s params.GP params.Gg hp cm th = u →
      computeBipRecursive s params.GP bl br params.Gg hp (params.GP.mul Uu u)
        (params.GP.add cm (params.GP.mul (params.GP.mul Uu u) th)) (2 ^ k) [] [] = some (pa, pb, Ls, Rs) →
      proveInnerProduct s bl br cm th ipp = some (.ok { P := cm, Cc := some th, A := some pa, B := some pb, L := Ls, R := Rs, Params := ipp }) := by
    intro s hs hc
    subst hipp
    unfold proveInnerProduct
    rw [if_neg (not_not.mpr (lbl.trans lbr.symm))]
    have e1 : hashIP s params.GP params.Gg hp cm th = some u := by
      rw [hashIP_eq, if_pos (lenG.trans lhp.symm).le, ← hs]
    rw [← lbl] at hc
    runs e1
    runs hc
    rfl
  have run : ∀ s, ippChallenge s params.GP params.Gg hp cm th = u →
      computeBipRecursive s params.GP bl br params.Gg hp (params.GP.mul Uu u)
        (params.GP.add cm (params.GP.mul (params.GP.mul Uu u) th)) (2 ^ k) [] [] = some (pa, pb, Ls, Rs) →
      proveC ch s params rnd D V aL aR = some (.ok (BulletProof.mk (V z x) A S T1 T2
        (some ((rnd.tau2 * (x * x) + rnd.tau1 * x + z * z * rnd.gamma) % params.GP.N))
        (some ((rnd.rho * x + rnd.alpha) % params.GP.N)) (some th)
        { P := cm, Cc := some th, A := some pa, B := some pb, L := Ls, R := Rs, Params := ipp } params)) := by
    intro s hsu hsc
    unfold proveC
    runs eA
    runs eS
    simp only [hy, hz]
    runs c1
    runs c2
    simp only [hl0, haRzn, hyP, hp2, hr0, hr1]
    runs et1l
    runs et1r
    runs et2
    simp only [hT1, hT2, hx, hbl, hbr]
    runs eth
    runs ehp
    runs eipp
    runs ecm
    runs pip s hsu hsc
    rfl
  refine ⟨_, run sha' hu h1, rfl, rfl, ?_⟩
  intro g3 g4
  exact run sha ((by simpa [hipp] using g3 th rfl : _ = _).trans hu) (h2 g4)

end MscPoc
