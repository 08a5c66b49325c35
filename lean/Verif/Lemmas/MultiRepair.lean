import Verif.Spec.MultiRepair
import Verif.Lemmas.MultiProve

/-!
# The edited `MultiProve` and `Verify`: the three checks on the prover's output

The arguments are those of `Lemmas/MultiProve.lean`, with the two switches.
-/

set_option autoImplicit false

namespace MscPoc

section alg
variable {F : Type} [CommRing F]

/-- the exponents of the slides -/
def blocksR (fixB : Bool) (bits : ℕ) (cs : List F) : List F :=
  if fixB then blocksMul bits cs else blocksAdd bits cs

theorem blocksR_cons (fixB : Bool) (bits : ℕ) (c : F) (cs : List F) :
    blocksR fixB bits (c :: cs) =
      (pows (2 : F) bits).map (fun d => if fixB then d * c else d + c) ++ blocksR fixB bits cs := by
  cases fixB <;> simp [blocksR, blocksMul_cons, blocksAdd_cons]

end alg

section grp
variable {E : Type} {GP : Grp E} {q : ℕ} {M : Type} [AddCommGroup M] [Module (ZMod q) M]

/-- the slides of `h'` -/
theorem Lawful.multiSlidesR_spec (fixB : Bool) (L : Lawful GP q M) (hp : List E) (vhp : ∀ e ∈ hp, L.V e) (z : Int) (bits : ℕ) :
    ∀ (m s : ℕ) (acc : E), L.V acc → (s + m) * bits ≤ hp.length →
    ∃ r, multiSlidesR fixB GP hp (powerOf 2 bits GP.N) z bits (List.range' s m) acc = some r ∧ L.V r ∧
      L.den r = L.den acc + msm (L.denV (hp.drop (s * bits))) (blocksR fixB bits (zpows (z : ZMod q) s m))
  | 0, s, acc, va, hl => by
    refine ⟨acc, rfl, va, ?_⟩
    cases fixB <;> simp [zpows, blocksR, blocksMul, blocksAdd]
  | m + 1, s, acc, va, hl => by
    have hle : (s + 1) * bits ≤ hp.length := (Nat.mul_le_mul_right _ (by omega)).trans hl
    have hle0 : s * bits ≤ (s + 1) * bits := Nat.mul_le_mul_right _ (by omega)
    have hsl : ((hp.take ((s + 1) * bits)).drop (s * bits)).length = bits := by
      rw [List.length_drop, List.length_take, min_eq_left hle, ← Nat.sub_mul]; simp
    have vsl : ∀ e ∈ (hp.take ((s + 1) * bits)).drop (s * bits), L.V e := fun e he =>
      vhp e (List.mem_of_mem_take (List.mem_of_mem_drop he))
    obtain ⟨val, hval⟩ := Lawful.vectorExp_isSome (GP := GP) (gs := (hp.take ((s + 1) * bits)).drop (s * bits))
      (as := if fixB then vectorScalarMul (powerOf 2 bits GP.N) (z ^ (2 + s) % GP.N) GP.N else
        vectorAddConst (powerOf 2 bits GP.N) (z ^ (2 + s) % GP.N) GP.N)
      (by rw [hsl]; cases fixB <;> simp [vectorAddConst, vectorScalarMul, powerOf_length])
    obtain ⟨_, vv, dv⟩ := L.vectorExp_spec vsl hval
    obtain ⟨r, hr, vr, dr⟩ := L.multiSlidesR_spec fixB hp vhp z bits m (s + 1) (GP.add acc val) (L.V_add va vv)
      (by rwa [show s + 1 + m = s + (m + 1) by omega])
    refine ⟨r, ?_, vr, ?_⟩
    · rw [List.range'_succ]
      unfold multiSlidesR
      runs (show sliceTo hp ((s + 1) * bits) = some (hp.take ((s + 1) * bits)) by simp [sliceTo, hle])
      runs (show sliceFrom (hp.take ((s + 1) * bits)) (s * bits) = some ((hp.take ((s + 1) * bits)).drop (s * bits)) by
        simp [sliceFrom, hle, hle0])
      runs hval
      exact hr
    · have hsplit : hp.drop (s * bits) = (hp.take ((s + 1) * bits)).drop (s * bits) ++ hp.drop ((s + 1) * bits) := by
        conv_lhs => rw [← List.take_append_drop ((s + 1) * bits) hp]
        rw [List.drop_append_of_le_length (by rw [List.length_take, min_eq_left hle]; exact hle0)]
      have hN := L.N_eq
      have hc : castV q (if fixB then vectorScalarMul (powerOf 2 bits GP.N) (z ^ (2 + s) % GP.N) GP.N else
          vectorAddConst (powerOf 2 bits GP.N) (z ^ (2 + s) % GP.N) GP.N) =
          (pows (2 : ZMod q) bits).map (fun c => if fixB then c * (z : ZMod q) ^ (s + 2) else c + (z : ZMod q) ^ (s + 2)) := by
        cases fixB
        · simp only [Bool.false_eq_true, if_false]
          rw [hN, cast_vectorAddConst, powerOf_cast, cast_emod, Nat.add_comm]
          push_cast; rfl
        · simp only [if_true]
          rw [hN, cast_vectorScalarMul, powerOf_cast, cast_emod, Nat.add_comm]
          push_cast; rfl
      rw [dr, L.den_add va vv, dv, hc, zpows_succ, blocksR_cons, hsplit]
      rw [show L.denV ((hp.take ((s + 1) * bits)).drop (s * bits) ++ hp.drop ((s + 1) * bits)) =
        L.denV ((hp.take ((s + 1) * bits)).drop (s * bits)) ++ L.denV (hp.drop ((s + 1) * bits)) by
          simp [Lawful.denV], msm_append _ _ _ _ (by rw [L.denV_length, hsl]; simp [pows_length])]
      abel

end grp

variable {E : Type} {q : ℕ} {M : Type} [AddCommGroup M] [Module (ZMod q) M]

theorem multiProveR_divides (fixA : Bool) (params : BPParams E) (sha : Bytes → Bytes) (rnd : MultiRand) (secrets : List Int) (r)
    (hN : ∃ n : ℕ, params.GP.N = n) (h : multiProveR fixA sha params rnd secrets = some r) :
    secrets.length ≠ 0 ∧ secrets.length * (params.N / secrets.length) = params.N := by
  unfold multiProveR at h
  dsimp only at h
  split at h
  · cases h
  rename_i hm
  refine ⟨hm, ?_⟩
  unbind h with A eA
  unbind h with S eS
  unbind h with z2v ez
  obtain ⟨n, hn⟩ := hN
  rw [hn] at ez
  exact (zPowersTimesTwo_spec ez).2.1

theorem Lawful.multiChecksR_core (fixB : Bool) (pf : MultiBulletProof E) (L : Lawful pf.Params.GP q M) (hO : MultiValid pf L)
    (sha : Bytes → Bytes) (hm : pf.Vs.length ≠ 0)
    (hp : List E) (tp tx mu : Int) (b : Bool)
    (h1 : updateGenerators pf.Params.GP pf.Params.Hh (roundChallenge sha pf.Params.GP pf.A pf.S) pf.Params.N = some hp)
    (h2 : pf.Tprime = some tp) (h3 : pf.Taux = some tx) (h4 : pf.Mu = some mu)
    (h5 : pf.InnerProductProof.verify sha = some b)
    (y x : ZMod q) (hy : y = (roundChallenge sha pf.Params.GP pf.A pf.S : Int))
    (hx : x = (roundChallenge sha pf.Params.GP pf.T1 pf.T2 : Int)) :
    ∃ c, pf.checksR fixB sha = some c ∧
      (c.c65 = true ↔ (tp : ZMod q) • L.g + (tx : ZMod q) • L.den pf.Params.H =
        msm (L.denV pf.Vs) (zpows y 0 pf.Vs.length) +
          ((y - y ^ 2) * (pows y pf.Params.N).sum -
            y * (blocksMul (pf.Params.N / pf.Vs.length) (zpows y 0 pf.Vs.length)).sum) • L.g +
          x • L.den pf.T1 + x ^ 2 • L.den pf.T2) ∧
      (c.c67 = true ↔ (mu : ZMod q) • L.den pf.Params.H + L.den pf.InnerProductProof.P =
        L.den pf.A + x • L.den pf.S - y • (L.denV pf.Params.Gg).sum +
          (msm (L.denV hp) (List.zipWith (· * ·) (pows y pf.Params.N) (List.replicate pf.Params.N y)) +
            msm (L.denV hp) (blocksR fixB (pf.Params.N / pf.Vs.length) (zpows y 0 pf.Vs.length)))) ∧
      c.c68 = b := by
  obtain ⟨vV, vA, vS, vT1, vT2, vH, vGg, vHh, vP, lenG, lenH⟩ := hO
  have hbits := Nat.mul_div_le pf.Params.N pf.Vs.length
  obtain ⟨_, lhp, vhp, _⟩ := L.updateGenerators_spec lenH vHh h1
  obtain ⟨m, hmm⟩ : ∃ m, pf.Vs.length = m := ⟨_, rfl⟩
  obtain ⟨GP, hGP⟩ : ∃ g, pf.Params.GP = g := ⟨_, rfl⟩
  obtain ⟨yi, hyi⟩ : ∃ yi, roundChallenge sha pf.Params.GP pf.A pf.S = yi := ⟨_, rfl⟩
  obtain ⟨xi, hxi⟩ : ∃ xi, roundChallenge sha pf.Params.GP pf.T1 pf.T2 = xi := ⟨_, rfl⟩
  obtain ⟨bits, hbt⟩ : ∃ bits, pf.Params.N / pf.Vs.length = bits := ⟨_, rfl⟩
  rw [hyi] at hy h1
  rw [hxi] at hx
  rw [hbt] at hbits
  obtain ⟨dlt, hd⟩ := deltaMul_isSome pf.Params.N pf.Vs.length pf.Params.GP.N yi yi hm
  obtain ⟨gm, hgm⟩ := Lawful.vectorExp_isSome (GP := pf.Params.GP) (gs := pf.Params.Gg)
    (as := vectorCopy (pf.Params.GP.N - yi) pf.Params.N) (by simp [vectorCopy, lenG])
  have lmul : (powerOf yi pf.Params.N pf.Params.GP.N).length = (vectorCopy yi pf.Params.N).length := by
    simp [powerOf_length, vectorCopy]
  obtain ⟨he, hhe⟩ := Lawful.vectorExp_isSome (GP := pf.Params.GP) (gs := hp)
    (as := vectorMul (powerOf yi pf.Params.N pf.Params.GP.N) (vectorCopy yi pf.Params.N) pf.Params.GP.N)
    (by rw [vectorMul_eq lmul]; simp [powerOf_length, vectorCopy, lhp])
  obtain ⟨_, vgm, dgm⟩ := L.vectorExp_spec vGg hgm
  obtain ⟨_, vhe, dhe⟩ := L.vectorExp_spec vhp hhe
  obtain ⟨pr, hpr, vpr, dpr⟩ := L.multiSlidesR_spec fixB hp vhp yi bits pf.Vs.length 0 pf.Params.GP.identity L.V_ident
    (by rwa [lhp, Nat.zero_add])
  rw [← List.range_eq_range'] at hpr
  rw [L.den_ident, zero_add, Nat.zero_mul, List.drop_zero, ← hy] at dpr
  obtain ⟨vr, dr⟩ := L.multiRhs_spec (yi * yi % pf.Params.GP.N) pf.Vs (powerOf yi pf.Vs.length pf.Params.GP.N)
    pf.Params.GP.identity vV L.V_ident
  have dgm' : L.den gm = -(y • (L.denV pf.Params.Gg).sum) := by
    rw [dgm, castV_replicate, ← lenG, ← L.denV_length, msm_replicate, L.N_eq]
    push_cast
    rw [ZMod.natCast_self, zero_sub, neg_smul, hy]
  have dd : (dlt : ZMod q) = (y - y ^ 2) * (pows y pf.Params.N).sum -
            y * (blocksMul bits (zpows y 0 pf.Vs.length)).sum := by
    rw [L.N_eq] at hd
    rw [deltaMul_spec hd, hy, hbt]
  have dhe' : L.den he = msm (L.denV hp) (List.zipWith (· * ·) (pows y pf.Params.N) (List.replicate pf.Params.N y)) := by
    rw [dhe, hy]
    have hN := L.N_eq
    rw [hN] at lmul ⊢
    rw [cast_vectorMul lmul, powerOf_cast, castV_replicate]
  have dr' : L.den ((List.zip pf.Vs (powerOf yi pf.Vs.length pf.Params.GP.N)).foldl
      (fun rhs (vp : E × Int) => pf.Params.GP.add rhs (pf.Params.GP.mul vp.1 (yi * yi % pf.Params.GP.N * vp.2))) pf.Params.GP.identity) =
      msm (L.denV pf.Vs) (zpows y 0 pf.Vs.length) := by
    rw [dr, L.den_ident, zero_add, zpows_eq_pows, L.cast_modN, hy]
    have hN := L.N_eq
    rw [hN, powerOf_cast]
    push_cast; rfl
  obtain ⟨rh, hrh⟩ : ∃ rh, (List.zip pf.Vs (powerOf yi pf.Vs.length pf.Params.GP.N)).foldl
      (fun rhs (vp : E × Int) => pf.Params.GP.add rhs (pf.Params.GP.mul vp.1 (yi * yi % pf.Params.GP.N * vp.2))) pf.Params.GP.identity = rh :=
    ⟨_, rfl⟩
  rw [hrh] at vr dr'
  refine ⟨⟨pf.Params.GP.isEqual (pf.Params.GP.add (pf.Params.GP.add (pf.Params.GP.add rh
      (pf.Params.GP.mulGen dlt))
      (pf.Params.GP.mul pf.T1 xi))
      (pf.Params.GP.mul pf.T2 (xi * xi % pf.Params.GP.N)))
      (pedersenCommit pf.Params.GP tp tx pf.Params.H),
    pf.Params.GP.isIdentity (pf.Params.GP.sub
      (pf.Params.GP.add (pf.Params.GP.mul pf.Params.H mu) pf.InnerProductProof.P)
      (pf.Params.GP.add (pf.Params.GP.add (pf.Params.GP.add pf.A (pf.Params.GP.mul pf.S xi)) gm)
        (pf.Params.GP.add he pr))), b⟩, ?_, ?_, ?_, rfl⟩
  · unfold MultiBulletProof.checksR
    rw [if_neg hm]
    simp only [hashBP_fst, hashBP_snd, hyi, hxi, h1, h2, h3, h4, h5, hd, hgm, hhe, hbt, hpr, hrh,
      Option.bind_eq_bind, Option.bind_some]
  · have v2 := L.V_mulGen dlt
    have v3 := L.V_mul xi vT1
    have v4 := L.V_mul (xi * xi % pf.Params.GP.N) vT2
    have w1 := L.V_add vr v2
    have w2 := L.V_add w1 v3
    have w3 := L.V_add w2 v4
    simp only
    rw [L.isEqual_iff w3 (L.V_pedersen vH tp tx), L.den_pedersen vH, L.den_add w2 v4, L.den_add w1 v3, L.den_add vr v2,
      L.den_mulGen, L.den_mul _ vT1, L.den_mul _ vT2, L.cast_modN, Int.cast_mul, ← hx, dd, dr', hbt, ← pow_two]
    exact eq_comm
  · have v5 := L.V_mul xi vS
    have u1 := L.V_add vA v5
    have u2 := L.V_add u1 vgm
    have u4 := L.V_add vhe vpr
    have u3 := L.V_add u2 u4
    have t1 := L.V_mul mu vH
    have t2 := L.V_add t1 vP
    simp only
    rw [L.isIdentity_iff (L.V_sub t2 u3), L.den_sub t2 u3, L.den_add t1 vP, L.den_mul _ vH, L.den_add u2 u4,
      L.den_add u1 vgm, L.den_add vA v5, L.den_add vhe vpr, L.den_mul _ vS, dhe', dpr, dgm', sub_eq_zero, ← hx, hbt,
      ← sub_eq_add_neg]

theorem multiProveR_exact (fixA fixB : Bool) (params : BPParams E) (L : Lawful params.GP q M) (k : ℕ) (hO : ParamsOK params L k)
    (sha : Bytes → Bytes) (rnd : MultiRand) (secrets : List Int) (pf : MultiBulletProof E) (gs : List Int)
    (lg : rnd.gammas.length = secrets.length) (lsL : rnd.sL.length = 2 ^ k) (lsR : rnd.sR.length = 2 ^ k)
    (h : multiProveR fixA sha params rnd secrets = some (.ok (pf, gs))) :
    gs = rnd.gammas ∧ pf.Params = params ∧
    pf.Vs = List.zipWith (fun s g => pedersenCommit params.GP s g params.H) secrets rnd.gammas ∧
    (∃ yinv : ZMod q, 2 ≤ params.N → ((roundChallenge sha params.GP pf.A pf.S : Int) : ZMod q) * yinv = 1) ∧
    ∀ (y yinv : ZMod q), y = (roundChallenge sha params.GP pf.A pf.S : Int) →
    (2 ≤ params.N → y * yinv = 1) →
    ∃ c, pf.checksR fixB sha = some c ∧
      (c.c65 = true ↔
        dot (castV q (secrets.map (fun v => v - v % 2 ^ (params.N / secrets.length)))) (zpows y 0 secrets.length) • L.g = 0) ∧
      (c.c67 = true ↔
        (if fixA then 0 else (L.denV params.Gg).sum) +
          msm (List.zipWith (fun c m => c • m) (pows yinv params.N) (L.denV params.Hh))
            (blocksMul (params.N / secrets.length) (zpows y 0 secrets.length)) =
          msm (List.zipWith (fun c m => c • m) (pows yinv params.N) (L.denV params.Hh))
            (blocksR fixB (params.N / secrets.length) (zpows y 0 secrets.length))) ∧
      c.c68 = true := by
  have hN := hO.N
  obtain ⟨hm, hbits⟩ := multiProveR_divides fixA params sha rnd secrets _ ⟨q, L.N_eq⟩ h
  obtain ⟨bits, hbt⟩ : ∃ bits, params.N / secrets.length = bits := ⟨_, rfl⟩
  unfold multiProveR at h
  rw [if_neg hm] at h
  dsimp only at h
  rw [hbt] at h hbits ⊢
  obtain ⟨aL, haL⟩ : ∃ aL, (secrets.map (fun s => decompose s 2 bits)).flatten = aL := ⟨_, rfl⟩
  have lL : aL.length = params.N := by rw [← haL, digits_length, hbits]
  have hAR := digits_AR bits secrets
  rw [haL] at hAR
  have e1 : concatPad params.N (secrets.map (fun s => decompose s 2 bits)) = aL := by
    rw [concatPad_full _ _ (by rw [haL, lL]), haL]
  have e2 : concatPad params.N ((secrets.map (fun s => decompose s 2 bits)).map computeAR) = aL.map (· - 1) := by
    rw [concatPad_full _ _ (by rw [hAR, List.length_map, lL]), hAR]
  rw [e1, e2] at h
  obtain ⟨aR, haR⟩ : ∃ aR, aL.map (· - 1) = aR := ⟨_, rfl⟩
  rw [haR] at h
  have lR : aR.length = params.N := by rw [← haR, List.length_map, lL]
  unbind h with A eA
  unbind h with S eS
  simp only [hashBP_fst, hashBP_snd] at h
  obtain ⟨yi, hyi⟩ : ∃ yi, roundChallenge sha params.GP A S = yi := ⟨_, rfl⟩
  rw [hyi] at h
  unbind h with z2v ez
  unbind h with aLb eLb
  unbind h with aRb eRb
  obtain ⟨_, eLb⟩ := sliceTo_spec eLb
  obtain ⟨_, eRb⟩ := sliceTo_spec eRb
  rw [List.take_of_length_le lL.le] at eLb
  rw [List.take_of_length_le lR.le] at eRb
  subst eLb eRb
  unbind h with t1l et1l
  unbind h with t1r et1r
  unbind h with t2 et2
  have hNq := L.N_eq
  rw [L.N_eq] at et1l et1r et2
  have ct1l := vectorInnerProduct_spec et1l
  have ct1r := vectorInnerProduct_spec et1r
  have ct2 := vectorInnerProduct_spec et2
  rw [hNq] at ez
  obtain ⟨lz, _, cw⟩ := zPowersTimesTwo_spec ez
  obtain ⟨T1, hT1⟩ : ∃ T1, pedersenCommit params.GP ((t1l + t1r) % params.GP.N) rnd.tau1 params.H = T1 := ⟨_, rfl⟩
  obtain ⟨T2, hT2⟩ : ∃ T2, pedersenCommit params.GP t2 rnd.tau2 params.H = T2 := ⟨_, rfl⟩
  rw [hT1, hT2] at h
  obtain ⟨xi, hxi⟩ : ∃ xi, roundChallenge sha params.GP T1 T2 = xi := ⟨_, rfl⟩
  rw [hxi] at h
  obtain ⟨bl, hbl⟩ : ∃ bl, vectorAdd (vectorAddConst aLb (-yi) params.GP.N) (vectorScalarMul rnd.sL xi params.GP.N) params.GP.N = bl :=
    ⟨_, rfl⟩
  obtain ⟨br, hbr⟩ : ∃ br, vectorAdd (vectorMul (powerOf yi params.N params.GP.N)
    (vectorAdd (vectorAdd (vectorCopy yi params.N) aRb params.GP.N) (vectorScalarMul rnd.sR xi params.GP.N) params.GP.N)
    params.GP.N) z2v params.GP.N = br := ⟨_, rfl⟩
  rw [hbl, hbr] at h
  unbind h with th eth
  unbind h with hp ehp
  unbind h with ipp eipp
  have hNpos : ¬ ((params.N : Int) ≤ 0) := by rw [hN]; have := Nat.two_pow_pos k; omega
  unfold setupInnerProduct at eipp
  rw [if_neg hNpos] at eipp
  simp only [Option.bind_eq_bind, Option.bind_some] at eipp
  unbind eipp with Uu eU
  simp only [Option.some.injEq] at eipp
  subst eipp
  simp only at h
  unbind h with cm ecm
  unbind h with ipr eipr
  cases ipr with
  | error e => simp at h
  | ok ip =>
  simp only [Option.some.injEq, Except.ok.injEq, Prod.mk.injEq] at h
  obtain ⟨h, hgs⟩ := h
  obtain ⟨npos, lhp, vhp, yinv0, hyinv0, dhp0⟩ := L.updateGenerators_spec (by rw [hO.lenH, hN]) hO.Hh ehp
  obtain ⟨vA, dA⟩ := L.commitVector_spec (show (if fixA then aLb else aRb).length = params.N by cases fixA; exacts [lR, lL]) lR (by rw [hO.lenG, hN]) (by rw [hO.lenH, hN]) hO.Gg hO.Hh hO.H eA
  obtain ⟨vS, dS⟩ := L.commitVector_spec (lsL.trans hN.symm) (lsR.trans hN.symm) (by rw [hO.lenG, hN]) (by rw [hO.lenH, hN]) hO.Gg hO.Hh hO.H eS
  rw [← hN] at lsL lsR
  have lp : (powerOf yi params.N params.GP.N).length = params.N := powerOf_length _ _ _
  have lc : (vectorCopy yi params.N).length = params.N := by simp [vectorCopy]
  have l0 := vectorAddConst_len (c := -yi) (N := params.GP.N) lL
  have lsx := vectorScalarMul_len (c := xi) (N := params.GP.N) lsL
  have lrx := vectorScalarMul_len (c := xi) (N := params.GP.N) lsR
  have lzn := vectorAdd_len (N := params.GP.N) lc lR
  have ltm := vectorAdd_len (N := params.GP.N) lzn lrx
  have lym := vectorMul_len (N := params.GP.N) lp ltm
  have lbl : bl.length = params.N := hbl ▸ vectorAdd_len l0 lsx
  have lbr : br.length = params.N := hbr ▸ vectorAdd_len lym lz
  have lr0 := vectorMul_len (N := params.GP.N) lp lzn
  have cz : castV q (vectorAdd (vectorCopy yi params.N) aRb params.GP.N) = (castV q aRb).map ((yi : ZMod q) + ·) := by
    rw [hNq, cast_vectorAdd (lc.trans lR.symm), castV_replicate, ← lR]
    clear * -
    induction aRb with
    | nil => simp
    | cons a l ih => simp [List.replicate_succ, ih]
  obtain ⟨y, hydef⟩ : ∃ y : ZMod q, y = (yi : ZMod q) := ⟨_, rfl⟩
  obtain ⟨x, hxdef⟩ : ∃ x : ZMod q, x = (xi : ZMod q) := ⟨_, rfl⟩
  obtain ⟨FL, hFL⟩ : ∃ F, castV q aLb = F := ⟨_, rfl⟩
  obtain ⟨FR, hFR⟩ : ∃ F, castV q aRb = F := ⟨_, rfl⟩
  obtain ⟨SL, hSL⟩ : ∃ F, castV q rnd.sL = F := ⟨_, rfl⟩
  obtain ⟨SR, hSR⟩ : ∃ F, castV q rnd.sR = F := ⟨_, rfl⟩
  obtain ⟨W, hW⟩ : ∃ W, blocksMul bits (zpows y 0 secrets.length) = W := ⟨_, rfl⟩
  rw [hFR, ← hydef] at cz
  rw [← hydef, hW] at cw
  have c1 : castV q bl = List.zipWith (· + ·) (FL.map (· + -y)) (SL.map (· * x)) := by
    rw [← hbl]; rw [hNq] at l0 lsx ⊢
    rw [cast_vectorAdd (l0.trans lsx.symm), cast_vectorAddConst, cast_vectorScalarMul, hFL, hSL, hydef, hxdef]; push_cast; rfl
  have c2 : castV q br = List.zipWith (· + ·) (List.zipWith (· * ·) (pows y params.N)
      (List.zipWith (· + ·) (FR.map (y + ·)) (SR.map (· * x)))) W := by
    rw [← hbr, ← cz, ← cw]; rw [hNq] at lzn lrx lym lp ltm ⊢
    rw [cast_vectorAdd (lym.trans lz.symm), cast_vectorMul (lp.trans ltm.symm), cast_vectorAdd (lzn.trans lrx.symm),
      cast_vectorScalarMul (q := q) rnd.sR, powerOf_cast, hSR, hydef, hxdef]
  have c3 : castV q (vectorAdd (vectorMul (powerOf yi params.N params.GP.N) (vectorAdd (vectorCopy yi params.N) aRb params.GP.N)
      params.GP.N) z2v params.GP.N) =
      List.zipWith (· + ·) (List.zipWith (· * ·) (pows y params.N) (FR.map (y + ·))) W := by
    rw [← cz, ← cw]; rw [hNq] at lzn lp lr0 ⊢
    rw [cast_vectorAdd (lr0.trans lz.symm), cast_vectorMul (lp.trans lzn.symm), powerOf_cast, hydef]
  have c4 : castV q (vectorMul (powerOf yi params.N params.GP.N) rnd.sR params.GP.N) =
      List.zipWith (· * ·) (pows y params.N) SR := by
    rw [hNq] at lp ⊢
    rw [cast_vectorMul (lp.trans lsR.symm), powerOf_cast, hSR, hydef]
  have c5 : castV q (vectorAddConst aLb (-yi) params.GP.N) = FL.map (· + -y) := by
    rw [hNq, cast_vectorAddConst, hFL, hydef]; push_cast; rfl
  rw [← hNq] at ct1l ct1r ct2
  rw [c3, hSL] at ct1l
  rw [c4, c5] at ct1r
  rw [c4, hSL] at ct2
  rw [hNq] at eth
  have cth := (scalarProduct_spec eth).2
  have fl : FL.length = params.N := by rw [← hFL, List.length_map, lL]
  have fr : FR.length = params.N := by rw [← hFR, List.length_map, lR]
  have sl : SL.length = params.N := by rw [← hSL, List.length_map, lsL]
  have sr : SR.length = params.N := by rw [← hSR, List.length_map, lsR]
  have wl : W.length = params.N := by rw [← hW, blocksMul_length, zpows_length, hbits]
  have vU := hO.U _ eU
  obtain ⟨gcm, hgcm⟩ := Lawful.vectorExp_isSome (GP := params.GP) (gs := params.Gg) (as := bl) (by rw [hO.lenG, lbl, hN])
  obtain ⟨hcm, hhcm⟩ := Lawful.vectorExp_isSome (GP := params.GP) (gs := hp) (as := br) (by rw [lhp, lbr])
  obtain ⟨_, vg, dg⟩ := L.vectorExp_spec hO.Gg hgcm
  obtain ⟨_, vh, dh⟩ := L.vectorExp_spec vhp hhcm
  have hcm' : cm = params.GP.add gcm hcm := by
    unfold commitInnerProduct at ecm
    simp only [hgcm, hhcm, Option.bind_eq_bind, Option.bind_some, Option.some.injEq] at ecm
    exact ecm.symm
  have vcm : L.V cm := hcm' ▸ L.V_add vg vh
  have dcm : L.den cm = msm (L.denV params.Gg) (castV q bl) + msm (L.denV hp) (castV q br) := by
    rw [hcm', L.den_add vg vh, dg, dh]
  obtain ⟨p1, p2, p3, _, _, _⟩ := ipp_honest_exact L sha k bl br cm th _ ip rfl (by rw [lbl, hN]) (by rw [lbr, hN]) hO.lenG
    (by simp [lhp, hN]) hO.Gg vhp vU vcm eipr
  obtain ⟨ipOK, _, _⟩ := C16_ipp_complete L sha k bl br cm th _ ip rfl (by rw [lbl, hN]) (by rw [lbr, hN]) hO.lenG
    (by simp [lhp, hN]) hO.Gg vhp vU vcm dcm (by rw [cth]) eipr
  rw [c1, c2] at cth
  subst h
  refine ⟨hgs.symm, rfl, rfl, ⟨yinv0, fun h2 => by simp only [hyi]; exact hyinv0 h2⟩, ?_⟩
  intro y' yinv hy' hyinv
  have hyy : y' = y := by rw [hy', hydef]; simp only [hyi]
  clear hy'
  subst hyy
  rw [← hydef] at hyinv0
  have dhp : L.denV hp = List.zipWith (fun c m => c • m) (pows yinv params.N) (L.denV params.Hh) := by
    rw [dhp0]
    rcases Nat.lt_or_ge params.N 2 with h2 | h2
    · have : params.N = 1 := by clear * - npos h2; omega
      rw [this]; simp [pows]
    · have e : yinv0 = yinv := by
        linear_combination yinv * hyinv0 h2 - yinv0 * hyinv h2
      rw [e]
  have vT1 : L.V T1 := hT1 ▸ L.V_pedersen hO.H _ _
  have vT2 : L.V T2 := hT2 ▸ L.V_pedersen hO.H _ _
  have dT1 := L.den_pedersen hO.H ((t1l + t1r) % params.GP.N) rnd.tau1
  have dT2 := L.den_pedersen hO.H t2 rnd.tau2
  rw [hT1, L.cast_modN] at dT1
  rw [hT2] at dT2
  have vVs : ∀ v ∈ List.zipWith (fun s g => pedersenCommit params.GP s g params.H) secrets rnd.gammas, L.V v := by
    intro v hv
    rw [List.mem_iff_getElem] at hv
    obtain ⟨i, hi, rfl⟩ := hv
    rw [List.getElem_zipWith]
    exact L.V_pedersen hO.H _ _
  have lVs : (List.zipWith (fun s g => pedersenCommit params.GP s g params.H) secrets rnd.gammas).length = secrets.length := by
    simp [lg]
  have key := L.multiChecksR_core fixB (q := q) (M := M) (MultiBulletProof.mk
      (List.zipWith (fun s g => pedersenCommit params.GP s g params.H) secrets rnd.gammas) A S T1 T2
      (some ((rnd.tau2 * (xi * xi) + rnd.tau1 * xi + (rnd.gammas.zipIdx).foldl (fun acc (gj : Int × Nat) =>
        (acc + gj.1 * (yi ^ (2 + gj.2) % params.GP.N)) % params.GP.N) 0) % params.GP.N))
      (some ((rnd.rho * xi + rnd.alpha) % params.GP.N)) (some th) ip params)
    ⟨vVs, vA, vS, vT1, vT2, hO.H, hO.Gg, hO.Hh, by simpa [p1] using vcm, by rw [hO.lenG, hO.N], by rw [hO.lenH, hO.N]⟩
    sha (by simpa only [lVs] using hm)
    hp th _ _ true (by simp only [hyi]; exact ehp) rfl rfl rfl ipOK y' x (by simp only [hyi]; exact hydef)
    (by simp only [hxi]; exact hxdef)
  obtain ⟨c, hc, h65, h67, h68⟩ := key
  refine ⟨c, hc, h65.trans ?_, h67.trans ?_, h68⟩
  · simp only [lVs, hbt, hW]
    have htau : (((rnd.gammas.zipIdx).foldl (fun acc (gj : Int × Nat) =>
        (acc + gj.1 * (yi ^ (2 + gj.2) % params.GP.N)) % params.GP.N) 0 : Int) : ZMod q) =
        dot (castV q rnd.gammas) (zpows y' 0 secrets.length) := by
      rw [hNq, gammas_foldl, lg, ← hydef]; simp
    have e65 : (th : ZMod q) = dot (castV q (secrets.map (· % 2 ^ bits))) (zpows y' 0 secrets.length) +
        ((y' - y' ^ 2) * (pows y' params.N).sum - y' * W.sum) + x * (t1l + t1r) + x ^ 2 * t2 := by
      rw [cth, br_shape x _ _ _ _ (by simp [pows_length, fr]) (by simp [pows_length, sr]) (by simp [pows_length, wl]),
        dot_expand x _ _ _ _ (by simp [fl, sl]) (by simp [pows_length, fr, sr, wl]),
        bp_scalar' y' FL FR _ _ (fl.trans fr.symm) (by simp [pows_length, fl]) (fl.trans wl.symm), ← ct1l, ← ct1r, ← ct2]
      have hb := digits_bits bits secrets
      rw [haL] at hb
      have b1 := bits_dot_zero (pows y' params.N) aLb hb
      have b2 := bits_dot_diff (pows y' params.N) aLb (by rw [lL, pows_length])
      have b3 := digits_dot bits secrets (zpows y' 0 secrets.length) (by simp)
      rw [haR, hFL, hFR] at b1 b2
      rw [haL, hFL, hW] at b3
      rw [b1, b2, b3]
      ring
    have esub : dot (castV q (secrets.map (fun v => v - v % 2 ^ bits))) (zpows y' 0 secrets.length) =
        dot (castV q secrets) (zpows y' 0 secrets.length) -
          dot (castV q (secrets.map (· % 2 ^ bits))) (zpows y' 0 secrets.length) := by
      generalize zpows y' 0 secrets.length = cs
      clear * -
      induction secrets generalizing cs with
      | nil => simp
      | cons v vs ih => cases cs with
        | nil => simp
        | cons c cs =>
          have := ih cs
          simp only [castV, List.map_cons, dot_cons] at this ⊢
          rw [this]; push_cast; ring
    rw [L.denV_pedersens hO.H _ _ _ lg.symm, esub, L.cast_modN, dT1, dT2, e65]
    push_cast
    rw [htau, ← hxdef]
    constructor
    · intro h
      linear_combination (norm := module) -h
    · intro h
      linear_combination (norm := module) -h
  · simp only [lVs, hbt, p1]
    rw [dcm, c1, c2, msm_l y' x _ _ _ (by simp [hO.lenG, fl, hN]) (by simp [hO.lenG, sl, hN]),
      msm_add_right _ _ _ (by simp [pows_length, fr, sr, wl]), dhp,
      msm_scaled y' yinv params.N _ _ hyinv (by simp [hO.lenH, hN]) (by simp [fr, sr]),
      msm_scaled y' yinv params.N _ _ hyinv (by simp [hO.lenH, hN]) (by simp),
      msm_add_right _ _ _ (by simp [fr, sr]), msm_map_mul, dA, dS, L.cast_modN, hFR, hSL, hSR]
    have hadd : (FR.map (y' + ·)) = List.zipWith (· + ·) (List.replicate params.N y') FR := by
      rw [← fr]
      clear * -
      induction FR with
      | nil => simp
      | cons a l ih => simp [List.replicate_succ, ih]
    rw [hadd, msm_add_right _ _ _ (by simp [fr])]
    have hdiff : ∀ g : List M, g.length = params.N → msm g FL = msm g FR + g.sum := by
      rw [← hFL, ← hFR, ← haR, ← lL]
      clear * -
      intro g
      induction g generalizing aLb with
      | nil => simp
      | cons e g ih => cases aLb with
        | nil => simp
        | cons a l =>
          intro hl
          have := ih l (by simpa using hl)
          simp only [castV, List.map_cons, msm_cons, List.sum_cons] at this ⊢
          rw [this]; push_cast
          module
    rw [hW]
    push_cast
    rw [← hxdef]
    cases fixA
    · simp only [Bool.false_eq_true, if_false, hFR]
      rw [hdiff _ (by simp [hO.lenG, hN])]
      constructor
      · intro h
        linear_combination (norm := module) h
      · intro h
        linear_combination (norm := module) h
    · simp only [if_true, hFL]
      constructor
      · intro h
        linear_combination (norm := module) h
      · intro h
        linear_combination (norm := module) h

end MscPoc
