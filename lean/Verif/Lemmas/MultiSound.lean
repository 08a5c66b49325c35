import Verif.Lemmas.MultiRepair
import Verif.Lemmas.BpSoundC
import Verif.Spec.MultiSound
import Verif.Props.MultiVerify

/-!
# Special soundness of the repaired aggregated range proof: the equations of the verifier and the algebra
-/

set_option autoImplicit false

namespace MscPoc

section
variable {E : Type} {q : ℕ} {M : Type} [AddCommGroup M] [Module (ZMod q) M]

theorem Lawful.multiChecksC_core (ch : Challenges E) (pf : MultiBulletProof E) (L : Lawful pf.Params.GP q M) (hO : MultiValid pf L)
    (sha : Bytes → Bytes) (hm : pf.Vs.length ≠ 0)
    (hp : List E) (tp tx mu : Int) (b : Bool)
    (h1 : updateGenerators pf.Params.GP pf.Params.Hh (ch.y pf.A pf.S) pf.Params.N = some hp)
    (h2 : pf.Tprime = some tp) (h3 : pf.Taux = some tx) (h4 : pf.Mu = some mu)
    (h5 : pf.InnerProductProof.verify sha = some b)
    (y z x : ZMod q) (hy : y = (ch.y pf.A pf.S : Int)) (hz : z = (ch.z pf.A pf.S : Int))
    (hx : x = (ch.x pf.T1 pf.T2 : Int)) :
    ∃ c, pf.checksC ch sha = some c ∧
      (c.c65 = true ↔ (tp : ZMod q) • L.g + (tx : ZMod q) • L.den pf.Params.H =
        msm (L.denV pf.Vs) (zpows z 0 pf.Vs.length) +
          ((z - z ^ 2) * (pows y pf.Params.N).sum -
            z * (blocksMul (pf.Params.N / pf.Vs.length) (zpows z 0 pf.Vs.length)).sum) • L.g +
          x • L.den pf.T1 + x ^ 2 • L.den pf.T2) ∧
      (c.c67 = true ↔ (mu : ZMod q) • L.den pf.Params.H + L.den pf.InnerProductProof.P =
        L.den pf.A + x • L.den pf.S - z • (L.denV pf.Params.Gg).sum +
          (msm (L.denV hp) (List.zipWith (· * ·) (pows y pf.Params.N) (List.replicate pf.Params.N z)) +
            msm (L.denV hp) (blocksMul (pf.Params.N / pf.Vs.length) (zpows z 0 pf.Vs.length)))) ∧
      c.c68 = b := by
  obtain ⟨vV, vA, vS, vT1, vT2, vH, vGg, vHh, vP, lenG, lenH⟩ := hO
  have hbits := Nat.mul_div_le pf.Params.N pf.Vs.length
  obtain ⟨_, lhp, vhp, _⟩ := L.updateGenerators_spec lenH vHh h1
  obtain ⟨m, hmm⟩ : ∃ m, pf.Vs.length = m := ⟨_, rfl⟩
  obtain ⟨GP, hGP⟩ : ∃ g, pf.Params.GP = g := ⟨_, rfl⟩
  obtain ⟨yi, hyi⟩ : ∃ yi, ch.y pf.A pf.S = yi := ⟨_, rfl⟩
  obtain ⟨zi, hzi⟩ : ∃ zi, ch.z pf.A pf.S = zi := ⟨_, rfl⟩
  obtain ⟨xi, hxi⟩ : ∃ xi, ch.x pf.T1 pf.T2 = xi := ⟨_, rfl⟩
  obtain ⟨bits, hbt⟩ : ∃ bits, pf.Params.N / pf.Vs.length = bits := ⟨_, rfl⟩
  rw [hyi] at hy h1
  rw [hzi] at hz
  rw [hxi] at hx
  rw [hbt] at hbits
  obtain ⟨dlt, hd⟩ := deltaMul_isSome pf.Params.N pf.Vs.length pf.Params.GP.N yi zi hm
  obtain ⟨gm, hgm⟩ := Lawful.vectorExp_isSome (GP := pf.Params.GP) (gs := pf.Params.Gg)
    (as := vectorCopy (pf.Params.GP.N - zi) pf.Params.N) (by simp [vectorCopy, lenG])
  have lmul : (powerOf yi pf.Params.N pf.Params.GP.N).length = (vectorCopy zi pf.Params.N).length := by
    simp [powerOf_length, vectorCopy]
  obtain ⟨he, hhe⟩ := Lawful.vectorExp_isSome (GP := pf.Params.GP) (gs := hp)
    (as := vectorMul (powerOf yi pf.Params.N pf.Params.GP.N) (vectorCopy zi pf.Params.N) pf.Params.GP.N)
    (by rw [vectorMul_eq lmul]; simp [powerOf_length, vectorCopy, lhp])
  obtain ⟨_, vgm, dgm⟩ := L.vectorExp_spec vGg hgm
  obtain ⟨_, vhe, dhe⟩ := L.vectorExp_spec vhp hhe
  obtain ⟨pr, hpr, vpr, dpr⟩ := L.multiSlidesR_spec true hp vhp zi bits pf.Vs.length 0 pf.Params.GP.identity L.V_ident
    (by rwa [lhp, Nat.zero_add])
  rw [← List.range_eq_range'] at hpr
  rw [L.den_ident, zero_add, Nat.zero_mul, List.drop_zero, ← hz, blocksR, if_pos rfl] at dpr
  obtain ⟨vr, dr⟩ := L.multiRhs_spec (zi * zi % pf.Params.GP.N) pf.Vs (powerOf zi pf.Vs.length pf.Params.GP.N)
    pf.Params.GP.identity vV L.V_ident
  have dgm' : L.den gm = -(z • (L.denV pf.Params.Gg).sum) := by
    rw [dgm, castV_replicate, ← lenG, ← L.denV_length, msm_replicate, L.N_eq]
    push_cast
    rw [ZMod.natCast_self, zero_sub, neg_smul, hz]
  have dd : (dlt : ZMod q) = (z - z ^ 2) * (pows y pf.Params.N).sum -
            z * (blocksMul bits (zpows z 0 pf.Vs.length)).sum := by
    rw [L.N_eq] at hd
    rw [deltaMul_spec hd, hy, hz, hbt]
  have dhe' : L.den he = msm (L.denV hp) (List.zipWith (· * ·) (pows y pf.Params.N) (List.replicate pf.Params.N z)) := by
    rw [dhe, hy, hz]
    have hN := L.N_eq
    rw [hN] at lmul ⊢
    rw [cast_vectorMul lmul, powerOf_cast, castV_replicate]
  have dr' : L.den ((List.zip pf.Vs (powerOf zi pf.Vs.length pf.Params.GP.N)).foldl
      (fun rhs (vp : E × Int) => pf.Params.GP.add rhs (pf.Params.GP.mul vp.1 (zi * zi % pf.Params.GP.N * vp.2))) pf.Params.GP.identity) =
      msm (L.denV pf.Vs) (zpows z 0 pf.Vs.length) := by
    rw [dr, L.den_ident, zero_add, zpows_eq_pows, L.cast_modN, hz]
    have hN := L.N_eq
    rw [hN, powerOf_cast]
    push_cast; rfl
  obtain ⟨rh, hrh⟩ : ∃ rh, (List.zip pf.Vs (powerOf zi pf.Vs.length pf.Params.GP.N)).foldl
      (fun rhs (vp : E × Int) => pf.Params.GP.add rhs (pf.Params.GP.mul vp.1 (zi * zi % pf.Params.GP.N * vp.2))) pf.Params.GP.identity = rh :=
    ⟨_, rfl⟩
  rw [hrh] at vr dr'
  refine ⟨⟨pf.Params.GP.isEqual (pf.Params.GP.add (pf.Params.GP.add (pf.Params.GP.add rh
      (pf.Params.GP.mulGen dlt))
      (pf.Params.GP.mul pf.T1 xi))
      (pf.Params.GP.mul pf.T2 (xi * xi % pf.Params.GP.N)))
      (pedersenCommit pf.Params.GP tp tx pf.Params.H),
    pf.Params.GP.isIdentity (pf.Params.GP.sub
      (pf.Params.GP.add (pf.Params.GP.mul pf.Params.H mu) pf.InnerProductProof.P)
      (pf.Params.GP.add (pf.Params.GP.add (pf.Params.GP.add pf.A (pf.Params.GP.mul pf.S xi)) gm)
        (pf.Params.GP.add he pr))), b⟩, ?_, ?_, ?_, rfl⟩
  · unfold MultiBulletProof.checksC
    rw [if_neg hm]
    simp only [hyi, hzi, hxi, h1, h2, h3, h4, h5, hd, hgm, hhe, hbt, hpr, hrh,
      Option.bind_eq_bind, Option.bind_some]
  · have v2 := L.V_mulGen dlt
    have v3 := L.V_mul xi vT1
    have v4 := L.V_mul (xi * xi % pf.Params.GP.N) vT2
    have w1 := L.V_add vr v2
    have w2 := L.V_add w1 v3
    have w3 := L.V_add w2 v4
    simp only
    rw [L.isEqual_iff w3 (L.V_pedersen vH tp tx), L.den_pedersen vH, L.den_add w2 v4, L.den_add w1 v3, L.den_add vr v2,
      L.den_mulGen, L.den_mul _ vT1, L.den_mul _ vT2, L.cast_modN, Int.cast_mul, ← hx, dd, dr', hbt, ← pow_two]
    exact eq_comm
  · have v5 := L.V_mul xi vS
    have u1 := L.V_add vA v5
    have u2 := L.V_add u1 vgm
    have u4 := L.V_add vhe vpr
    have u3 := L.V_add u2 u4
    have t1 := L.V_mul mu vH
    have t2 := L.V_add t1 vP
    simp only
    rw [L.isIdentity_iff (L.V_sub t2 u3), L.den_sub t2 u3, L.den_add t1 vP, L.den_mul _ vH, L.den_add u2 u4,
      L.den_add u1 vgm, L.den_add vA v5, L.den_add vhe vpr, L.den_mul _ vS, dhe', dpr, dgm', sub_eq_zero, ← hx, hbt,
      ← sub_eq_add_neg]

end

section
variable {F : Type} [Field F]

theorem wAt_block {m bits : ℕ} (z : F) {j i : ℕ} (hj : j < m) (hi : i < bits) : wAt m bits z (j * bits + i) = z ^ (j + 2) * 2 ^ i := by
  have h0 : 0 < bits := by omega
  unfold wAt
  have e1 : (j * bits + i) / bits = j := by rw [Nat.mul_comm, Nat.mul_add_div h0, Nat.div_eq_of_lt hi, Nat.add_zero]
  have e2 : (j * bits + i) % bits = i := by rw [Nat.mul_comm, Nat.mul_add_mod, Nat.mod_eq_of_lt hi]
  rw [if_pos, e1, e2]
  calc j * bits + i < (j + 1) * bits := by rw [Nat.succ_mul]; omega
    _ ≤ m * bits := Nat.mul_le_mul_right _ hj

/-- a sum over all positions as a sum over the blocks -/
theorem sum_wAt {V : Type} [AddCommGroup V] [Module F V] {n m bits : ℕ} (hb : m * bits ≤ n) (z : F) (f : ℕ → V) :
    ∑ i ∈ Finset.range n, wAt m bits z i • f i =
      ∑ j ∈ Finset.range m, ∑ i ∈ Finset.range bits, (z ^ (j + 2) * 2 ^ i) • f (j * bits + i) := by
  have h1 : ∑ i ∈ Finset.range n, wAt m bits z i • f i = ∑ i ∈ Finset.range (m * bits), wAt m bits z i • f i := by
    refine (Finset.sum_subset (Finset.range_subset_range.mpr hb) fun i _ h => ?_).symm
    unfold wAt
    rw [if_neg (by simpa using h), zero_smul]
  have h2 : ∀ (g : ℕ → V) (r : ℕ), ∑ i ∈ Finset.range (r * bits), g i =
      ∑ j ∈ Finset.range r, ∑ i ∈ Finset.range bits, g (j * bits + i) := by
    intro g r
    induction r with
    | zero => simp
    | succ r ih => rw [Nat.succ_mul, Finset.sum_range_add, ih, Finset.sum_range_succ]
  rw [h1, h2]
  refine Finset.sum_congr rfl fun j hj => Finset.sum_congr rfl fun i hi => ?_
  rw [wAt_block z (Finset.mem_range.mp hj) (Finset.mem_range.mp hi)]

end

section
variable {E : Type} {q : ℕ} {M : Type} [AddCommGroup M] [Module (ZMod q) M]

/-- what an accepted proof says, in equations; the second is written as for one value -/
theorem multiVerifyC_true [Fact q.Prime] (pf : MultiBulletProof E) (L : Lawful pf.Params.GP q M) (hV : MultiValid pf L) (ch : Challenges E)
    (sha : Bytes → Bytes) (tp tx mu : Int) (h2 : pf.Tprime = some tp) (h3 : pf.Taux = some tx) (h4 : pf.Mu = some mu)
    (y z x : ZMod q) (hy : y = ((ch.y pf.A pf.S) : Int)) (hz : z = ((ch.z pf.A pf.S) : Int))
    (hx : x = ((ch.x pf.T1 pf.T2) : Int)) (m bits : ℕ) (hm : m = pf.Vs.length) (hb : bits = pf.Params.N / m)
    (h : pf.verifyC ch sha = some true) :
    m ≠ 0 ∧
    ((tp : ZMod q) • L.g + (tx : ZMod q) • L.den pf.Params.H =
      ∑ j ∈ Finset.range m, z ^ (j + 2) • (L.denV pf.Vs).getD j 0 + deltaM pf.Params.N m bits y z • L.g + x • L.den pf.T1 +
        x ^ 2 • L.den pf.T2) ∧
    ((mu : ZMod q) • L.den pf.Params.H + L.den pf.InnerProductProof.P =
      (L.den pf.A + ∑ i ∈ Finset.range pf.Params.N, ((y ^ i)⁻¹ * (wAt m bits z i - z ^ 2 * 2 ^ i)) • (L.denV pf.Params.Hh).getD i 0) +
        x • L.den pf.S - z • (L.denV pf.Params.Gg).sum +
        msm ((List.zipWith (fun (i : ℕ) m => (y⁻¹ ^ i) • m) (List.range pf.Params.N) (L.denV pf.Params.Hh)))
          ((List.range pf.Params.N).map (fun i => z * y ^ i + z ^ 2 * 2 ^ i))) ∧
    pf.InnerProductProof.verify sha = some true := by
  subst hm hb
  have hs := h
  unfold MultiBulletProof.verifyC at h
  unbind h with c ec
  have ec' := ec
  unfold MultiBulletProof.checksC at ec
  dsimp only at ec
  split at ec
  · simp at ec
  rename_i hm0
  unbind ec with hp e1
  unbind ec with tp' e2
  unbind ec with tx' e3
  unbind ec with dl e4
  unbind ec with gp e5
  unbind ec with he e6
  unbind ec with pr e7
  unbind ec with mu' e8
  unbind ec with ok e9
  clear ec
  obtain ⟨c', hc', h65, h67, h68⟩ := L.multiChecksC_core ch pf hV sha hm0 hp tp tx mu ok e1 h2 h3 h4 e9 y z x hy hz hx
  rw [ec'] at hc'
  obtain rfl := Option.some.inj hc'
  simp only [Option.some.injEq, Bool.and_eq_true] at h
  obtain ⟨⟨k1, k2⟩, k3⟩ := h
  have c1 := h65.mp k1
  have c2 := h67.mp k2
  rw [h68] at k3
  obtain ⟨npos, _, _, yi, hyi, hden⟩ := L.updateGenerators_spec hV.lenH hV.Hh e1
  have hH : (L.denV pf.Params.Hh).length = pf.Params.N := by simp [hV.lenH]
  have f1 : (List.zipWith (fun c m => c • m) (pows yi pf.Params.N) (L.denV pf.Params.Hh)) =
      List.zipWith (fun c m => c • m) (pows y⁻¹ pf.Params.N) (L.denV pf.Params.Hh) := by
    rcases Nat.lt_or_ge pf.Params.N 2 with hlt | hge
    · have : pf.Params.N = 1 := by omega
      rw [this]
      simp [pows]
    · have : yi = y⁻¹ := by
        have := hyi hge
        rw [← hy] at this
        exact eq_inv_of_mul_eq_one_right this
      rw [this]
  rw [f1] at hden
  have hlen : (L.denV hp).length = pf.Params.N := by rw [hden]; simp [pows_length, hV.lenH]
  refine ⟨hm0, ?_, ?_, by rw [e9, k3]⟩
  · rw [c1]
    have s1 : msm (L.denV pf.Vs) (zpows z 0 pf.Vs.length) =
        ∑ j ∈ Finset.range pf.Vs.length, z ^ (j + 2) • (L.denV pf.Vs).getD j 0 := by
      unfold zpows
      rw [msm_range _ _ _ _ (by simp)]
      simp
    have s2 : (pows y pf.Params.N).sum = ∑ i ∈ Finset.range pf.Params.N, y ^ i := sum_map_range _ _
    have s3 : z * (blocksMul (pf.Params.N / pf.Vs.length) (zpows z 0 pf.Vs.length)).sum =
        ∑ j ∈ Finset.range pf.Vs.length, z ^ (j + 3) * ∑ i ∈ Finset.range (pf.Params.N / pf.Vs.length), 2 ^ i := by
      rw [blocksMul_sum, ← mul_assoc, mul_comm z, zpows_sum_succ, ← List.range_eq_range', sum_map_range, pows,
        sum_map_range, Finset.sum_mul]
    rw [s1, s2, s3]
    rfl
  · rw [c2]
    have s1 : msm (L.denV hp) (List.zipWith (· * ·) (pows y pf.Params.N) (List.replicate pf.Params.N z)) =
        ∑ i ∈ Finset.range pf.Params.N, (z * y ^ i) • y⁻¹ ^ i • (L.denV pf.Params.Hh).getD i 0 := by
      have : List.zipWith (· * ·) (pows y pf.Params.N) (List.replicate pf.Params.N z) =
          (List.range' 0 pf.Params.N).map (fun i => z * y ^ i) := by
        rw [← List.range_eq_range']
        apply List.ext_getElem
        · simp [pows_length]
        · intro i h1 h2; simp [pows, mul_comm]
      rw [this, msm_range _ _ _ _ hlen.ge, hden]
      simp only [Nat.zero_add, getD_scaled _ _ _ hH]
    have s2 : msm (L.denV hp) (blocksMul (pf.Params.N / pf.Vs.length) (zpows z 0 pf.Vs.length)) =
        ∑ i ∈ Finset.range pf.Params.N, wAt pf.Vs.length (pf.Params.N / pf.Vs.length) z i • y⁻¹ ^ i •
          (L.denV pf.Params.Hh).getD i 0 := by
      rw [blocksMul_eq, msm_blocks _ _ _ _ _ (by rw [hlen]; exact Nat.mul_div_le _ _), hden,
        sum_wAt (Nat.mul_div_le pf.Params.N pf.Vs.length) z fun i => y⁻¹ ^ i • (L.denV pf.Params.Hh).getD i 0]
      simp only [Nat.zero_add, getD_scaled _ _ _ hH, mul_comm]
    have s3 : msm ((List.zipWith (fun (i : ℕ) m => (y⁻¹ ^ i) • m) (List.range pf.Params.N) (L.denV pf.Params.Hh)))
          ((List.range pf.Params.N).map (fun i => z * y ^ i + z ^ 2 * 2 ^ i)) =
        ∑ i ∈ Finset.range pf.Params.N, (z * y ^ i + z ^ 2 * 2 ^ i) • y⁻¹ ^ i • (L.denV pf.Params.Hh).getD i 0 := by
      have e : List.zipWith (fun (i : ℕ) m => (y⁻¹ ^ i) • m) (List.range pf.Params.N) (L.denV pf.Params.Hh) =
          List.zipWith (fun c m => c • m) (pows y⁻¹ pf.Params.N) (L.denV pf.Params.Hh) := by
        unfold pows
        rw [List.zipWith_map_left]
      rw [e, List.range_eq_range', msm_range _ _ _ _ (by simp [pows_length, hV.lenH])]
      simp only [Nat.zero_add, getD_scaled _ _ _ hH]
    have key : ∑ i ∈ Finset.range pf.Params.N, (z * y ^ i) • y⁻¹ ^ i • (L.denV pf.Params.Hh).getD i 0 +
        ∑ i ∈ Finset.range pf.Params.N, wAt pf.Vs.length (pf.Params.N / pf.Vs.length) z i • y⁻¹ ^ i •
          (L.denV pf.Params.Hh).getD i 0 =
        ∑ i ∈ Finset.range pf.Params.N, ((y ^ i)⁻¹ * (wAt pf.Vs.length (pf.Params.N / pf.Vs.length) z i - z ^ 2 * 2 ^ i)) •
          (L.denV pf.Params.Hh).getD i 0 +
        ∑ i ∈ Finset.range pf.Params.N, (z * y ^ i + z ^ 2 * 2 ^ i) • y⁻¹ ^ i • (L.denV pf.Params.Hh).getD i 0 := by
      rw [← Finset.sum_add_distrib, ← Finset.sum_add_distrib]
      refine Finset.sum_congr rfl fun i _ => ?_
      rw [inv_pow]
      module
    rw [s1, s2, s3, key]
    abel

end

/-! ## Newton's divided differences -/

section
variable {F V W : Type} [Field F] [AddCommGroup V] [Module F V] [AddCommGroup W] [Module F W]

/-- value of the polynomial with these coefficients -/
def evalV (x : F) : List V → V
  | [] => 0
  | c :: cs => c + x • evalV x cs

/-- coefficients of the quotient by `X - z` -/
def quotV (z : F) : List V → List V
  | [] => []
  | [_] => []
  | _ :: c :: cs => evalV z (c :: cs) :: quotV z (c :: cs)

theorem quotV_length (z : F) : ∀ cs : List V, (quotV z cs).length = cs.length - 1
  | [] => rfl
  | [_] => rfl
  | _ :: c :: cs => by simp [quotV, quotV_length z (c :: cs)]

theorem evalV_quot (z x : F) : ∀ cs : List V, evalV x cs - evalV z cs = (x - z) • evalV x (quotV z cs)
  | [] => by simp [evalV, quotV]
  | [c] => by simp [evalV, quotV]
  | b :: c :: cs => by
    have ih := evalV_quot z x (c :: cs)
    change b + x • evalV x (c :: cs) - (b + z • evalV z (c :: cs)) =
      (x - z) • (evalV z (c :: cs) + x • evalV x (quotV z (c :: cs)))
    have e : b + x • evalV x (c :: cs) - (b + z • evalV z (c :: cs)) =
        x • (evalV x (c :: cs) - evalV z (c :: cs)) + (x - z) • evalV z (c :: cs) := by module
    rw [e, ih]
    module

theorem mulAdd_quot (z : F) : ∀ (c : V) (cs : List V), mulAdd z (evalV z (c :: cs)) (quotV z (c :: cs)) = c :: cs
  | c, [] => by simp [quotV, mulAdd, evalV]
  | b, c :: cs => by
    rw [quotV, mulAdd, mulAdd_quot z c cs, evalV]
    simp

/-- the points determine the coefficients -/
theorem newton_unique : ∀ (m : ℕ) (p : ℕ → F × V) (cs : List V), cs.length = m →
    (∀ i < m, ∀ j < m, (p i).1 = (p j).1 → i = j) → (∀ i < m, (p i).2 = evalV (p i).1 cs) → newton m p = cs
  | 0, p, cs, hl, _, _ => (List.length_eq_zero_iff.mp hl).symm
  | m + 1, p, [], hl, _, _ => by simp at hl
  | m + 1, p, c :: cs, hl, hd, hv => by
    rw [newton, newton_unique m _ (quotV (p 0).1 (c :: cs)) (by rw [quotV_length]; simpa using hl), hv 0 (by omega), mulAdd_quot]
    · exact fun i hi j hj h => by have := hd (i + 1) (by omega) (j + 1) (by omega) h; omega
    · intro i hi
      have hne : (p (i + 1)).1 - (p 0).1 ≠ 0 := sub_ne_zero.mpr fun h => by
        have := hd (i + 1) (by omega) 0 (by omega) h; omega
      dsimp only
      rw [hv (i + 1) (by omega), hv 0 (by omega), evalV_quot, smul_smul, inv_mul_cancel₀ hne, one_smul]

theorem mulAdd_map (f : V →ₗ[F] W) (z : F) : ∀ (c : V) (cs : List V), (mulAdd z c cs).map f = mulAdd z (f c) (cs.map f)
  | c, [] => rfl
  | c, b :: bs => by simp [mulAdd, mulAdd_map f z b bs]

theorem newton_map (f : V →ₗ[F] W) : ∀ (m : ℕ) (p : ℕ → F × V), (newton m p).map f = newton m fun i => ((p i).1, f (p i).2)
  | 0, p => rfl
  | m + 1, p => by
    rw [newton, mulAdd_map, newton_map f m, newton]
    simp

theorem mulAdd_length (z : F) : ∀ (c : V) (cs : List V), (mulAdd z c cs).length = cs.length + 1
  | c, [] => rfl
  | c, b :: bs => by simp [mulAdd, mulAdd_length z b bs]

theorem newton_length : ∀ (m : ℕ) (p : ℕ → F × V), (newton m p).length = m
  | 0, p => rfl
  | m + 1, p => by rw [newton, mulAdd_length, newton_length]

theorem evalV_ofFn (x : F) : ∀ (m : ℕ) (f : ℕ → V), evalV x ((List.range m).map f) = ∑ j ∈ Finset.range m, x ^ j • f j := by
  intro m
  induction m with
  | zero => intro f; simp [evalV]
  | succ m ih =>
    intro f
    rw [List.range_succ_eq_map, List.map_cons, List.map_map, evalV, ih, Finset.sum_range_succ', add_comm, Finset.smul_sum]
    simp [pow_succ', mul_smul]

end

/-! ## The equations at the nodes -/

section
variable {F M : Type} [Field F] [AddCommGroup M] [Module F M]

/-- the combination for several values and that for one -/
theorem asOne_comb_val {n m bits : ℕ} (G H U : M) (g h : ℕ → M) {y z : F} {a : BpAns F} {A : M} {x : F} {S : M}
    (e : (a.comb y z).val n G H U g h =
      (A + ∑ i ∈ Finset.range n, ((y ^ i)⁻¹ * (wAt m bits z i - z ^ 2 * 2 ^ i)) • h i) + x • S) :
    ((a.asOne m bits z).comb y z).val n G H U g h = A + x • S := by
  have : ((a.asOne m bits z).comb y z).val n G H U g h = (a.comb y z).val n G H U g h -
      ∑ i ∈ Finset.range n, ((y ^ i)⁻¹ * (wAt m bits z i - z ^ 2 * 2 ^ i)) • h i := by
    simp only [GComb.val, BpAns.comb, BpAns.asOne]
    rw [add_sub_assoc, ← Finset.sum_sub_distrib]
    congr 1
    refine Finset.sum_congr rfl fun i _ => ?_
    module
  rw [this, e]
  abel

theorem openSum_val {n m bits : ℕ} (G H : M) {y z : F} {a : Fin 3 → BpAns F} (hd : ∀ i j, (a i).x = (a j).x → i = j) {C T1 T2 : M}
    (e : ∀ i, (a i).tp • G + (a i).tx • H = C + deltaM n m bits y z • G + (a i).x • T1 + (a i).x ^ 2 • T2) :
    (openSum n m bits y z a).1 • G + (openSum n m bits y z a).2 • H = C := by
  have h01 : (a 0).x ≠ (a 1).x := fun h => absurd (hd _ _ h) (by decide)
  have h02 : (a 0).x ≠ (a 2).x := fun h => absurd (hd _ _ h) (by decide)
  have h12 : (a 1).x ≠ (a 2).x := fun h => absurd (hd _ _ h) (by decide)
  have he := atZero_smul G H h01 h02 h12 (e 0) (e 1) (e 2)
  unfold openSum
  dsimp only
  rw [sub_smul, sub_add_eq_add_sub, he, add_sub_cancel_right]

/-- all candidates are relations -/
theorem nodeRelsM_val {n m bits : ℕ} (G H U : M) (g h : ℕ → M) {o : ℕ → F × F} {y₀ z₀ y z : F} {a₀ a : Fin 3 → BpAns F}
    (hd₀ : ∀ i j, (a₀ i).x = (a₀ j).x → i = j) (hd : ∀ i j, (a i).x = (a j).x → i = j) {A S T1 T2 : M} {V : ℕ → M}
    (ho : ∀ j < m, (o j).1 • G + (o j).2 • H = V j)
    (e₀ : ∀ i, (((a₀ i).asOne m bits z₀).comb y₀ z₀).val n G H U g h = A + (a₀ i).x • S)
    (e : ∀ i, (((a i).asOne m bits z).comb y z).val n G H U g h = A + (a i).x • S)
    (f : ∀ i, (a i).tp • G + (a i).tx • H =
      ∑ j ∈ Finset.range m, z ^ (j + 2) • V j + deltaM n m bits y z • G + (a i).x • T1 + (a i).x ^ 2 • T2) :
    ∀ w ∈ nodeRelsM n m bits o y₀ z₀ a₀ y z a, w.val n G H U g h = 0 := by
  have hA := combA_val n G H U g h (a := (a 0).asOne m bits z) (b := (a 1).asOne m bits z)
    (fun hx => absurd (hd 0 1 hx) (by decide)) (e 0) (e 1)
  have hS := combS_val n G H U g h (a := (a 0).asOne m bits z) (b := (a 1).asOne m bits z)
    (fun hx => absurd (hd 0 1 hx) (by decide)) (e 0) (e 1)
  have hA₀ := combA_val n G H U g h (a := (a₀ 0).asOne m bits z₀) (b := (a₀ 1).asOne m bits z₀)
    (fun hx => absurd (hd₀ 0 1 hx) (by decide)) (e₀ 0) (e₀ 1)
  have hS₀ := combS_val n G H U g h (a := (a₀ 0).asOne m bits z₀) (b := (a₀ 1).asOne m bits z₀)
    (fun hx => absurd (hd₀ 0 1 hx) (by decide)) (e₀ 0) (e₀ 1)
  have hV := openSum_val G H hd f
  intro w hw
  unfold nodeRelsM at hw
  simp only [List.mem_cons, List.not_mem_nil, or_false] at hw
  rcases hw with rfl | rfl | rfl | rfl
  · rw [GComb.val_sub, GComb.val_add, GComb.val_smul, hA, hS, e 2]
    exact sub_self _
  · rw [GComb.val_sub, hA, hA₀, sub_self]
  · rw [GComb.val_sub, hS, hS₀, sub_self]
  · simp only [GComb.val, Pi.zero_apply, zero_smul, Finset.sum_const_zero, add_zero]
    have e1 : (∑ j ∈ Finset.range m, z ^ (j + 2) * (o j).1) • G + (∑ j ∈ Finset.range m, z ^ (j + 2) * (o j).2) • H =
        ∑ j ∈ Finset.range m, z ^ (j + 2) • V j := by
      rw [Finset.sum_smul, Finset.sum_smul, ← Finset.sum_add_distrib]
      refine Finset.sum_congr rfl fun j hj => ?_
      rw [← ho j (Finset.mem_range.mp hj)]
      module
    rw [sub_smul, sub_smul, sub_add_sub_comm, e1, hV, sub_self]

/-- the answers of a node when no relation was found -/
theorem node_answersM {n m bits : ℕ} {o : ℕ → F × F} {y₀ z₀ y z : F} {a₀ a : Fin 3 → BpAns F} (hy : y ≠ 0)
    (hd : ∀ i j, (a i).x = (a j).x → i = j)
    (hz : ∀ w ∈ nodeRelsM n m bits o y₀ z₀ a₀ y z a, w.Zero n) (aL aR sL sR : ℕ → F)
    (hL : aL = (combA y₀ z₀ ((a₀ 0).asOne m bits z₀) ((a₀ 1).asOne m bits z₀)).2.1)
    (hR : aR = (combA y₀ z₀ ((a₀ 0).asOne m bits z₀) ((a₀ 1).asOne m bits z₀)).2.2)
    (hsL : sL = (combS y₀ z₀ ((a₀ 0).asOne m bits z₀) ((a₀ 1).asOne m bits z₀)).2.1)
    (hsR : sR = (combS y₀ z₀ ((a₀ 0).asOne m bits z₀) ((a₀ 1).asOne m bits z₀)).2.2) (i : Fin 3) (t : ℕ) (ht : t < n) :
    (a i).l t = aL t - z + (a i).x * sL t ∧ (a i).r t = y ^ t * (aR t + z + (a i).x * sR t) + wAt m bits z t := by
  obtain ⟨r1, r2, r3, _⟩ : _ ∧ _ ∧ _ ∧ _ := by simpa [nodeRelsM] using hz
  set b := fun i => (a i).asOne m bits z with hb
  change ((combA y z (b 0) (b 1) + (b 2).x • combS y z (b 0) (b 1) - (b 2).comb y z : GComb F)).Zero n at r1
  obtain ⟨s0, s1⟩ := comb_split (y := y) (z := z) (show (b 0).x ≠ (b 1).x from fun hx => absurd (hd 0 1 hx) (by decide))
  obtain ⟨u1, u2⟩ := zero_sub_iff r2
  obtain ⟨v1, v2⟩ := zero_sub_iff r3
  obtain ⟨t1, t2⟩ := zero_sub_iff r1
  have key : ((b i).comb y z).2.1 t = (combA y z (b 0) (b 1)).2.1 t + (b i).x * (combS y z (b 0) (b 1)).2.1 t ∧
      ((b i).comb y z).2.2 t = (combA y z (b 0) (b 1)).2.2 t + (b i).x * (combS y z (b 0) (b 1)).2.2 t := by
    fin_cases i
    · exact ⟨congrFun (congrArg (fun w : GComb F => w.2.1) s0) t, congrFun (congrArg (fun w : GComb F => w.2.2) s0) t⟩
    · exact ⟨congrFun (congrArg (fun w : GComb F => w.2.1) s1) t, congrFun (congrArg (fun w : GComb F => w.2.2) s1) t⟩
    · exact ⟨(t1 t ht).symm, (t2 t ht).symm⟩
  obtain ⟨k1, k2⟩ := key
  rw [u1 t ht, v1 t ht, ← hL, ← hsL] at k1
  rw [u2 t ht, v2 t ht, ← hR, ← hsR] at k2
  simp only [BpAns.comb, BpAns.asOne, hb] at k1 k2
  have hp : y ^ t ≠ 0 := pow_ne_zero t hy
  refine ⟨by linear_combination k1, ?_⟩
  have : (a i).r t - wAt m bits z t = y ^ t * ((y ^ t)⁻¹ * ((a i).r t - wAt m bits z t)) := by
    rw [← mul_assoc, mul_inv_cancel₀ hp, one_mul]
  linear_combination this + y ^ t * k2

/-- the equation at one node -/
def nodeEqM (n m bits : ℕ) (v : ℕ → F) (aL aR : ℕ → F) (y z : F) : F :=
  (∑ i ∈ Finset.range n, aL i * aR i * y ^ i) + z * (∑ i ∈ Finset.range n, (aL i - aR i - 1) * y ^ i) +
    ∑ j ∈ Finset.range m, z ^ (j + 2) * ((∑ i ∈ Finset.range bits, aL (j * bits + i) * 2 ^ i) - v j)

theorem nodeEqM_form {n m bits : ℕ} (hb : m * bits ≤ n) (v aL aR : ℕ → F) (y z : F) : nodeEqM n m bits v aL aR y z =
    (∑ i ∈ Finset.range n, (aL i - z) * (y ^ i * (aR i + z) + wAt m bits z i)) - deltaM n m bits y z -
      ∑ j ∈ Finset.range m, z ^ (j + 2) * v j := by
  have h1 := sum_wAt (V := F) hb z aL
  have h2 := sum_wAt (V := F) hb z fun _ => (1 : F)
  simp only [smul_eq_mul, mul_one] at h1 h2
  have e1 : ∑ i ∈ Finset.range n, (aL i - z) * (y ^ i * (aR i + z) + wAt m bits z i) =
      (∑ i ∈ Finset.range n, aL i * aR i * y ^ i) + z * (∑ i ∈ Finset.range n, (aL i - aR i - 1) * y ^ i) +
      (z - z ^ 2) * (∑ i ∈ Finset.range n, y ^ i) + (∑ i ∈ Finset.range n, wAt m bits z i * aL i) -
      z * ∑ i ∈ Finset.range n, wAt m bits z i := by
    simp only [Finset.mul_sum, ← Finset.sum_add_distrib, ← Finset.sum_sub_distrib]
    exact Finset.sum_congr rfl fun i _ => by ring
  have e2 : ∑ j ∈ Finset.range m, z ^ (j + 3) * ∑ i ∈ Finset.range bits, (2 : F) ^ i =
      z * ∑ j ∈ Finset.range m, ∑ i ∈ Finset.range bits, z ^ (j + 2) * 2 ^ i := by
    simp only [Finset.mul_sum]
    exact Finset.sum_congr rfl fun j _ => Finset.sum_congr rfl fun i _ => by ring
  have e3 : ∑ j ∈ Finset.range m, z ^ (j + 2) * ((∑ i ∈ Finset.range bits, aL (j * bits + i) * 2 ^ i) - v j) =
      (∑ j ∈ Finset.range m, ∑ i ∈ Finset.range bits, z ^ (j + 2) * 2 ^ i * aL (j * bits + i)) -
        ∑ j ∈ Finset.range m, z ^ (j + 2) * v j := by
    rw [← Finset.sum_sub_distrib]
    refine Finset.sum_congr rfl fun j _ => ?_
    rw [mul_sub, Finset.mul_sum]
    congr 1
    exact Finset.sum_congr rfl fun i _ => by ring
  unfold nodeEqM deltaM
  rw [e1, e2, e3, h1, h2]
  ring

/-- at every node the equation holds, when no relation was found -/
theorem node_evalM {n m bits : ℕ} (hb : m * bits ≤ n) {o : ℕ → F × F} {y₀ z₀ y z : F} {a₀ a : Fin 3 → BpAns F} (hy : y ≠ 0)
    (hd : ∀ i j, (a i).x = (a j).x → i = j)
    (hz : ∀ w ∈ nodeRelsM n m bits o y₀ z₀ a₀ y z a, w.Zero n) (ht : ∀ i, (a i).tp = ∑ t ∈ Finset.range n, (a i).l t * (a i).r t) :
    nodeEqM n m bits (fun j => (o j).1) (combA y₀ z₀ ((a₀ 0).asOne m bits z₀) ((a₀ 1).asOne m bits z₀)).2.1
      (combA y₀ z₀ ((a₀ 0).asOne m bits z₀) ((a₀ 1).asOne m bits z₀)).2.2 y z = 0 := by
  obtain ⟨_, _, _, r4⟩ : _ ∧ _ ∧ _ ∧ _ := by simpa [nodeRelsM] using hz
  have hv : (∑ j ∈ Finset.range m, z ^ (j + 2) * (o j).1) = (openSum n m bits y z a).1 := sub_eq_zero.mp r4.1
  have h01 : (a 0).x ≠ (a 1).x := fun h => absurd (hd _ _ h) (by decide)
  have h02 : (a 0).x ≠ (a 2).x := fun h => absurd (hd _ _ h) (by decide)
  have h12 : (a 1).x ≠ (a 2).x := fun h => absurd (hd _ _ h) (by decide)
  have hans := node_answersM hy hd hz _ _ _ _ rfl rfl rfl rfl
  generalize (combA y₀ z₀ ((a₀ 0).asOne m bits z₀) ((a₀ 1).asOne m bits z₀)).2.1 = aL at hans ⊢
  generalize (combA y₀ z₀ ((a₀ 0).asOne m bits z₀) ((a₀ 1).asOne m bits z₀)).2.2 = aR at hans ⊢
  generalize (combS y₀ z₀ ((a₀ 0).asOne m bits z₀) ((a₀ 1).asOne m bits z₀)).2.1 = sL at hans
  generalize (combS y₀ z₀ ((a₀ 0).asOne m bits z₀) ((a₀ 1).asOne m bits z₀)).2.2 = sR at hans
  have ht' : ∀ i, (a i).tp = (∑ t ∈ Finset.range n, (aL t - z) * (y ^ t * (aR t + z) + wAt m bits z t)) +
      (a i).x * (∑ t ∈ Finset.range n, (sL t * (y ^ t * (aR t + z) + wAt m bits z t) + (aL t - z) * (y ^ t * sR t))) +
      (a i).x ^ 2 * ∑ t ∈ Finset.range n, sL t * (y ^ t * sR t) := by
    intro i
    rw [ht i, Finset.mul_sum, Finset.mul_sum, ← Finset.sum_add_distrib, ← Finset.sum_add_distrib]
    refine Finset.sum_congr rfl fun t hm => ?_
    rw [(hans i t (Finset.mem_range.mp hm)).1, (hans i t (Finset.mem_range.mp hm)).2]
    ring
  rw [nodeEqM_form hb, hv]
  unfold openSum
  dsimp only
  rw [ht' 0, ht' 1, ht' 2, atZero_poly h01 h02 h12]
  ring

theorem multiBits_of_nodes {n m bits : ℕ} (hn : 0 < n) {v aL aR : ℕ → F} (y : Fin n → F) (hy : Function.Injective y)
    (z : Fin n → Fin (m + 2) → F) (hz : ∀ j, Function.Injective (z j))
    (h : ∀ j l, nodeEqM n m bits v aL aR (y j) (z j l) = 0) : MultiBits n m bits v aL aR := by
  have q : ∀ j, (∑ i ∈ Finset.range n, aL i * aR i * y j ^ i) = 0 ∧ (∑ i ∈ Finset.range n, (aL i - aR i - 1) * y j ^ i) = 0 ∧
      ∀ t < m, (∑ i ∈ Finset.range bits, aL (t * bits + i) * 2 ^ i) - v t = 0 := by
    intro j
    have := coeffs_zero (m + 2) (fun i => match i with
      | 0 => ∑ i ∈ Finset.range n, aL i * aR i * y j ^ i
      | 1 => ∑ i ∈ Finset.range n, (aL i - aR i - 1) * y j ^ i
      | t + 2 => (∑ i ∈ Finset.range bits, aL (t * bits + i) * 2 ^ i) - v t) (z j) (hz j) (fun l => by
        rw [Finset.sum_range_succ', Finset.sum_range_succ', ← h j l]
        unfold nodeEqM
        have : ∀ k : ℕ, k + 1 + 1 = k + 2 := fun _ => rfl
        simp only [this, Nat.zero_add, pow_zero, mul_one, pow_one]
        have e : ∑ k ∈ Finset.range m, ((∑ i ∈ Finset.range bits, aL (k * bits + i) * 2 ^ i) - v k) * z j l ^ (k + 2) =
            ∑ k ∈ Finset.range m, z j l ^ (k + 2) * ((∑ i ∈ Finset.range bits, aL (k * bits + i) * 2 ^ i) - v k) :=
          Finset.sum_congr rfl fun k _ => mul_comm _ _
        rw [e]
        ring)
    exact ⟨this 0 (by omega), this 1 (by omega), fun t ht => this (t + 2) (by omega)⟩
  have h1 := coeffs_zero n _ y hy (fun j => (q j).1)
  have h2 := coeffs_zero n _ y hy (fun j => (q j).2.1)
  have hc : ∀ i < n, aR i = aL i - 1 := fun i hi => by linear_combination -h2 i hi
  refine ⟨fun i hi => ?_, hc, fun t ht => ?_⟩
  · have := h1 i hi
    rw [hc i hi] at this
    rcases mul_eq_zero.mp this with h | h
    · exact .inl h
    · exact .inr (by linear_combination h)
  · linear_combination -(q ⟨0, hn⟩).2.2 t ht

theorem MultiBits.nat {n m bits : ℕ} (hb : m * bits ≤ n) {v aL aR : ℕ → F} (h : MultiBits n m bits v aL aR) (j : ℕ) (hj : j < m) :
    ∃ u : ℕ, u < 2 ^ bits ∧ v j = (u : F) :=
  Bits.nat (n := bits) (aL := fun i => aL (j * bits + i)) (aR := fun i => aL (j * bits + i) - 1)
    ⟨fun i hi => h.bit _ (by
      have : (j + 1) * bits ≤ m * bits := Nat.mul_le_mul_right _ hj
      rw [Nat.succ_mul] at this
      omega), fun _ _ => rfl, h.value j hj⟩

end

/-! ## The honest prover -/

section
variable {E : Type} {q : ℕ} {M : Type} [AddCommGroup M] [Module (ZMod q) M]

theorem multiProveC_divides (ch : Challenges E) (params : BPParams E) (sha : Bytes → Bytes) (rnd : MultiRand) (secrets : List Int) (r)
    (hN : ∃ n : ℕ, params.GP.N = n) (h : multiProveC ch sha params rnd secrets = some r) :
    secrets.length ≠ 0 ∧ secrets.length * (params.N / secrets.length) = params.N := by
  unfold multiProveC at h
  dsimp only at h
  split at h
  · cases h
  rename_i hm
  refine ⟨hm, ?_⟩
  unbind h with A eA
  unbind h with S eS
  unbind h with z2v ez
  obtain ⟨n, hn⟩ := hN
  rw [hn] at ez
  exact (zPowersTimesTwo_spec ez).2.1

theorem multiProveC_exact (params : BPParams E) (L : Lawful params.GP q M) (k : ℕ) (hO : ParamsOK params L k) (ch : Challenges E)
    (sha : Bytes → Bytes) (rnd : MultiRand) (secrets : List Int) (pf : MultiBulletProof E) (gs : List Int)
    (lg : rnd.gammas.length = secrets.length) (lsL : rnd.sL.length = 2 ^ k) (lsR : rnd.sR.length = 2 ^ k)
    (h : multiProveC ch sha params rnd secrets = some (.ok (pf, gs))) :
    gs = rnd.gammas ∧ pf.Params = params ∧
    pf.Vs = List.zipWith (fun s g => pedersenCommit params.GP s g params.H) secrets rnd.gammas ∧
    pf.Consistent ch ∧
    ∀ z : ZMod q, z = (ch.z pf.A pf.S : Int) →
    ∃ b, pf.verifyC ch sha = some b ∧ (b = true ↔
        dot (castV q (secrets.map (fun v => v - v % 2 ^ (params.N / secrets.length)))) (zpows z 0 secrets.length) • L.g = 0) := by
  have hN := hO.N
  obtain ⟨hm, hbits⟩ := multiProveC_divides ch params sha rnd secrets _ ⟨q, L.N_eq⟩ h
  obtain ⟨bits, hbt⟩ : ∃ bits, params.N / secrets.length = bits := ⟨_, rfl⟩
  unfold multiProveC at h
  rw [if_neg hm] at h
  dsimp only at h
  rw [hbt] at h hbits ⊢
  obtain ⟨aL, haL⟩ : ∃ aL, (secrets.map (fun s => decompose s 2 bits)).flatten = aL := ⟨_, rfl⟩
  have lL : aL.length = params.N := by rw [← haL, digits_length, hbits]
  have hAR := digits_AR bits secrets
  rw [haL] at hAR
  have e1 : concatPad params.N (secrets.map (fun s => decompose s 2 bits)) = aL := by
    rw [concatPad_full _ _ (by rw [haL, lL]), haL]
  have e2 : concatPad params.N ((secrets.map (fun s => decompose s 2 bits)).map computeAR) = aL.map (· - 1) := by
    rw [concatPad_full _ _ (by rw [hAR, List.length_map, lL]), hAR]
  rw [e1, e2] at h
  obtain ⟨aR, haR⟩ : ∃ aR, aL.map (· - 1) = aR := ⟨_, rfl⟩
  rw [haR] at h
  have lR : aR.length = params.N := by rw [← haR, List.length_map, lL]
  unbind h with A eA
  unbind h with S eS
  obtain ⟨yi, hyi⟩ : ∃ yi, ch.y A S = yi := ⟨_, rfl⟩
  obtain ⟨zi, hzi⟩ : ∃ zi, ch.z A S = zi := ⟨_, rfl⟩
  rw [hyi, hzi] at h
  unbind h with z2v ez
  unbind h with aLb eLb
  unbind h with aRb eRb
  obtain ⟨_, eLb⟩ := sliceTo_spec eLb
  obtain ⟨_, eRb⟩ := sliceTo_spec eRb
  rw [List.take_of_length_le lL.le] at eLb
  rw [List.take_of_length_le lR.le] at eRb
  subst eLb eRb
  unbind h with t1l et1l
  unbind h with t1r et1r
  unbind h with t2 et2
  have hNq := L.N_eq
  rw [L.N_eq] at et1l et1r et2
  have ct1l := vectorInnerProduct_spec et1l
  have ct1r := vectorInnerProduct_spec et1r
  have ct2 := vectorInnerProduct_spec et2
  rw [hNq] at ez
  obtain ⟨lz, _, cw⟩ := zPowersTimesTwo_spec ez
  obtain ⟨T1, hT1⟩ : ∃ T1, pedersenCommit params.GP ((t1l + t1r) % params.GP.N) rnd.tau1 params.H = T1 := ⟨_, rfl⟩
  obtain ⟨T2, hT2⟩ : ∃ T2, pedersenCommit params.GP t2 rnd.tau2 params.H = T2 := ⟨_, rfl⟩
  rw [hT1, hT2] at h
  obtain ⟨xi, hxi⟩ : ∃ xi, ch.x T1 T2 = xi := ⟨_, rfl⟩
  rw [hxi] at h
  obtain ⟨bl, hbl⟩ : ∃ bl, vectorAdd (vectorAddConst aLb (-zi) params.GP.N) (vectorScalarMul rnd.sL xi params.GP.N) params.GP.N = bl :=
    ⟨_, rfl⟩
  obtain ⟨br, hbr⟩ : ∃ br, vectorAdd (vectorMul (powerOf yi params.N params.GP.N)
    (vectorAdd (vectorAdd (vectorCopy zi params.N) aRb params.GP.N) (vectorScalarMul rnd.sR xi params.GP.N) params.GP.N)
    params.GP.N) z2v params.GP.N = br := ⟨_, rfl⟩
  rw [hbl, hbr] at h
  unbind h with th eth
  unbind h with hp ehp
  unbind h with ipp eipp
  have hNpos : ¬ ((params.N : Int) ≤ 0) := by rw [hN]; have := Nat.two_pow_pos k; omega
  unfold setupInnerProduct at eipp
  rw [if_neg hNpos] at eipp
  simp only [Option.bind_eq_bind, Option.bind_some] at eipp
  unbind eipp with Uu eU
  simp only [Option.some.injEq] at eipp
  subst eipp
  simp only at h
  unbind h with cm ecm
  unbind h with ipr eipr
  cases ipr with
  | error e => simp at h
  | ok ip =>
  simp only [Option.some.injEq, Except.ok.injEq, Prod.mk.injEq] at h
  obtain ⟨h, hgs⟩ := h
  obtain ⟨npos, lhp, vhp, yinv0, hyinv0, dhp0⟩ := L.updateGenerators_spec (by rw [hO.lenH, hN]) hO.Hh ehp
  obtain ⟨vA, dA⟩ := L.commitVector_spec (show aLb.length = params.N from lL) lR (by rw [hO.lenG, hN]) (by rw [hO.lenH, hN]) hO.Gg hO.Hh hO.H eA
  obtain ⟨vS, dS⟩ := L.commitVector_spec (lsL.trans hN.symm) (lsR.trans hN.symm) (by rw [hO.lenG, hN]) (by rw [hO.lenH, hN]) hO.Gg hO.Hh hO.H eS
  rw [← hN] at lsL lsR
  have lp : (powerOf yi params.N params.GP.N).length = params.N := powerOf_length _ _ _
  have lc : (vectorCopy zi params.N).length = params.N := by simp [vectorCopy]
  have l0 := vectorAddConst_len (c := -zi) (N := params.GP.N) lL
  have lsx := vectorScalarMul_len (c := xi) (N := params.GP.N) lsL
  have lrx := vectorScalarMul_len (c := xi) (N := params.GP.N) lsR
  have lzn := vectorAdd_len (N := params.GP.N) lc lR
  have ltm := vectorAdd_len (N := params.GP.N) lzn lrx
  have lym := vectorMul_len (N := params.GP.N) lp ltm
  have lbl : bl.length = params.N := hbl ▸ vectorAdd_len l0 lsx
  have lbr : br.length = params.N := hbr ▸ vectorAdd_len lym lz
  have lr0 := vectorMul_len (N := params.GP.N) lp lzn
  have cz : castV q (vectorAdd (vectorCopy zi params.N) aRb params.GP.N) = (castV q aRb).map ((zi : ZMod q) + ·) := by
    rw [hNq, cast_vectorAdd (lc.trans lR.symm), castV_replicate, ← lR]
    clear * -
    induction aRb with
    | nil => simp
    | cons a l ih => simp [List.replicate_succ, ih]
  obtain ⟨y, hydef⟩ : ∃ y : ZMod q, y = (yi : ZMod q) := ⟨_, rfl⟩
  obtain ⟨z, hzdef⟩ : ∃ z : ZMod q, z = (zi : ZMod q) := ⟨_, rfl⟩
  obtain ⟨x, hxdef⟩ : ∃ x : ZMod q, x = (xi : ZMod q) := ⟨_, rfl⟩
  obtain ⟨FL, hFL⟩ : ∃ F, castV q aLb = F := ⟨_, rfl⟩
  obtain ⟨FR, hFR⟩ : ∃ F, castV q aRb = F := ⟨_, rfl⟩
  obtain ⟨SL, hSL⟩ : ∃ F, castV q rnd.sL = F := ⟨_, rfl⟩
  obtain ⟨SR, hSR⟩ : ∃ F, castV q rnd.sR = F := ⟨_, rfl⟩
  obtain ⟨W, hW⟩ : ∃ W, blocksMul bits (zpows z 0 secrets.length) = W := ⟨_, rfl⟩
  rw [hFR, ← hzdef] at cz
  rw [← hzdef, hW] at cw
  have c1 : castV q bl = List.zipWith (· + ·) (FL.map (· + -z)) (SL.map (· * x)) := by
    rw [← hbl]; rw [hNq] at l0 lsx ⊢
    rw [cast_vectorAdd (l0.trans lsx.symm), cast_vectorAddConst, cast_vectorScalarMul, hFL, hSL, hzdef, hxdef]; push_cast; rfl
  have c2 : castV q br = List.zipWith (· + ·) (List.zipWith (· * ·) (pows y params.N)
      (List.zipWith (· + ·) (FR.map (z + ·)) (SR.map (· * x)))) W := by
    rw [← hbr, ← cz, ← cw]; rw [hNq] at lzn lrx lym lp ltm ⊢
    rw [cast_vectorAdd (lym.trans lz.symm), cast_vectorMul (lp.trans ltm.symm), cast_vectorAdd (lzn.trans lrx.symm),
      cast_vectorScalarMul (q := q) rnd.sR, powerOf_cast, hSR, hydef, hxdef]
  have c3 : castV q (vectorAdd (vectorMul (powerOf yi params.N params.GP.N) (vectorAdd (vectorCopy zi params.N) aRb params.GP.N)
      params.GP.N) z2v params.GP.N) =
      List.zipWith (· + ·) (List.zipWith (· * ·) (pows y params.N) (FR.map (z + ·))) W := by
    rw [← cz, ← cw]; rw [hNq] at lzn lp lr0 ⊢
    rw [cast_vectorAdd (lr0.trans lz.symm), cast_vectorMul (lp.trans lzn.symm), powerOf_cast, hydef]
  have c4 : castV q (vectorMul (powerOf yi params.N params.GP.N) rnd.sR params.GP.N) =
      List.zipWith (· * ·) (pows y params.N) SR := by
    rw [hNq] at lp ⊢
    rw [cast_vectorMul (lp.trans lsR.symm), powerOf_cast, hSR, hydef]
  have c5 : castV q (vectorAddConst aLb (-zi) params.GP.N) = FL.map (· + -z) := by
    rw [hNq, cast_vectorAddConst, hFL, hzdef]; push_cast; rfl
  rw [← hNq] at ct1l ct1r ct2
  rw [c3, hSL] at ct1l
  rw [c4, c5] at ct1r
  rw [c4, hSL] at ct2
  rw [hNq] at eth
  have cth := (scalarProduct_spec eth).2
  have fl : FL.length = params.N := by rw [← hFL, List.length_map, lL]
  have fr : FR.length = params.N := by rw [← hFR, List.length_map, lR]
  have sl : SL.length = params.N := by rw [← hSL, List.length_map, lsL]
  have sr : SR.length = params.N := by rw [← hSR, List.length_map, lsR]
  have wl : W.length = params.N := by rw [← hW, blocksMul_length, zpows_length, hbits]
  have vU := hO.U _ eU
  obtain ⟨gcm, hgcm⟩ := Lawful.vectorExp_isSome (GP := params.GP) (gs := params.Gg) (as := bl) (by rw [hO.lenG, lbl, hN])
  obtain ⟨hcm, hhcm⟩ := Lawful.vectorExp_isSome (GP := params.GP) (gs := hp) (as := br) (by rw [lhp, lbr])
  obtain ⟨_, vg, dg⟩ := L.vectorExp_spec hO.Gg hgcm
  obtain ⟨_, vh, dh⟩ := L.vectorExp_spec vhp hhcm
  have hcm' : cm = params.GP.add gcm hcm := by
    unfold commitInnerProduct at ecm
    simp only [hgcm, hhcm, Option.bind_eq_bind, Option.bind_some, Option.some.injEq] at ecm
    exact ecm.symm
  have vcm : L.V cm := hcm' ▸ L.V_add vg vh
  have dcm : L.den cm = msm (L.denV params.Gg) (castV q bl) + msm (L.denV hp) (castV q br) := by
    rw [hcm', L.den_add vg vh, dg, dh]
  obtain ⟨p1, p2, p3, _, _, _⟩ := ipp_honest_exact L sha k bl br cm th _ ip rfl (by rw [lbl, hN]) (by rw [lbr, hN]) hO.lenG
    (by simp [lhp, hN]) hO.Gg vhp vU vcm eipr
  obtain ⟨ipOK, _, _⟩ := C16_ipp_complete L sha k bl br cm th _ ip rfl (by rw [lbl, hN]) (by rw [lbr, hN]) hO.lenG
    (by simp [lhp, hN]) hO.Gg vhp vU vcm dcm (by rw [cth]) eipr
  rw [c1, c2] at cth
  subst h
  refine ⟨hgs.symm, rfl, rfl, ⟨by rw [p2], by rw [p3], by rw [p3], by rw [p3]; simp only [hyi]; exact ehp.symm, by rw [p3]; exact eU.symm⟩, ?_⟩
  intro z' hz'
  have hzz : z' = z := by rw [hz', hzdef]; simp only [hzi]
  clear hz'
  subst hzz
  rw [← hydef] at hyinv0
  have vT1 : L.V T1 := hT1 ▸ L.V_pedersen hO.H _ _
  have vT2 : L.V T2 := hT2 ▸ L.V_pedersen hO.H _ _
  have dT1 := L.den_pedersen hO.H ((t1l + t1r) % params.GP.N) rnd.tau1
  have dT2 := L.den_pedersen hO.H t2 rnd.tau2
  rw [hT1, L.cast_modN] at dT1
  rw [hT2] at dT2
  have vVs : ∀ v ∈ List.zipWith (fun s g => pedersenCommit params.GP s g params.H) secrets rnd.gammas, L.V v := by
    intro v hv
    rw [List.mem_iff_getElem] at hv
    obtain ⟨i, hi, rfl⟩ := hv
    rw [List.getElem_zipWith]
    exact L.V_pedersen hO.H _ _
  have lVs : (List.zipWith (fun s g => pedersenCommit params.GP s g params.H) secrets rnd.gammas).length = secrets.length := by
    simp [lg]
  have key := L.multiChecksC_core ch (q := q) (M := M) (MultiBulletProof.mk
      (List.zipWith (fun s g => pedersenCommit params.GP s g params.H) secrets rnd.gammas) A S T1 T2
      (some ((rnd.tau2 * (xi * xi) + rnd.tau1 * xi + (rnd.gammas.zipIdx).foldl (fun acc (gj : Int × Nat) =>
        (acc + gj.1 * (zi ^ (2 + gj.2) % params.GP.N)) % params.GP.N) 0) % params.GP.N))
      (some ((rnd.rho * xi + rnd.alpha) % params.GP.N)) (some th) ip params)
    ⟨vVs, vA, vS, vT1, vT2, hO.H, hO.Gg, hO.Hh, by simpa [p1] using vcm, by rw [hO.lenG, hO.N], by rw [hO.lenH, hO.N]⟩
    sha (by simpa only [lVs] using hm)
    hp th _ _ true (by simp only [hyi]; exact ehp) rfl rfl rfl ipOK y z' x (by simp only [hyi]; exact hydef) (by simp only [hzi]; exact hzdef)
    (by simp only [hxi]; exact hxdef)
  obtain ⟨c, hc, h65, h67, h68⟩ := key
  have k67 : c.c67 = true := by
    refine h67.mpr ?_
    simp only [lVs, hbt, p1]
    rw [dcm, c1, c2, msm_l z' x _ _ _ (by simp [hO.lenG, fl, hN]) (by simp [hO.lenG, sl, hN]),
      msm_add_right _ _ _ (by simp [pows_length, fr, sr, wl]), dhp0,
      msm_scaled y yinv0 params.N _ _ hyinv0 (by simp [hO.lenH, hN]) (by simp [fr, sr]),
      msm_scaled y yinv0 params.N _ _ hyinv0 (by simp [hO.lenH, hN]) (by simp),
      msm_add_right _ _ _ (by simp [fr, sr]), msm_map_mul, dA, dS, L.cast_modN, hFR, hSL, hSR]
    have hadd : (FR.map (z' + ·)) = List.zipWith (· + ·) (List.replicate params.N z') FR := by
      rw [← fr]
      clear * -
      induction FR with
      | nil => simp
      | cons a l ih => simp [List.replicate_succ, ih]
    rw [hadd, msm_add_right _ _ _ (by simp [fr])]
    rw [hW]
    push_cast
    rw [← hxdef]
    rw [hFL]
    module
  refine ⟨c.c65, ?_, h65.trans ?_⟩
  · unfold MultiBulletProof.verifyC
    rw [hc]
    simp [k67, h68]
  · simp only [lVs, hbt, hW]
    have htau : (((rnd.gammas.zipIdx).foldl (fun acc (gj : Int × Nat) =>
        (acc + gj.1 * (zi ^ (2 + gj.2) % params.GP.N)) % params.GP.N) 0 : Int) : ZMod q) =
        dot (castV q rnd.gammas) (zpows z' 0 secrets.length) := by
      rw [hNq, gammas_foldl, lg, ← hzdef]; simp
    have e65 : (th : ZMod q) = dot (castV q (secrets.map (· % 2 ^ bits))) (zpows z' 0 secrets.length) +
        ((z' - z' ^ 2) * (pows y params.N).sum - z' * W.sum) + x * (t1l + t1r) + x ^ 2 * t2 := by
      rw [cth, br_shape x _ _ _ _ (by simp [pows_length, fr]) (by simp [pows_length, sr]) (by simp [pows_length, wl]),
        dot_expand x _ _ _ _ (by simp [fl, sl]) (by simp [pows_length, fr, sr, wl]),
        bp_scalar' z' FL FR _ _ (fl.trans fr.symm) (by simp [pows_length, fl]) (fl.trans wl.symm), ← ct1l, ← ct1r, ← ct2]
      have hb := digits_bits bits secrets
      rw [haL] at hb
      have b1 := bits_dot_zero (pows y params.N) aLb hb
      have b2 := bits_dot_diff (pows y params.N) aLb (by rw [lL, pows_length])
      have b3 := digits_dot bits secrets (zpows z' 0 secrets.length) (by simp)
      rw [haR, hFL, hFR] at b1 b2
      rw [haL, hFL, hW] at b3
      rw [b1, b2, b3]
      ring
    have esub : dot (castV q (secrets.map (fun v => v - v % 2 ^ bits))) (zpows z' 0 secrets.length) =
        dot (castV q secrets) (zpows z' 0 secrets.length) -
          dot (castV q (secrets.map (· % 2 ^ bits))) (zpows z' 0 secrets.length) := by
      generalize zpows z' 0 secrets.length = cs
      clear * -
      induction secrets generalizing cs with
      | nil => simp
      | cons v vs ih => cases cs with
        | nil => simp
        | cons c cs =>
          have := ih cs
          simp only [castV, List.map_cons, dot_cons] at this ⊢
          rw [this]; push_cast; ring
    rw [L.denV_pedersens hO.H _ _ _ lg.symm, esub, L.cast_modN, dT1, dT2, e65]
    push_cast
    rw [htau, ← hxdef]
    constructor
    · intro h
      linear_combination (norm := module) -h
    · intro h
      linear_combination (norm := module) -h

end

end MscPoc
