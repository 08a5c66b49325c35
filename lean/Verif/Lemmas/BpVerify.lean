import Verif.Lemmas.BpModel

/-!
# `BulletProof.Verify` as equations
-/

set_option autoImplicit false

namespace MscPoc

variable {E : Type} {q : ℕ} {M : Type} [AddCommGroup M] [Module (ZMod q) M]

theorem hashBP_snd (sha : Bytes → Bytes) (GP : Grp E) (A S : E) :
    (hashBP sha GP A S).2 = roundChallenge sha GP A S := rfl

/-- elements and sizes of a range proof are legal -/
structure BPValid (pf : BulletProof E) (L : Lawful pf.Params.GP q M) : Prop where
  V : L.V pf.V
  A : L.V pf.A
  S : L.V pf.S
  T1 : L.V pf.T1
  T2 : L.V pf.T2
  H : L.V pf.Params.H
  Gg : ∀ e ∈ pf.Params.Gg, L.V e
  Hh : ∀ e ∈ pf.Params.Hh, L.V e
  P : L.V pf.InnerProductProof.P
  lenG : pf.Params.Gg.length = pf.Params.N
  lenH : pf.Params.Hh.length = pf.Params.N

theorem Lawful.bpVerify_core (pf : BulletProof E) (L : Lawful pf.Params.GP q M) (hV : BPValid pf L) (sha : Bytes → Bytes)
    (hp : List E) (tp tx mu : Int) (b : Bool)
    (h1 : updateGenerators pf.Params.GP pf.Params.Hh (roundChallenge sha pf.Params.GP pf.A pf.S) pf.Params.N = some hp)
    (h2 : pf.Tprime = some tp) (h3 : pf.Taux = some tx) (h4 : pf.Mu = some mu)
    (h5 : pf.InnerProductProof.verify sha = some b)
    (y x : ZMod q) (hy : y = (roundChallenge sha pf.Params.GP pf.A pf.S : Int))
    (hx : x = (roundChallenge sha pf.Params.GP pf.T1 pf.T2 : Int)) :
    ∃ v, pf.verify sha = some v ∧ (v = true ↔
      ((tp : ZMod q) • L.g + (tx : ZMod q) • L.den pf.Params.H =
        y ^ 2 • L.den pf.V + deltaSpec pf.Params.N y y • L.g + x • L.den pf.T1 + x ^ 2 • L.den pf.T2) ∧
      ((mu : ZMod q) • L.den pf.Params.H + L.den pf.InnerProductProof.P =
        L.den pf.A + x • L.den pf.S - y • (L.denV pf.Params.Gg).sum +
          msm (L.denV hp) (List.zipWith (· + ·)
            (List.zipWith (· * ·) (pows y pf.Params.N) (List.replicate pf.Params.N y))
            ((pows 2 pf.Params.N).map (· * (y * y))))) ∧
      b = true) := by
  obtain ⟨_, lhp, vhp, _⟩ := L.updateGenerators_spec hV.lenH hV.Hh h1
  obtain ⟨dlt, hd⟩ := delta_isSome pf.Params.N pf.Params.GP.N (roundChallenge sha pf.Params.GP pf.A pf.S)
    (roundChallenge sha pf.Params.GP pf.A pf.S)
  obtain ⟨gm, hgm⟩ := Lawful.vectorExp_isSome (GP := pf.Params.GP) (gs := pf.Params.Gg)
    (as := vectorCopy (pf.Params.GP.N - roundChallenge sha pf.Params.GP pf.A pf.S) pf.Params.N)
    (by simp [vectorCopy, hV.lenG])
  have ee : (pf.Params.N) = hp.length := lhp.symm
  set e0 := vectorAdd (vectorMul (powerOf (roundChallenge sha pf.Params.GP pf.A pf.S) pf.Params.N pf.Params.GP.N)
        (vectorCopy (roundChallenge sha pf.Params.GP pf.A pf.S) pf.Params.N) pf.Params.GP.N)
      (vectorScalarMul (powerOf 2 pf.Params.N pf.Params.GP.N)
        (roundChallenge sha pf.Params.GP pf.A pf.S * roundChallenge sha pf.Params.GP pf.A pf.S % pf.Params.GP.N)
        pf.Params.GP.N) pf.Params.GP.N with he0
  have lmul : (powerOf (roundChallenge sha pf.Params.GP pf.A pf.S) pf.Params.N pf.Params.GP.N).length =
      (vectorCopy (roundChallenge sha pf.Params.GP pf.A pf.S) pf.Params.N).length := by
    simp [powerOf_length, vectorCopy]
  have ladd : (vectorMul (powerOf (roundChallenge sha pf.Params.GP pf.A pf.S) pf.Params.N pf.Params.GP.N)
        (vectorCopy (roundChallenge sha pf.Params.GP pf.A pf.S) pf.Params.N) pf.Params.GP.N).length =
      (vectorScalarMul (powerOf 2 pf.Params.N pf.Params.GP.N)
        (roundChallenge sha pf.Params.GP pf.A pf.S * roundChallenge sha pf.Params.GP pf.A pf.S % pf.Params.GP.N)
        pf.Params.GP.N).length := by
    rw [vectorMul_eq lmul]
    simp [powerOf_length, vectorCopy, vectorScalarMul]
  have le0 : hp.length = e0.length := by
    rw [he0, vectorAdd_eq ladd, vectorMul_eq lmul]
    simp [powerOf_length, vectorCopy, vectorScalarMul, lhp]
  have ce0 : castV q e0 = List.zipWith (· + ·)
            (List.zipWith (· * ·) (pows y pf.Params.N) (List.replicate pf.Params.N y))
            ((pows 2 pf.Params.N).map (· * (y * y))) := by
    rw [he0]
    have hN := L.N_eq
    rw [hN] at ladd ⊢
    rw [hN] at lmul
    rw [cast_vectorAdd ladd, cast_vectorMul lmul, cast_vectorScalarMul, powerOf_cast, powerOf_cast, castV_replicate,
      cast_emod, hy]
    simp
  obtain ⟨he, hhe⟩ := Lawful.vectorExp_isSome (GP := pf.Params.GP) le0
  obtain ⟨_, vgm, dgm⟩ := L.vectorExp_spec hV.Gg hgm
  obtain ⟨_, vhe, dhe⟩ := L.vectorExp_spec vhp hhe
  have dgm' : L.den gm = -(y • (L.denV pf.Params.Gg).sum) := by
    rw [dgm, castV_replicate, ← hV.lenG, ← L.denV_length, msm_replicate, L.N_eq]
    push_cast
    rw [ZMod.natCast_self, zero_sub, neg_smul, hy]
  have dd : (dlt : ZMod q) = deltaSpec pf.Params.N y y := by
    rw [L.N_eq] at hd
    rw [delta_spec hd, hy]
  rw [ce0] at dhe
  refine ⟨(pf.Params.GP.isEqual (pf.Params.GP.add (pf.Params.GP.add (pf.Params.GP.add
      (pf.Params.GP.mul pf.V (roundChallenge sha pf.Params.GP pf.A pf.S * roundChallenge sha pf.Params.GP pf.A pf.S % pf.Params.GP.N))
      (pf.Params.GP.mulGen dlt))
      (pf.Params.GP.mul pf.T1 (roundChallenge sha pf.Params.GP pf.T1 pf.T2)))
      (pf.Params.GP.mul pf.T2 (roundChallenge sha pf.Params.GP pf.T1 pf.T2 * roundChallenge sha pf.Params.GP pf.T1 pf.T2 % pf.Params.GP.N)))
      (pedersenCommit pf.Params.GP tp tx pf.Params.H) &&
    pf.Params.GP.isIdentity (pf.Params.GP.sub
      (pf.Params.GP.add (pf.Params.GP.mul pf.Params.H mu) pf.InnerProductProof.P)
      (pf.Params.GP.add (pf.Params.GP.add (pf.Params.GP.add pf.A (pf.Params.GP.mul pf.S (roundChallenge sha pf.Params.GP pf.T1 pf.T2))) gm) he)) && b), ?_, ?_⟩
  · unfold BulletProof.verify
    simp only [hashBP_fst, hashBP_snd, h1, h2, h3, h4, h5, hd, hgm, Option.bind_eq_bind, Option.bind_some]
    rw [← he0, hhe]
    simp only [Option.bind_some]
  · simp only [Bool.and_eq_true]
    have v1 := L.V_mul (roundChallenge sha pf.Params.GP pf.A pf.S * roundChallenge sha pf.Params.GP pf.A pf.S % pf.Params.GP.N) hV.V
    have v2 := L.V_mulGen dlt
    have v3 := L.V_mul (roundChallenge sha pf.Params.GP pf.T1 pf.T2) hV.T1
    have v4 := L.V_mul (roundChallenge sha pf.Params.GP pf.T1 pf.T2 * roundChallenge sha pf.Params.GP pf.T1 pf.T2 % pf.Params.GP.N) hV.T2
    have v5 := L.V_mul (roundChallenge sha pf.Params.GP pf.T1 pf.T2) hV.S
    have w1 := L.V_add v1 v2
    have w2 := L.V_add w1 v3
    have w3 := L.V_add w2 v4
    have u1 := L.V_add hV.A v5
    have u2 := L.V_add u1 vgm
    have u3 := L.V_add u2 vhe
    have t1 := L.V_mul mu hV.H
    have t2 := L.V_add t1 hV.P
    rw [L.isEqual_iff w3 (L.V_pedersen hV.H tp tx), L.isIdentity_iff (L.V_sub t2 u3), L.den_sub t2 u3,
      L.den_pedersen hV.H, L.den_add w2 v4, L.den_add w1 v3, L.den_add v1 v2, L.den_mul _ hV.V, L.den_mulGen,
      L.den_mul _ hV.T1, L.den_mul _ hV.T2, L.den_add t1 hV.P, L.den_mul _ hV.H, L.den_add u2 vhe,
      L.den_add u1 vgm, L.den_add hV.A v5, L.den_mul _ hV.S, dhe, dgm', sub_eq_zero, L.cast_modN, L.cast_modN,
      Int.cast_mul, Int.cast_mul, ← hy, ← hx, dd, ← sub_eq_add_neg, and_assoc, ← pow_two, ← pow_two]
    constructor
    · rintro ⟨a, b, c⟩; exact ⟨a.symm, b, c⟩
    · rintro ⟨a, b, c⟩; exact ⟨a.symm, b, c⟩

end MscPoc
