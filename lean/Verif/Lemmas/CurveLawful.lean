import Verif.Lemmas.Curve

/-!
# `CurveOK` makes the wrapper group lawful; the constants of P-256, P-384, secp256k1
-/

set_option autoImplicit false

namespace MscPoc

open WeierstrassCurve

namespace CurveOK
variable {C : CirclCurve} (ok : CurveOK C)
include ok

theorem fact : Fact C.c.p.Prime := ⟨ok.p_prime⟩

theorem two_ne : (2 : ZMod C.c.p) ≠ 0 := by
  intro h
  have h' : ((2 : ℕ) : ZMod C.c.p) = 0 := by exact_mod_cast h
  rw [ZMod.natCast_eq_zero_iff] at h'
  have := Nat.le_of_dvd (by norm_num) h'
  have := ok.p_big
  omega

theorem gen_legal : WLegal C.c ⟨C.gx, C.gy⟩ := Or.inr ⟨ok.gx_lt, ok.gy_lt, ok.g_on⟩

theorem gen_ne : (⟨C.gx, C.gy⟩ : WPoint) ≠ ⟨0, 0⟩ := by
  have := ok.fact
  intro h
  have h1 := ok.g_on
  rw [h, onCurve_zmod] at h1
  apply ok.noroot 0
  rw [← sub_eq_zero] at h1
  simp only [Nat.cast_zero] at h1
  linear_combination -h1

end CurveOK

/-- `CurveOK` plus: the order annihilates the base point -/
structure CurveOrd (C : CirclCurve) : Prop extends CurveOK C where
  fact' : Fact C.c.p.Prime
  ann : C.n • wDen C.c ⟨C.gx, C.gy⟩ = 0

namespace CurveOrd
variable {C : CirclCurve} (ok : CurveOrd C)

theorem card : haveI := ok.fact'
    Nat.card (WGroup C.c) = C.n := by
  have := ok.fact'
  have hne : wDen C.c ⟨C.gx, C.gy⟩ ≠ 0 := by
    rcases ok.gen_legal.cases ok.noroot ok.two_ne with ⟨h, _⟩ | ⟨_, _, _, hn, d⟩
    · exact absurd h ok.gen_ne
    · rw [d]; exact Affine.Point.some_ne_zero _
  refine sw_card ok.two_ne ok.noroot ok.n_prime ?_ _ hne ok.ann
  rw [Nat.card_zmod]
  exact ok.bound

theorem gen_den_ne : haveI := ok.fact'
    wDen C.c ⟨C.gx, C.gy⟩ ≠ 0 := by
  have := ok.fact'
  rcases ok.gen_legal.cases ok.noroot ok.two_ne with ⟨h, _⟩ | ⟨_, _, _, hn, d⟩
  · exact absurd h ok.gen_ne
  · rw [d]; exact Affine.Point.some_ne_zero _

theorem nsmul_eq : haveI := ok.fact'
    ∀ P : WGroup C.c, C.n • P = 0 := by
  have := ok.fact'
  intro P
  have h := card_nsmul_eq_zero' (x := P)
  rwa [ok.card] at h

/-- the curve group as a vector space over the scalars -/
@[reducible] noncomputable def module : haveI := ok.fact'
    Module (ZMod C.n) (WGroup C.c) :=
  haveI := ok.fact'
  AddCommGroup.zmodModule ok.nsmul_eq

theorem wMul_spec {P : WPoint} (hP : WLegal C.c P) (s : Int) : haveI := ok.fact'
    WLegal C.c (wMul C P s) ∧ wDen C.c (wMul C P s) = s • wDen C.c P := by
  have := ok.fact'
  have hn : (0 : Int) < C.n := by exact_mod_cast ok.n_prime.pos
  obtain ⟨l, d⟩ := wMulGo_spec ok.noroot ok.two_ne hP ((s % C.n).toNat.log2 + 1) (s % C.n).toNat Nat.lt_log2_self
  refine ⟨l, ?_⟩
  show wDen C.c (wMulGo C.c ((s % C.n).toNat.log2 + 1) (s % C.n).toNat P) = _
  rw [d, ← natCast_zsmul, Int.toNat_of_nonneg (Int.emod_nonneg s hn.ne')]
  conv_rhs => rw [← Int.emod_add_mul_ediv s C.n, add_zsmul, mul_comm, mul_zsmul, natCast_zsmul, ok.nsmul_eq, zsmul_zero,
    add_zero]

/-- The wrapper group over a correct library is lawful. -/
noncomputable def lawful :
    haveI := ok.fact'
    letI := ok.module
    Lawful (circlGrp C) C.n (WGroup C.c) :=
  haveI := ok.fact'
  letI := ok.module
  { V := WLegal C.c
    den := wDen C.c
    N_eq := rfl
    V_gen := ok.gen_legal
    V_ident := Or.inl rfl
    den_ident := wDen_zero
    V_add := fun ha hb => (wAdd_spec ok.noroot ok.two_ne ha hb).1
    den_add := fun ha hb => (wAdd_spec ok.noroot ok.two_ne ha hb).2
    V_neg := fun ha => (wNeg_spec ok.noroot ok.two_ne ha).1
    den_neg := fun ha => (wNeg_spec ok.noroot ok.two_ne ha).2
    V_scale := fun ha => (ok.wMul_spec ha _).1
    den_scale := fun ha => by
      rw [Int.cast_smul_eq_zsmul]
      exact (ok.wMul_spec ha _).2
    V_baseScale := (ok.wMul_spec ok.gen_legal _).1
    den_baseScale := by
      intro _ s
      rw [Int.cast_smul_eq_zsmul]
      exact (ok.wMul_spec ok.gen_legal _).2
    isEqual_iff := by
      intro a b ha hb
      constructor
      · intro h
        simp only [circlGrp, Bool.and_eq_true, beq_iff_eq] at h
        cases a; cases b
        simp only at h
        rw [h.1, h.2]
      · intro h
        have := wDen_inj ok.noroot ok.two_ne ha hb h
        subst this
        simp [circlGrp]
    isIdentity_iff := by
      intro a ha
      constructor
      · intro h
        simp only [circlGrp, Bool.and_eq_true, beq_iff_eq] at h
        cases a
        simp only at h
        rw [h.1, h.2]; exact wDen_zero
      · intro h
        have := wDen_inj ok.noroot ok.two_ne ha (Or.inl rfl) (h.trans wDen_zero.symm)
        subst this
        simp [circlGrp] }

end CurveOrd

/-- all side conditions that are computations -/
def curveChecks (p b gx gy n fuel : ℕ) (v : ℕ × ℕ × ℕ) : Bool :=
  Nat.blt 3 p && Nat.blt (2 * p + 1) (3 * n) && Nat.blt p (2 ^ fuel) && Nat.blt n (2 ^ fuel) &&
  cubCheck p (p - 3) b fuel v && Nat.blt gx p && Nat.blt gy p &&
  Nat.beq ((gy * gy + 3 * gx) % p) ((gx * gx * gx + b) % p) && jacCheck p (p - 3) gx gy fuel (n - 1)

theorem curveOrd_of_checks {C : CirclCurve} (hp : C.c.p.Prime) (hn : C.n.Prime) (fuel : ℕ)
    (v : ℕ × ℕ × ℕ) (h : curveChecks C.c.p C.c.b C.gx C.gy C.n fuel v = true) : CurveOrd C := by
  unfold curveChecks at h
  simp only [Bool.and_eq_true, Nat.blt_eq] at h
  obtain ⟨⟨⟨⟨⟨⟨⟨⟨h3, hb⟩, hfp⟩, hfn⟩, hroot⟩, hx⟩, hy⟩, hg'⟩, hord⟩ := h
  replace hg' := Nat.eq_of_beq_eq_true hg'
  have hg : C.c.onCurve ⟨C.gx, C.gy⟩ = true := by
    rw [onCurve_zmod]
    have e : ((C.gy * C.gy + 3 * C.gx : ℕ) : ZMod C.c.p) = ((C.gx * C.gx * C.gx + C.c.b : ℕ) : ZMod C.c.p) :=
      (ZMod.natCast_eq_natCast_iff' _ _ _).mpr hg'
    push_cast at e
    dsimp only
    linear_combination e
  have : Fact C.c.p.Prime := ⟨hp⟩
  have ea : ((C.c.p - 3 : ℕ) : ZMod C.c.p) = -3 := by
    rw [Nat.cast_sub h3.le, ZMod.natCast_self]; simp
  have nr0 := cubCheck_spec (p := C.c.p) (a := C.c.p - 3) (b := C.c.b) hfp hroot
  have nr := nr0
  rw [ea] at nr
  have ok : CurveOK C := ⟨hp, h3, hn, hb, nr, hx, hy, hg⟩
  refine { ok with fact' := ⟨hp⟩, ann := ?_ }
  rcases ok.gen_legal.cases ok.noroot ok.two_ne with ⟨h, _⟩ | ⟨_, _, _, hng, d⟩
  · exact absurd h ok.gen_ne
  · rw [d]
    have hn1 : 1 < C.n := hn.one_lt
    have key : ∀ (a : ZMod C.c.p) (e : ((C.c.p - 3 : ℕ) : ZMod C.c.p) = a)
        (hng : (swCurve a (C.c.b : ZMod C.c.p)).Nonsingular (C.gx : ZMod C.c.p) (C.gy : ZMod C.c.p)),
        C.n • Affine.Point.some _ _ hng = 0 := by
      intro a e hng
      subst e
      have := jacCheck_spec ok.two_ne nr0 hng (fuel := fuel) (k := C.n - 1) (by omega) (by omega) hord
      rwa [Nat.sub_add_cancel hn1.le] at this
    exact key _ ea hng

theorem p256_ord (dec : Bytes → Option WPoint) (hash : Bytes → WPoint) : CurveOrd (p256Circl dec hash) :=
  curveOrd_of_checks
    prime_115792089210356248762697446949407573530086143415290314195533631308867097853951
    prime_115792089210356248762697446949407573529996955224135760342422259061068512044369
    256
    (0xa969487079f1744798bf0de6fded091b66e9d328eb0645fe5d979d1339b7f47f,
      0xa4a08891884100c13323460107a8d28eede4387fa3e6e9bfebec9f6d72d0b5cc,
      0x4cde11cf86cb876cd59cf0115813c55af0ecd3cda667d98bb9a347a56aa74a6d)
    (show curveChecks (p256Curve fun _ => none).p (p256Curve fun _ => none).b
      (p256Circl (fun _ => none) fun _ => ⟨0, 0⟩).gx (p256Circl (fun _ => none) fun _ => ⟨0, 0⟩).gy p256N 256 _ = true by
      decide +kernel)

theorem p384_ord (dec : Bytes → Option WPoint) (hash : Bytes → WPoint) : CurveOrd (p384Circl dec hash) :=
  curveOrd_of_checks
    prime_39402006196394479212279040100143613805079739270465446667948293404245721771496870329047266088258938001861606973112319
    prime_39402006196394479212279040100143613805079739270465446667946905279627659399113263569398956308152294913554433653942643
    384
    (0x95adec811ebe8d4b9e2b41150d78f91a619189a415583b8f5e01888da3353b61765cde8cd6c12846310c3f0c10aae682,
      0x3581b884702fb0931c541a5cacefbe3bea864db86e01e048170560418dca3aa8689f246d9d11ccd2e145532dd48491af,
      0x4efcebfdccd7cb25d1b864228f0c32d3a83ec026134ae4753bdff5d3f1fa20b278b31dc3487beb792024fe436f36b43a)
    (show curveChecks (p384Curve fun _ => none).p (p384Curve fun _ => none).b
      (p384Circl (fun _ => none) fun _ => ⟨0, 0⟩).gx (p384Circl (fun _ => none) fun _ => ⟨0, 0⟩).gy p384N 384 _ = true by
      decide +kernel)

/-- the points of secp256k1: `y² = x³ + 7` has `N - 1` affine solutions -/
theorem k1_card : haveI : Fact k1P.Prime :=
      ⟨prime_115792089237316195423570985008687907853269984665640564039457584007908834671663⟩
    Nat.card (swCurve (0 : ZMod k1P) (7 : ZMod k1P)).Point = k1N := by
  have : Fact k1P.Prime := ⟨prime_115792089237316195423570985008687907853269984665640564039457584007908834671663⟩
  have h2 : (2 : ZMod k1P) ≠ 0 := by
    intro h
    have h' : ((2 : ℕ) : ZMod k1P) = 0 := by exact_mod_cast h
    rw [ZMod.natCast_eq_zero_iff] at h'
    exact absurd h' (by decide +kernel)
  have nr := cubCheck_spec (p := k1P) (a := 0) (b := 7) (fuel := 256)
    (v := (0, 0, 0x676072c51d36ab00c84deb078e4ba0feef17a1f9626d375046274e4ab01347c8)) (by decide +kernel) (by decide +kernel)
  have hon : ((0x483ada7726a3c4655da4fbfc0e1108a8fd17b448a68554199c47d08ffb10d4b8 : ℕ) : ZMod k1P) ^ 2 =
      ((0x79be667ef9dcbbac55a06295ce870b07029bfcdb2dce28d959f2815b16f81798 : ℕ) : ZMod k1P) ^ 3 + ((0 : ℕ) : ZMod k1P) *
      ((0x79be667ef9dcbbac55a06295ce870b07029bfcdb2dce28d959f2815b16f81798 : ℕ) : ZMod k1P) + ((7 : ℕ) : ZMod k1P) := by
    rw [← Nat.cast_pow, ← Nat.cast_pow, ← Nat.cast_mul, ← Nat.cast_add, ← Nat.cast_add, ZMod.natCast_eq_natCast_iff]
    unfold Nat.ModEq
    decide +kernel
  have hg := (sw_nonsingular h2 nr _ _).mpr hon
  have hz := jacCheck_spec h2 nr hg (fuel := 256) (k := k1N - 1) (by decide +kernel) (by decide +kernel) (by decide +kernel)
  have hz' : ∀ m, k1N - 1 + 1 = m → m • Affine.Point.some _ _ hg = 0 := fun m e => e ▸ hz
  have := sw_card (q := k1N) h2 nr prime_115792089237316195423570985008687907852837564279074904382605163141518161494337
    (by rw [Nat.card_zmod]; decide +kernel) _ (Affine.Point.some_ne_zero hg)
    (hz' k1N (by decide +kernel))
  simpa using this

end MscPoc
