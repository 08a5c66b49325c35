import Verif.Lemmas.Edwards
import Verif.Lemmas.Affine
import Verif.Lemmas.PrimeCerts
import Verif.Model.Ristretto
import Mathlib.NumberTheory.LegendreSymbol.Basic
import Mathlib.Algebra.Order.BigOperators.Group.Finset
import Mathlib.GroupTheory.OrderOfElement

/-!
# The Ristretto255 wrapper group is lawful
-/

set_option autoImplicit false

namespace MscPoc

instance r255Fact : Fact r255P.Prime :=
  ⟨prime_57896044618658097711785492504343953926634992332820282019728792003956564819949⟩

instance r255NFact : Fact r255N.Prime :=
  ⟨prime_7237005577332262213973186563042994240857116359379907606001950938285454250989⟩

/-- a square root of -1 -/
def r255I : Nat := 19681161376707505956807079304988542015446066515923890162744021073123829784752

theorem r255_two_ne : (2 : ZMod r255P) ≠ 0 := by
  intro h
  have h' : ((2 : ℕ) : ZMod r255P) = 0 := by exact_mod_cast h
  rw [ZMod.natCast_eq_zero_iff] at h'
  exact absurd h' (by decide +kernel)

theorem r255_i_sq : (r255I : ZMod r255P) * (r255I : ZMod r255P) = -1 := by
  have h : ((r255I * r255I + 1 : ℕ) : ZMod r255P) = 0 := by
    rw [ZMod.natCast_eq_zero_iff]
    decide +kernel
  push_cast at h
  linear_combination h

theorem r255_d_nonsq : ¬ IsSquare (r255D : ZMod r255P) := by
  have h0 : (r255D : ZMod r255P) ≠ 0 := by
    rw [Ne, ZMod.natCast_eq_zero_iff]
    decide +kernel
  rw [ZMod.euler_criterion r255P h0]
  intro h
  have hp : r255D ^ (r255P / 2) % r255P = r255P - 1 := powModGo_one (fuel := 255) (by decide +kernel) (by decide +kernel)
  have h' : ((r255D ^ (r255P / 2) : ℕ) : ZMod r255P) = ((1 : ℕ) : ZMod r255P) := by
    push_cast; exact h
  rw [ZMod.natCast_eq_natCast_iff', hp] at h'
  exact absurd h' (by decide +kernel)

/-- the curve behind Ristretto255 -/
def r255C : EdCurve (ZMod r255P) where
  d := r255D
  i := r255I
  two_ne := r255_two_ne
  i_sq := r255_i_sq
  d_nonsq := r255_d_nonsq

/-- the group of the curve -/
abbrev R255E : Type := EdPt r255C

/-! ## Reduced coordinates -/

/-- reduced coordinates on the curve -/
def EdLegal (P : WPoint) : Prop :=
  P.x < r255P ∧ P.y < r255P ∧ (P.y : ZMod r255P) ^ 2 - (P.x : ZMod r255P) ^ 2 = 1 + r255C.d * (P.x : ZMod r255P) ^ 2 * (P.y : ZMod r255P) ^ 2

/-- the point of the curve -/
def EdLegal.pt {P : WPoint} (h : EdLegal P) : R255E := ⟨P.x, P.y, h.2.2⟩

theorem EdLegal.pt_x {P : WPoint} (h : EdLegal P) : h.pt.x = (P.x : ZMod r255P) := rfl
theorem EdLegal.pt_y {P : WPoint} (h : EdLegal P) : h.pt.y = (P.y : ZMod r255P) := rfl
theorem r255C_i : r255C.i = (r255I : ZMod r255P) := rfl

theorem EdLegal.inj {P Q : WPoint} (hP : EdLegal P) (hQ : EdLegal Q) (h : hP.pt = hQ.pt) : P = Q := by
  obtain ⟨x, y⟩ := P
  obtain ⟨x', y'⟩ := Q
  rw [WPoint.mk.injEq]
  exact ⟨affCast_inj hP.1 hQ.1 (congrArg EdPt.x h), affCast_inj hP.2.1 hQ.2.1 (congrArg EdPt.y h)⟩

/-- coordinates of a point of the curve -/
def R255E.coords (P : R255E) : WPoint := ⟨P.x.val, P.y.val⟩

theorem coords_legal (P : R255E) : EdLegal (R255E.coords P) := by
  refine ⟨ZMod.val_lt P.x, ZMod.val_lt P.y, ?_⟩
  have := P.on
  simpa [R255E.coords] using this

theorem coords_pt (P : R255E) : (coords_legal P).pt = P := by
  ext
  · exact ZMod.natCast_zmod_val P.x
  · exact ZMod.natCast_zmod_val P.y

theorem edZero_legal : EdLegal edZero := by
  refine ⟨by decide +kernel, by decide +kernel, ?_⟩
  simp [edZero]

theorem edZero_pt : edZero_legal.pt = 0 := by
  ext
  · show ((0 : ℕ) : ZMod r255P) = 0
    exact Nat.cast_zero
  · show ((1 : ℕ) : ZMod r255P) = 1
    exact Nat.cast_one

theorem divMod_lt (num den : Int) : (divMod r255P num den).toNat < r255P := toNat_emod_lt _

theorem divMod_cast {num den : Int} (h : (den : ZMod r255P) ≠ 0) :
    (((divMod r255P num den).toNat : ℕ) : ZMod r255P) = (num : ZMod r255P) / (den : ZMod r255P) := by
  rw [eq_div_iff h, ← divMod_spec (num := num) h]
  congr 1
  unfold divMod
  rw [toNat_emod_cast, emod_cast]

/-- the denominators of `edAdd` -/
theorem edAdd_dens {P Q : WPoint} (hP : EdLegal P) (hQ : EdLegal Q) :
    ((1 + (r255D : Int) * P.x * Q.x * P.y * Q.y : Int) : ZMod r255P) ≠ 0 ∧
    ((1 - (r255D : Int) * P.x * Q.x * P.y * Q.y : Int) : ZMod r255P) ≠ 0 := by
  have h1 := EdPt.den1 hP.pt hQ.pt
  have h2 := EdPt.den2 hP.pt hQ.pt
  push_cast
  exact ⟨h1, h2⟩

theorem edAdd_cast {P Q : WPoint} (hP : EdLegal P) (hQ : EdLegal Q) :
    ((edAdd P Q).x : ZMod r255P) = (hP.pt + hQ.pt).x ∧ ((edAdd P Q).y : ZMod r255P) = (hP.pt + hQ.pt).y := by
  obtain ⟨d1, d2⟩ := edAdd_dens hP hQ
  rw [EdPt.add_x, EdPt.add_y]
  unfold edAdd
  dsimp only
  rw [divMod_cast d1, divMod_cast d2]
  push_cast
  exact ⟨rfl, rfl⟩

theorem edAdd_legal {P Q : WPoint} (hP : EdLegal P) (hQ : EdLegal Q) : EdLegal (edAdd P Q) := by
  refine ⟨divMod_lt _ _, divMod_lt _ _, ?_⟩
  rw [(edAdd_cast hP hQ).1, (edAdd_cast hP hQ).2]
  exact (hP.pt + hQ.pt).on

theorem edAdd_pt {P Q : WPoint} (hP : EdLegal P) (hQ : EdLegal Q) : (edAdd_legal hP hQ).pt = hP.pt + hQ.pt :=
  EdPt.ext (edAdd_cast hP hQ).1 (edAdd_cast hP hQ).2

theorem edNeg_cast (P : WPoint) : ((edNeg P).x : ZMod r255P) = -(P.x : ZMod r255P) := by
  unfold edNeg
  dsimp only
  rw [toNat_emod_cast]
  push_cast
  rfl

theorem edNeg_legal {P : WPoint} (hP : EdLegal P) : EdLegal (edNeg P) := by
  refine ⟨toNat_emod_lt _, hP.2.1, ?_⟩
  rw [edNeg_cast]
  exact (-hP.pt).on

theorem edNeg_pt {P : WPoint} (hP : EdLegal P) : (edNeg_legal hP).pt = -hP.pt :=
  EdPt.ext (edNeg_cast P) rfl

theorem edMulGo_legal {P : WPoint} (hP : EdLegal P) : ∀ (fuel k : ℕ), k < 2 ^ fuel →
    ∃ h : EdLegal (edMulGo fuel k P), h.pt = k • hP.pt := by
  intro fuel
  induction fuel with
  | zero =>
    intro k hk
    have : k = 0 := by simpa using hk
    subst this
    exact ⟨edZero_legal, by rw [zero_nsmul]; exact edZero_pt⟩
  | succ f ih =>
    intro k hk
    have hk2 : k / 2 < 2 ^ f := by rw [Nat.div_lt_iff_lt_mul (by norm_num)]; rwa [pow_succ] at hk
    obtain ⟨l1, d1⟩ := ih (k / 2) hk2
    have d2 := edAdd_pt l1 l1
    unfold edMulGo
    by_cases c1 : k = 0
    · subst c1
      exact ⟨edZero_legal, by rw [zero_nsmul]; exact edZero_pt⟩
    · simp only [if_neg c1]
      by_cases c2 : k % 2 = 1
      · simp only [if_pos c2]
        refine ⟨edAdd_legal (edAdd_legal l1 l1) hP, ?_⟩
        rw [edAdd_pt (edAdd_legal l1 l1) hP, d2, d1, ← add_nsmul, ← succ_nsmul, show k / 2 + k / 2 + 1 = k by omega]
      · simp only [if_neg c2]
        refine ⟨edAdd_legal l1 l1, ?_⟩
        rw [d2, d1, ← add_nsmul, show k / 2 + k / 2 = k by omega]

theorem edMul_legal {P : WPoint} (hP : EdLegal P) (s : Int) :
    ∃ h : EdLegal (edMul P s), h.pt = (s % r255N) • hP.pt := by
  have hn : (0 : Int) < r255N := by decide +kernel
  obtain ⟨l, d⟩ := edMulGo_legal hP ((s % r255N).toNat.log2 + 1) (s % r255N).toNat Nat.lt_log2_self
  refine ⟨l, d.trans ?_⟩
  rw [← natCast_zsmul, Int.toNat_of_nonneg (Int.emod_nonneg s hn.ne')]

/-- `IsEqual` on points of the curve -/
theorem edEqual_iff {P Q : WPoint} (hP : EdLegal P) (hQ : EdLegal Q) : edEqual P Q = true ↔ 4 • hP.pt = 4 • hQ.pt := by
  rw [← EdPt.ristretto_eq]
  unfold edEqual
  rw [Bool.or_eq_true, beq_iff_eq, beq_iff_eq, ← ZMod.natCast_eq_natCast_iff', ← ZMod.natCast_eq_natCast_iff']
  push_cast
  rfl

/-! ## Kernel computation of multiples -/

/-- addition in projective coordinates modulo `p` -/
def edpAdd (p d : ℕ) (P Q : ℕ × ℕ × ℕ) : ℕ × ℕ × ℕ :=
  match P, Q with
  | (X₁, Y₁, Z₁), (X₂, Y₂, Z₂) =>
    let A := Z₁ * Z₂ % p
    let B := A * A % p
    let C := X₁ * X₂ % p
    let D := Y₁ * Y₂ % p
    let E := d * (C * D % p) % p
    let F := (B + (p - 1) * E) % p
    let G := (B + E) % p
    (A * (F * ((X₁ * Y₂ + Y₁ * X₂) % p) % p) % p, A * (G * ((D + C) % p) % p) % p, F * G % p)

/-- the `k`-th multiple of `P`, `1 ≤ k < 2 ^ fuel` -/
def edpMul (p d : ℕ) (P : ℕ × ℕ × ℕ) : ℕ → ℕ → ℕ × ℕ × ℕ
  | 0, _ => P
  | fuel + 1, k =>
    if k ≤ 1 then P
    else
      let h := edpMul p d P fuel (k / 2)
      let e := edpAdd p d h h
      if k % 2 = 1 then edpAdd p d e P else e

/-- the `k`-th multiple of `(gx, gy)` is `(hx, hy)` -/
def edpCheck (p d gx gy fuel k hx hy : ℕ) : Bool :=
  match edpMul p d (gx, gy, 1) fuel k with
  | (X, Y, Z) => Nat.beq (X % p) (hx * Z % p) && Nat.beq (Y % p) (hy * Z % p)

/-- projective coordinates of a point -/
def EdRep (P : R255E) (J : ℕ × ℕ × ℕ) : Prop :=
  (J.2.2 : ZMod r255P) ≠ 0 ∧ (J.1 : ZMod r255P) = P.x * (J.2.2 : ZMod r255P) ∧ (J.2.1 : ZMod r255P) = P.y * (J.2.2 : ZMod r255P)

theorem edpAdd_rep {P Q : R255E} {J K : ℕ × ℕ × ℕ} (hJ : EdRep P J) (hK : EdRep Q K) :
    EdRep (P + Q) (edpAdd r255P r255D J K) := by
  obtain ⟨X₁, Y₁, Z₁⟩ := J
  obtain ⟨X₂, Y₂, Z₂⟩ := K
  obtain ⟨z1, x1, y1⟩ := hJ
  obtain ⟨z2, x2, y2⟩ := hK
  dsimp only at z1 x1 y1 z2 x2 y2
  have d1 := EdPt.den1 P Q
  have d2 := EdPt.den2 P Q
  have hd : r255C.d = (r255D : ZMod r255P) := rfl
  have eZ : ((edpAdd r255P r255D (X₁, Y₁, Z₁) (X₂, Y₂, Z₂)).2.2 : ZMod r255P) =
      ((Z₁ : ZMod r255P) * Z₂) ^ 4 * ((1 - r255C.d * P.x * Q.x * P.y * Q.y) * (1 + r255C.d * P.x * Q.x * P.y * Q.y)) := by
    simp only [edpAdd, cast_mod, Nat.cast_add, Nat.cast_mul, cast_pred, x1, x2, y1, y2, hd]
    ring
  refine ⟨?_, ?_, ?_⟩
  · rw [eZ]
    exact mul_ne_zero (pow_ne_zero _ (mul_ne_zero z1 z2)) (mul_ne_zero d2 d1)
  · rw [eZ, EdPt.add_x, div_mul_eq_mul_div, eq_div_iff d1]
    simp only [edpAdd, cast_mod, Nat.cast_add, Nat.cast_mul, cast_pred, x1, x2, y1, y2, hd]
    ring
  · rw [eZ, EdPt.add_y, div_mul_eq_mul_div, eq_div_iff d2]
    simp only [edpAdd, cast_mod, Nat.cast_add, Nat.cast_mul, x1, x2, y1, y2, hd]
    ring

theorem edpMul_rep {P : R255E} {J : ℕ × ℕ × ℕ} (hJ : EdRep P J) : ∀ (fuel k : ℕ), 1 ≤ k → k < 2 ^ fuel →
    EdRep (k • P) (edpMul r255P r255D J fuel k) := by
  intro fuel
  induction fuel with
  | zero => intro k h1 hk; simp at hk; omega
  | succ f ih =>
    intro k h1 hk
    have hk2 : k / 2 < 2 ^ f := by rw [Nat.div_lt_iff_lt_mul (by norm_num)]; rwa [pow_succ] at hk
    unfold edpMul
    by_cases c1 : k ≤ 1
    · rw [if_pos c1, show k = 1 by omega, one_nsmul]; exact hJ
    · rw [if_neg c1]
      dsimp only
      have hd := ih (k / 2) (by omega) hk2
      have hdd := edpAdd_rep hd hd
      rw [← add_nsmul] at hdd
      by_cases c2 : k % 2 = 1
      · rw [if_pos c2]
        have := edpAdd_rep hdd hJ
        rwa [← succ_nsmul, show k / 2 + k / 2 + 1 = k by omega] at this
      · rw [if_neg c2]
        rwa [show k / 2 + k / 2 = k by omega] at hdd

theorem edpCheck_spec {P Q : WPoint} (hP : EdLegal P) (hQ : EdLegal Q) {fuel k : ℕ} (h1 : 1 ≤ k) (hk : k < 2 ^ fuel)
    (h : edpCheck r255P r255D P.x P.y fuel k Q.x Q.y = true) : k • hP.pt = hQ.pt := by
  have hJ : EdRep hP.pt (P.x, P.y, 1) := by
    refine ⟨?_, ?_, ?_⟩
    · simp
    · simp [EdLegal.pt]
    · simp [EdLegal.pt]
  obtain ⟨z, x, y⟩ := edpMul_rep hJ fuel k h1 hk
  unfold edpCheck at h
  generalize edpMul r255P r255D (P.x, P.y, 1) fuel k = J at *
  obtain ⟨X, Y, Z⟩ := J
  dsimp only at h x y z
  simp only [Bool.and_eq_true, Nat.beq_eq] at h
  obtain ⟨hx, hy⟩ := h
  rw [← ZMod.natCast_eq_natCast_iff', Nat.cast_mul, x] at hx
  rw [← ZMod.natCast_eq_natCast_iff', Nat.cast_mul, y] at hy
  exact EdPt.ext (mul_right_cancel₀ z hx) (mul_right_cancel₀ z hy)

/-- the curve equation on integers -/
theorem edLegal_iff (P : WPoint) : EdLegal P ↔ P.x < r255P ∧ P.y < r255P ∧
    ((P.y : Int) ^ 2 - (P.x : Int) ^ 2 - (1 + (r255D : Int) * (P.x : Int) ^ 2 * (P.y : Int) ^ 2)) % r255P = 0 := by
  unfold EdLegal
  rw [← Int.dvd_iff_emod_eq_zero, ← ZMod.intCast_zmod_eq_zero_iff_dvd]
  have hd : r255C.d = (r255D : ZMod r255P) := rfl
  push_cast
  rw [sub_eq_zero, hd]

theorem edBase_legal : EdLegal edBase := (edLegal_iff _).mpr ⟨by decide +kernel, by decide +kernel, by decide +kernel⟩

/-- a point of order 8 -/
def edT8 : WPoint :=
  ⟨0x1fd5b9a006394a28e933993238de4abb5c193c7013e5e238dea14646c545d14a,
    0x7a03ac9277fdc74ec6cc392cfa53202a0f67100d760b3cba4fd84d3d706a17c7⟩

theorem edT8_legal : EdLegal edT8 := (edLegal_iff _).mpr ⟨by decide +kernel, by decide +kernel, by decide +kernel⟩

theorem edT2_legal : EdLegal ⟨0, r255P - 1⟩ := (edLegal_iff _).mpr ⟨by decide +kernel, by decide +kernel, by decide +kernel⟩

theorem edT2_ne : edT2_legal.pt ≠ 0 := by
  intro h
  rw [← edZero_pt] at h
  have := EdLegal.inj _ _ h
  exact absurd (congrArg WPoint.y this) (by decide +kernel)

theorem edT8_order : addOrderOf edT8_legal.pt = 8 := by
  have h4 : 4 • edT8_legal.pt = edT2_legal.pt :=
    edpCheck_spec edT8_legal edT2_legal (fuel := 3) (by norm_num) (by norm_num) (by decide +kernel)
  have h8 : 8 • edT8_legal.pt = 0 := by
    rw [← edZero_pt]
    exact edpCheck_spec edT8_legal edZero_legal (fuel := 4) (by norm_num) (by norm_num) (by decide +kernel)
  have : Fact (Nat.Prime 2) := ⟨Nat.prime_two⟩
  have := addOrderOf_eq_prime_pow (p := 2) (n := 2) (x := edT8_legal.pt) (by rw [show 2 ^ 2 = 4 from rfl, h4]; exact edT2_ne) h8
  exact this

theorem edBase_ne : edBase_legal.pt ≠ 0 := by
  intro h
  rw [← edZero_pt] at h
  have := EdLegal.inj _ _ h
  exact absurd (congrArg WPoint.x this) (by decide +kernel)

theorem edBase_nsmul : r255N • edBase_legal.pt = 0 := by
  rw [← edZero_pt]
  exact edpCheck_spec edBase_legal edZero_legal (fuel := 253) (by decide +kernel) (by decide +kernel) (by decide +kernel)

theorem edBase_order : addOrderOf edBase_legal.pt = r255N := addOrderOf_eq_prime edBase_nsmul edBase_ne

/-! ## The number of points -/

instance r255_finite : Finite R255E :=
  Finite.of_injective (fun P : R255E => (P.x, P.y)) fun P Q h => by
    rw [Prod.mk.injEq] at h
    exact EdPt.ext h.1 h.2

theorem r255_card_le : Nat.card R255E ≤ 2 * r255P := by
  classical
  have : Fintype R255E := Fintype.ofFinite _
  rw [Nat.card_eq_fintype_card, ← Finset.card_univ]
  refine (Finset.card_le_mul_card_image (f := fun P : R255E => P.x) Finset.univ 2 ?_).trans
    (Nat.mul_le_mul_left 2 ((Finset.card_le_univ _).trans (ZMod.card r255P).le))
  intro x hx
  obtain ⟨P, _, hP⟩ := Finset.mem_image.mp hx
  have hsub : (Finset.univ.filter fun Q : R255E => Q.x = x) ⊆ {P, -(P + EdPt.t2)} := by
    intro Q hQ
    have hQx : Q.x = P.x := (Finset.mem_filter.mp hQ).2.trans hP.symm
    rw [Finset.mem_insert, Finset.mem_singleton]
    have h1 := P.on
    have h2 := Q.on
    rw [hQx] at h2
    have hne : 1 - r255C.d * P.x ^ 2 ≠ 0 := by
      intro h0
      have hx0 : P.x ≠ 0 := by
        intro hx0
        rw [hx0] at h0
        simp at h0
      apply r255C.d_nonsq
      refine ⟨1 / P.x, ?_⟩
      rw [div_mul_div_comm, eq_div_iff (mul_ne_zero hx0 hx0)]
      linear_combination -h0
    have h3 : (1 - r255C.d * P.x ^ 2) * ((Q.y - P.y) * (Q.y + P.y)) = 0 := by linear_combination h2 - h1
    rcases mul_eq_zero.mp ((mul_eq_zero.mp h3).resolve_left hne) with h | h
    · left
      exact EdPt.ext hQx (by linear_combination h)
    · right
      rw [EdPt.add_t2]
      refine EdPt.ext ?_ ?_
      · rw [EdPt.neg_x, neg_neg]; exact hQx
      · rw [EdPt.neg_y]; linear_combination h
  exact (Finset.card_le_card hsub).trans Finset.card_le_two

/-- The curve has `8 N` points. -/
theorem r255_card : Nat.card R255E = 8 * r255N := by
  have h8 : 8 ∣ Nat.card R255E := by rw [← edT8_order]; exact addOrderOf_dvd_natCard _
  have hN : r255N ∣ Nat.card R255E := by rw [← edBase_order]; exact addOrderOf_dvd_natCard _
  have hco : Nat.Coprime 8 r255N := by decide +kernel
  obtain ⟨k, hk⟩ := hco.mul_dvd_of_dvd_of_dvd h8 hN
  have hpos : 0 < Nat.card R255E := Nat.card_pos
  have hle := r255_card_le
  have h16 : 2 * r255P < 8 * r255N * 2 := by decide +kernel
  have hk1 : k < 2 := by
    by_contra hc
    have : 8 * r255N * 2 ≤ 8 * r255N * k := Nat.mul_le_mul_left _ (by omega)
    rw [hk] at hle
    exact absurd (this.trans hle) (not_le.mpr h16)
  have hk0 : k ≠ 0 := by
    rintro rfl
    rw [mul_zero] at hk
    rw [hk] at hpos
    exact lt_irrefl 0 hpos
  rw [hk, show k = 1 by omega, mul_one]

theorem r255_nsmul (P : R255E) : (8 * r255N) • P = 0 := by
  have h := card_nsmul_eq_zero' (x := P)
  rwa [r255_card] at h

/-- The even points are those whose order divides `4 N`. -/
theorem r255_even_iff (P : R255E) : (∃ Q, P = Q + Q) ↔ (4 * r255N) • P = 0 := by
  constructor
  · rintro ⟨Q, rfl⟩
    rw [← two_nsmul, ← mul_nsmul', show 4 * r255N * 2 = 8 * r255N by ring]
    exact r255_nsmul Q
  · intro h
    -- the point `G = B + T8` generates the group
    have hco : Nat.Coprime (addOrderOf edT8_legal.pt) (addOrderOf edBase_legal.pt) := by
      rw [edT8_order, edBase_order]; decide +kernel
    have ho : addOrderOf (edT8_legal.pt + edBase_legal.pt) = 8 * r255N := by
      rw [(AddCommute.all _ _).addOrderOf_add_eq_mul_addOrderOf_of_coprime hco, edT8_order, edBase_order]
    obtain ⟨k, hk⟩ : ∃ k : ℕ, k • (edT8_legal.pt + edBase_legal.pt) = P := by
      have hm : P ∈ AddSubgroup.zmultiples (edT8_legal.pt + edBase_legal.pt) := by
        have : AddSubgroup.zmultiples (edT8_legal.pt + edBase_legal.pt) = ⊤ := by
          apply AddSubgroup.eq_top_of_card_eq
          rw [Nat.card_zmultiples, ho, r255_card]
        rw [this]; trivial
      rwa [← mem_multiples_iff_mem_zmultiples, AddSubmonoid.mem_multiples_iff] at hm
    rw [← hk, ← mul_nsmul', ← addOrderOf_dvd_iff_nsmul_eq_zero, ho, show 8 * r255N = 4 * r255N * 2 by ring] at h
    have h2 := Nat.dvd_of_mul_dvd_mul_left (by decide +kernel : 0 < 4 * r255N) h
    obtain ⟨j, rfl⟩ := h2
    exact ⟨j • (edT8_legal.pt + edBase_legal.pt), by rw [← hk, two_mul, add_nsmul]⟩

/-! ## The group of the elements -/

/-- the points of order dividing `N` -/
def R255Sub : AddSubgroup R255E where
  carrier := {P | r255N • P = 0}
  zero_mem' := nsmul_zero _
  add_mem' := fun {a b} ha hb => by
    show r255N • (a + b) = 0
    rw [nsmul_add, show r255N • a = 0 from ha, show r255N • b = 0 from hb, add_zero]
  neg_mem' := fun {a} ha => by
    show r255N • (-a) = 0
    rw [smul_neg, show r255N • a = 0 from ha, neg_zero]

/-- Ristretto255 as a group -/
abbrev R255Group : Type := R255Sub

theorem r255Sub_nsmul (P : R255Group) : r255N • P = 0 := by
  ext1
  exact P.2

/-- Ristretto255 as a vector space over its scalars -/
@[reducible] noncomputable def r255Module : Module (ZMod r255N) R255Group := AddCommGroup.zmodModule r255Sub_nsmul

/-- reduced coordinates of an even point of the curve -/
def R255Legal (P : WPoint) : Prop := EdLegal P ∧ ∃ Q, EdLegal Q ∧ P = edAdd Q Q

theorem R255Legal.four {P : WPoint} (h : R255Legal P) : r255N • (4 • h.1.pt) = 0 := by
  obtain ⟨hP, Q, hQ, rfl⟩ := h
  rw [← mul_nsmul', mul_comm, ← r255_even_iff]
  exact ⟨hQ.pt, edAdd_pt hQ hQ⟩

open Classical in
/-- four times the point: the element that a point stands for -/
noncomputable def r255Den (P : WPoint) : R255Group :=
  if h : R255Legal P then ⟨4 • h.1.pt, h.four⟩ else 0

theorem r255Den_val {P : WPoint} (h : R255Legal P) : (r255Den P : R255E) = 4 • h.1.pt := by
  unfold r255Den
  rw [dif_pos h]

theorem r255Legal_of {P : WPoint} (h : EdLegal P) (Q : R255E) (hQ : h.pt = Q + Q) : R255Legal P := by
  refine ⟨h, R255E.coords Q, coords_legal Q, EdLegal.inj h (edAdd_legal (coords_legal Q) (coords_legal Q)) ?_⟩
  rw [edAdd_pt (coords_legal Q) (coords_legal Q), coords_pt, hQ]

theorem R255Legal.half {P : WPoint} (h : R255Legal P) : ∃ Q : R255E, h.1.pt = Q + Q := by
  obtain ⟨hP, Q, hQ, rfl⟩ := h
  exact ⟨hQ.pt, edAdd_pt hQ hQ⟩

theorem r255Legal_iff {P : WPoint} (h : EdLegal P) : R255Legal P ↔ (4 * r255N) • h.pt = 0 := by
  rw [← r255_even_iff]
  constructor
  · intro hP; exact hP.half
  · rintro ⟨Q, hQ⟩; exact r255Legal_of h Q hQ

theorem r255Add_spec {a b : WPoint} (ha : R255Legal a) (hb : R255Legal b) :
    R255Legal (edAdd a b) ∧ r255Den (edAdd a b) = r255Den a + r255Den b := by
  obtain ⟨Q, hQ⟩ := ha.half
  obtain ⟨R, hR⟩ := hb.half
  have hp := edAdd_pt ha.1 hb.1
  have hl : R255Legal (edAdd a b) := r255Legal_of (edAdd_legal ha.1 hb.1) (Q + R) (by rw [hp, hQ, hR]; abel)
  refine ⟨hl, Subtype.ext ?_⟩
  rw [AddSubgroup.coe_add, r255Den_val hl, r255Den_val ha, r255Den_val hb, hp, nsmul_add]

theorem r255Neg_spec {a : WPoint} (ha : R255Legal a) : R255Legal (edNeg a) ∧ r255Den (edNeg a) = -r255Den a := by
  obtain ⟨Q, hQ⟩ := ha.half
  have hp := edNeg_pt ha.1
  have hl : R255Legal (edNeg a) := r255Legal_of (edNeg_legal ha.1) (-Q) (by rw [hp, hQ]; abel)
  refine ⟨hl, Subtype.ext ?_⟩
  rw [AddSubgroup.coe_neg, r255Den_val hl, r255Den_val ha, hp, smul_neg]

theorem r255Mul_spec {a : WPoint} (ha : R255Legal a) (s : Int) :
    R255Legal (edMul a s) ∧ r255Den (edMul a s) = s • r255Den a := by
  obtain ⟨Q, hQ⟩ := ha.half
  obtain ⟨h, hp⟩ := edMul_legal ha.1 s
  have hl : R255Legal (edMul a s) := r255Legal_of h ((s % r255N) • Q) (by rw [hp, hQ, zsmul_add])
  refine ⟨hl, ?_⟩
  have e : r255Den (edMul a s) = (s % r255N) • r255Den a := by
    apply Subtype.ext
    rw [AddSubgroup.coe_zsmul, r255Den_val hl, r255Den_val ha, hp, ← natCast_zsmul, ← natCast_zsmul, ← mul_zsmul, ← mul_zsmul,
      mul_comm]
  rw [e]
  conv_rhs => rw [← Int.emod_add_mul_ediv s r255N, add_zsmul, mul_comm, mul_zsmul, natCast_zsmul, r255Sub_nsmul, zsmul_zero, add_zero]

theorem edBase_even : R255Legal edBase := by
  rw [r255Legal_iff edBase_legal, mul_comm, mul_nsmul, edBase_nsmul, nsmul_zero]

theorem edZero_even : R255Legal edZero := by
  rw [r255Legal_iff edZero_legal, edZero_pt, nsmul_zero]

theorem r255Den_zero : r255Den edZero = 0 := by
  apply Subtype.ext
  rw [r255Den_val edZero_even, edZero_pt, nsmul_zero]
  rfl

theorem edEqual_den {a b : WPoint} (ha : R255Legal a) (hb : R255Legal b) : edEqual a b = true ↔ r255Den a = r255Den b := by
  rw [edEqual_iff ha.1 hb.1, ← r255Den_val ha, ← r255Den_val hb]
  exact ⟨fun h => Subtype.ext h, fun h => by rw [h]⟩

/-- The Ristretto255 wrapper over the modelled library is lawful. -/
noncomputable def r255Lawful (L : R255Lib) :
    letI := r255Module
    Lawful (r255Grp L) r255N R255Group :=
  letI := r255Module
  { V := R255Legal
    den := r255Den
    N_eq := rfl
    V_gen := edBase_even
    V_ident := edZero_even
    den_ident := r255Den_zero
    V_add := fun ha hb => (r255Add_spec ha hb).1
    den_add := fun ha hb => (r255Add_spec ha hb).2
    V_neg := fun ha => (r255Neg_spec ha).1
    den_neg := fun ha => (r255Neg_spec ha).2
    V_scale := fun ha => (r255Mul_spec ha _).1
    den_scale := fun ha => by
      rw [Int.cast_smul_eq_zsmul]
      exact (r255Mul_spec ha _).2
    V_baseScale := (r255Mul_spec edBase_even _).1
    den_baseScale := by
      intro _ s
      rw [Int.cast_smul_eq_zsmul]
      exact (r255Mul_spec edBase_even _).2
    isEqual_iff := fun ha hb => edEqual_den ha hb
    isIdentity_iff := fun ha => by
      rw [← r255Den_zero]
      exact edEqual_den ha edZero_even }

theorem r255Base_ne : r255Den edBase ≠ 0 := by
  intro h
  have h1 := congrArg Subtype.val h
  rw [r255Den_val edBase_even] at h1
  have h1 : 4 • edBase_legal.pt = 0 := h1
  rw [← addOrderOf_dvd_iff_nsmul_eq_zero, edBase_order] at h1
  exact absurd h1 (by decide +kernel)

/-- Ristretto255 has `N` elements. -/
theorem r255Group_card : Nat.card R255Group = r255N := by
  have ho : addOrderOf (r255Den edBase) = r255N := addOrderOf_eq_prime (r255Sub_nsmul _) r255Base_ne
  have h1 : Nat.card R255Group * 8 ≤ 8 * r255N := by
    -- the points of order 8 meet the subgroup only in 0
    have hinj : Function.Injective (fun t : R255Group × Fin 8 => (t.1 : R255E) + (t.2 : ℕ) • edT8_legal.pt) := by
      rintro ⟨a, i⟩ ⟨b, j⟩ h
      have h : (a : R255E) + (i : ℕ) • edT8_legal.pt = (b : R255E) + (j : ℕ) • edT8_legal.pt := h
      have hN : ∀ (c : R255Group) (i : ℕ), r255N • ((c : R255E) + i • edT8_legal.pt) = (r255N * i) • edT8_legal.pt := by
        intro c i
        rw [nsmul_add, show r255N • (c : R255E) = 0 from c.2, zero_add, mul_nsmul']
      have h8 := congrArg (fun P => r255N • P) h
      simp only [hN] at h8
      rw [nsmul_eq_nsmul_iff_modEq, edT8_order] at h8
      have hm : (i : ℕ) ≡ (j : ℕ) [MOD 8] := Nat.ModEq.cancel_left_of_coprime (by decide +kernel) h8
      have hij : (i : ℕ) = j := by
        unfold Nat.ModEq at hm
        rwa [Nat.mod_eq_of_lt i.2, Nat.mod_eq_of_lt j.2] at hm
      rw [hij] at h
      rw [Prod.mk.injEq]
      exact ⟨Subtype.ext (add_right_cancel h), Fin.ext hij⟩
    have := Nat.card_le_card_of_injective _ hinj
    rwa [Nat.card_prod, Nat.card_eq_fintype_card (α := Fin 8), Fintype.card_fin, r255_card] at this
  have h2 : r255N ≤ Nat.card R255Group := by
    rw [← ho]
    exact Nat.le_of_dvd Nat.card_pos (addOrderOf_dvd_natCard _)
  omega

end MscPoc
