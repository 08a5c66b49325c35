import Verif.Lemmas.CurveLawful

/-!
# The secp256k1 wrapper group is lawful
-/

set_option autoImplicit false

namespace MscPoc

open WeierstrassCurve

instance k1Fact : Fact k1P.Prime :=
  ⟨prime_115792089237316195423570985008687907853269984665640564039457584007908834671663⟩

/-- the group of secp256k1 -/
abbrev K1Group : Type := (swCurve (0 : ZMod k1P) (7 : ZMod k1P)).Point

theorem k1_two_ne : (2 : ZMod k1P) ≠ 0 := by
  intro h
  have h' : ((2 : ℕ) : ZMod k1P) = 0 := by exact_mod_cast h
  rw [ZMod.natCast_eq_zero_iff] at h'
  exact absurd h' (by decide +kernel)

theorem k1_noroot : ∀ x : ZMod k1P, x ^ 3 + 0 * x + 7 ≠ 0 := by
  have nr := cubCheck_spec (p := k1P) (a := 0) (b := 7) (fuel := 256)
    (v := (0, 0, 0x676072c51d36ab00c84deb078e4ba0feef17a1f9626d375046274e4ab01347c8)) (by decide +kernel) (by decide +kernel)
  intro x
  have := nr x
  push_cast at this
  exact this

theorem k1_nsmul (P : K1Group) : k1N • P = 0 := by
  have h := card_nsmul_eq_zero' (x := P)
  rwa [k1_card] at h

/-- secp256k1 as a vector space over its scalars -/
@[reducible] noncomputable def k1Module : Module (ZMod k1N) K1Group := AddCommGroup.zmodModule k1_nsmul

/-- legal values of `p256.P256`: either form of the identity, or reduced coordinates on the curve -/
def K1Legal (e : K1Point) : Prop :=
  e = ⟨none, none⟩ ∨ e = ⟨some 0, some 0⟩ ∨
    ∃ x y : ℕ, e = ⟨some x, some y⟩ ∧ x < k1P ∧ y < k1P ∧ ((y : Int) ^ 2 - ((x : Int) ^ 3 + 7)) % k1P = 0

/-- the two forms of the identity -/
def K1Zero (e : K1Point) : Prop := e = ⟨none, none⟩ ∨ e = ⟨some 0, some 0⟩

/-- the open choices of the library are what they are said to be -/
structure K1Lib.OK (L : K1Lib) : Prop where
  add : K1Zero L.infAdd
  mul : K1Zero L.infMul

/-- the curve point of a legal value -/
noncomputable def k1Den (e : K1Point) : K1Group := aDen 0 7 e.coords

theorem k1_on_iff (x y : ℕ) : ((y : Int) ^ 2 - ((x : Int) ^ 3 + 7)) % k1P = 0 ↔
    (y : ZMod k1P) ^ 2 = (x : ZMod k1P) ^ 3 + 0 * (x : ZMod k1P) + 7 := by
  rw [← Int.dvd_iff_emod_eq_zero, ← ZMod.intCast_zmod_eq_zero_iff_dvd, ← sub_eq_zero (a := (y : ZMod k1P) ^ 2)]
  push_cast
  constructor <;> intro h <;> linear_combination h

theorem K1Zero.legal {e : K1Point} (h : K1Zero e) : K1Legal e := h.imp_right Or.inl

theorem K1Zero.coords {e : K1Point} (h : K1Zero e) : e.coords = ⟨0, 0⟩ := by
  rcases h with rfl | rfl <;> rfl

theorem K1Zero.den {e : K1Point} (h : K1Zero e) : k1Den e = 0 := by
  rw [k1Den, h.coords]; exact aDen_zero

/-- coordinates of a legal value -/
theorem K1Legal.cases {e : K1Point} (h : K1Legal e) :
    (K1Zero e ∧ e.isZero = true) ∨ (e = ⟨some e.coords.x, some e.coords.y⟩ ∧ e.isZero = false ∧ e.coords ≠ ⟨0, 0⟩ ∧
      e.coords.x < k1P ∧ e.coords.y < k1P ∧ ALegal 0 (7 : ZMod k1P) e.coords) := by
  have z0 : ∀ e : K1Point, K1Zero e → e.isZero = true := by
    rintro e (rfl | rfl) <;> rfl
  rcases h with h | h | ⟨x, y, rfl, hx, hy, ho⟩
  · exact Or.inl ⟨Or.inl h, z0 _ (Or.inl h)⟩
  · exact Or.inl ⟨Or.inr h, z0 _ (Or.inr h)⟩
  · right
    have hc : K1Point.coords ⟨some (x : Int), some (y : Int)⟩ = ⟨x, y⟩ := by simp [K1Point.coords]
    rw [hc]
    rw [k1_on_iff] at ho
    have hne : (⟨x, y⟩ : WPoint) ≠ ⟨0, 0⟩ := by
      intro h0
      rw [WPoint.mk.injEq] at h0
      rw [h0.1, h0.2] at ho
      apply k1_noroot 0
      simp only [Nat.cast_zero] at ho
      linear_combination -ho
    refine ⟨rfl, ?_, hne, hx, hy, Or.inr ⟨hx, hy, ho⟩⟩
    show ((x : Int) == 0 && (y : Int) == 0) = false
    rw [Bool.eq_false_iff]
    intro h0
    simp only [Bool.and_eq_true, beq_iff_eq, Nat.cast_eq_zero] at h0
    exact hne (by rw [h0.1, h0.2])

theorem K1Legal.aLegal {e : K1Point} (h : K1Legal e) : ALegal 0 (7 : ZMod k1P) e.coords := by
  rcases h.cases with ⟨z, _⟩ | ⟨_, _, _, _, _, l⟩
  · rw [z.coords]; exact Or.inl rfl
  · exact l

theorem k1_ofCoords {inf : K1Point} (hi : K1Zero inf) {P : WPoint} (hP : ALegal 0 (7 : ZMod k1P) P) :
    K1Legal (K1Point.ofCoords inf P) ∧ k1Den (K1Point.ofCoords inf P) = aDen 0 (7 : ZMod k1P) P := by
  unfold K1Point.ofCoords
  by_cases h0 : P = ⟨0, 0⟩
  · rw [if_pos h0, h0]
    exact ⟨hi.legal, hi.den.trans aDen_zero.symm⟩
  · rw [if_neg h0]
    obtain ⟨hx, hy, ho⟩ := hP.resolve_left h0
    refine ⟨Or.inr (Or.inr ⟨P.x, P.y, rfl, hx, hy, (k1_on_iff _ _).mpr ho⟩), ?_⟩
    unfold k1Den K1Point.coords
    simp

theorem k1Add_spec {L : K1Lib} (hL : L.OK) {a b : K1Point} (ha : K1Legal a) (hb : K1Legal b) :
    K1Legal (k1Add L a b) ∧ k1Den (k1Add L a b) = k1Den a + k1Den b := by
  unfold k1Add
  rcases ha.cases with ⟨z, zt⟩ | ⟨_, zf, _, _, _, la⟩
  · rw [if_pos zt, z.den, zero_add]; exact ⟨hb, rfl⟩
  rw [if_neg (by rw [zf]; simp)]
  rcases hb.cases with ⟨z, zt⟩ | ⟨_, zf, _, _, _, lb⟩
  · rw [if_pos zt, z.den, add_zero]; exact ⟨ha, rfl⟩
  rw [if_neg (by rw [zf]; simp)]
  obtain ⟨l, d⟩ := affAdd_spec (a := 0) (by simp) k1_noroot k1_two_ne la lb
  obtain ⟨l', d'⟩ := k1_ofCoords hL.add l
  exact ⟨l', d'.trans d⟩

theorem k1Mul_spec {L : K1Lib} (hL : L.OK) {a : K1Point} (ha : K1Legal a) (s : Int) :
    K1Legal (k1Mul L a s) ∧ k1Den (k1Mul L a s) = s • k1Den a := by
  have nz : K1Zero K1Point.nilPt := Or.inl rfl
  unfold k1Mul
  rcases ha.cases with ⟨z, zt⟩ | ⟨_, zf, _, _, _, la⟩
  · rw [if_pos zt, z.den, zsmul_zero]; exact ⟨nz.legal, nz.den⟩
  rw [if_neg (by rw [zf]; simp)]
  by_cases hs : s = 0
  · rw [if_pos hs, hs, zero_zsmul]; exact ⟨nz.legal, nz.den⟩
  rw [if_neg hs]
  have hn : (0 : Int) < k1N := by decide +kernel
  obtain ⟨l, d⟩ := affMulGo_spec (a := 0) (by simp) k1_noroot k1_two_ne la ((s % k1N).toNat.log2 + 1) (s % k1N).toNat
    Nat.lt_log2_self
  obtain ⟨l', d'⟩ := k1_ofCoords hL.mul l
  refine ⟨l', d'.trans (d.trans ?_)⟩
  show (s % k1N).toNat • k1Den a = s • k1Den a
  rw [← natCast_zsmul, Int.toNat_of_nonneg (Int.emod_nonneg s hn.ne')]
  conv_rhs => rw [← Int.emod_add_mul_ediv s k1N, add_zsmul, mul_comm, mul_zsmul, natCast_zsmul, k1_nsmul, zsmul_zero, add_zero]

theorem k1Base_legal : K1Legal k1Base :=
  Or.inr (Or.inr ⟨0x79be667ef9dcbbac55a06295ce870b07029bfcdb2dce28d959f2815b16f81798,
    0x483ada7726a3c4655da4fbfc0e1108a8fd17b448a68554199c47d08ffb10d4b8, rfl, by decide +kernel, by decide +kernel,
    by decide +kernel⟩)

theorem k1Base_ne : k1Den k1Base ≠ 0 := by
  rcases k1Base_legal.cases with ⟨z, _⟩ | ⟨_, _, h0, _, _, l⟩
  · rcases z with z | z <;> simp [k1Base] at z
  · rcases l.cases k1_noroot k1_two_ne with ⟨h, _⟩ | ⟨_, _, _, _, d⟩
    · exact absurd h h0
    · rw [k1Den, d]; exact Affine.Point.some_ne_zero _

theorem k1Den_inj {a b : K1Point} (ha : K1Legal a) (hb : K1Legal b) : k1Den a = k1Den b ↔ a.coords = b.coords :=
  ⟨fun h => aDen_inj k1_noroot k1_two_ne ha.aLegal hb.aLegal h, fun h => by rw [k1Den, h, ← k1Den]⟩

theorem k1_coordEq_nil (x : ℕ) (o : Option Int) (ho : o = none ∨ o = some 0) :
    (K1Point.coordEq o (some (x : Int)) = true ↔ x = 0) ∧ (K1Point.coordEq (some (x : Int)) o = true ↔ x = 0) := by
  unfold K1Point.coordEq
  rcases ho with rfl | rfl <;> by_cases hx : x = 0 <;> simp [K1Point.nilOrZero, hx]

theorem k1_coordEq_some (x y : ℕ) : K1Point.coordEq (some (x : Int)) (some (y : Int)) = true ↔ x = y := by
  unfold K1Point.coordEq
  by_cases hx : x = 0 <;> by_cases hy : y = 0 <;> simp [K1Point.nilOrZero, hx, hy] <;> omega

theorem k1_isEqual {a b : K1Point} (ha : K1Legal a) (hb : K1Legal b) : a.isEqual b = true ↔ a.coords = b.coords := by
  unfold K1Point.isEqual
  rw [Bool.and_eq_true]
  have pt : ∀ P Q : WPoint, P = Q ↔ P.x = Q.x ∧ P.y = Q.y := by
    intro P Q; cases P; cases Q; rw [WPoint.mk.injEq]
  have zc : ∀ {e : K1Point}, K1Zero e → (e.X = none ∨ e.X = some 0) ∧ (e.Y = none ∨ e.Y = some 0) := by
    rintro e (rfl | rfl) <;> simp
  rcases ha.cases with ⟨z, zt⟩ | ⟨ea, _⟩ <;> rcases hb.cases with ⟨w, wt⟩ | ⟨eb, _⟩
  · rw [z.coords, w.coords]
    rcases z with rfl | rfl <;> rcases w with rfl | rfl <;> simp [K1Point.coordEq, K1Point.nilOrZero]
  · rw [pt, z.coords, congrArg K1Point.X eb, congrArg K1Point.Y eb]
    dsimp only
    rw [(k1_coordEq_nil _ _ (zc z).1).1, (k1_coordEq_nil _ _ (zc z).2).1, eq_comm, eq_comm (a := b.coords.y)]
  · rw [pt, w.coords, congrArg K1Point.X ea, congrArg K1Point.Y ea]
    dsimp only
    rw [(k1_coordEq_nil _ _ (zc w).1).2, (k1_coordEq_nil _ _ (zc w).2).2]
  · rw [pt, congrArg K1Point.X ea, congrArg K1Point.Y ea, congrArg K1Point.X eb, congrArg K1Point.Y eb]
    dsimp only
    rw [k1_coordEq_some, k1_coordEq_some]

/-- `IsIdentity` does not panic on legal values. -/
theorem k1_isIdentity {a : K1Point} (ha : K1Legal a) : ∃ b, a.isIdentity = some b ∧ (b = true ↔ a.coords = ⟨0, 0⟩) := by
  rcases ha.cases with ⟨z, zt⟩ | ⟨ea, _⟩
  · rw [z.coords]
    rcases z with rfl | rfl
    · exact ⟨true, rfl, by simp⟩
    · exact ⟨true, rfl, by simp⟩
  · generalize a.coords = P at ea
    obtain ⟨x, y⟩ := P
    subst ea
    by_cases hx : x = 0
    · refine ⟨y == 0, ?_, ?_⟩
      · simp [K1Point.isIdentity, hx]
      · simp [hx]
    · refine ⟨false, ?_, ?_⟩
      · simp [K1Point.isIdentity, hx]
      · simp [hx]

/-- The secp256k1 wrapper over the modelled library is lawful. -/
noncomputable def k1Lawful {L : K1Lib} (hL : L.OK) :
    letI := k1Module
    Lawful (k1Grp L) k1N K1Group :=
  letI := k1Module
  have hgen : K1Legal (k1BaseMul L 1) ∧ k1Den (k1BaseMul L 1) = k1Den k1Base := by
    obtain ⟨l, d⟩ := k1Mul_spec hL k1Base_legal 1
    rw [one_zsmul] at d
    exact ⟨l, d⟩
  have nz : K1Zero K1Point.nilPt := Or.inl rfl
  { V := K1Legal
    den := k1Den
    N_eq := rfl
    V_gen := hgen.1
    V_ident := nz.legal
    den_ident := nz.den
    V_add := fun ha hb => (k1Add_spec hL ha hb).1
    den_add := fun ha hb => (k1Add_spec hL ha hb).2
    V_neg := fun ha => (k1Mul_spec hL ha _).1
    den_neg := fun ha => by
      have := (k1Mul_spec hL ha (-1)).2
      rw [neg_one_zsmul] at this
      exact this
    V_scale := fun ha => (k1Mul_spec hL ha _).1
    den_scale := fun ha => by
      rw [Int.cast_smul_eq_zsmul]
      exact (k1Mul_spec hL ha _).2
    V_baseScale := (k1Mul_spec hL k1Base_legal _).1
    den_baseScale := by
      intro _ s
      rw [Int.cast_smul_eq_zsmul]
      show k1Den (k1Mul L k1Base s) = s • k1Den (k1BaseMul L 1)
      rw [hgen.2]
      exact (k1Mul_spec hL k1Base_legal _).2
    isEqual_iff := fun ha hb => (k1_isEqual ha hb).trans (k1Den_inj ha hb).symm
    isIdentity_iff := by
      intro a ha
      obtain ⟨b, e, h⟩ := k1_isIdentity ha
      show a.isIdentity.getD false = true ↔ _
      rw [e, Option.getD_some, h, ← nz.den, k1Den_inj ha nz.legal]
      rfl }

end MscPoc
