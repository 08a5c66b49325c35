import Verif.Lemmas.SWCurve

/-!
# Kernel computations on short Weierstrass curves: multiples of a point, absence of roots
-/

set_option autoImplicit false

namespace MscPoc

open WeierstrassCurve

/-- doubling in Jacobian coordinates modulo `p` -/
def jacDbl (p a : ℕ) (P : ℕ × ℕ × ℕ) : ℕ × ℕ × ℕ :=
  match P with
  | (X, Y, Z) =>
    let YY := Y * Y % p
    let S := 4 * X * YY % p
    let ZZ := Z * Z % p
    let M := (3 * X * X + a * ZZ * ZZ) % p
    let X' := (M * M + (p - 1) * (2 * S)) % p
    (X', (M * (S + (p - 1) * X') + (p - 1) * (8 * YY * YY)) % p, 2 * Y * Z % p)

/-- adding the affine point `(gx, gy)` in Jacobian coordinates modulo `p` -/
def jacAdd (p gx gy : ℕ) (P : ℕ × ℕ × ℕ) : ℕ × ℕ × ℕ :=
  match P with
  | (X, Y, Z) =>
    let ZZ := Z * Z % p
    let H := (gx * ZZ + (p - 1) * X) % p
    let r := (gy * (ZZ * Z) + (p - 1) * Y) % p
    let HH := H * H % p
    let U := X * HH % p
    let H3 := HH * H % p
    let X' := (r * r + (p - 1) * (H3 + 2 * U)) % p
    (X', (r * (U + (p - 1) * X') + (p - 1) * (Y * H3)) % p, Z * H % p)

/-- the `k`-th multiple of `(gx, gy)`, `1 ≤ k < 2 ^ fuel` -/
def jacMul (p a gx gy : ℕ) : ℕ → ℕ → ℕ × ℕ × ℕ
  | 0, _ => (gx, gy, 1)
  | fuel + 1, k =>
    if k ≤ 1 then (gx, gy, 1)
    else if k % 2 = 1 then jacAdd p gx gy (jacDbl p a (jacMul p a gx gy fuel (k / 2)))
    else jacDbl p a (jacMul p a gx gy fuel (k / 2))

/-- the `k`-th multiple of `(gx, gy)` is `(gx, -gy)` -/
def jacCheck (p a gx gy fuel k : ℕ) : Bool :=
  match jacMul p a gx gy fuel k with
  | (X, Y, Z) => Nat.beq X (gx * (Z * Z) % p) && Nat.beq Y ((p - 1) * gy * (Z * Z * Z) % p) && !Nat.beq (Z % p) 0

/-- product in `F[X] / (X³ + a X + b)` -/
def cubMul (p a b : ℕ) (c d : ℕ × ℕ × ℕ) : ℕ × ℕ × ℕ :=
  match c, d with
  | (c0, c1, c2), (d0, d1, d2) =>
    let e3 := c1 * d2 + c2 * d1
    let e4 := c2 * d2
    ((c0 * d0 + (p - 1) * (b * e3)) % p,
     (c0 * d1 + c1 * d0 + (p - 1) * (a * e3 + b * e4)) % p,
     (c0 * d2 + c1 * d1 + c2 * d0 + (p - 1) * (a * e4)) % p)

/-- `X ^ k` in `F[X] / (X³ + a X + b)`, `k < 2 ^ fuel` -/
def cubPow (p a b : ℕ) : ℕ → ℕ → ℕ × ℕ × ℕ
  | 0, _ => (1, 0, 0)
  | fuel + 1, k =>
    if k = 0 then (1, 0, 0)
    else
      let h := cubPow p a b fuel (k / 2)
      let s := cubMul p a b h h
      if k % 2 = 1 then cubMul p a b s (0, 1, 0) else s

/-- `X ^ p - X` is a unit with inverse `v` in `F[X] / (X³ + a X + b)` -/
def cubCheck (p a b fuel : ℕ) (v : ℕ × ℕ × ℕ) : Bool :=
  match cubPow p a b fuel p with
  | (h0, h1, h2) =>
    match cubMul p a b (h0, h1 + (p - 1), h2) v with
    | (e0, e1, e2) => Nat.beq (e0 % p) 1 && Nat.beq (e1 % p) 0 && Nat.beq (e2 % p) 0

section
variable {p : ℕ} [hp : Fact p.Prime]

theorem cast_pred_mul (n : ℕ) : (((p - 1) * n : ℕ) : ZMod p) = -(n : ZMod p) := by
  rw [Nat.cast_mul, Nat.cast_sub hp.out.one_lt.le, ZMod.natCast_self]
  simp

theorem cast_mod (n : ℕ) : ((n % p : ℕ) : ZMod p) = (n : ZMod p) := by simp

theorem cast_pred : ((p - 1 : ℕ) : ZMod p) = -1 := by
  have := cast_pred_mul (p := p) 1
  simpa using this

variable {a b : ℕ}

theorem jacDbl_rep (h2 : (2 : ZMod p) ≠ 0) (hr : ∀ x : ZMod p, x ^ 3 + (a : ZMod p) * x + (b : ZMod p) ≠ 0)
    {P : (swCurve (a : ZMod p) (b : ZMod p)).Point} {J : ℕ × ℕ × ℕ}
    (h : JacRep P (J.1 : ZMod p) (J.2.1 : ZMod p) (J.2.2 : ZMod p)) :
    JacRep (P + P) ((jacDbl p a J).1 : ZMod p) ((jacDbl p a J).2.1 : ZMod p) ((jacDbl p a J).2.2 : ZMod p) := by
  obtain ⟨X, Y, Z⟩ := J
  refine h.dbl h2 hr rfl rfl ?_ ?_ ?_
  · simp only [jacDbl, cast_mod, Nat.cast_add, Nat.cast_mul, cast_pred]; push_cast; ring
  · simp only [jacDbl, cast_mod, Nat.cast_add, Nat.cast_mul, cast_pred]; push_cast; ring
  · simp only [jacDbl, cast_mod]; push_cast; ring

theorem jacAdd_rep {gx gy : ℕ} (hg : (swCurve (a : ZMod p) (b : ZMod p)).Nonsingular (gx : ZMod p) (gy : ZMod p))
    {P : (swCurve (a : ZMod p) (b : ZMod p)).Point} {J : ℕ × ℕ × ℕ}
    (h : JacRep P (J.1 : ZMod p) (J.2.1 : ZMod p) (J.2.2 : ZMod p)) (h0 : ((jacAdd p gx gy J).2.2 : ZMod p) ≠ 0) :
    JacRep (P + Affine.Point.some _ _ hg) ((jacAdd p gx gy J).1 : ZMod p) ((jacAdd p gx gy J).2.1 : ZMod p)
      ((jacAdd p gx gy J).2.2 : ZMod p) := by
  obtain ⟨X, Y, Z⟩ := J
  have hZ : ((jacAdd p gx gy (X, Y, Z)).2.2 : ZMod p) = (Z : ZMod p) * ((gx : ZMod p) * (Z : ZMod p) ^ 2 - (X : ZMod p)) := by
    simp only [jacAdd, cast_mod, Nat.cast_add, Nat.cast_mul, cast_pred]; ring
  refine h.add hg rfl rfl ?_ ?_ hZ ?_
  · simp only [jacAdd, cast_mod, Nat.cast_add, Nat.cast_mul, cast_pred]; push_cast; ring
  · simp only [jacAdd, cast_mod, Nat.cast_add, Nat.cast_mul, cast_pred]; push_cast; ring
  · intro e
    apply h0
    rw [hZ, e, mul_zero]

theorem jacDbl_Z {J : ℕ × ℕ × ℕ} (h : ((jacDbl p a J).2.2 : ZMod p) ≠ 0) : (J.2.2 : ZMod p) ≠ 0 := by
  obtain ⟨X, Y, Z⟩ := J
  intro e
  apply h
  simp only [jacDbl, cast_mod, Nat.cast_mul]
  rw [show ((X, Y, Z) : ℕ × ℕ × ℕ).2.2 = Z from rfl] at e
  rw [e, mul_zero]

theorem jacAdd_Z {gx gy : ℕ} {J : ℕ × ℕ × ℕ} (h : ((jacAdd p gx gy J).2.2 : ZMod p) ≠ 0) : (J.2.2 : ZMod p) ≠ 0 := by
  obtain ⟨X, Y, Z⟩ := J
  intro e
  apply h
  simp only [jacAdd, cast_mod, Nat.cast_mul]
  rw [show ((X, Y, Z) : ℕ × ℕ × ℕ).2.2 = Z from rfl] at e
  rw [e, zero_mul]

theorem jacMul_rep (h2 : (2 : ZMod p) ≠ 0) (hr : ∀ x : ZMod p, x ^ 3 + (a : ZMod p) * x + (b : ZMod p) ≠ 0) {gx gy : ℕ}
    (hg : (swCurve (a : ZMod p) (b : ZMod p)).Nonsingular (gx : ZMod p) (gy : ZMod p)) :
    ∀ (fuel k : ℕ), 1 ≤ k → k < 2 ^ fuel → ((jacMul p a gx gy fuel k).2.2 : ZMod p) ≠ 0 →
      JacRep (k • Affine.Point.some _ _ hg) ((jacMul p a gx gy fuel k).1 : ZMod p) ((jacMul p a gx gy fuel k).2.1 : ZMod p)
        ((jacMul p a gx gy fuel k).2.2 : ZMod p) := by
  have base : JacRep (1 • Affine.Point.some _ _ hg) (gx : ZMod p) (gy : ZMod p) ((1 : ℕ) : ZMod p) := by
    refine ⟨by simp, ?_⟩
    rw [one_nsmul]
    simp only [Nat.cast_one, one_pow, div_one]
    exact ⟨hg, trivial⟩
  intro fuel
  induction fuel with
  | zero => intro k h1 hk; simp at hk; omega
  | succ f ih =>
    intro k h1 hk hZ
    have hk2 : k / 2 < 2 ^ f := by rw [Nat.div_lt_iff_lt_mul (by norm_num)]; rwa [pow_succ] at hk
    unfold jacMul at hZ ⊢
    by_cases c1 : k ≤ 1
    · rw [if_pos c1]
      have : k = 1 := by omega
      subst this
      exact base
    · rw [if_neg c1] at hZ ⊢
      by_cases c2 : k % 2 = 1
      · rw [if_pos c2] at hZ ⊢
        have r := jacDbl_rep h2 hr (ih (k / 2) (by omega) hk2 (jacDbl_Z (jacAdd_Z hZ)))
        have r' := jacAdd_rep hg r hZ
        rw [← add_nsmul, ← succ_nsmul, show k / 2 + k / 2 + 1 = k by omega] at r'
        exact r'
      · rw [if_neg c2] at hZ ⊢
        have r := jacDbl_rep h2 hr (ih (k / 2) (by omega) hk2 (jacDbl_Z hZ))
        rw [← add_nsmul, show k / 2 + k / 2 = k by omega] at r
        exact r

/-- the `(k + 1)`-st multiple vanishes -/
theorem jacCheck_spec (h2 : (2 : ZMod p) ≠ 0) (hr : ∀ x : ZMod p, x ^ 3 + (a : ZMod p) * x + (b : ZMod p) ≠ 0) {gx gy : ℕ}
    (hg : (swCurve (a : ZMod p) (b : ZMod p)).Nonsingular (gx : ZMod p) (gy : ZMod p)) {fuel k : ℕ} (h1 : 1 ≤ k)
    (hk : k < 2 ^ fuel) (h : jacCheck p a gx gy fuel k = true) : (k + 1) • Affine.Point.some _ _ hg = 0 := by
  have rep := jacMul_rep h2 hr hg fuel k h1 hk
  unfold jacCheck at h
  rcases hJ : jacMul p a gx gy fuel k with ⟨X, Y, Z⟩
  rw [hJ] at h rep
  simp only [Bool.and_eq_true, Bool.not_eq_true'] at h
  obtain ⟨⟨eX, eY⟩, eZ⟩ := h
  replace eX := Nat.eq_of_beq_eq_true eX
  replace eY := Nat.eq_of_beq_eq_true eY
  have z0 : (Z : ZMod p) ≠ 0 := by
    intro e
    rw [ZMod.natCast_eq_zero_iff] at e
    rw [Nat.mod_eq_zero_of_dvd e] at eZ
    simp at eZ
  obtain ⟨_, hn, e⟩ := rep z0
  rw [succ_nsmul, e]
  refine Affine.Point.add_of_Y_eq ?_ ?_
  · dsimp only
    rw [eX, cast_mod]; push_cast; field_simp
  · rw [sw_negY]
    dsimp only
    rw [eY, cast_mod, Nat.cast_mul, Nat.cast_mul, cast_pred]; push_cast; field_simp

/-- value of a residue at a root -/
def cubVal (c : ℕ × ℕ × ℕ) (x : ZMod p) : ZMod p := (c.1 : ZMod p) + (c.2.1 : ZMod p) * x + (c.2.2 : ZMod p) * x ^ 2

theorem cubMul_val {x : ZMod p} (hx : x ^ 3 + (a : ZMod p) * x + (b : ZMod p) = 0) (c d : ℕ × ℕ × ℕ) :
    cubVal (cubMul p a b c d) x = cubVal c x * cubVal d x := by
  obtain ⟨c0, c1, c2⟩ := c
  obtain ⟨d0, d1, d2⟩ := d
  simp only [cubVal, cubMul, cast_mod, Nat.cast_add, Nat.cast_mul, cast_pred]
  linear_combination (-((c1 : ZMod p) * d2 + c2 * d1) - (c2 : ZMod p) * d2 * x) * hx

theorem cubPow_val {x : ZMod p} (hx : x ^ 3 + (a : ZMod p) * x + (b : ZMod p) = 0) :
    ∀ (fuel k : ℕ), k < 2 ^ fuel → cubVal (cubPow p a b fuel k) x = x ^ k := by
  intro fuel
  induction fuel with
  | zero => intro k hk; simp at hk; subst hk; simp [cubPow, cubVal]
  | succ f ih =>
    intro k hk
    have hk2 : k / 2 < 2 ^ f := by rw [Nat.div_lt_iff_lt_mul (by norm_num)]; rwa [pow_succ] at hk
    unfold cubPow
    by_cases c1 : k = 0
    · rw [if_pos c1]; subst c1; simp [cubVal]
    · rw [if_neg c1]
      dsimp only
      by_cases c2 : k % 2 = 1
      · rw [if_pos c2, cubMul_val hx, cubMul_val hx, ih _ hk2, ← pow_add]
        have : cubVal (0, 1, 0) x = x := by simp [cubVal]
        rw [this, ← pow_succ, show k / 2 + k / 2 + 1 = k by omega]
      · rw [if_neg c2, cubMul_val hx, ih _ hk2, ← pow_add, show k / 2 + k / 2 = k by omega]

/-- the cubic has no root -/
theorem cubCheck_spec {fuel : ℕ} {v : ℕ × ℕ × ℕ} (hf : p < 2 ^ fuel) (h : cubCheck p a b fuel v = true) (x : ZMod p) :
    x ^ 3 + (a : ZMod p) * x + (b : ZMod p) ≠ 0 := by
  intro hx
  have hv := cubPow_val hx fuel p hf
  rw [ZMod.pow_card] at hv
  unfold cubCheck at h
  rcases hH : cubPow p a b fuel p with ⟨h0, h1, h2⟩
  rw [hH] at h hv
  dsimp only at h
  have hm := cubMul_val hx (h0, h1 + (p - 1), h2) v
  rcases hE : cubMul p a b (h0, h1 + (p - 1), h2) v with ⟨e0, e1, e2⟩
  rw [hE] at h hm
  simp only [Bool.and_eq_true] at h
  obtain ⟨⟨k0, k1⟩, k2⟩ := h
  replace k0 := Nat.eq_of_beq_eq_true k0
  replace k1 := Nat.eq_of_beq_eq_true k1
  replace k2 := Nat.eq_of_beq_eq_true k2
  have z : cubVal (h0, h1 + (p - 1), h2) x = 0 := by
    simp only [cubVal, Nat.cast_add, cast_pred] at hv ⊢
    linear_combination hv
  rw [z, zero_mul] at hm
  have k0' : (e0 : ZMod p) = 1 := by rw [← cast_mod, k0]; simp
  have k1' : (e1 : ZMod p) = 0 := by rw [← cast_mod, k1]; simp
  have k2' : (e2 : ZMod p) = 0 := by rw [← cast_mod, k2]; simp
  simp only [cubVal, k0', k1', k2', zero_mul, add_zero] at hm
  exact one_ne_zero hm

end
end MscPoc
