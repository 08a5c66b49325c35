import Verif.Lemmas.SWCurve

/-!
# Primality from a point of prime order on an elliptic curve (Goldwasser–Kilian, Atkin–Morain)

If `q` with `4 n < (q - 1)²` is prime and a point computed modulo `n` has order `q` modulo every prime
factor of `n`, then `n` is prime: modulo a prime factor `r ≤ √n` there are at most `2 r + 1` points.  The multiple of the
point is computed in Jacobian coordinates by kernel evaluation; that the last `Z` is coprime to `n` shows that no step
was exceptional modulo any prime factor.
-/

set_option autoImplicit false
set_option linter.unusedSectionVars false

namespace MscPoc

open WeierstrassCurve

/-- evaluates `x` before it goes on; keeps kernel evaluation of long loops linear -/
def force {α : Type} (x : ℕ) (k : ℕ → α) : α := Nat.rec (k 0) (fun n _ => k (n + 1)) x

theorem force_eq {α : Type} (x : ℕ) (k : ℕ → α) : force x k = k x := by cases x <;> rfl

/-- doubling in Jacobian coordinates modulo `n` -/
def ecDbl (n a : ℕ) (P : ℕ × ℕ × ℕ) : ℕ × ℕ × ℕ :=
  match P with
  | (X, Y, Z) =>
    let YY := Y * Y % n
    let S := 4 * X * YY % n
    let ZZ := Z * Z % n
    let M := (3 * X * X + a * ZZ * ZZ) % n
    let X' := (M * M + (n - 1) * (2 * S)) % n
    (X', (M * (S + (n - 1) * X') + (n - 1) * (8 * YY * YY)) % n, 2 * Y * Z % n)

/-- adding the affine point `(gx, gy)` in Jacobian coordinates modulo `n` -/
def ecAdd (n gx gy : ℕ) (P : ℕ × ℕ × ℕ) : ℕ × ℕ × ℕ :=
  match P with
  | (X, Y, Z) =>
    let ZZ := Z * Z % n
    let H := (gx * ZZ + (n - 1) * X) % n
    let r := (gy * (ZZ * Z) + (n - 1) * Y) % n
    let HH := H * H % n
    let U := X * HH % n
    let H3 := HH * H % n
    let X' := (r * r + (n - 1) * (H3 + 2 * U)) % n
    (X', (r * (U + (n - 1) * X') + (n - 1) * (Y * H3)) % n, Z * H % n)

/-- double and add over the lowest `i` bits of `k`, highest first -/
def ecLoop (n a gx gy k : ℕ) : ℕ → ℕ × ℕ × ℕ → ℕ × ℕ × ℕ
  | 0, P => P
  | i + 1, P =>
    match ecDbl n a P with
    | (X, Y, Z) => force X fun X => force Y fun Y => force Z fun Z =>
      if Nat.beq (k / 2 ^ i % 2) 1 then
        match ecAdd n gx gy (X, Y, Z) with
        | (X, Y, Z) => force X fun X => force Y fun Y => force Z fun Z => ecLoop n a gx gy k i (X, Y, Z)
      else ecLoop n a gx gy k i (X, Y, Z)

theorem ecLoop_zero (n a gx gy k : ℕ) (P : ℕ × ℕ × ℕ) : ecLoop n a gx gy k 0 P = P := rfl

theorem ecLoop_succ (n a gx gy k i : ℕ) (P : ℕ × ℕ × ℕ) : ecLoop n a gx gy k (i + 1) P =
    if k / 2 ^ i % 2 = 1 then ecLoop n a gx gy k i (ecAdd n gx gy (ecDbl n a P)) else ecLoop n a gx gy k i (ecDbl n a P) := by
  rw [ecLoop]
  simp only [force_eq]
  by_cases c : k / 2 ^ i % 2 = 1
  · rw [if_pos c, if_pos (by rw [c]; rfl)]
  · rw [if_neg c, if_neg (fun e => c (Nat.eq_of_beq_eq_true e))]

/-- one step of a certificate: `n` is prime if `q` is -/
def ecStep (l n q a x y : ℕ) : Bool :=
  Nat.beq (n % 2) 1 && Nat.blt 1 n && Nat.beq (Nat.gcd y n) 1 && Nat.blt (4 * n) ((q - 1) * (q - 1)) &&
  Nat.beq ((q - 1) / 2 ^ l) 1 &&
  match ecLoop n a x y (q - 1) l (x, y, 1) with
  | (X, Y, Z) => Nat.beq (Nat.gcd Z n) 1 && Nat.beq X (x * (Z * Z) % n) && Nat.beq Y ((n - 1) * y * (Z * Z * Z) % n)

section
variable {F : Type} [Field F] [DecidableEq F] {a b : F}

theorem JacRep.dbl_of_ne (h2 : (2 : F) ≠ 0) {P : (swCurve a b).Point} {X Y Z X' Y' Z' S M : F}
    (h : JacRep P X Y Z) (hS : S = 4 * X * Y ^ 2) (hM : M = 3 * X ^ 2 + a * Z ^ 4) (hX : X' = M ^ 2 - 2 * S)
    (hY : Y' = M * (S - X') - 8 * Y ^ 4) (hZ : Z' = 2 * Y * Z) (h0 : Z' ≠ 0) : JacRep (P + P) X' Y' Z' := by
  obtain ⟨z0, hn, rfl⟩ := h
  have y0 : Y ≠ 0 := by
    rintro rfl
    exact h0 (by rw [hZ]; ring)
  have y0' : Y / Z ^ 3 ≠ 0 := div_ne_zero y0 (pow_ne_zero _ z0)
  refine ⟨h0, sw_add_some hn hn (l := M / Z') ?_ ?_ ?_ ?_⟩
  · rintro ⟨_, e⟩
    apply y0'
    have : 2 * (Y / Z ^ 3) = 0 := by linear_combination e
    simpa [h2] using this
  · rw [sw_slope_dbl h2 y0', hM, hZ]; field_simp
  · rw [hX, hS, hM, hZ]; field_simp; ring
  · rw [hY, hX, hS, hM, hZ]; field_simp; ring

end

section
variable {r : ℕ} [hr : Fact r.Prime] {n : ℕ}

theorem ecCast_mod (hd : r ∣ n) (x : ℕ) : ((x % n : ℕ) : ZMod r) = (x : ZMod r) := by
  conv_rhs => rw [← Nat.div_add_mod x n]
  push_cast
  rw [(ZMod.natCast_eq_zero_iff n r).mpr hd]
  simp

theorem ecCast_pred (hn : 1 < n) (hd : r ∣ n) : ((n - 1 : ℕ) : ZMod r) = -1 := by
  rw [Nat.cast_sub hn.le, (ZMod.natCast_eq_zero_iff n r).mpr hd]
  simp

variable {a gx gy : ℕ} {b : ZMod r}

theorem ecDbl_Z (hd : r ∣ n) {J : ℕ × ℕ × ℕ} (h : ((ecDbl n a J).2.2 : ZMod r) ≠ 0) : (J.2.2 : ZMod r) ≠ 0 := by
  obtain ⟨X, Y, Z⟩ := J
  intro e
  apply h
  simp only [ecDbl, ecCast_mod hd, Nat.cast_mul]
  rw [show ((X, Y, Z) : ℕ × ℕ × ℕ).2.2 = Z from rfl] at e
  rw [e, mul_zero]

theorem ecAdd_Z (hd : r ∣ n) {J : ℕ × ℕ × ℕ} (h : ((ecAdd n gx gy J).2.2 : ZMod r) ≠ 0) : (J.2.2 : ZMod r) ≠ 0 := by
  obtain ⟨X, Y, Z⟩ := J
  intro e
  apply h
  simp only [ecAdd, ecCast_mod hd, Nat.cast_mul]
  rw [show ((X, Y, Z) : ℕ × ℕ × ℕ).2.2 = Z from rfl] at e
  rw [e, zero_mul]

theorem ecLoop_Z (hd : r ∣ n) (k : ℕ) : ∀ (i : ℕ) (J : ℕ × ℕ × ℕ), ((ecLoop n a gx gy k i J).2.2 : ZMod r) ≠ 0 → (J.2.2 : ZMod r) ≠ 0
  | 0, J, h => h
  | i + 1, J, h => by
    rw [ecLoop_succ] at h
    split at h
    · exact ecDbl_Z hd (ecAdd_Z hd (ecLoop_Z hd k i _ h))
    · exact ecDbl_Z hd (ecLoop_Z hd k i _ h)

theorem ecDbl_rep (hn : 1 < n) (hd : r ∣ n) (h2 : (2 : ZMod r) ≠ 0) {P : (swCurve (a : ZMod r) b).Point} {J : ℕ × ℕ × ℕ}
    (h : JacRep P (J.1 : ZMod r) (J.2.1 : ZMod r) (J.2.2 : ZMod r)) (h0 : ((ecDbl n a J).2.2 : ZMod r) ≠ 0) :
    JacRep (P + P) ((ecDbl n a J).1 : ZMod r) ((ecDbl n a J).2.1 : ZMod r) ((ecDbl n a J).2.2 : ZMod r) := by
  obtain ⟨X, Y, Z⟩ := J
  refine h.dbl_of_ne h2 rfl rfl ?_ ?_ ?_ h0
  · simp only [ecDbl, ecCast_mod hd, Nat.cast_add, Nat.cast_mul, ecCast_pred hn hd]; push_cast; ring
  · simp only [ecDbl, ecCast_mod hd, Nat.cast_add, Nat.cast_mul, ecCast_pred hn hd]; push_cast; ring
  · simp only [ecDbl, ecCast_mod hd]; push_cast; ring

theorem ecAdd_rep (hn : 1 < n) (hd : r ∣ n) (hg : (swCurve (a : ZMod r) b).Nonsingular (gx : ZMod r) (gy : ZMod r))
    {P : (swCurve (a : ZMod r) b).Point} {J : ℕ × ℕ × ℕ}
    (h : JacRep P (J.1 : ZMod r) (J.2.1 : ZMod r) (J.2.2 : ZMod r)) (h0 : ((ecAdd n gx gy J).2.2 : ZMod r) ≠ 0) :
    JacRep (P + Affine.Point.some _ _ hg) ((ecAdd n gx gy J).1 : ZMod r) ((ecAdd n gx gy J).2.1 : ZMod r)
      ((ecAdd n gx gy J).2.2 : ZMod r) := by
  obtain ⟨X, Y, Z⟩ := J
  have hZ : ((ecAdd n gx gy (X, Y, Z)).2.2 : ZMod r) = (Z : ZMod r) * ((gx : ZMod r) * (Z : ZMod r) ^ 2 - (X : ZMod r)) := by
    simp only [ecAdd, ecCast_mod hd, Nat.cast_add, Nat.cast_mul, ecCast_pred hn hd]; ring
  refine h.add hg rfl rfl ?_ ?_ hZ ?_
  · simp only [ecAdd, ecCast_mod hd, Nat.cast_add, Nat.cast_mul, ecCast_pred hn hd]; push_cast; ring
  · simp only [ecAdd, ecCast_mod hd, Nat.cast_add, Nat.cast_mul, ecCast_pred hn hd]; push_cast; ring
  · intro e
    apply h0
    rw [hZ, e, mul_zero]

theorem ecLoop_rep (hn : 1 < n) (hd : r ∣ n) (h2 : (2 : ZMod r) ≠ 0)
    (hg : (swCurve (a : ZMod r) b).Nonsingular (gx : ZMod r) (gy : ZMod r)) (k : ℕ) : ∀ (i : ℕ) (J : ℕ × ℕ × ℕ),
    JacRep ((k / 2 ^ i) • Affine.Point.some _ _ hg) (J.1 : ZMod r) (J.2.1 : ZMod r) (J.2.2 : ZMod r) →
    ((ecLoop n a gx gy k i J).2.2 : ZMod r) ≠ 0 →
    JacRep (k • Affine.Point.some _ _ hg) ((ecLoop n a gx gy k i J).1 : ZMod r) ((ecLoop n a gx gy k i J).2.1 : ZMod r)
      ((ecLoop n a gx gy k i J).2.2 : ZMod r)
  | 0, J, h, _ => by
    rw [ecLoop_zero]
    simpa using h
  | i + 1, J, h, h0 => by
    have hk : k / 2 ^ i = k / 2 ^ (i + 1) + k / 2 ^ (i + 1) + k / 2 ^ i % 2 := by
      rw [pow_succ, ← Nat.div_div_eq_div_mul]; omega
    rw [ecLoop_succ] at h0 ⊢
    split at h0
    · rename_i c
      rw [if_pos c]
      have z1 := ecLoop_Z hd k i _ h0
      have z2 := ecAdd_Z hd z1
      refine ecLoop_rep hn hd h2 hg k i _ ?_ h0
      have := ecAdd_rep hn hd hg (ecDbl_rep hn hd h2 h z2) z1
      rwa [← add_nsmul, ← succ_nsmul, show k / 2 ^ (i + 1) + k / 2 ^ (i + 1) + 1 = k / 2 ^ i by omega] at this
    · rename_i c
      rw [if_neg c]
      have z1 := ecLoop_Z hd k i _ h0
      refine ecLoop_rep hn hd h2 hg k i _ ?_ h0
      have := ecDbl_rep hn hd h2 h z1
      rwa [← add_nsmul, show k / 2 ^ (i + 1) + k / 2 ^ (i + 1) = k / 2 ^ i by omega] at this

end

/-- The elliptic curve primality criterion. -/
theorem ecpp {l n q a x y : ℕ} (h : ecStep l n q a x y = true) (hq : q.Prime) : n.Prime := by
  unfold ecStep at h
  rcases hJ : ecLoop n a x y (q - 1) l (x, y, 1) with ⟨X, Y, Z⟩
  rw [hJ] at h
  simp only [Bool.and_eq_true] at h
  obtain ⟨⟨⟨⟨⟨h1, h2⟩, h3⟩, h4⟩, h5⟩, ⟨h6, h7⟩, h8⟩ := h
  replace h1 := Nat.eq_of_beq_eq_true h1
  replace h2 : 1 < n := Nat.lt_of_succ_le (by simpa [Nat.blt] using h2)
  replace h3 := Nat.eq_of_beq_eq_true h3
  replace h4 : 4 * n < (q - 1) * (q - 1) := Nat.lt_of_succ_le (by simpa [Nat.blt] using h4)
  replace h5 := Nat.eq_of_beq_eq_true h5
  replace h6 := Nat.eq_of_beq_eq_true h6
  replace h7 := Nat.eq_of_beq_eq_true h7
  replace h8 := Nat.eq_of_beq_eq_true h8
  by_contra hnp
  obtain ⟨r, hr⟩ : ∃ r, n.minFac = r := ⟨_, rfl⟩
  have hrp : r.Prime := hr ▸ Nat.minFac_prime (by omega)
  have hd : r ∣ n := hr ▸ Nat.minFac_dvd n
  have hsq : r ^ 2 ≤ n := hr ▸ Nat.minFac_sq_le_self (by omega) hnp
  have : Fact r.Prime := ⟨hrp⟩
  have unit : ∀ z : ℕ, Nat.gcd z n = 1 → (z : ZMod r) ≠ 0 := by
    intro z hz e
    rw [ZMod.natCast_eq_zero_iff] at e
    have := Nat.dvd_gcd e hd
    rw [hz] at this
    exact hrp.one_lt.ne' (Nat.dvd_one.mp this)
  have two : (2 : ZMod r) ≠ 0 := by
    have := unit 2 ((Nat.coprime_two_left).mpr (Nat.odd_iff.mpr h1))
    simpa using this
  have y0 : (y : ZMod r) ≠ 0 := unit y h3
  have z0 : (Z : ZMod r) ≠ 0 := unit Z h6
  have hg : (swCurve (a : ZMod r) ((y : ZMod r) ^ 2 - (x : ZMod r) ^ 3 - (a : ZMod r) * (x : ZMod r))).Nonsingular (x : ZMod r) (y : ZMod r) := by
    rw [Affine.nonsingular_iff', sw_equation]
    refine ⟨by ring, Or.inr ?_⟩
    simp [swCurve, y0, two]
  have base : JacRep (((q - 1) / 2 ^ l) • Affine.Point.some _ _ hg) (x : ZMod r) (y : ZMod r) ((1 : ℕ) : ZMod r) := by
    refine ⟨by simp, ?_⟩
    rw [h5, one_nsmul]
    simp only [Nat.cast_one, one_pow, div_one]
    exact ⟨hg, trivial⟩
  have rep := ecLoop_rep h2 hd two hg (q - 1) l (x, y, 1) base (by rw [hJ]; exact z0)
  rw [hJ] at rep
  obtain ⟨_, hn, e⟩ := rep
  have zero : q • Affine.Point.some _ _ hg = 0 := by
    rw [show q = q - 1 + 1 from by have := hq.one_lt; omega, succ_nsmul, e]
    refine Affine.Point.add_of_Y_eq ?_ ?_
    · dsimp only
      rw [h7, ecCast_mod hd]; push_cast; field_simp
    · rw [sw_negY]
      dsimp only
      rw [h8, ecCast_mod hd, Nat.cast_mul, Nat.cast_mul, ecCast_pred h2 hd]; push_cast; field_simp
  have ho : addOrderOf (Affine.Point.some _ _ hg) = q := by
    have : Fact q.Prime := ⟨hq⟩
    exact addOrderOf_eq_prime zero (Affine.Point.some_ne_zero _)
  have hle : q ≤ 2 * r + 1 := by
    have hc := sw_card_le (F := ZMod r) (a := (a : ZMod r)) (b := (y : ZMod r) ^ 2 - (x : ZMod r) ^ 3 - (a : ZMod r) * (x : ZMod r))
    have := sw_finite (F := ZMod r) (a := (a : ZMod r)) (b := (y : ZMod r) ^ 2 - (x : ZMod r) ^ 3 - (a : ZMod r) * (x : ZMod r))
    rw [Nat.card_zmod] at hc
    exact (ho ▸ Nat.le_of_dvd Nat.card_pos (addOrderOf_dvd_natCard (Affine.Point.some _ _ hg))).trans hc
  have : (q - 1) * (q - 1) ≤ 2 * r * (2 * r) := Nat.mul_le_mul (by omega) (by omega)
  nlinarith

end MscPoc
