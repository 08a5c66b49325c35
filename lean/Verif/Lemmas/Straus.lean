import Verif.Lemmas.SWCompute
import Verif.Lemmas.CurveLawful
import Verif.Lemmas.BpRange

/-!
# Kernel computations on short Weierstrass curves: sums of multiples of points
-/

set_option autoImplicit false

namespace MscPoc

open WeierstrassCurve

/-- `f n`, with `n` reduced to a numeral first -/
def forceN {α : Type} (n : ℕ) (f : ℕ → α) : α := Nat.rec (f 0) (fun m _ => f (Nat.succ m)) n

theorem forceN_eq {α : Type} (n : ℕ) (f : ℕ → α) : forceN n f = f n := by cases n <;> rfl

/-- `f J`, with the coordinates reduced to numerals first -/
def forceT {α : Type} (J : ℕ × ℕ × ℕ) (f : ℕ × ℕ × ℕ → α) : α :=
  match J with
  | (X, Y, Z) => forceN X fun X => forceN Y fun Y => forceN Z fun Z => f (X, Y, Z)

theorem forceT_eq {α : Type} (J : ℕ × ℕ × ℕ) (f : ℕ × ℕ × ℕ → α) : forceT J f = f J := by
  obtain ⟨X, Y, Z⟩ := J
  simp only [forceT, forceN_eq]

/-- `f ts`, with all numbers reduced to numerals first -/
def forceL {α : Type} : List (ℕ × ℕ × ℕ) → (List (ℕ × ℕ × ℕ) → α) → α
  | [], f => f []
  | t :: ts, f => forceT t fun t => forceL ts fun r => f (t :: r)

theorem forceL_eq {α : Type} (ts : List (ℕ × ℕ × ℕ)) (f : List (ℕ × ℕ × ℕ) → α) : forceL ts f = f ts := by
  induction ts generalizing f with
  | nil => rfl
  | cons t ts ih => rw [forceL, forceT_eq, ih]

/-- `jacDbl` with intermediate results reduced -/
def sDbl (p a : ℕ) (J : ℕ × ℕ × ℕ) : ℕ × ℕ × ℕ :=
  match J with
  | (X, Y, Z) =>
    forceN (Y * Y % p) fun YY =>
    forceN (4 * X * YY % p) fun S =>
    forceN (Z * Z % p) fun ZZ =>
    forceN ((3 * X * X + a * ZZ * ZZ) % p) fun M =>
    forceN ((M * M + (p - 1) * (2 * S)) % p) fun X' =>
    forceN ((M * (S + (p - 1) * X') + (p - 1) * (8 * YY * YY)) % p) fun Y' =>
    forceN (2 * Y * Z % p) fun Z' =>
    (X', Y', Z')

/-- `jacAdd` with intermediate results reduced -/
def sAdd (p gx gy : ℕ) (J : ℕ × ℕ × ℕ) : ℕ × ℕ × ℕ :=
  match J with
  | (X, Y, Z) =>
    forceN (Z * Z % p) fun ZZ =>
    forceN ((gx * ZZ + (p - 1) * X) % p) fun H =>
    forceN ((gy * (ZZ * Z) + (p - 1) * Y) % p) fun r =>
    forceN (H * H % p) fun HH =>
    forceN (X * HH % p) fun U =>
    forceN (HH * H % p) fun H3 =>
    forceN ((r * r + (p - 1) * (H3 + 2 * U)) % p) fun X' =>
    forceN ((r * (U + (p - 1) * X') + (p - 1) * (Y * H3)) % p) fun Y' =>
    forceN (Z * H % p) fun Z' =>
    (X', Y', Z')

theorem sDbl_eq (p a : ℕ) (J : ℕ × ℕ × ℕ) : sDbl p a J = jacDbl p a J := by
  obtain ⟨X, Y, Z⟩ := J
  simp only [sDbl, jacDbl, forceN_eq]

theorem sAdd_eq (p gx gy : ℕ) (J : ℕ × ℕ × ℕ) : sAdd p gx gy J = jacAdd p gx gy J := by
  obtain ⟨X, Y, Z⟩ := J
  simp only [sAdd, jacAdd, forceN_eq]

/-- a multiple to add: the factor and the coordinates -/
abbrev Term := ℕ × ℕ × ℕ

/-- add the points whose factor has bit `i` set -/
def sBit (p i : ℕ) : List Term → ℕ × ℕ × ℕ → ℕ × ℕ × ℕ
  | [], J => J
  | (k, x, y) :: ts, J => bif Nat.beq (k / 2 ^ i % 2) 1 then forceT (sAdd p x y J) (sBit p i ts) else sBit p i ts J

/-- interleaved double-and-add over the lowest bits of the factors -/
def sGo (p a : ℕ) (ts : List Term) : ℕ → ℕ × ℕ × ℕ → ℕ × ℕ × ℕ
  | 0, J => J
  | i + 1, J => forceT (forceT (sDbl p a J) (sBit p i ts)) (sGo p a ts i)

/-- the same Jacobian point, not the identity -/
def jacSame (p : ℕ) (J K : ℕ × ℕ × ℕ) : Bool :=
  match J, K with
  | (X, Y, Z), (X', Y', Z') =>
    Nat.beq (X * (Z' * Z') % p) (X' * (Z * Z) % p) && Nat.beq (Y * (Z' * Z' * Z') % p) (Y' * (Z * Z * Z) % p) &&
      !Nat.beq (Z % p) 0 && !Nat.beq (Z' % p) 0

/-- the multiples add up to zero: started from a point, the algorithm with and without them ends in the same point -/
def sZero (p a gx gy fuel : ℕ) (ts : List Term) : Bool :=
  forceL ts fun ts => jacSame p (sGo p a ts fuel (gx, gy, 1)) (sGo p a [] fuel (gx, gy, 1))

section
variable {p : ℕ} [hp : Fact p.Prime] {a b : ℕ}

theorem sBit_Z (i : ℕ) (ts : List Term) (J : ℕ × ℕ × ℕ) (h : ((sBit p i ts J).2.2 : ZMod p) ≠ 0) : (J.2.2 : ZMod p) ≠ 0 := by
  induction ts generalizing J with
  | nil => exact h
  | cons t ts ih =>
    obtain ⟨k, x, y⟩ := t
    unfold sBit at h
    rw [forceT_eq] at h
    cases hb : Nat.beq (k / 2 ^ i % 2) 1 with
    | true =>
      rw [hb, cond_true] at h
      have := ih _ h
      rw [sAdd_eq] at this
      exact jacAdd_Z this
    | false =>
      rw [hb, cond_false] at h
      exact ih _ h

theorem sGo_Z (ts : List Term) (f : ℕ) (J : ℕ × ℕ × ℕ) (h : ((sGo p a ts f J).2.2 : ZMod p) ≠ 0) : (J.2.2 : ZMod p) ≠ 0 := by
  induction f generalizing J with
  | zero => exact h
  | succ f ih =>
    rw [sGo, forceT_eq, forceT_eq] at h
    have := sBit_Z f ts _ (ih _ h)
    rw [sDbl_eq] at this
    exact jacDbl_Z this

/-- the points of the terms are points of the curve, given by `D` -/
def TermsOK (D : WPoint → (swCurve (a : ZMod p) (b : ZMod p)).Point) (ts : List Term) : Prop :=
  ∀ t ∈ ts, ∃ hn : (swCurve (a : ZMod p) (b : ZMod p)).Nonsingular (t.2.1 : ZMod p) (t.2.2 : ZMod p),
    D ⟨t.2.1, t.2.2⟩ = Affine.Point.some _ _ hn

/-- the sum of the multiples, with factors `f k` -/
def tSum {M : Type} [AddCommGroup M] (D : WPoint → M) (f : ℕ → ℕ) (ts : List Term) : M :=
  (ts.map fun t => f t.1 • D ⟨t.2.1, t.2.2⟩).sum

theorem tSum_cons {M : Type} [AddCommGroup M] (D : WPoint → M) (f : ℕ → ℕ) (k x y : ℕ) (ts : List Term) :
    tSum D f ((k, x, y) :: ts) = f k • D ⟨x, y⟩ + tSum D f ts := rfl

theorem sBit_rep {D : WPoint → (swCurve (a : ZMod p) (b : ZMod p)).Point} (i : ℕ) (ts : List Term) (hts : TermsOK D ts)
    {P : (swCurve (a : ZMod p) (b : ZMod p)).Point} {J : ℕ × ℕ × ℕ}
    (h : JacRep P (J.1 : ZMod p) (J.2.1 : ZMod p) (J.2.2 : ZMod p)) (h0 : ((sBit p i ts J).2.2 : ZMod p) ≠ 0) :
    JacRep (P + tSum D (fun k => k / 2 ^ i % 2) ts) ((sBit p i ts J).1 : ZMod p) ((sBit p i ts J).2.1 : ZMod p)
      ((sBit p i ts J).2.2 : ZMod p) := by
  induction ts generalizing J P with
  | nil => simpa [tSum, sBit] using h
  | cons t ts ih =>
    obtain ⟨k, x, y⟩ := t
    obtain ⟨hn, hD⟩ := hts (k, x, y) (by simp)
    have hts' : TermsOK D ts := fun t ht => hts t (by simp [ht])
    unfold sBit at h0 ⊢
    rw [forceT_eq] at h0 ⊢
    cases hb : Nat.beq (k / 2 ^ i % 2) 1 with
    | true =>
      rw [hb, cond_true] at h0
      rw [cond_true]
      have hz := sBit_Z i ts _ h0
      rw [sAdd_eq] at hz h0 ⊢
      have r := ih hts' (jacAdd_rep hn h hz) h0
      rw [← hD, add_assoc] at r
      have e : tSum D (fun k => k / 2 ^ i % 2) ((k, x, y) :: ts) = D ⟨x, y⟩ + tSum D (fun k => k / 2 ^ i % 2) ts := by
        rw [tSum_cons]
        rw [Nat.eq_of_beq_eq_true hb, one_nsmul]
      rw [e]
      exact r
    | false =>
      rw [hb, cond_false] at h0
      rw [cond_false]
      have r := ih hts' h h0
      have e : tSum D (fun k => k / 2 ^ i % 2) ((k, x, y) :: ts) = tSum D (fun k => k / 2 ^ i % 2) ts := by
        have : k / 2 ^ i % 2 = 0 := by
          have := Nat.ne_of_beq_eq_false hb
          omega
        rw [tSum_cons]
        rw [this, zero_nsmul, zero_add]
      rw [e]
      exact r

theorem tSum_two_pow {M : Type} [AddCommGroup M] (D : WPoint → M) (f : ℕ) (ts : List Term) :
    tSum D (fun k => k % 2 ^ (f + 1)) ts = 2 ^ f • tSum D (fun k => k / 2 ^ f % 2) ts + tSum D (fun k => k % 2 ^ f) ts := by
  induction ts with
  | nil => simp [tSum]
  | cons t ts ih =>
    obtain ⟨k, x, y⟩ := t
    rw [tSum_cons, tSum_cons, tSum_cons, ih, nsmul_add, Nat.mod_pow_succ, add_nsmul, mul_nsmul']
    abel

theorem sGo_rep (h2 : (2 : ZMod p) ≠ 0) (hr : ∀ x : ZMod p, x ^ 3 + (a : ZMod p) * x + (b : ZMod p) ≠ 0)
    {D : WPoint → (swCurve (a : ZMod p) (b : ZMod p)).Point} (ts : List Term) (hts : TermsOK D ts) (f : ℕ)
    {P : (swCurve (a : ZMod p) (b : ZMod p)).Point} {J : ℕ × ℕ × ℕ}
    (h : JacRep P (J.1 : ZMod p) (J.2.1 : ZMod p) (J.2.2 : ZMod p)) (h0 : ((sGo p a ts f J).2.2 : ZMod p) ≠ 0) :
    JacRep (2 ^ f • P + tSum D (fun k => k % 2 ^ f) ts) ((sGo p a ts f J).1 : ZMod p) ((sGo p a ts f J).2.1 : ZMod p)
      ((sGo p a ts f J).2.2 : ZMod p) := by
  induction f generalizing J P with
  | zero =>
    have e : tSum D (fun k => k % 2 ^ 0) ts = 0 := by
      unfold tSum
      simp [Nat.mod_one]
    rw [e, pow_zero, one_nsmul, add_zero]
    exact h
  | succ f ih =>
    unfold sGo at h0 ⊢
    rw [forceT_eq, forceT_eq] at h0 ⊢
    have z1 := sGo_Z ts f _ h0
    rw [sDbl_eq] at z1 h0 ⊢
    have r := ih (sBit_rep f ts hts (jacDbl_rep h2 hr h) z1) h0
    have e : 2 ^ (f + 1) • P + tSum D (fun k => k % 2 ^ (f + 1)) ts =
        2 ^ f • (P + P + tSum D (fun k => k / 2 ^ f % 2) ts) + tSum D (fun k => k % 2 ^ f) ts := by
      rw [tSum_two_pow, pow_succ, mul_nsmul, two_nsmul]
      simp only [nsmul_add]
      abel
    rw [e]
    exact r

theorem jacSame_spec {P Q : (swCurve (a : ZMod p) (b : ZMod p)).Point} {J K : ℕ × ℕ × ℕ}
    (hJ : (J.2.2 : ZMod p) ≠ 0 → JacRep P (J.1 : ZMod p) (J.2.1 : ZMod p) (J.2.2 : ZMod p))
    (hK : (K.2.2 : ZMod p) ≠ 0 → JacRep Q (K.1 : ZMod p) (K.2.1 : ZMod p) (K.2.2 : ZMod p)) (h : jacSame p J K = true) :
    P = Q := by
  obtain ⟨X, Y, Z⟩ := J
  obtain ⟨X', Y', Z'⟩ := K
  unfold jacSame at h
  simp only [Bool.and_eq_true, Bool.not_eq_true'] at h
  obtain ⟨⟨⟨eX, eY⟩, eZ⟩, eZ'⟩ := h
  have nz : ∀ {n : ℕ}, Nat.beq (n % p) 0 = false → (n : ZMod p) ≠ 0 := by
    intro n hn e
    rw [ZMod.natCast_eq_zero_iff] at e
    rw [Nat.mod_eq_zero_of_dvd e] at hn
    simp at hn
  have z1 := nz eZ
  have z2 := nz eZ'
  have ex := (ZMod.natCast_eq_natCast_iff' _ _ _).mpr (Nat.eq_of_beq_eq_true eX)
  have ey := (ZMod.natCast_eq_natCast_iff' _ _ _).mpr (Nat.eq_of_beq_eq_true eY)
  push_cast at ex ey
  obtain ⟨_, hn, rfl⟩ := hJ z1
  obtain ⟨_, hn', rfl⟩ := hK z2
  dsimp only at hn hn' ⊢
  have e1 : (X : ZMod p) / (Z : ZMod p) ^ 2 = (X' : ZMod p) / (Z' : ZMod p) ^ 2 := by
    field_simp
    linear_combination ex
  have e2 : (Y : ZMod p) / (Z : ZMod p) ^ 3 = (Y' : ZMod p) / (Z' : ZMod p) ^ 3 := by
    field_simp
    linear_combination ey
  simp only [Affine.Point.some.injEq]
  exact ⟨e1, e2⟩

theorem sZero_spec (h2 : (2 : ZMod p) ≠ 0) (hr : ∀ x : ZMod p, x ^ 3 + (a : ZMod p) * x + (b : ZMod p) ≠ 0)
    {D : WPoint → (swCurve (a : ZMod p) (b : ZMod p)).Point} {gx gy : ℕ}
    (hg : (swCurve (a : ZMod p) (b : ZMod p)).Nonsingular (gx : ZMod p) (gy : ZMod p)) (ts : List Term) (hts : TermsOK D ts)
    {f : ℕ} (hk : ∀ t ∈ ts, t.1 < 2 ^ f) (h : sZero p a gx gy f ts = true) : tSum D id ts = 0 := by
  have base : JacRep (Affine.Point.some _ _ hg) (gx : ZMod p) (gy : ZMod p) ((1 : ℕ) : ZMod p) := by
    refine ⟨by simp, ?_⟩
    simp only [Nat.cast_one, one_pow, div_one]
    exact ⟨hg, trivial⟩
  rw [sZero, forceL_eq] at h
  have e := jacSame_spec (fun z => sGo_rep h2 hr ts hts f base z)
    (fun z => sGo_rep h2 hr (D := D) [] (fun _ ht => by simp at ht) f base z) h
  have e0 : tSum D (fun k => k % 2 ^ f) [] = 0 := rfl
  rw [e0] at e
  have e1 : tSum D (fun k => k % 2 ^ f) ts = tSum D id ts := by
    unfold tSum
    congr 1
    apply List.map_congr_left
    intro t ht
    beta_reduce
    rw [Nat.mod_eq_of_lt (hk t ht)]
    rfl
  rw [e1] at e
  exact add_left_cancel e

end

/-- the numbers of a curve -/
structure CNum where
  p : ℕ
  b : ℕ
  gx : ℕ
  gy : ℕ
  n : ℕ
  len : ℕ

/-- the numbers of a curve -/
def CirclCurve.num (C : CirclCurve) : CNum := ⟨C.c.p, C.c.b, C.gx, C.gy, C.n, C.c.byteLen⟩

/-- the points are on the curve -/
def ptsOk (C : CNum) (Ps : List WPoint) : Bool :=
  Ps.all fun P => Nat.blt P.x C.p && Nat.blt P.y C.p && !(Nat.beq P.x 0 && Nat.beq P.y 0) &&
    Nat.beq ((P.y * P.y + 3 * P.x) % C.p) ((P.x * P.x * P.x + C.b) % C.p)

/-- `∑ c P = 0` on the curve, computed -/
def mexpZero (C : CNum) (fuel : ℕ) (cs : List Int) (Ps : List WPoint) : Bool :=
  Nat.blt C.n (2 ^ fuel) && sZero C.p (C.p - 3) C.gx C.gy fuel
    (List.zipWith (fun (c : Int) (P : WPoint) => ((c % C.n).toNat, P.x, P.y)) cs Ps)

theorem ptsOk_spec {C : CirclCurve} {Ps : List WPoint} (h : ptsOk C.num Ps = true) :
    ∀ P ∈ Ps, WLegal C.c P ∧ P ≠ ⟨0, 0⟩ := by
  intro P hP
  have := List.all_eq_true.mp h P hP
  simp only [CirclCurve.num, Bool.and_eq_true, Nat.blt_eq, Bool.not_eq_true'] at this
  obtain ⟨⟨⟨h1, h2⟩, h3⟩, h4⟩ := this
  replace h4 := Nat.eq_of_beq_eq_true h4
  refine ⟨Or.inr ⟨h1, h2, ?_⟩, ?_⟩
  · rw [onCurve_zmod]
    have e : ((P.y * P.y + 3 * P.x : ℕ) : ZMod C.c.p) = ((P.x * P.x * P.x + C.c.b : ℕ) : ZMod C.c.p) :=
      (ZMod.natCast_eq_natCast_iff' _ _ _).mpr h4
    push_cast at e
    linear_combination e
  · rintro rfl
    exact absurd h3 (by decide)

theorem mexpZero_spec {C : CirclCurve} (ok : CurveOrd C) {fuel : ℕ} {cs : List Int} {Ps : List WPoint}
    (hP : ∀ P ∈ Ps, WLegal C.c P ∧ P ≠ ⟨0, 0⟩) (h : mexpZero C.num fuel cs Ps = true) :
    haveI := ok.fact'
    letI := ok.module
    msm (Ps.map (wDen C.c)) (castV C.n cs) = 0 := by
  have := ok.fact'
  let := ok.module
  unfold mexpZero at h
  rw [Bool.and_eq_true, Nat.blt_eq] at h
  obtain ⟨hf, h⟩ := h
  simp only [CirclCurve.num] at hf h
  have hn : (0 : Int) < C.n := by exact_mod_cast ok.n_prime.pos
  have ea : ((C.c.p - 3 : ℕ) : ZMod C.c.p) = -3 := by
    rw [Nat.cast_sub ok.p_big.le, ZMod.natCast_self]; simp
  obtain ⟨hng, _⟩ : ∃ hn : (swCurve (-3 : ZMod C.c.p) (C.c.b : ZMod C.c.p)).Nonsingular (C.gx : ZMod C.c.p) (C.gy : ZMod C.c.p),
      True := by
    rcases ok.gen_legal.cases ok.noroot ok.two_ne with ⟨h, _⟩ | ⟨_, _, _, hng, d⟩
    · exact absurd h ok.gen_ne
    · exact ⟨hng, trivial⟩
  set ts := List.zipWith (fun (c : Int) (P : WPoint) => ((c % C.n).toNat, P.x, P.y)) cs Ps with hts
  have mem : ∀ t ∈ ts, t.1 < C.n ∧ (⟨t.2.1, t.2.2⟩ : WPoint) ∈ Ps := by
    intro t ht
    rw [hts, List.mem_iff_getElem] at ht
    obtain ⟨i, hi, rfl⟩ := ht
    rw [List.getElem_zipWith]
    rw [List.length_zipWith] at hi
    refine ⟨?_, List.getElem_mem (by omega)⟩
    have := Int.emod_lt_of_pos cs[i] hn
    have := Int.emod_nonneg cs[i] hn.ne'
    dsimp only
    omega
  have key : ∀ (A : ZMod C.c.p) (e : ((C.c.p - 3 : ℕ) : ZMod C.c.p) = A)
      (_ : (swCurve A (C.c.b : ZMod C.c.p)).Nonsingular (C.gx : ZMod C.c.p) (C.gy : ZMod C.c.p))
      (_ : ∀ x : ZMod C.c.p, x ^ 3 + A * x + (C.c.b : ZMod C.c.p) ≠ 0)
      (D : WPoint → (swCurve A (C.c.b : ZMod C.c.p)).Point)
      (_ : ∀ t ∈ ts, ∃ hn : (swCurve A (C.c.b : ZMod C.c.p)).Nonsingular (t.2.1 : ZMod C.c.p) (t.2.2 : ZMod C.c.p),
        D ⟨t.2.1, t.2.2⟩ = Affine.Point.some _ _ hn), tSum D id ts = 0 := by
    intro A e hng hr D hD
    subst e
    exact sZero_spec ok.two_ne hr hng ts hD (fun t ht => (mem t ht).1.trans hf) h
  have hz := key _ ea hng ok.noroot (wDen C.c) (by
    intro t ht
    obtain ⟨hl, h0⟩ := hP _ (mem t ht).2
    rcases hl.cases ok.noroot ok.two_ne with ⟨h, _⟩ | ⟨_, _, _, hn, d⟩
    · exact absurd h h0
    · exact ⟨hn, d⟩)
  rw [← hz]
  clear_value ts
  subst hts
  clear mem key hz h hP
  induction cs generalizing Ps with
  | nil => simp [msm, tSum]
  | cons c cs ih =>
    cases Ps with
    | nil => simp [msm, tSum]
    | cons P Ps =>
      rw [List.map_cons, castV_cons', List.zipWith_cons_cons, tSum_cons, msm_cons, ih]
      congr 1
      rw [id, ← Nat.cast_smul_eq_nsmul (ZMod C.n)]
      congr 1
      rw [← Int.cast_natCast, Int.toNat_of_nonneg (Int.emod_nonneg c hn.ne'), ZMod.intCast_mod]

end MscPoc
