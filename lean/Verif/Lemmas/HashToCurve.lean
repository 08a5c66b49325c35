import Verif.Lemmas.CurveLawful
import Verif.Model.HashToCurve
import Verif.Spec.HashToCurve
import Mathlib.NumberTheory.LegendreSymbol.Basic

/-!
# The map of RFC 9380 lands on the curve
-/

set_option autoImplicit false

namespace MscPoc

namespace H2CSuite

theorem powModGo_spec (m : ℕ) : ∀ (fuel k x : ℕ), k < 2 ^ fuel → powModGo m fuel k x = x ^ k % m
  | 0, k, x, h => by
    have : k = 0 := by simpa using h
    subst this
    rw [powModGo, pow_zero]
  | fuel + 1, k, x, h => by
    rw [powModGo]
    by_cases hk : k = 0
    · rw [if_pos hk, hk, pow_zero]
    · rw [if_neg hk, powModGo_spec m fuel (k / 2) x (by rw [pow_succ] at h; omega)]
      dsimp only
      rw [← Nat.mul_mod, ← pow_add]
      by_cases h1 : k % 2 = 1
      · rw [if_pos h1, Nat.mod_mul_mod, ← pow_succ]
        congr 2; omega
      · rw [if_neg h1]
        congr 2; omega

theorem powMod_spec (m x k : ℕ) : powMod m x k = x ^ k % m := powModGo_spec m _ k x Nat.lt_log2_self

theorem powMod_cast (m x k : ℕ) : ((powMod m x k : ℕ) : ZMod m) = (x : ZMod m) ^ k := by
  rw [powMod_spec]; simp

variable (S : H2CSuite)

/-- what the constants of a suite have to satisfy -/
structure OK : Prop where
  prime : S.c.p.Prime
  p34 : S.c.p % 4 = 3
  noroot : ∀ x : ZMod S.c.p, x ^ 3 + (-3) * x + (S.c.b : ZMod S.c.p) ≠ 0
  two_ne : (2 : ZMod S.c.p) ≠ 0
  three_ne : (3 : ZMod S.c.p) ≠ 0
  zsq : ¬ IsSquare (S.Z : ZMod S.c.p)
  /-- the exceptional abscissa belongs to the curve -/
  exc : ∀ x : ZMod S.c.p, x * (S.Z * (-3)) = S.c.b → IsSquare (x ^ 3 + (-3) * x + (S.c.b : ZMod S.c.p))

variable {S} (ok : S.OK)
include ok

theorem OK.fact : Fact S.c.p.Prime := ⟨ok.prime⟩

theorem OK.z_ne : (S.Z : ZMod S.c.p) ≠ 0 := fun h => ok.zsq (h ▸ IsSquare.zero)

omit ok in
theorem g_cast (x : Int) : ((S.g x : Int) : ZMod S.c.p) = (x : ZMod S.c.p) ^ 3 + (-3) * (x : ZMod S.c.p) + (S.c.b : ZMod S.c.p) := by
  unfold g
  rw [ZMod.intCast_mod]
  push_cast
  ring

theorem g_nonneg (x : Int) : 0 ≤ S.g x ∧ ((S.g x).toNat : ZMod S.c.p) = ((S.g x : Int) : ZMod S.c.p) := by
  have h0 : (0 : Int) < S.c.p := by exact_mod_cast ok.prime.pos
  have h : 0 ≤ S.g x := Int.emod_nonneg _ h0.ne'
  refine ⟨h, ?_⟩
  rw [← Int.cast_natCast, Int.toNat_of_nonneg h]

theorem isSquare_iff (x : Int) : S.isSquare (S.g x) = true ↔
    IsSquare ((x : ZMod S.c.p) ^ 3 + (-3) * (x : ZMod S.c.p) + (S.c.b : ZMod S.c.p)) := by
  have := ok.fact
  obtain ⟨_, e⟩ := g_nonneg ok x
  rw [g_cast] at e
  have hne := ok.noroot x
  rw [ZMod.euler_criterion _ hne]
  have hlt : 1 < S.c.p := ok.prime.one_lt
  have hodd := ok.p34
  have hh : (S.c.p - 1) / 2 = S.c.p / 2 := by omega
  unfold isSquare
  rw [decide_eq_true_iff, hh]
  have hc := powMod_cast S.c.p (S.g x).toNat (S.c.p / 2)
  rw [e] at hc
  rw [← hc]
  constructor
  · intro h
    have h01 : powMod S.c.p (S.g x).toNat (S.c.p / 2) = 0 ∨ powMod S.c.p (S.g x).toNat (S.c.p / 2) = 1 := by omega
    rcases h01 with h | h
    · exfalso
      rw [h, Nat.cast_zero] at hc
      exact hne (pow_eq_zero_iff (by omega) |>.mp hc.symm)
    · rw [h]; simp
  · intro h
    have hl : powMod S.c.p (S.g x).toNat (S.c.p / 2) < S.c.p := by rw [powMod_spec]; exact Nat.mod_lt _ ok.prime.pos
    have := affCast_inj hl hlt (by rw [h]; simp)
    omega

theorem sqrt_sq (x : Int) (h : IsSquare ((x : ZMod S.c.p) ^ 3 + (-3) * (x : ZMod S.c.p) + (S.c.b : ZMod S.c.p))) :
    0 ≤ S.sqrt (S.g x) ∧ S.sqrt (S.g x) < S.c.p ∧
    ((S.sqrt (S.g x) : Int) : ZMod S.c.p) ^ 2 =
      (x : ZMod S.c.p) ^ 3 + (-3) * (x : ZMod S.c.p) + (S.c.b : ZMod S.c.p) := by
  have := ok.fact
  obtain ⟨_, e⟩ := g_nonneg ok x
  rw [g_cast] at e
  unfold sqrt
  refine ⟨by positivity, ?_, ?_⟩
  · rw [powMod_spec]
    exact_mod_cast Nat.mod_lt _ ok.prime.pos
  · rw [Int.cast_natCast, powMod_cast, e, ← pow_mul]
    have hs := (ZMod.euler_criterion _ (ok.noroot x)).mp h
    have hp := ok.p34
    have : (S.c.p + 1) / 4 * 2 = S.c.p / 2 + 1 := by omega
    rw [this, pow_succ, hs, one_mul]

theorem nonsquare_mul {a b : ZMod S.c.p} (ha : ¬ IsSquare a) (hb : ¬ IsSquare b) : IsSquare (a * b) := by
  have := ok.fact
  have ha0 : a ≠ 0 := fun h => ha (h ▸ IsSquare.zero)
  have hb0 : b ≠ 0 := fun h => hb (h ▸ IsSquare.zero)
  rw [ZMod.euler_criterion _ (mul_ne_zero ha0 hb0), mul_pow]
  have h1 := (ZMod.pow_div_two_eq_neg_one_or_one _ ha0).resolve_left fun h => ha ((ZMod.euler_criterion _ ha0).mpr h)
  have h2 := (ZMod.pow_div_two_eq_neg_one_or_one _ hb0).resolve_left fun h => hb ((ZMod.euler_criterion _ hb0).mpr h)
  rw [h1, h2]; ring

omit ok in
/-- `g(x₂) = Z³ u⁶ g(x₁)` -/
theorem second_square {R : Type} [CommRing R] {t x1 b : R} (hx : x1 * (-3) * (t ^ 2 + t) = -b * (t ^ 2 + t + 1)) :
    (t * x1) ^ 3 + (-3) * (t * x1) + b = t ^ 3 * (x1 ^ 3 + (-3) * x1 + b) := by
  linear_combination (1 - t) * hx

theorem sswu_spec (u : ℕ) : haveI := ok.fact
    Sswu S.c.p (S.c.b : ZMod S.c.p) (S.Z : ZMod S.c.p) u (S.sswu u) := by
  have := ok.fact
  have h0 : (0 : Int) < S.c.p := by exact_mod_cast ok.prime.pos
  have hz := ok.z_ne
  have h3 : (-3 : ZMod S.c.p) ≠ 0 := neg_ne_zero.mpr ok.three_ne
  -- the field values of the intermediate results
  obtain ⟨tv, etv⟩ : ∃ tv : Int, tv = (S.Z * S.Z * u * u * u * u + S.Z * u * u) % S.c.p := ⟨_, rfl⟩
  have ctv : (tv : ZMod S.c.p) = (S.Z : ZMod S.c.p) ^ 2 * (u : ZMod S.c.p) ^ 4 + S.Z * (u : ZMod S.c.p) ^ 2 := by
    rw [etv, ZMod.intCast_mod]; push_cast; ring
  have tv0 : tv = 0 ↔ (tv : ZMod S.c.p) = 0 := by
    constructor
    · intro h; rw [h]; simp
    · intro h
      rw [ZMod.intCast_zmod_eq_zero_iff_dvd] at h
      refine Int.eq_zero_of_dvd_of_nonneg_of_lt ?_ ?_ h <;> rw [etv]
      · exact Int.emod_nonneg _ h0.ne'
      · exact Int.emod_lt_of_pos _ h0
  obtain ⟨x1, ex1⟩ : ∃ x1 : Int, x1 = if tv = 0 then divMod S.c.p S.c.b (S.Z * (-3))
    else divMod S.c.p (-(S.c.b : Int)) (-3) * (1 + divMod S.c.p 1 tv) % S.c.p := ⟨_, rfl⟩
  have cx0 : (tv : ZMod S.c.p) = 0 → (x1 : ZMod S.c.p) * (S.Z * (-3)) = (S.c.b : ZMod S.c.p) := by
    intro ht
    rw [ex1, if_pos (tv0.mpr ht)]
    have h := divMod_spec (p := S.c.p) (num := S.c.b) (den := S.Z * (-3)) (by push_cast; exact mul_ne_zero hz h3)
    push_cast at h
    exact h
  have cx1 : (tv : ZMod S.c.p) ≠ 0 → (x1 : ZMod S.c.p) * (-3) * tv = -(S.c.b : ZMod S.c.p) * (tv + 1) := by
    intro ht
    rw [ex1, if_neg fun h => ht (tv0.mp h), ZMod.intCast_mod]
    have h := divMod_spec (p := S.c.p) (num := -(S.c.b : Int)) (den := -3) (by push_cast; exact h3)
    have h' := divMod_spec (p := S.c.p) (num := 1) (den := tv) ht
    push_cast at h h' ⊢
    linear_combination ((1 + (divMod S.c.p 1 tv : ZMod S.c.p)) * tv) * h - (S.c.b : ZMod S.c.p) * h'
  obtain ⟨x, ex⟩ : ∃ x : Int, x = if S.isSquare (S.g x1) then x1 else S.Z * u * u * x1 % S.c.p := ⟨_, rfl⟩
  have cxs : IsSquare ((x1 : ZMod S.c.p) ^ 3 + (-3) * x1 + (S.c.b : ZMod S.c.p)) → x = x1 := by
    intro h
    rw [ex, if_pos ((isSquare_iff ok x1).mpr h)]
  have cxn : ¬ IsSquare ((x1 : ZMod S.c.p) ^ 3 + (-3) * x1 + (S.c.b : ZMod S.c.p)) →
      (x : ZMod S.c.p) = S.Z * (u : ZMod S.c.p) ^ 2 * x1 := by
    intro h
    rw [ex, if_neg (fun h' => h ((isSquare_iff ok x1).mp h')), ZMod.intCast_mod]
    push_cast; ring
  have hsq : IsSquare ((x : ZMod S.c.p) ^ 3 + (-3) * (x : ZMod S.c.p) + (S.c.b : ZMod S.c.p)) := by
    by_cases hs : IsSquare ((x1 : ZMod S.c.p) ^ 3 + (-3) * x1 + (S.c.b : ZMod S.c.p))
    · rw [cxs hs]; exact hs
    · have ht : (tv : ZMod S.c.p) ≠ 0 := fun h => hs (ok.exc _ (cx0 h))
      have hx := cx1 ht
      have et : (tv : ZMod S.c.p) = (S.Z * (u : ZMod S.c.p) ^ 2) ^ 2 + S.Z * (u : ZMod S.c.p) ^ 2 := by rw [ctv]; ring
      rw [cxn hs, second_square (t := (S.Z : ZMod S.c.p) * (u : ZMod S.c.p) ^ 2) (by rw [et] at hx; exact hx)]
      have e : ((S.Z : ZMod S.c.p) * (u : ZMod S.c.p) ^ 2) ^ 3 = S.Z * (S.Z * (u : ZMod S.c.p) ^ 3) ^ 2 := by ring
      rw [e, mul_right_comm]
      exact (nonsquare_mul ok ok.zsq hs).mul (IsSquare.sq _)
  obtain ⟨y0, y1, y2⟩ := sqrt_sq ok x hsq
  have hx0 : 0 ≤ x ∧ x < S.c.p := by
    have hx1 : 0 ≤ x1 ∧ x1 < S.c.p := by
      rw [ex1]
      unfold divMod
      split
      all_goals exact ⟨Int.emod_nonneg _ h0.ne', Int.emod_lt_of_pos _ h0⟩
    rw [ex]
    split
    · exact hx1
    · exact ⟨Int.emod_nonneg _ h0.ne', Int.emod_lt_of_pos _ h0⟩
  obtain ⟨y, ey⟩ : ∃ y : Int, y = if u % 2 = (S.sqrt (S.g x)).toNat % 2 then S.sqrt (S.g x) else -(S.sqrt (S.g x)) % S.c.p :=
    ⟨_, rfl⟩
  have hP : S.sswu u = ⟨x.toNat, y.toNat⟩ := by
    rw [ey, ex, ex1, etv]; rfl
  rw [hP]
  obtain ⟨r, er⟩ : ∃ r, r = S.sqrt (S.g x) := ⟨_, rfl⟩
  rw [← er] at ey y0 y1 y2
  have hr0 : r ≠ 0 := by
    rintro rfl
    exact ok.noroot x (by rw [← y2]; simp)
  have hy : 0 ≤ y ∧ y < S.c.p ∧ (y : ZMod S.c.p) ^ 2 = (r : ZMod S.c.p) ^ 2 ∧ y.toNat % 2 = u % 2 := by
    rw [ey]
    by_cases hu : u % 2 = r.toNat % 2
    · rw [if_pos hu]
      exact ⟨y0, y1, rfl, hu.symm⟩
    · rw [if_neg hu]
      refine ⟨Int.emod_nonneg _ h0.ne', Int.emod_lt_of_pos _ h0, by rw [ZMod.intCast_mod]; push_cast; ring, ?_⟩
      have e : -r % (S.c.p : Int) = S.c.p - r := by
        rw [← Int.add_emod_right, Int.emod_eq_of_lt] <;> omega
      have := ok.p34
      rw [e]; omega
  obtain ⟨y3, y4, y5, y6⟩ := hy
  have ec : ((x.toNat : ℕ) : ZMod S.c.p) = (x : ZMod S.c.p) := by
    rw [← Int.cast_natCast, Int.toNat_of_nonneg hx0.1]
  have ecy : ((y.toNat : ℕ) : ZMod S.c.p) = (y : ZMod S.c.p) := by
    rw [← Int.cast_natCast, Int.toNat_of_nonneg y3]
  have eg : ∀ z : ZMod S.c.p, z ^ 3 - 3 * z + (S.c.b : ZMod S.c.p) = z ^ 3 + (-3) * z + (S.c.b : ZMod S.c.p) := by
    intro z; ring
  refine ⟨⟨x1, ?_, ?_, ?_, ?_⟩, by dsimp only; omega, by dsimp only; omega, ?_, y6⟩
  · intro h
    rw [← ctv] at h
    rw [eq_div_iff (mul_ne_zero hz h3)]
    exact cx0 h
  · intro h
    rw [← ctv] at h ⊢
    have e := cx1 h
    have h3' := ok.three_ne
    field_simp
    linear_combination -e
  · intro h
    rw [eg] at h
    dsimp only
    rw [ec, cxs h]
  · intro h
    rw [eg] at h
    dsimp only
    rw [ec, cxn h]
  · dsimp only
    rw [ec, ecy, y5, y2]; ring

/-- the result is a point of the curve -/
theorem sswu_legal (u : ℕ) : WLegal S.c (S.sswu u) := by
  have := ok.fact
  have h := sswu_spec ok u
  refine Or.inr ⟨h.x_lt, h.y_lt, ?_⟩
  rw [onCurve_zmod, h.eq]; ring

theorem hashToCurve_legal (dst msg : Bytes) : WLegal S.c (S.hashToCurve dst msg) := by
  have := ok.fact
  exact (wAdd_spec ok.noroot ok.two_ne (sswu_legal ok _) (sswu_legal ok _)).1

/-- the side conditions are computations; `ex`, `ey` are the exceptional point -/
def suiteChecks (p b z ex ey : ℕ) : Bool :=
  Nat.blt 3 p && Nat.beq (p % 4) 3 && Nat.ble z p && Nat.blt 1 (powMod p (p - z) (p / 2)) &&
  Nat.beq (ex * (3 * z) % p) (b % p) && Nat.beq ((ey * ey + 3 * ex) % p) ((ex * ex * ex + b) % p)

omit ok in
theorem ok_of_checks {C : CirclCurve} (hC : CurveOrd C) (S : H2CSuite) (hS : S.c = C.c) (z ex ey : ℕ) (hZ : S.Z = -z)
    (h : suiteChecks C.c.p C.c.b z ex ey = true) : S.OK := by
  obtain ⟨c, Z, H, L⟩ := S
  dsimp only at hS hZ
  subst hS hZ
  have := hC.fact'
  unfold suiteChecks at h
  simp only [Bool.and_eq_true, Nat.blt_eq] at h
  obtain ⟨⟨⟨⟨⟨h3, h4⟩, hz⟩, hn⟩, hx⟩, hy⟩ := h
  replace h4 := Nat.eq_of_beq_eq_true h4
  replace hx := Nat.eq_of_beq_eq_true hx
  replace hy := Nat.eq_of_beq_eq_true hy
  replace hz := Nat.le_of_ble_eq_true hz
  have hthree : (3 : ZMod C.c.p) ≠ 0 := by
    intro e
    have e' : ((3 : ℕ) : ZMod C.c.p) = 0 := by exact_mod_cast e
    rw [ZMod.natCast_eq_zero_iff] at e'
    have := Nat.le_of_dvd (by norm_num) e'
    omega
  have ez : ((C.c.p - z : ℕ) : ZMod C.c.p) = ((-z : Int) : ZMod C.c.p) := by
    rw [Nat.cast_sub hz]; push_cast; simp
  have hsq : ¬ IsSquare ((-z : Int) : ZMod C.c.p) := by
    intro hs
    have hc := powMod_cast C.c.p (C.c.p - z) (C.c.p / 2)
    rw [ez] at hc
    have hl : powMod C.c.p (C.c.p - z) (C.c.p / 2) < C.c.p := by rw [powMod_spec]; exact Nat.mod_lt _ (by omega)
    by_cases h0 : ((-z : Int) : ZMod C.c.p) = 0
    · rw [h0, zero_pow (by omega)] at hc
      have := affCast_inj hl (by omega) (hc.trans (by simp : (0 : ZMod C.c.p) = ((0 : ℕ) : ZMod C.c.p)))
      omega
    · rw [(ZMod.euler_criterion _ h0).mp hs] at hc
      have := affCast_inj hl (by omega) (hc.trans (by simp : (1 : ZMod C.c.p) = ((1 : ℕ) : ZMod C.c.p)))
      omega
  refine ⟨hC.p_prime, h4, hC.noroot, hC.two_ne, hthree, hsq, ?_⟩
  intro x hxx
  have hz0 : ((-z : Int) : ZMod C.c.p) ≠ 0 := fun h => hsq (h ▸ IsSquare.zero)
  have e1 : ((ex * (3 * z) : ℕ) : ZMod C.c.p) = (C.c.b : ZMod C.c.p) := (ZMod.natCast_eq_natCast_iff' _ _ _).mpr hx
  have e2 : ((ey * ey + 3 * ex : ℕ) : ZMod C.c.p) = ((ex * ex * ex + C.c.b : ℕ) : ZMod C.c.p) :=
    (ZMod.natCast_eq_natCast_iff' _ _ _).mpr hy
  have e3 : x = (ex : ZMod C.c.p) := by
    apply mul_right_cancel₀ (mul_ne_zero hz0 (neg_ne_zero.mpr hthree))
    dsimp only at hxx
    rw [hxx, ← e1]; push_cast; ring
  push_cast at e2
  dsimp only
  rw [e3]
  exact ⟨(ey : ZMod C.c.p), by linear_combination -e2⟩

end H2CSuite

theorem xmdBlocks_H (S S' : H2CSuite) (h : S.H = S'.H) (b0 dst' : Bytes) : ∀ (n i : ℕ) (prev : Bytes),
    S.xmdBlocks b0 dst' n i prev = S'.xmdBlocks b0 dst' n i prev
  | 0, _, _ => by rw [H2CSuite.xmdBlocks, H2CSuite.xmdBlocks]
  | n + 1, i, prev => by
    rw [H2CSuite.xmdBlocks, H2CSuite.xmdBlocks, h, xmdBlocks_H S S' h b0 dst' n]

/-- nothing depends on the decoding of compressed points -/
theorem hashToCurve_dec (p b l : ℕ) (d d' : Bytes → Option WPoint) (Z : Int) (H : Sha2) (L : ℕ) (dst m : Bytes) :
    (H2CSuite.mk ⟨p, b, l, d⟩ Z H L).hashToCurve dst m = (H2CSuite.mk ⟨p, b, l, d'⟩ Z H L).hashToCurve dst m := by
  have e : ∀ len, (H2CSuite.mk ⟨p, b, l, d⟩ Z H L).expandXmd m dst len = (H2CSuite.mk ⟨p, b, l, d'⟩ Z H L).expandXmd m dst len := by
    intro len
    unfold H2CSuite.expandXmd
    dsimp only
    rw [xmdBlocks_H (H2CSuite.mk ⟨p, b, l, d⟩ Z H L) (H2CSuite.mk ⟨p, b, l, d'⟩ Z H L) rfl]
  unfold H2CSuite.hashToCurve
  rw [e]
  rfl

theorem p256Suite_dec (d d' : Bytes → Option WPoint) (dst m : Bytes) :
    (p256Suite d).hashToCurve dst m = (p256Suite d').hashToCurve dst m := hashToCurve_dec _ _ _ d d' _ _ _ dst m

theorem p384Suite_dec (d d' : Bytes → Option WPoint) (dst m : Bytes) :
    (p384Suite d).hashToCurve dst m = (p384Suite d').hashToCurve dst m := hashToCurve_dec _ _ _ d d' _ _ _ dst m

theorem p256Suite_ok (dec : Bytes → Option WPoint) : (p256Suite dec).OK :=
  H2CSuite.ok_of_checks (p256_ord dec fun _ => ⟨0, 0⟩) (p256Suite dec) rfl 10
    0xa528bd8696bdaf996c65b982d94959d3146fe6a020693090bdba13132375f224
    0xe5fb73d16791ce358fb5adb2d33668a3b24099fd8d401f6685e0e994fb4d756 rfl
    (show H2CSuite.suiteChecks (p256Curve fun _ => none).p (p256Curve fun _ => none).b _ _ _ = true by decide +kernel)

theorem p384Suite_ok (dec : Bytes → Option WPoint) : (p384Suite dec).OK :=
  H2CSuite.ok_of_checks (p384_ord dec fun _ => ⟨0, 0⟩) (p384Suite dec) rfl 12
    0x533324e11b9e311baee780268d718f799600d2914e2e41ceb8f97203fb1cfca5c58265272e814cef084ad3ce05e30131
    0xf409ff49f8f12c68e973c9b47a385ac1cd9bb39c9a6f4c77137597adac5618d1b0be26d5f19a079aaac7bf09e36a5463 rfl
    (show H2CSuite.suiteChecks (p384Curve fun _ => none).p (p384Curve fun _ => none).b _ _ _ = true by decide +kernel)

end MscPoc
