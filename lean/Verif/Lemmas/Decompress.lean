import Verif.Lemmas.HashToCurve
import Verif.Model.Decompress

/-!
# Decompression finds the point with the given abscissa and parity
-/

set_option autoImplicit false

namespace MscPoc

/-- the two square roots -/
theorem root_cases {p : ℕ} (hp : p.Prime) {y z : ℕ} (hy : y < p) (hz : z < p) (y0 : y ≠ 0)
    (h : ((y : ℕ) : ZMod p) ^ 2 = ((z : ℕ) : ZMod p) ^ 2) : z = y ∨ z + y = p := by
  have : Fact p.Prime := ⟨hp⟩
  rcases sq_eq_sq_iff_eq_or_eq_neg.mp h with h | h
  · exact Or.inl (affCast_inj hz hy h.symm)
  · right
    have : (((z + y : ℕ) : ZMod p)) = 0 := by push_cast; rw [h]; ring
    rw [ZMod.natCast_eq_zero_iff] at this
    obtain ⟨k, hk⟩ := this
    have k1 : k < 2 := by
      by_contra hk2
      have : p * 2 ≤ p * k := Nat.mul_le_mul_left p (by omega)
      omega
    interval_cases k <;> omega

theorem wDecompress_iff (S : H2CSuite) (ok : S.OK) (tag : UInt8) (rest : Bytes) (P : WPoint) :
    wDecompress S.c.p S.c.b (tag :: rest) = some P ↔
      P.x = setBytes rest ∧ P.x < S.c.p ∧ P.y < S.c.p ∧ S.c.onCurve P = true ∧ P.y % 2 = tag.toNat % 2 := by
  have hf := ok.fact
  have hpos := ok.prime.pos
  have h4 := ok.p34
  obtain ⟨px, py⟩ := P
  unfold wDecompress
  simp only [List.drop_succ_cons, List.drop_zero, List.headD_cons]
  have hv : ∀ x : ℕ, ((x : Int) * x * x - 3 * x + S.c.b) % S.c.p = S.g x := fun x => rfl
  rw [hv]
  generalize hx : setBytes rest = x
  obtain ⟨g0, ge⟩ := H2CSuite.g_nonneg ok (x : Int)
  rw [H2CSuite.g_cast] at ge
  have glt : (S.g x).toNat < S.c.p := by
    have : S.g x < S.c.p := Int.emod_lt_of_pos _ (by exact_mod_cast hpos)
    omega
  have hy : H2CSuite.powMod S.c.p (S.g x).toNat ((S.c.p + 1) / 4) < S.c.p := by
    rw [H2CSuite.powMod_spec]; exact Nat.mod_lt _ hpos
  have hsq := H2CSuite.sqrt_sq ok (x : Int)
  unfold H2CSuite.sqrt at hsq
  generalize H2CSuite.powMod S.c.p (S.g x).toNat ((S.c.p + 1) / 4) = y at hy hsq ⊢
  rw [Int.cast_natCast] at hsq ge
  have hne := ok.noroot (x : ZMod S.c.p)
  -- the test on the root
  have htest : y * y % S.c.p = (S.g x).toNat ↔
      ((y : ℕ) : ZMod S.c.p) ^ 2 = (x : ZMod S.c.p) ^ 3 + (-3) * (x : ZMod S.c.p) + (S.c.b : ZMod S.c.p) := by
    rw [← ge]
    constructor
    · intro h
      rw [← h]; push_cast; rw [ZMod.natCast_mod]; push_cast; ring
    · intro h
      refine affCast_inj (Nat.mod_lt _ hpos) glt ?_
      rw [ZMod.natCast_mod, ← h]; push_cast; ring
  have hcurve : ∀ z : ℕ, S.c.onCurve ⟨x, z⟩ = true ↔
      ((z : ℕ) : ZMod S.c.p) ^ 2 = (x : ZMod S.c.p) ^ 3 + (-3) * (x : ZMod S.c.p) + (S.c.b : ZMod S.c.p) := by
    intro z
    exact onCurve_zmod S.c ⟨x, z⟩
  have hneg : y ≠ 0 → (-(y : Int) % S.c.p).toNat = S.c.p - y := by
    intro h0
    have : -(y : Int) % S.c.p = S.c.p - y := by
      rw [← Int.add_emod_right, Int.emod_eq_of_lt (by omega) (by omega)]; ring
    omega
  constructor
  · intro h
    split at h
    case isFalse => simp at h
    case isTrue hxp =>
      split at h
      case isFalse => simp at h
      case isTrue ht =>
        rw [htest] at ht
        have y0 : y ≠ 0 := by
          rintro rfl
          exact hne (by rw [← ht]; simp)
        rw [hneg y0] at h
        simp only [Option.some.injEq, WPoint.mk.injEq] at h
        obtain ⟨rfl, rfl⟩ := h
        refine ⟨rfl, hxp, ?_, ?_, ?_⟩
        · split <;> omega
        · rw [hcurve]
          split
          · exact ht
          · rw [Nat.cast_sub hy.le, ← ht]; simp
        · split
          · assumption
          · omega
  · rintro ⟨h1, hxp, hyp, hc, hpar⟩
    subst h1
    rw [hcurve] at hc
    have hq := (hsq ⟨(py : ZMod S.c.p), by rw [← hc]; ring⟩).2.2
    rw [Int.cast_natCast] at hq
    have y0 : y ≠ 0 := by
      rintro rfl
      exact hne (by rw [← hq]; simp)
    rw [if_pos hxp, if_pos (htest.mpr hq), hneg y0]
    have hr := root_cases ok.prime hy hyp y0 (hq.trans hc.symm)
    simp only [Option.some.injEq, WPoint.mk.injEq, true_and]
    split <;> omega

end MscPoc
