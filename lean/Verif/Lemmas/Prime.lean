import Mathlib.FieldTheory.Finite.Basic
import Mathlib.GroupTheory.OrderOfElement
import Mathlib.Data.Nat.Prime.Basic
import Mathlib.Data.ZMod.Basic
import Mathlib.Tactic.NormNum.Prime
import Mathlib.Tactic.Ring

/-!
# Primality certificates checked by kernel computation (Pocklington's criterion)
-/

set_option autoImplicit false

namespace MscPoc

/-- `acc * a^e mod m` by repeated squaring, for `e < 2^fuel` -/
def powModGo (m : ℕ) : ℕ → ℕ → ℕ → ℕ → ℕ
  | 0, _, _, acc => acc % m
  | fuel + 1, a, e, acc =>
    if e = 0 then acc % m
    else if e % 2 = 1 then powModGo m fuel (a * a % m) (e / 2) (acc * a % m)
    else powModGo m fuel (a * a % m) (e / 2) acc

theorem powModGo_spec (m : ℕ) : ∀ (fuel a e acc : ℕ), e < 2 ^ fuel → powModGo m fuel a e acc = acc * a ^ e % m
  | 0, a, e, acc, h => by
    have : e = 0 := by simpa using h
    subst this; simp [powModGo]
  | fuel + 1, a, e, acc, h => by
    have h2 : e / 2 < 2 ^ fuel := by rw [Nat.div_lt_iff_lt_mul (by norm_num)]; rwa [pow_succ] at h
    unfold powModGo
    split
    · rename_i he; subst he; simp
    · split
      · rename_i ho
        have e1 : acc * a ^ e = acc * a * (a * a) ^ (e / 2) := by
          conv_lhs => rw [← Nat.div_add_mod e 2, ho, pow_succ, pow_mul]
          ring
        rw [powModGo_spec m fuel _ _ _ h2, e1]
        exact Nat.ModEq.mul (Nat.mod_modEq _ _) ((Nat.mod_modEq _ _).pow _)
      · rename_i ho
        have ho : e % 2 = 0 := by omega
        have e1 : acc * a ^ e = acc * (a * a) ^ (e / 2) := by
          conv_lhs => rw [← Nat.div_add_mod e 2, ho, add_zero, pow_mul]
          ring
        rw [powModGo_spec m fuel _ _ _ h2, e1]
        exact Nat.ModEq.mul rfl ((Nat.mod_modEq _ _).pow _)

theorem powModGo_one {m fuel a e r : ℕ} (he : e < 2 ^ fuel) (h : powModGo m fuel a e 1 = r) : a ^ e % m = r := by
  rw [powModGo_spec _ _ _ _ _ he, one_mul] at h
  exact h

/-- product of prime powers -/
def ppProd : List (ℕ × ℕ) → ℕ
  | [] => 1
  | (p, e) :: fs => p ^ e * ppProd fs

/-- the computational part of Pocklington's criterion with one witness `a`; `fuel` bounds the exponent length -/
def pockCheck (fuel n a : ℕ) (fs : List (ℕ × ℕ)) : Bool :=
  Nat.blt 1 n && Nat.blt n (2 ^ fuel) && Nat.beq ((n - 1) % ppProd fs) 0 && Nat.blt n (ppProd fs * ppProd fs) &&
  Nat.beq (powModGo n fuel a (n - 1) 1) 1 &&
  fs.all (fun p => Nat.beq (Nat.gcd (powModGo n fuel a ((n - 1) / p.1) 1 + (n - 1)) n) 1)

theorem prime_dvd_ppProd {q : ℕ} (hq : q.Prime) : ∀ (fs : List (ℕ × ℕ)), (∀ p ∈ fs, p.1.Prime) → q ∣ ppProd fs →
    ∃ p ∈ fs, p.1 = q
  | [], _, h => by simp [ppProd] at h; exact absurd h hq.ne_one
  | (p, e) :: fs, hf, h => by
    rw [ppProd, hq.dvd_mul] at h
    rcases h with h | h
    · have h := hq.dvd_of_dvd_pow h
      exact ⟨(p, e), by simp, ((Nat.prime_dvd_prime_iff_eq hq (hf (p, e) (by simp))).mp h).symm⟩
    · obtain ⟨r, hr, he⟩ := prime_dvd_ppProd hq fs (fun x hx => hf x (by simp [hx])) h
      exact ⟨r, by simp [hr], he⟩

/-- Pocklington's criterion. -/
theorem pocklington (fuel n a : ℕ) (fs : List (ℕ × ℕ)) (h : pockCheck fuel n a fs = true) (hf : ∀ p ∈ fs, p.1.Prime) :
    n.Prime := by
  unfold pockCheck at h
  simp only [Bool.and_eq_true, List.all_eq_true] at h
  obtain ⟨⟨⟨⟨⟨h1, h2⟩, h3⟩, h4⟩, h5⟩, h6⟩ := h
  have h1 : 1 < n := Nat.lt_of_succ_le (by simpa [Nat.blt] using h1)
  have h2 : n < 2 ^ fuel := by simpa [Nat.blt] using h2
  have h3 := Nat.eq_of_beq_eq_true h3
  have h4 : n < ppProd fs * ppProd fs := by simpa [Nat.blt] using h4
  have h5 := Nat.eq_of_beq_eq_true h5
  obtain ⟨F, hF⟩ : ∃ F, ppProd fs = F := ⟨_, rfl⟩
  rw [powModGo_spec n fuel a (n - 1) 1 (by omega), one_mul] at h5
  rw [hF] at h3 h4
  obtain ⟨R, hR⟩ : F ∣ n - 1 := Nat.dvd_of_mod_eq_zero h3
  have hFpos : 0 < F := by
    rcases Nat.eq_zero_or_pos F with h | h
    · rw [h] at h4; simp at h4
    · exact h
  by_contra hnp
  obtain ⟨p, hp⟩ : ∃ p, n.minFac = p := ⟨_, rfl⟩
  have hpp : p.Prime := hp ▸ Nat.minFac_prime (by omega)
  have hpd : p ∣ n := hp ▸ Nat.minFac_dvd n
  have hsq : p ^ 2 ≤ n := hp ▸ Nat.minFac_sq_le_self (by omega) hnp
  have : Fact p.Prime := ⟨hpp⟩
  have cast_mod : ∀ x : ℕ, ((x % n : ℕ) : ZMod p) = (x : ZMod p) := by
    intro x
    conv_rhs => rw [← Nat.div_add_mod x n]
    push_cast
    rw [(ZMod.natCast_eq_zero_iff n p).mpr hpd]
    simp
  have e1 : ((a : ZMod p) ^ R) ^ F = 1 := by
    rw [← pow_mul, mul_comm, ← hR]
    have := congrArg (Nat.cast : ℕ → ZMod p) h5
    rw [cast_mod] at this
    simpa using this
  have hord : orderOf ((a : ZMod p) ^ R) = F := by
    apply orderOf_eq_of_pow_and_pow_div_prime hFpos e1
    intro q hq hqF hc
    obtain ⟨r, hr, hrq⟩ := prime_dvd_ppProd hq fs hf (hF ▸ hqF)
    have := Nat.eq_of_beq_eq_true (h6 r hr)
    rw [hrq, powModGo_spec n fuel a _ 1 (lt_of_le_of_lt (Nat.div_le_self _ _) (by omega)), one_mul] at this
    have hdiv : (n - 1) / q = R * (F / q) := by
      rw [hR, mul_comm F R, Nat.mul_div_assoc _ hqF]
    rw [← pow_mul, ← hdiv] at hc
    have hz : ((a ^ ((n - 1) / q) % n + (n - 1) : ℕ) : ZMod p) = 0 := by
      rw [Nat.cast_add, cast_mod, Nat.cast_sub (by omega), (ZMod.natCast_eq_zero_iff n p).mpr hpd]
      push_cast
      rw [hc]; simp
    rw [ZMod.natCast_eq_zero_iff] at hz
    have hg := Nat.dvd_gcd hz hpd
    rw [this] at hg
    exact hpp.one_lt.ne' (Nat.dvd_one.mp hg)
  have ha0 : (a : ZMod p) ^ R ≠ 0 := by
    intro h0
    rw [h0, zero_pow hFpos.ne'] at e1
    exact zero_ne_one e1
  have hdvd : F ∣ p - 1 := hord ▸ ZMod.orderOf_dvd_card_sub_one ha0
  have hle : F ≤ p - 1 := Nat.le_of_dvd (by have := hpp.two_le; omega) hdvd
  have : F * F ≤ p ^ 2 := by rw [pow_two]; exact Nat.mul_le_mul (by omega) (by omega)
  omega

end MscPoc
