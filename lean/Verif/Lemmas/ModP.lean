import Verif.Model.ModP
import Verif.Lemmas.Ipp2
import Mathlib.RingTheory.RootsOfUnity.Basic
import Mathlib.Algebra.Module.ZMod

/-!
# The safe-prime group is lawful
-/

set_option autoImplicit false

namespace MscPoc

/-- What is assumed of a group description: `p` prime, the generator is a unit whose order divides `q`. -/
structure ModPOK (g : ModPGroup) (p q : ℕ) : Prop where
  hp : p.Prime
  fo : g.fieldOrder = p
  go : g.groupOrder = q
  qpos : 0 < q
  gen0 : 0 < g.gen
  gen1 : g.gen < p
  genq : g.gen ^ q % (p : Int) = 1

/-- the mathematical group: `q`-th roots of unity modulo `p`, written additively -/
abbrev ModPM (p q : ℕ) : Type := Additive (rootsOfUnity q (ZMod p))

instance (p q : ℕ) : Module (ZMod q) (ModPM p q) :=
  AddCommGroup.zmodModule (fun x => by
    have h : (x.toMul) ^ q = 1 := by
      apply Subtype.ext
      exact (mem_rootsOfUnity q _).mp x.toMul.2
    exact congrArg Additive.ofMul h)

/-- the residue of an element -/
def ModPM.up {p q : ℕ} (x : ModPM p q) : ZMod p := ((x.toMul : (ZMod p)ˣ) : ZMod p)

namespace ModPM
variable {p q : ℕ}

theorem up_inj {x y : ModPM p q} (h : x.up = y.up) : x = y := by
  have : x.toMul = y.toMul := Subtype.ext (Units.ext h)
  exact Additive.toMul.injective this

theorem up_add (x y : ModPM p q) : (x + y).up = x.up * y.up := by simp [up]
theorem up_zero : (0 : ModPM p q).up = 1 := by simp [up]
theorem up_nsmul (n : ℕ) (x : ModPM p q) : (n • x).up = x.up ^ n := by simp [up]
theorem up_neg_mul (x : ModPM p q) : (-x).up * x.up = 1 := by rw [← up_add, neg_add_cancel, up_zero]

/-- the element with a given residue -/
noncomputable def ofRes [NeZero q] (a : ZMod p) : ModPM p q :=
  open Classical in if h : a ^ q = 1 then Additive.ofMul (rootsOfUnity.mkOfPowEq a h) else 0

theorem up_ofRes [NeZero q] {a : ZMod p} (h : a ^ q = 1) : (ofRes a : ModPM p q).up = a := by
  unfold ofRes
  rw [dif_pos h]
  rfl

theorem cast_smul (s : Int) (x : ModPM p q) : ((s : ZMod q)) • x = s • x := by
  rw [← Int.cast_smul_eq_zsmul (ZMod q) s x]

end ModPM

/-- integers that represent group elements -/
def ModPMem (p q : ℕ) (v : Int) : Prop := 0 < v ∧ v < p ∧ v ^ q % (p : Int) = 1

theorem ModPMem.res {p q : ℕ} (hp : p.Prime) {v : Int} (h : ModPMem p q v) : (v : ZMod p) ^ q = 1 := by
  have h1 : ((v ^ q : Int) : ZMod p) = ((1 : Int) : ZMod p) := by
    rw [ZMod.intCast_eq_intCast_iff, Int.ModEq, h.2.2, Int.emod_eq_of_lt (by norm_num)]
    exact_mod_cast hp.one_lt
  simpa using h1

theorem ModPMem.of_res {p q : ℕ} (hp : p.Prime) (hq : 0 < q) {v : Int} (h0 : 0 ≤ v) (h1 : v < p)
    (h : (v : ZMod p) ^ q = 1) : ModPMem p q v := by
  have hv : v ≠ 0 := by
    rintro rfl
    have := Fact.mk hp
    rw [Int.cast_zero, zero_pow hq.ne'] at h
    exact zero_ne_one h
  refine ⟨by omega, h1, ?_⟩
  have h2 : ((v ^ q : Int) : ZMod p) = ((1 : Int) : ZMod p) := by simpa using h
  rw [ZMod.intCast_eq_intCast_iff, Int.ModEq] at h2
  rw [h2, Int.emod_eq_of_lt (by norm_num)]
  exact_mod_cast hp.one_lt

theorem ModPMem.coprime {p q : ℕ} (hp : p.Prime) {v : Int} (h : ModPMem p q v) : Int.gcd v p = 1 := by
  have := Fact.mk hp
  rw [gcd_eq_one_iff]
  intro hc
  have h1 : ¬ ((p : Int) ∣ v) := fun hd => by
    have := Int.le_of_dvd h.1 hd
    have := h.2.1
    omega
  exact h1 ((ZMod.intCast_zmod_eq_zero_iff_dvd v p).mp hc)

theorem zmod_up_zsmul_neg {p q : ℕ} (n : ℕ) (x : ModPM p q) (y : ZMod p) (h : x.up * y = 1) :
    ((-(n : Int)) • x).up = y ^ n := by
  have h1 : ((-(n : Int)) • x).up * (n • x).up = 1 := by
    rw [← ModPM.up_add, neg_zsmul, natCast_zsmul, neg_add_cancel, ModPM.up_zero]
  rw [ModPM.up_nsmul] at h1
  have h2 : x.up ^ n * y ^ n = 1 := by rw [← mul_pow, h, one_pow]
  calc ((-(n : Int)) • x).up = ((-(n : Int)) • x).up * (x.up ^ n * y ^ n) := by rw [h2, mul_one]
    _ = (((-(n : Int)) • x).up * x.up ^ n) * y ^ n := by ring
    _ = y ^ n := by rw [h1, one_mul]

section
variable {g : ModPGroup} {p q : ℕ}

theorem ModPMem.emod {hp : p.Prime} (hq : 0 < q) {v : Int} (h : (v : ZMod p) ^ q = 1) : ModPMem p q (v % p) :=
  ModPMem.of_res hp hq (Int.emod_nonneg _ (by exact_mod_cast hp.ne_zero))
    (Int.emod_lt_of_pos _ (by exact_mod_cast hp.pos)) (by rw [cast_emod]; exact h)

/-- `Exp` on a member, any exponent, whatever the receiver held -/
theorem bigExp_mem [NeZero q] (hp : p.Prime) {x : Int} (hx : ModPMem p q x) (recv s : Int) :
    ModPMem p q (bigExp recv x s p) ∧
    (ModPM.ofRes ((bigExp recv x s p : Int) : ZMod p) : ModPM p q) = s • ModPM.ofRes (x : ZMod p) := by
  have hq := NeZero.pos q
  have hr := hx.res hp
  unfold bigExp
  split
  · rename_i hs
    obtain ⟨n, rfl⟩ := Int.eq_ofNat_of_zero_le hs
    have e : (((x ^ n : Int)) : ZMod p) ^ q = 1 := by push_cast; rw [pow_right_comm, hr, one_pow]
    have m := ModPMem.emod (hp := hp) hq e
    refine ⟨m, ModPM.up_inj ?_⟩
    rw [Int.toNat_natCast, ModPM.up_ofRes (m.res hp)]
    show _ = ((n : Int) • _ : ModPM p q).up
    rw [natCast_zsmul, ModPM.up_nsmul, ModPM.up_ofRes hr, cast_emod]
    push_cast; rfl
  · rename_i hs
    obtain ⟨n, hn⟩ : ∃ n : ℕ, -s = n := ⟨(-s).toNat, by omega⟩
    have hs' : s = -(n : Int) := by omega
    subst hs'
    have hi : modInverse x p = some (Int.gcdA (x % p) p % p) := by
      unfold modInverse; rw [if_pos (hx.coprime hp)]
    rw [hi]
    have inv := modInverse_spec hi
    obtain ⟨y, hy⟩ : ∃ y, Int.gcdA (x % p) p % p = y := ⟨_, rfl⟩
    rw [hy] at inv
    have hx0 : ¬(x < 0 ∧ n % 2 = 1) := fun h => absurd h.1 (by have := hx.1; omega)
    simp only [hy, neg_neg, Int.toNat_natCast]
    rw [if_neg hx0]
    have ry : (y : ZMod p) ^ q = 1 := by
      have := congrArg (· ^ q) inv
      simp only [mul_pow, hr, one_mul, one_pow] at this
      exact this
    have e : (((y ^ n : Int)) : ZMod p) ^ q = 1 := by push_cast; rw [pow_right_comm, ry, one_pow]
    have m := ModPMem.emod (hp := hp) hq e
    refine ⟨m, ModPM.up_inj ?_⟩
    rw [ModPM.up_ofRes (m.res hp), zmod_up_zsmul_neg n _ (y : ZMod p) (by rw [ModPM.up_ofRes hr]; exact inv), cast_emod]
    push_cast; rfl

theorem modInverse_mem [NeZero q] (hp : p.Prime) {x : Int} (hx : ModPMem p q x) :
    ∃ y, modInverse x p = some y ∧ ModPMem p q y ∧
      (ModPM.ofRes (y : ZMod p) : ModPM p q) = -ModPM.ofRes (x : ZMod p) := by
  have hq := NeZero.pos q
  have hr := hx.res hp
  have hi : modInverse x p = some (Int.gcdA (x % p) p % p) := by
    unfold modInverse; rw [if_pos (hx.coprime hp)]
  have inv := modInverse_spec hi
  have ry : (((Int.gcdA (x % p) p % p : Int)) : ZMod p) ^ q = 1 := by
    have := congrArg (· ^ q) inv
    simp only [mul_pow, hr, one_mul, one_pow] at this
    exact this
  have ry' : (((Int.gcdA (x % p) p : Int)) : ZMod p) ^ q = 1 := by rwa [cast_emod] at ry
  refine ⟨_, hi, ModPMem.emod (hp := hp) hq ry', ModPM.up_inj ?_⟩
  rw [ModPM.up_ofRes ry]
  have := zmod_up_zsmul_neg 1 (ModPM.ofRes (x : ZMod p) : ModPM p q) _ (by rw [ModPM.up_ofRes hr]; exact inv)
  simpa using this.symm

/-- **The safe-prime group implements the group of `q`-th roots of unity modulo `p`.** -/
noncomputable def modPLawful (h : ModPOK g p q) : Lawful (modPGrp g) q (ModPM p q) :=
  haveI : NeZero q := ⟨h.qpos.ne'⟩
  have hgm : ModPMem p q g.gen := ⟨h.gen0, h.gen1, h.genq⟩
  have hp1 : (1 : Int) < p := by exact_mod_cast h.hp.one_lt
  have h1m : ModPMem p q 1 := ⟨by norm_num, hp1, by rw [one_pow, Int.emod_eq_of_lt (by norm_num) hp1]⟩
  { V := ModPMem p q
    den := fun v => ModPM.ofRes (v : ZMod p)
    N_eq := h.go
    V_gen := hgm
    V_ident := h1m
    den_ident := by
      apply ModPM.up_inj
      show (ModPM.ofRes ((1 : Int) : ZMod p) : ModPM p q).up = _
      rw [ModPM.up_zero, ModPM.up_ofRes (h1m.res h.hp)]
      simp
    V_add := fun {a b} ha hb => by
      show ModPMem p q ((a * b) % g.fieldOrder)
      rw [h.fo]
      apply ModPMem.emod (hp := h.hp) h.qpos
      push_cast; rw [mul_pow, ha.res h.hp, hb.res h.hp, one_mul]
    den_add := fun {a b} ha hb => by
      have e : ((a * b : Int) : ZMod p) ^ q = 1 := by
        push_cast; rw [mul_pow, ha.res h.hp, hb.res h.hp, one_mul]
      apply ModPM.up_inj
      show (ModPM.ofRes (((a * b) % g.fieldOrder : Int) : ZMod p) : ModPM p q).up = _
      rw [h.fo, cast_emod, ModPM.up_ofRes e, ModPM.up_add, ModPM.up_ofRes (ha.res h.hp), ModPM.up_ofRes (hb.res h.hp)]
      push_cast; rfl
    V_neg := fun {recv a} ha => by
      obtain ⟨y, h1, h2, _⟩ := modInverse_mem h.hp ha
      show ModPMem p q ((modInverse a g.fieldOrder).getD recv)
      rw [h.fo, h1]; exact h2
    den_neg := fun {recv a} ha => by
      obtain ⟨y, h1, _, h3⟩ := modInverse_mem h.hp ha
      show ModPM.ofRes (((modInverse a g.fieldOrder).getD recv : Int) : ZMod p) = _
      rw [h.fo, h1]; exact h3
    V_scale := fun {recv a s} ha => by
      show ModPMem p q (bigExp recv a s g.fieldOrder)
      rw [h.fo]; exact (bigExp_mem h.hp ha recv s).1
    den_scale := fun {recv a s} ha => by
      show ModPM.ofRes ((bigExp recv a s g.fieldOrder : Int) : ZMod p) = _
      rw [h.fo, ModPM.cast_smul]; exact (bigExp_mem h.hp ha recv s).2
    V_baseScale := fun {recv s} => by
      show ModPMem p q (bigExp recv g.gen s g.fieldOrder)
      rw [h.fo]; exact (bigExp_mem h.hp hgm recv s).1
    den_baseScale := fun {recv s} => by
      show ModPM.ofRes ((bigExp recv g.gen s g.fieldOrder : Int) : ZMod p) = _
      rw [h.fo, ModPM.cast_smul]; exact (bigExp_mem h.hp hgm recv s).2
    isEqual_iff := fun {a b} ha hb => by
      show (a == b) = true ↔ _
      rw [beq_iff_eq]
      constructor
      · rintro rfl; rfl
      · intro he
        have := congrArg ModPM.up he
        rw [ModPM.up_ofRes (ha.res h.hp), ModPM.up_ofRes (hb.res h.hp), ZMod.intCast_eq_intCast_iff, Int.ModEq,
          Int.emod_eq_of_lt ha.1.le ha.2.1, Int.emod_eq_of_lt hb.1.le hb.2.1] at this
        exact this
    isIdentity_iff := fun {a} ha => by
      show (a == 1) = true ↔ _
      rw [beq_iff_eq]
      constructor
      · rintro rfl
        apply ModPM.up_inj
        rw [ModPM.up_zero, ModPM.up_ofRes (h1m.res h.hp)]; simp
      · intro he
        have := congrArg ModPM.up he
        rw [ModPM.up_ofRes (ha.res h.hp), ModPM.up_zero] at this
        have h2 : ((a : Int) : ZMod p) = ((1 : Int) : ZMod p) := by simpa using this
        rw [ZMod.intCast_eq_intCast_iff, Int.ModEq,
          Int.emod_eq_of_lt ha.1.le ha.2.1, Int.emod_eq_of_lt (by norm_num) hp1] at h2
        exact h2
    }

/-- for members, equal meaning is equal value -/
theorem modP_den_inj (h : ModPOK g p q) {a b : Int} (ha : ModPMem p q a) (hb : ModPMem p q b)
    (he : (modPLawful h).den a = (modPLawful h).den b) : a = b := by
  have := ((modPLawful h).isEqual_iff ha hb).mpr he
  exact beq_iff_eq.mp this

end
end MscPoc
