import Verif.Props.Ristretto

/-!
# C55, C59 — Pedersen commitments on secp256k1 and Ristretto255

Equality is `IsEqual`, since an element has several forms.
-/

set_option autoImplicit false

namespace MscPoc

section
variable {E : Type} {GP : Grp E} {q : ℕ} {M : Type} [AddCommGroup M] [Module (ZMod q) M]

/-- in a group of prime order every element is exactly one multiple of an element that is not zero -/
theorem prime_multiple [Fact q.Prime] (hc : Nat.card M = q) {a : M} (ha : a ≠ 0) (m : M) : ∃! c : ZMod q, c • a = m := by
  have hm : m ∈ AddSubgroup.zmultiples a := mem_zmultiples_of_prime_card hc ha
  obtain ⟨k, hk⟩ := AddSubgroup.mem_zmultiples_iff.mp hm
  refine ⟨k, ?_, ?_⟩
  · show (k : ZMod q) • a = m
    rw [Int.cast_smul_eq_zsmul]; exact hk
  · intro c hc'
    have hc' : c • a = m := hc'
    by_contra hne
    have h0 : (c - (k : ZMod q)) • a = 0 := by
      rw [sub_smul, hc', Int.cast_smul_eq_zsmul, hk, sub_self]
    have h1 := smul_cancel (sub_ne_zero.mpr hne) h0
    rw [smul_zero] at h1
    exact ha h1

theorem lawful_hiding [Fact q.Prime] (L : Lawful GP q M) (hc : Nat.card M = q) (hg : L.den GP.generator ≠ 0) (h : E)
    (hh : L.V h) : (∀ x r x' : Int, ∃! r' : Int, 0 ≤ r' ∧ r' < GP.N ∧
      GP.isEqual (pedersenCommit GP x' r' h) (pedersenCommit GP x r h) = true) ↔ GP.isIdentity h = false := by
  constructor
  · intro hall
    by_contra hid
    rw [Bool.not_eq_false, L.isIdentity_iff hh] at hid
    obtain ⟨r', ⟨_, _, e⟩, _⟩ := hall 1 0 0
    rw [L.isEqual_iff (L.V_pedersen hh _ _) (L.V_pedersen hh _ _), L.den_pedersen hh, L.den_pedersen hh, hid] at e
    apply hg
    show L.g = 0
    simpa using e.symm
  · intro hid x r x'
    have hd : L.den h ≠ 0 := by
      intro e
      rw [← L.isIdentity_iff hh, hid] at e
      exact Bool.noConfusion e
    exact C25_hiding L h hh (prime_multiple hc hd) x r x'

theorem lawful_binding [Fact q.Prime] (L : Lawful GP q M) (h : E) (hh : L.V h) (x1 r1 x2 r2 : Int)
    (heq : GP.isEqual (pedersenCommit GP x1 r1 h) (pedersenCommit GP x2 r2 h) = true)
    (hne : ¬ x1 ≡ x2 [ZMOD GP.N]) :
    ∃ k : Int, k * (x1 - x2) ≡ r2 - r1 [ZMOD GP.N] ∧ GP.isEqual (GP.mul h k) GP.generator = true := by
  rw [L.N_eq] at hne ⊢
  have hx : (x1 : ZMod q) ≠ (x2 : ZMod q) := fun e => hne ((ZMod.intCast_eq_intCast_iff _ _ _).mp e)
  have hx' : (x1 : ZMod q) - (x2 : ZMod q) ≠ 0 := sub_ne_zero.mpr hx
  obtain ⟨k, hk⟩ := ZMod.intCast_surjective (((r2 : ZMod q) - (r1 : ZMod q)) / ((x1 : ZMod q) - (x2 : ZMod q)))
  refine ⟨k, ?_, ?_⟩
  · rw [← ZMod.intCast_eq_intCast_iff]
    push_cast
    rw [hk, div_mul_cancel₀ _ hx']
  · unfold Grp.mul
    rw [L.isEqual_iff (L.V_scale hh) L.V_gen, L.den_scale hh, hk]
    exact ((C25_binding L h hh x1 r1 x2 r2 heq).1 hx).symm

end

/-- **C55** Pedersen commitments on secp256k1 hide perfectly exactly when `H` is not the identity: any commitment opens to any
value with exactly one randomness in `[0, N)`. -/
theorem C55_hiding (L : K1Lib) (hL : L.Identities) (h : K1Point) (hh : h.Valid) :
    (∀ x r x' : Int, ∃! r' : Int, 0 ≤ r' ∧ r' < (k1Grp L).N ∧
      (k1Grp L).isEqual (pedersenCommit (k1Grp L) x' r' h) (pedersenCommit (k1Grp L) x r h) = true) ↔
    (k1Grp L).isIdentity h = false := by
  let := k1Module
  have : Fact k1N.Prime := ⟨C48_orders.1⟩
  refine lawful_hiding (k1Lawful hL.ok) k1_card ?_ h hh
  show k1Den (k1BaseMul L 1) ≠ 0
  have d := (k1Mul_spec hL.ok k1Base_legal 1).2
  rw [one_zsmul] at d
  rw [k1BaseMul, d]
  exact k1Base_ne

/-- **C55** A double opening reveals the logarithm between `G` and `H`. -/
theorem C55_binding (L : K1Lib) (hL : L.Identities) (h : K1Point) (hh : h.Valid) (x1 r1 x2 r2 : Int)
    (heq : (k1Grp L).isEqual (pedersenCommit (k1Grp L) x1 r1 h) (pedersenCommit (k1Grp L) x2 r2 h) = true)
    (hne : ¬ x1 ≡ x2 [ZMOD (k1Grp L).N]) :
    ∃ k : Int, k * (x1 - x2) ≡ r2 - r1 [ZMOD (k1Grp L).N] ∧
      (k1Grp L).isEqual ((k1Grp L).mul h k) (k1Grp L).generator = true := by
  let := k1Module
  have : Fact k1N.Prime := ⟨C48_orders.1⟩
  exact lawful_binding (k1Lawful hL.ok) h hh x1 r1 x2 r2 heq hne

/-- **C59** Pedersen commitments on Ristretto255 hide perfectly exactly when `H` is not the identity. -/
theorem C59_hiding (L : R255Lib) (h : WPoint) (hh : h.Even) :
    (∀ x r x' : Int, ∃! r' : Int, 0 ≤ r' ∧ r' < (r255Grp L).N ∧
      (r255Grp L).isEqual (pedersenCommit (r255Grp L) x' r' h) (pedersenCommit (r255Grp L) x r h) = true) ↔
    (r255Grp L).isIdentity h = false := by
  let := r255Module
  exact lawful_hiding (r255Lawful L) r255Group_card r255Base_ne h ((even_iff h).mp hh)

/-- **C59** A double opening reveals the logarithm between `G` and `H`. -/
theorem C59_binding (L : R255Lib) (h : WPoint) (hh : h.Even) (x1 r1 x2 r2 : Int)
    (heq : (r255Grp L).isEqual (pedersenCommit (r255Grp L) x1 r1 h) (pedersenCommit (r255Grp L) x2 r2 h) = true)
    (hne : ¬ x1 ≡ x2 [ZMOD (r255Grp L).N]) :
    ∃ k : Int, k * (x1 - x2) ≡ r2 - r1 [ZMOD (r255Grp L).N] ∧
      (r255Grp L).isEqual ((r255Grp L).mul h k) (r255Grp L).generator = true := by
  let := r255Module
  exact lawful_binding (r255Lawful L) h ((even_iff h).mp hh) x1 r1 x2 r2 heq hne

/-- With `H = 2 G` the commitments to 3 with randomness 1 and to 1 with randomness 2 are equal, on both curves. -/
example : (k1Grp exK1).isEqual (pedersenCommit (k1Grp exK1) 3 1 ((k1Grp exK1).mulGen 2))
      (pedersenCommit (k1Grp exK1) 1 2 ((k1Grp exK1).mulGen 2)) = true ∧
    (k1Grp exK1).isIdentity ((k1Grp exK1).mulGen 2) = false ∧
    (r255Grp exR255).isEqual (pedersenCommit (r255Grp exR255) 3 1 ((r255Grp exR255).mulGen 2))
      (pedersenCommit (r255Grp exR255) 1 2 ((r255Grp exR255).mulGen 2)) = true ∧
    (r255Grp exR255).isIdentity ((r255Grp exR255).mulGen 2) = false ∧ ((r255Grp exR255).mulGen 2).Even ∧
    ((k1Grp exK1).mulGen 2).Valid := by
  refine ⟨by decide +kernel, by decide +kernel, by decide +kernel, by decide +kernel, ?_, ?_⟩
  · exact (even_iff _).mpr (r255Mul_spec edBase_even 2).1
  · exact (k1Mul_spec (K1Lib.Identities.ok ⟨Or.inr rfl, Or.inl rfl⟩) k1Base_legal 2).1

end MscPoc
