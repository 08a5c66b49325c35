import Verif.Props.Rand
import Verif.Props.K1
import Mathlib.RingTheory.RootsOfUnity.Basic

/-!
# C57 — `Random()` of the groups, and the byte-level deployment on the curves
-/

set_option autoImplicit false

namespace MscPoc

theorem random_uniform {E : Type} (GP : Grp E) (R S : E → Prop) (r s : Int) (hr0 : 0 ≤ r ∧ r < GP.N) (hs0 : 0 ≤ s ∧ s < GP.N)
    (hr : ∀ x, 0 ≤ x → x < GP.N → (R (GP.baseScale GP.identity x) ↔ x = r))
    (hs : ∀ x, 0 ≤ x → x < GP.N → (S (GP.baseScale GP.identity x) ↔ x = s)) (L : ℕ) :
    Nat.card {t : Bytes // t.length = L ∧ ∃ e rest, randomElement GP t = .done (e, rest) ∧ R e} =
    Nat.card {t : Bytes // t.length = L ∧ ∃ e rest, randomElement GP t = .done (e, rest) ∧ S e} := by
  have key : ∀ (T : E → Prop) (u : Int), (∀ x, 0 ≤ x → x < GP.N → (T (GP.baseScale GP.identity x) ↔ x = u)) → ∀ t : Bytes,
      (∃ e rest, randomElement GP t = .done (e, rest) ∧ T e) ↔ ∃ rest, randInt GP.N t = .done (u, rest) ∧ True := by
    intro T u hT t
    constructor
    · rintro ⟨e, rest, h, hR⟩
      unfold randomElement at h
      obtain ⟨x, t1, e1, h⟩ := Draw.bind_done.mp h
      simp only [Draw.pure_eq, Outcome.done.injEq, Prod.mk.injEq] at h
      obtain ⟨rfl, rfl⟩ := h
      obtain ⟨⟨h0, h1⟩, _⟩ := randInt_done e1
      rw [← (hT x h0 h1).mp hR]
      exact ⟨t1, e1, trivial⟩
    · rintro ⟨rest, h, _⟩
      obtain ⟨⟨h0, h1⟩, _⟩ := randInt_done h
      exact ⟨_, rest, Draw.bind_done.mpr ⟨u, rest, h, rfl⟩, (hT u h0 h1).mpr rfl⟩
  have h := C57_int_uniform GP.N L (fun _ => True) r s hr0 hs0
  have c : ∀ (T : E → Prop) (u : Int), (∀ x, 0 ≤ x → x < GP.N → (T (GP.baseScale GP.identity x) ↔ x = u)) →
      Nat.card {t : Bytes // t.length = L ∧ ∃ e rest, randomElement GP t = .done (e, rest) ∧ T e} =
      Nat.card {t : Bytes // t.length = L ∧ ∃ rest, randInt GP.N t = .done (u, rest) ∧ True} := fun T u hT =>
    Nat.card_congr (Equiv.subtypeEquivRight fun t => by rw [key T u hT t])
  rw [c R r hr, c S s hs, h]

theorem modP_card {g : ModPGroup} {p q : ℕ} (h : ModPOK g p q) (hq : q.Prime) (hg : g.gen ≠ 1) :
    Nat.card (ModPM p q) = q ∧ (modPLawful h).den g.gen ≠ 0 := by
  have : Fact p.Prime := ⟨h.hp⟩
  have : NeZero q := ⟨hq.ne_zero⟩
  have : Fact q.Prime := ⟨hq⟩
  let L := modPLawful h
  have hne : L.den g.gen ≠ 0 := by
    intro h0
    apply hg
    have := (L.isIdentity_iff L.V_gen).mpr h0
    exact beq_iff_eq.mp this
  refine ⟨?_, hne⟩
  have hfin : Finite (ModPM p q) := inferInstanceAs (Finite (rootsOfUnity q (ZMod p)))
  have hle : Nat.card (ModPM p q) ≤ q := card_rootsOfUnity (ZMod p) q
  have ho : addOrderOf (L.den g.gen) = q := addOrderOf_eq_prime (by
    rw [← Nat.cast_smul_eq_nsmul (ZMod q), ZMod.natCast_self, zero_smul]) hne
  have hdvd : q ∣ Nat.card (ModPM p q) := by
    have := addOrderOf_dvd_natCard (L.den g.gen)
    rwa [ho] at this
  exact le_antisymm hle (Nat.le_of_dvd Nat.card_pos hdvd)

/-- every member of the safe-prime subgroup is `BaseScale(k)` of exactly one `0 ≤ k < q` -/
theorem modP_order {g : ModPGroup} {p q : ℕ} (h : ModPOK g p q) (hq : q.Prime) (hg : g.gen ≠ 1) {e : Int} (he : ModPMem p q e) :
    ∃ k : Int, (0 ≤ k ∧ k < q) ∧ ∀ x : Int, 0 ≤ x → x < q → ((modPGrp g).baseScale (modPGrp g).identity x = e ↔ x = k) := by
  obtain ⟨hc, hne⟩ := modP_card h hq hg
  have : Fact q.Prime := ⟨hq⟩
  let L := modPLawful h
  have hfin : Finite (ModPM p q) := Nat.finite_of_card_ne_zero (by rw [hc]; exact hq.ne_zero)
  have ho : addOrderOf (L.den g.gen) = q := addOrderOf_eq_prime (by
    rw [← Nat.cast_smul_eq_nsmul (ZMod q), ZMod.natCast_self, zero_smul]) hne
  have hm : L.den e ∈ AddSubgroup.zmultiples (L.den g.gen) := mem_zmultiples_of_prime_card hc hne
  obtain ⟨k, hk⟩ := AddSubgroup.mem_zmultiples_iff.mp hm
  have hq0 : (0 : Int) < q := by exact_mod_cast hq.pos
  have hb : ∀ x : Int, (modPGrp g).baseScale (modPGrp g).identity x = e ↔ x • L.den g.gen = L.den e := by
    intro x
    have hd : L.den ((modPGrp g).baseScale (modPGrp g).identity x) = x • L.den g.gen := by
      rw [L.den_baseScale, ← Int.cast_smul_eq_zsmul (ZMod q)]
      rfl
    rw [← hd]
    exact ⟨fun h => by rw [h], fun h' => modP_den_inj h L.V_baseScale he h'⟩
  refine ⟨k % q, ⟨Int.emod_nonneg _ hq0.ne', Int.emod_lt_of_pos _ hq0⟩, fun x h0 h1 => ?_⟩
  rw [hb, ← hk, ← sub_eq_zero, ← sub_smul, ← addOrderOf_dvd_iff_zsmul_eq_zero, ho, ← Int.modEq_iff_dvd]
  constructor
  · intro hx
    have : k % q = x % q := hx
    rw [this, Int.emod_eq_of_lt h0 h1]
  · rintro rfl
    exact (Int.mod_modEq k q).symm

/-- **C57** `ModPGroup.Random()` (group/modsafeprime.go:63-68) returns members of the prime-order subgroup only, and each of
the `q` members on the same number of byte strings of each length. -/
theorem C57_random_modp {g : ModPGroup} {p q : ℕ} (h : ModPOK g p q) (hq : q.Prime) (hg : g.gen ≠ 1) :
    (∀ (t rest : Bytes) (e : Int), randomElement (modPGrp g) t = .done (e, rest) → 0 < e ∧ e < p ∧ e ^ q % (p : Int) = 1) ∧
    ∀ (L : ℕ) (e f : Int), (0 < e ∧ e < p ∧ e ^ q % (p : Int) = 1) → (0 < f ∧ f < p ∧ f ^ q % (p : Int) = 1) →
      Nat.card {t : Bytes // t.length = L ∧ ∃ rest, randomElement (modPGrp g) t = .done (e, rest)} =
      Nat.card {t : Bytes // t.length = L ∧ ∃ rest, randomElement (modPGrp g) t = .done (f, rest)} := by
  have hN : (modPGrp g).N = q := h.go
  refine ⟨fun t rest e he => ?_, fun L e f he hf => ?_⟩
  · unfold randomElement at he
    obtain ⟨x, t1, e1, he⟩ := Draw.bind_done.mp he
    simp only [Draw.pure_eq, Outcome.done.injEq, Prod.mk.injEq] at he
    rw [← he.1]
    have := (modPLawful h).V_baseScale (recv := (modPGrp g).identity) (s := x)
    exact ⟨this.1, this.2.1, this.2.2⟩
  · obtain ⟨r, hr0, hr⟩ := modP_order h hq hg (e := e) ⟨he.1, he.2.1, he.2.2⟩
    obtain ⟨s, hs0, hs⟩ := modP_order h hq hg (e := f) ⟨hf.1, hf.2.1, hf.2.2⟩
    have := random_uniform (modPGrp g) (· = e) (· = f) r s (by rw [hN]; exact hr0) (by rw [hN]; exact hs0)
      (by rw [hN]; exact hr) (by rw [hN]; exact hs) L
    have c : ∀ e : Int, Nat.card {t : Bytes // t.length = L ∧ ∃ rest, randomElement (modPGrp g) t = .done (e, rest)} =
        Nat.card {t : Bytes // t.length = L ∧ ∃ e' rest, randomElement (modPGrp g) t = .done (e', rest) ∧ e' = e} := fun e =>
      Nat.card_congr (Equiv.subtypeEquivRight fun t => by
        refine and_congr_right fun _ => ⟨fun ⟨rest, h⟩ => ⟨e, rest, h, rfl⟩, ?_⟩
        rintro ⟨e', rest, h, rfl⟩
        exact ⟨rest, h⟩)
    rw [c e, c f]
    exact this

/-- The hypotheses hold: `p = 23`, `q = 11`, generator 2; on two-byte strings each of the 11 members, e.g. 2 and 3. -/
example : ModPOK ⟨2, 23, 11, "toy"⟩ 23 11 ∧ Nat.Prime 11 ∧ (2 : Int) ^ 11 % 23 = 1 ∧ (3 : Int) ^ 11 % 23 = 1 :=
  ⟨⟨by norm_num, rfl, rfl, by norm_num, by norm_num, by norm_num, by norm_num⟩, by norm_num, by norm_num, by norm_num⟩

/-- **C57** `p256k1Group.Random()` (group/p256k1.go:51-56): every curve point (and the identity) on the same number of byte
strings of each length. -/
theorem C57_random_k1 (L : K1Lib) (hL : L.Identities) (n : ℕ) (e f : K1Point) (he : e.Valid) (hf : f.Valid) :
    Nat.card {t : Bytes // t.length = n ∧ ∃ e' rest, randomElement (k1Grp L) t = .done (e', rest) ∧ (k1Grp L).isEqual e' e = true} =
    Nat.card {t : Bytes // t.length = n ∧ ∃ e' rest, randomElement (k1Grp L) t = .done (e', rest) ∧ (k1Grp L).isEqual e' f = true} := by
  have key : ∀ e : K1Point, e.Valid → ∃ k : Int, (0 ≤ k ∧ k < (k1Grp L).N) ∧ ∀ x : Int, 0 ≤ x → x < (k1Grp L).N →
      ((k1Grp L).isEqual ((k1Grp L).baseScale (k1Grp L).identity x) e = true ↔ x = k) := by
    intro e he
    obtain ⟨k, ⟨h0, h1, h2⟩, hu⟩ := (C55_order L hL).2.2 e he
    refine ⟨k, ⟨h0, h1⟩, fun x hx0 hx1 => ⟨fun h => hu x ⟨hx0, hx1, h⟩, ?_⟩⟩
    rintro rfl
    exact h2
  obtain ⟨r, hr0, hr⟩ := key e he
  obtain ⟨s, hs0, hs⟩ := key f hf
  exact random_uniform (k1Grp L) (fun e' => (k1Grp L).isEqual e' e = true) (fun e' => (k1Grp L).isEqual e' f = true) r s hr0 hs0 hr hs n

theorem bad_digest {sha : Bytes → Bytes} {n : ℕ} (hn : n.Prime) (h : ¬ DigestsOK sha n) : ∃ m, n ∣ setBytes (sha m) := by
  by_contra hs
  push Not at hs
  refine h fun b => ?_
  rw [Int.gcd_natCast_natCast, Nat.gcd_comm]
  exact (Nat.Prime.coprime_iff_not_dvd hn).mpr (hs b)

/-- **C57** Byte-level deployment on P-256 and P-384: a panic needs a digest that is a multiple of the order. -/
theorem C57_curves (sha : Bytes → Bytes) (hsha : ∀ m, (sha m).length = 32) (nan64 : BitVec 64)
    (C : CirclCurve) (bits : ℕ) (hC : StdRow C bits) (hash : ∀ s, SetupSeed 16 s → (C.hash s).Valid C.c) :
    ∃ pp, setup nan64 (circlGrp C) = some (.ok pp) ∧ ∀ n tape,
      (castVoteB sha pp n tape = .panic → (∃ m, C.n ∣ setBytes (sha m)) ∧
        ∃ rnd, CastDrawn bits rnd ∧ castVote sha pp rnd = .panic ∧ ¬ CastRunOK sha pp rnd) ∧
      ∀ b rest, castVoteB sha pp n tape = .done (b, rest) → verifyVote sha b pp.RPParams = some { result := true, times := [0, 0] } := by
  have ok := stdCircl_ord hC.circl
  have := ok.fact'
  let := ok.module
  obtain ⟨Bb, hr, _⟩ := hC.table
  obtain ⟨pp, h1, h2, h3, _⟩ := C57_deployed sha hsha nan64 (circlGrp C) C.n bits Bb hr ok.lawful
    (fun s hs => ⟨_, rfl, (wLegal_iff _ _).mpr (hash s hs)⟩)
  exact ⟨pp, h1, fun n tape => ⟨fun h => (h2 n tape h).imp_left (bad_digest ok.n_prime), fun b rest h => (h3 n tape b rest h).1⟩⟩

/-- **C57** Byte-level deployment on secp256k1. -/
theorem C57_secp256k1 (sha : Bytes → Bytes) (hsha : ∀ m, (sha m).length = 32) (nan64 : BitVec 64)
    (L : K1Lib) (hL : L.Identities) (hash : ∀ s, SetupSeed 16 s → K1HashOK L s) :
    ∃ pp, setup nan64 (k1Grp L) = some (.ok pp) ∧ ∀ n tape,
      (castVoteB sha pp n tape = .panic → (∃ m, k1N ∣ setBytes (sha m)) ∧
        ∃ rnd, CastDrawn 256 rnd ∧ castVote sha pp rnd = .panic ∧ ¬ CastRunOK sha pp rnd) ∧
      ∀ b rest, castVoteB sha pp n tape = .done (b, rest) → verifyVote sha b pp.RPParams = some { result := true, times := [0, 0] } := by
  let := k1Module
  obtain ⟨pp, h1, h2, h3, _⟩ := C57_deployed sha hsha nan64 (k1Grp L) k1N 256 15 k1_row (k1Lawful hL.ok) (K1HashOK.legal hash)
  exact ⟨pp, h1, fun n tape => ⟨fun h => (h2 n tape h).imp_left (bad_digest C48_orders.1), fun b rest h => (h3 n tape b rest h).1⟩⟩

end MscPoc
