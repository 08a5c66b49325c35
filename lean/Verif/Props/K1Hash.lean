import Verif.Lemmas.K1Hash
import Verif.Lemmas.K1Values
import Verif.Lemmas.Sha2
import Verif.Props.K1

/-!
# C66 — hashing to secp256k1, and the system with the hash functions it uses
-/

set_option autoImplicit false

namespace MscPoc

/-- **C66** `p256.MapToGroup` returns the point found first, whatever the digest function. -/
theorem C66_first (dig : Bytes → Bytes) (m : Bytes) (x y : ℕ) :
    k1Hash dig m = ⟨some (x : Int), some (y : Int)⟩ ↔ ∃ i < 256, FirstPoint dig m i x y := by
  have key := k1HashGo_spec dig m 256 0 (by omega) (fun j hj => by omega)
  constructor
  · intro h
    rcases key with ⟨e, _⟩ | ⟨k, x', y', hk, hf, e⟩
    · rw [k1Hash, e] at h; simp at h
    · rw [k1Hash, e] at h
      simp only [K1Point.mk.injEq, Option.some.injEq, Nat.cast_inj] at h
      obtain ⟨rfl, rfl⟩ := h
      exact ⟨k, by omega, hf⟩
  · rintro ⟨i, hi, hf⟩
    rcases key with ⟨_, hn⟩ | ⟨k, x', y', hk, hf', e⟩
    · exfalso
      apply hn i (by omega)
      rw [← (k1Cand_cast dig m i hi _).mp hf.cand]
      exact ⟨y, by rw [← hf.on, sq]⟩
    · obtain ⟨_, rfl, rfl⟩ := hf.unique hi (by omega) hf'
      exact e

/-- **C66** It finds none exactly if none of the 256 numbers is the abscissa of a point; then the wrapper panics. -/
theorem C66_none (dig : Bytes → Bytes) (m : Bytes) :
    ((¬ ∃ x y : ℕ, k1Hash dig m = ⟨some (x : Int), some (y : Int)⟩) ↔
      ∀ i < 256, ∀ x : ZMod k1P, IsCandidate dig m i x → ¬ IsSquare (x ^ 3 + 7)) ∧
    ((¬ ∃ x y : ℕ, k1Hash dig m = ⟨some (x : Int), some (y : Int)⟩) → (k1Hash dig m).mapToGroupOf = none) := by
  have key := k1HashGo_spec dig m 256 0 (by omega) (fun j hj => by omega)
  refine ⟨⟨fun h i hi x hx => ?_, ?_⟩, fun h => ?_⟩
  · rcases key with ⟨_, hn⟩ | ⟨k, x', y', hk, hf', e⟩
    · rw [(k1Cand_cast dig m i hi _).mp hx]
      exact hn i (by omega)
    · exact absurd ⟨x', y', e⟩ h
  · rintro h ⟨x, y, e⟩
    obtain ⟨i, hi, hf⟩ := (C66_first dig m x y).mp e
    exact h i hi _ hf.cand ⟨y, by rw [← hf.on, sq]⟩
  · rcases key with ⟨e, _⟩ | ⟨k, x', y', hk, hf', e⟩
    · rw [k1Hash, e]; rfl
    · exact absurd ⟨x', y', e⟩ h

/-- **C66** The wrapper returns the point found if its abscissa has 32 bytes. -/
theorem C66_wrapper (dig : Bytes → Bytes) (m : Bytes) (i x y : ℕ) (hi : i < 256) (h : FirstPoint dig m i x y)
    (hx : 256 ^ 31 ≤ x) : (k1Hash dig m).mapToGroupOf = some ⟨some (x : Int), some (y : Int)⟩ := by
  have e := (C66_first dig m x y).mpr ⟨i, hi, h⟩
  have hok : K1HashOK { exK1 with hash := k1Hash dig } m := by
    refine ⟨x, y, e, hx, h.x_lt, h.y_lt, ?_⟩
    rw [k1_on_iff, h.on]
    ring
  obtain ⟨p, h1, _, h3⟩ := hok.map
  rw [← e]
  rw [h3] at h1
  exact h1

theorem k1Good_spec {e : K1Point} (h : k1Good e = true) :
    ∃ x y : ℕ, e = ⟨some (x : Int), some (y : Int)⟩ ∧ 256 ^ 31 ≤ x ∧ x < k1P ∧ y < k1P ∧
      ((y : Int) ^ 2 - ((x : Int) ^ 3 + 7)) % k1P = 0 := by
  obtain ⟨X, Y⟩ := e
  match X, Y, h with
  | some (.ofNat x), some (.ofNat y), h =>
    simp only [k1Good, Bool.and_eq_true, decide_eq_true_iff, beq_iff_eq] at h
    obtain ⟨⟨⟨h1, h2⟩, h3⟩, h4⟩ := h
    refine ⟨x, y, rfl, h1, h2, h3, ?_⟩
    apply Int.emod_eq_zero_of_dvd
    rw [← ZMod.intCast_zmod_eq_zero_iff_dvd]
    have h5 : ((y * y % k1P : ℕ) : ZMod k1P) = ((x * x * x + 7) % k1P : ℕ) := by rw [h4]
    rw [ZMod.natCast_mod, ZMod.natCast_mod] at h5
    push_cast at h5 ⊢
    linear_combination h5

/-- **C66** With SHA-256, every seed of the setup hashes to a point whose abscissa has 32 bytes. -/
theorem C66_seeds (L : K1Lib) (s : Bytes) (hs : SetupSeed 16 s) : K1HashOK L.real s := by
  have hg : ∀ e ∈ k1ValH :: k1ValU :: (k1ValGg ++ k1ValHh), k1Good e = true := List.all_eq_true.mp k1Vals_good
  have hm : k1Hash sha256 s ∈ k1ValH :: k1ValU :: (k1ValGg ++ k1ValHh) := by
    have lst : ∀ (seed : ℕ → Bytes) (l : List K1Point), (List.range 16).map (fun i => k1Hash sha256 (seed i)) = l →
        ∀ i < 16, k1Hash sha256 (seed i) ∈ l := by
      rintro seed l rfl i hi
      exact List.mem_map.mpr ⟨i, List.mem_range.mpr hi, rfl⟩
    rcases hs with rfl | rfl | ⟨i, hi, rfl | rfl⟩
    · rw [k1_H]; exact List.mem_cons_self
    · rw [k1_U]; exact List.mem_cons_of_mem _ List.mem_cons_self
    · exact List.mem_cons_of_mem _ (List.mem_cons_of_mem _ (List.mem_append_left _ (lst seedG _ k1_G i hi)))
    · exact List.mem_cons_of_mem _ (List.mem_cons_of_mem _ (List.mem_append_right _ (lst seedHh _ k1_Hh i hi)))
  exact k1Good_spec (hg _ hm)

/-- **C66** The generators on secp256k1: the base point and the 34 points the seeds hash to are pairwise different. -/
theorem C66_distinct (L : K1Lib) : L.real.hash SEEDH = k1ValH ∧ L.real.hash SEEDU = k1ValU ∧
    (List.range 16).map (fun i => L.real.hash (seedG i)) = k1ValGg ∧
    (List.range 16).map (fun i => L.real.hash (seedHh i)) = k1ValHh ∧
    (k1Base :: k1ValH :: k1ValU :: (k1ValGg ++ k1ValHh)).Nodup := by
  have e : L.real.hash = k1Hash sha256 := rfl
  rw [e]
  refine ⟨k1_H, k1_U, k1_G, k1_Hh, ?_⟩
  decide +kernel

theorem real_identities {L : K1Lib} (h : L.Identities) : L.real.Identities := h

/-- **C66** The deployed system on secp256k1 with SHA-256 and ing-bank's hash to the curve: setup succeeds and what `castVote`
completes is accepted. -/
theorem C66_honest (nan64 : BitVec 64) (L : K1Lib) (hL : L.Identities) :
    ∃ pp, setup nan64 (k1Grp L.real) = some (.ok pp) ∧ ∀ (rnd : CastRand) (ballot : BallotData Int K1Point),
      (0 ≤ rnd.rChoice ∧ rnd.rChoice < 1899) →
      (rnd.bp1.sL.length = 16 ∧ rnd.bp1.sR.length = 16 ∧ rnd.bp2.sL.length = 16 ∧ rnd.bp2.sR.length = 16) →
      (∀ s ∈ rnd.tape, 0 ≤ s.k ∧ s.k < 2 ^ 255) →
      castVote sha256 pp rnd = .done ballot →
      verifyVote sha256 ballot pp.RPParams = some { result := true, times := [0, 0] } :=
  C55_honest sha256 nan64 L.real (real_identities hL) (C66_seeds L)

/-- **C66** With them, a voter who casts any other number with the honest code is rejected, unless the challenge is zero. -/
theorem C66_any_choice (nan64 : BitVec 64) (L : K1Lib) (hL : L.Identities) :
    ∃ pp, setup nan64 (k1Grp L.real) = some (.ok pp) ∧
    ∀ (choice : UInt16) (rnd : CastRand) (ballot : BallotData Int K1Point),
      (rnd.bp1.sL.length = 16 ∧ rnd.bp1.sR.length = 16 ∧ rnd.bp2.sL.length = 16 ∧ rnd.bp2.sR.length = 16) →
      (∀ s ∈ rnd.tape, 0 ≤ s.k ∧ s.k < 2 ^ 255) →
      castChoice sha256 pp choice rnd = .done ballot →
      ∃ c b, ballot.VoteProof.Challenge = some c ∧
        verifyVote sha256 ballot pp.RPParams = some { result := b, times := [0, 0] } ∧
        (b = true ↔ (101 ≤ choice ∧ choice ≤ 2000) ∨ c = 0) :=
  C55_any_choice sha256 sha256_length nan64 L.real (real_identities hL) (C66_seeds L)

/-- **C66** The driver on it, without assumptions on the hash functions. -/
theorem C66_driver (nan64 : BitVec 64) (L : K1Lib) (hL : L.Identities) (rnds : List CastRand)
    (hs : RunsOK sha256 nan64 (k1Grp L.real) rnds) (hd : ∀ rnd ∈ rnds, CastDrawn 256 rnd) :
    runGroup sha256 nan64 (k1Grp L.real) rnds ≠ .panic ∧
    (∀ r, runGroup sha256 nan64 (k1Grp L.real) rnds = .done r → r = .formed true) ∧
    ((∀ rnd ∈ rnds, ∃ s ∈ rnd.tape, SafeMask 256 s.k) → runGroup sha256 nan64 (k1Grp L.real) rnds = .done (.formed true)) :=
  C55_driver sha256 sha256_length nan64 L.real (real_identities hL) (C66_seeds L) rnds hs hd

/-- C66: `exK1` meets the hypothesis; for one of the seeds the number 0 is no abscissa. -/
example : exK1.Identities ∧ ∃ i x y, 0 < i ∧ i < 256 ∧ FirstPoint sha256 SEEDU i x y := by
  refine ⟨⟨Or.inr rfl, Or.inl rfl⟩, ?_⟩
  obtain ⟨x, y, e, _⟩ := k1Good_spec (e := k1ValU) (by decide +kernel)
  obtain ⟨i, hi, hf⟩ := (C66_first sha256 SEEDU x y).mp (k1_U.trans e)
  refine ⟨i, x, y, ?_, hi, hf⟩
  rcases Nat.eq_zero_or_pos i with rfl | h
  · exfalso
    have h1 := affCast_inj hf.x_lt (k1Cand_lt _ _ _) ((k1Cand_cast sha256 SEEDU 0 hi _).mp hf.cand)
    have h2 : some (x : Int) = k1ValU.X := by rw [e]
    rw [h1] at h2
    exact absurd h2 (by decide +kernel)
  · exact h

end MscPoc
