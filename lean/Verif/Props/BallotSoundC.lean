import Verif.Props.BallotSound
import Verif.Props.BpSoundC
import Verif.Spec.BallotExtractC

/-!
# C81 — with repaired range proofs, an accepted ballot is a vote for a candidate
-/

set_option autoImplicit false

namespace MscPoc

section
variable {E₁ E₂ : Type} {q₁ q₂ : ℕ} {M₁ M₂ : Type} [AddCommGroup M₁] [Module (ZMod q₁) M₁] [AddCommGroup M₂]
  [Module (ZMod q₂) M₂] (D : Election E₁ E₂) (L₁ : Lawful D.FF q₁ M₁) (L₂ : Lawful D.EC q₂ M₂) [Fact q₁.Prime] [Fact q₂.Prime]

/-- **C81** From two accepted vote proofs with one first move and different challenges, and a tree of transcripts accepted by the
repaired range-proof verifier (C80) for each of the two commitments, `ballotExtractC` computes a non-trivial relation between the
generators of the range proofs, or a number `m` of the candidate range that the ciphertext encrypts: every secret key that belongs
to the public key decrypts the ballot to `m`.  Nothing is assumed about the openings (compare C72). -/
theorem C81_extract {sha sha' : Bytes → Bytes} (hsha : ∀ m, (sha m).length = 32) (hsha' : ∀ m, (sha' m).length = 32)
    {b b' : BallotData E₁ E₂} {k : ℕ} (ok : D.OK L₁ L₂ k)
    (hsetup : vpSetup D.Bx D.Bc D.Bg D.lo D.hi { GFF := D.gff, GEC := D.gec } = .ok D.rp)
    (hq₁ : 2 ^ D.Bc.toNat ≤ q₁) (hq₂ : 2 ^ (D.Bg.toNat - 1) ≤ q₂) (hn : D.lo.toNat + 2 * 2 ^ D.n ≤ q₂) (hhi : D.hi.toNat < 2 ^ D.Bx.toNat)
    (f : VoteFork sha sha' b b' D.rp) (hl : ForkLegal L₁ L₂ b) (p p' : SigmaAns) (hp : b.VoteProof.Answers p)
    (hp' : b'.VoteProof.Answers p')
    (Uu : E₂) (hU : D.EC.mapToGroup SEEDU = some Uu) (T₁ T₂ : BpTreeC E₂ (ZMod q₂) k) (hV₁ : T₁.V = b.BpLower.V)
    (hV₂ : T₂.V = b.BpUpper.V) (hL₁ : T₁.Legal (params := D.bp) L₂) (hL₂ : T₂.Legal (params := D.bp) L₂) (hd₁ : T₁.Distinct)
    (hd₂ : T₂.Distinct) (ha₁ : T₁.Accepted D.bp) (ha₂ : T₂.Accepted D.bp) :
    match (ballotExtractC D.lo.toNat D.hi.toNat p p' T₁ T₂ : BallotExtracted (ZMod q₁) (ZMod q₂)) with
    | .relation w =>
        (w.1.1 ≠ 0 ∨ w.1.2.1 ≠ 0 ∨ w.1.2.2 ≠ 0 ∨ (∃ i < 2 ^ k, w.2.1 i ≠ 0) ∨ ∃ i < 2 ^ k, w.2.2 i ≠ 0) ∧
        w.1.1 • L₂.g + w.1.2.1 • L₂.den D.H + w.1.2.2 • L₂.den Uu +
          msm (L₂.denV D.Gg) (firstN (2 ^ k) w.2.1) + msm (L₂.denV D.Hh) (firstN (2 ^ k) w.2.2) = 0
    | .plaintext v₁ r₁ v₂ r₂ x s => ∃ m : ℕ, D.lo.toNat ≤ m ∧ m ≤ D.hi.toNat ∧
        v₁ = (m - D.lo.toNat : ℕ) ∧ L₂.den b.BpLower.V = v₁ • L₂.g + r₁ • L₂.den D.H ∧
        v₂ = (D.hi.toNat - m : ℕ) ∧ L₂.den b.BpUpper.V = v₂ • L₂.g + r₂ • L₂.den D.H ∧
        p.z - p'.z = (p.c - p'.c) * m ∧ x = (m : ZMod q₁) ∧
        L₁.den b.Ballot.U = s • L₁.g ∧ L₁.den b.Ballot.V = (m : ZMod q₁) • L₁.g + s • L₁.den D.PK ∧
        ∀ sk : Int, L₁.den D.PK = (sk : ZMod q₁) • L₁.g →
          L₁.den (elgamalDecrypt D.FF sk b.Ballot) = (m : ZMod q₁) • L₁.g := by
  obtain ⟨-, -, -, -, -, -, -, g8, -⟩ := vpSetup_ok hsetup
  have hq₂' : 2 ^ D.Bc.toNat ≤ q₂ := le_trans (Nat.pow_le_pow_right (by norm_num) (by omega)) hq₂
  have t1 := C80_extract D.bp L₂ k ok.bp Uu hU T₁ hL₁ hd₁ ha₁
  have t2 := C80_extract D.bp L₂ k ok.bp Uu hU T₂ hL₂ hd₂ ha₂
  have hN : 2 ^ k = D.n := ok.bp.N.symm
  unfold ballotExtractC
  revert t1 t2
  cases T₁.extract with
  | relation w => exact fun t1 _ => t1
  | opening v₁ r₁ α aL aR =>
  cases T₂.extract with
  | relation w => exact fun _ t2 => t2
  | opening v₂ r₂ α' aL' aR' =>
  dsimp only
  rintro ⟨o1, b1, -⟩ ⟨o2, b2, -⟩
  rw [hV₁] at o1
  rw [hV₂] at o2
  obtain ⟨x₁, k1, rfl⟩ := b1.nat
  obtain ⟨x₂, k2, rfl⟩ := b2.nat
  rw [hN] at k1 k2
  have hH : L₂.V D.H := ok.bp.H
  have hm := C72_openings D L₁ L₂ hsha hsha' ok.pk hH hq₁ hq₂' f hl p p' hp hp' _ r₁ _ r₂ o1 o2
  have hr := C72_in_range D L₁ L₂ hsha hsha' ok.pk hH hsetup hq₁ hq₂ hn hhi f hl p p' hp hp' x₁ x₂ k1 k2 r₁ r₂ o1 o2
  revert hm hr
  cases (ballotMerge D.lo.toNat D.hi.toNat p p' (x₁ : ZMod q₂) r₁ x₂ r₂ : BallotExtracted (ZMod q₁) (ZMod q₂)) with
  | relation w =>
    rintro ⟨h1, h2, h3, h4⟩ -
    refine ⟨.inl h1, ?_⟩
    rw [h2, h3]
    have lg : (L₂.denV D.Gg).length = 2 ^ k := by simp [show D.Gg.length = 2 ^ k from ok.bp.lenG]
    have lh : (L₂.denV D.Hh).length = 2 ^ k := by simp [show D.Hh.length = 2 ^ k from ok.bp.lenH]
    rw [msm_zeroFn lg, msm_zeroFn' lh, zero_smul, add_zero, add_zero, add_zero]
    exact h4
  | plaintext y₁ u₁ y₂ u₂ x s =>
    rintro ⟨h0, -⟩ ⟨m, e1, e2, e3, e4, e5, e6, e7, e8, e9⟩
    simp only [Prod.mk.injEq] at h0
    obtain ⟨rfl, rfl, rfl, rfl⟩ := h0
    exact ⟨m, e3, e4, by rw [show m - D.lo.toNat = x₁ by omega], o1, by rw [show D.hi.toNat - m = x₂ by omega], o2, e5, e6, e7, e8, e9⟩

end

/-- **C81** For the parameters `setup` returns, on every curve of the program: an accepted ballot with repaired range proofs decrypts to
a candidate number from 101 to 2000, or there is a relation between the 35 generators. -/
theorem C81_deployed {E : Type} (nan64 : BitVec 64) (C : Grp E)
    (N bits : ℕ) (Bb : Int) (hr : (N, bits, Bb) ∈ curveTable) {M : Type} [AddCommGroup M] [Module (ZMod N) M] [Fact N.Prime]
    (L₂ : Lawful C N M) (hmap : ∀ s, SetupSeed 16 s → ∃ e, C.mapToGroup s = some e ∧ L₂.V e) :
    ∃ (D : Election Int E) (L₁ : Lawful D.FF modp3072Q (ModPM modp3072 modp3072Q)) (L : Lawful D.EC N M) (Uu : E),
      setup nan64 C = some (.ok D.pp) ∧ C.mapToGroup SEEDU = some Uu ∧
      ∀ (sha sha' : Bytes → Bytes), (∀ m, (sha m).length = 32) → (∀ m, (sha' m).length = 32) →
      ∀ (b b' : BallotData Int E), VoteFork sha sha' b b' D.pp.RPParams → ForkLegal L₁ L b →
      ∀ (T₁ T₂ : BpTreeC E (ZMod N) 4), T₁.V = b.BpLower.V → T₂.V = b.BpUpper.V →
      T₁.Legal (params := D.bp) L → T₂.Legal (params := D.bp) L → T₁.Distinct → T₂.Distinct →
      T₁.Accepted D.pp.BPParams → T₂.Accepted D.pp.BPParams →
      (∃ m : ℕ, 101 ≤ m ∧ m ≤ 2000 ∧ L₁.den (elgamalDecrypt D.FF 13 b.Ballot) = (m : ZMod modp3072Q) • L₁.g) ∨
      ∃ (a c d : ZMod N) (g h : List (ZMod N)), g.length = 16 ∧ h.length = 16 ∧
        (a ≠ 0 ∨ c ≠ 0 ∨ d ≠ 0 ∨ (∃ s ∈ g, s ≠ 0) ∨ ∃ s ∈ h, s ≠ 0) ∧
        a • L.g + c • L.den D.H + d • L.den Uu + msm (L.denV D.Gg) g + msm (L.denV D.Hh) h = 0 := by
  obtain ⟨D, L₁, L, hD, dep, ok⟩ := C47_legal nan64 C N bits Bb hr L₂ hmap
  obtain ⟨Uu, hU, _⟩ := hmap SEEDU (.inr (.inl rfl))
  obtain ⟨hsetup, hq₁, hq₂, hn, hhx, hlo, hhi, hN, hpk⟩ := dep.sizes hr
  have hPK : L₁.den D.PK = ((13 : Int) : ZMod modp3072Q) • L₁.g := by rw [hpk, L₁.den_mulGen]
  have hU' : D.EC.mapToGroup SEEDU = some Uu := by rw [dep.EC]; exact hU
  refine ⟨D, L₁, L, Uu, hD, hU, fun sha sha' hs hs' b b' f hl T₁ T₂ e1 e2 l1 l2 d1 d2 a1 a2 => ?_⟩
  obtain ⟨p, p', hp, hp', -⟩ := f.eqs D L₁ L hs hs' ok.pk ok.bp.H hl
  have h := C81_extract D L₁ L hs hs' ok hsetup hq₁ hq₂ hn hhx f hl p p' hp hp' Uu hU' T₁ T₂ e1 e2 l1 l2 d1 d2 a1 a2
  rw [hlo, hhi] at h
  revert h
  cases (ballotExtractC 101 2000 p p' T₁ T₂ : BallotExtracted (ZMod modp3072Q) (ZMod N)) with
  | relation w =>
    rintro ⟨h1, h2⟩
    refine .inr ⟨w.1.1, w.1.2.1, w.1.2.2, _, _, by simp [firstN], by simp [firstN], ?_, h2⟩
    simp only [firstN, List.mem_map, List.mem_range]
    rcases h1 with h | h | h | ⟨i, hi, h⟩ | ⟨i, hi, h⟩
    · exact .inl h
    · exact .inr (.inl h)
    · exact .inr (.inr (.inl h))
    · exact .inr (.inr (.inr (.inl ⟨_, ⟨i, hi, rfl⟩, h⟩)))
    · exact .inr (.inr (.inr (.inr ⟨_, ⟨i, hi, rfl⟩, h⟩)))
  | plaintext v₁ r₁ v₂ r₂ x s =>
    rintro ⟨m, m1, m2, -, -, -, -, -, -, -, -, m3⟩
    exact .inl ⟨m, m1, m2, m3 13 hPK⟩

end MscPoc
