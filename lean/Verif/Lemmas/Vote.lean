import Verif.Model.Vote
import Verif.Lemmas.Sigma
import Verif.Lemmas.BpProve
import Mathlib.Tactic.LinearCombination
import Mathlib.Tactic.Module

/-!
# Ballots: lemmas
-/

set_option autoImplicit false

namespace MscPoc

/-- The public parameters of an election, assembled as `setup` does (main.go:70-111). -/
structure Election (E₁ E₂ : Type) where
  FF : Grp E₁
  EC : Grp E₂
  /-- ElGamal public key, also `GFF.H` -/
  PK : E₁
  /-- range length in bits -/
  n : Nat
  /-- curve `G`, `H` and generator vectors of the range proof -/
  G : E₂
  H : E₂
  Gg : List E₂
  Hh : List E₂
  /-- the field size stored with the curve parameters -/
  F : Int
  Bx : UInt8
  Bc : UInt16
  Bg : UInt16
  Bb : Int
  lo : UInt16
  hi : UInt16

namespace Election
variable {E₁ E₂ : Type} (D : Election E₁ E₂)

def gff : GroupParams E₁ := { G := D.FF.generator, H := D.PK, N := some D.FF.N, F := some D.FF.P, I := D.FF }
def gec : GroupParams E₂ := { G := D.EC.generator, H := D.H, N := some D.EC.N, F := some D.F, I := D.EC }
def bp : BPParams E₂ := { N := D.n, G := D.G, H := D.H, Gg := D.Gg, Hh := D.Hh, GP := D.EC }
def rp : ProofParams E₁ E₂ :=
  { Bx := D.Bx, Bc := D.Bc, Bg := D.Bg, Bb := D.Bb, RangeLo := D.lo, RangeHi := D.hi, GFF := D.gff, GEC := D.gec }
def pp : PublicParams E₁ E₂ :=
  { FFGroupParams := D.gff, ECGroupParams := D.gec, EGPK := D.PK, candidateMin := D.lo, candidateMax := D.hi,
    BPParams := D.bp, RPParams := D.rp }

variable {q₁ q₂ : ℕ} {M₁ M₂ : Type} [AddCommGroup M₁] [Module (ZMod q₁) M₁] [AddCommGroup M₂] [Module (ZMod q₂) M₂]

/-- Legal parameters: legal elements, `2^k`-bit range, and masks fit below the order of the ElGamal group. -/
structure OK (D : Election E₁ E₂) (L₁ : Lawful D.FF q₁ M₁) (L₂ : Lawful D.EC q₂ M₂) (k : ℕ) : Prop where
  pk : L₁.V D.PK
  bp : ParamsOK D.bp L₂ k
  mask : D.rp.zUpperBound ≤ q₁

end Election

section
variable {E₁ E₂ : Type} {q₁ q₂ : ℕ} {M₁ M₂ : Type} [AddCommGroup M₁] [Module (ZMod q₁) M₁] [AddCommGroup M₂]
  [Module (ZMod q₂) M₂]

/-- `verifyVote` in terms of its three parts -/
theorem verifyVote_true {sha : Bytes → Bytes} {b : BallotData E₁ E₂} {rp : ProofParams E₁ E₂}
    (h1 : b.BpLower.verify sha = some true) (h2 : b.BpUpper.verify sha = some true) {r : Bool}
    (h3 : b.VoteProof.verify sha (voteCommitments b rp) = some r) :
    verifyVote sha b rp = some { result := r, times := [0, 0] } := by
  unfold verifyVote
  runs h1
  rw [if_neg (by simp)]
  runs h2
  rw [if_neg (by simp)]
  runs h3
  rfl

theorem verifyVote_accept_iff {sha : Bytes → Bytes} {b : BallotData E₁ E₂} {rp : ProofParams E₁ E₂} :
    (∃ t, verifyVote sha b rp = some { result := true, times := t }) ↔
      b.BpLower.verify sha = some true ∧ b.BpUpper.verify sha = some true ∧
      b.VoteProof.verify sha (voteCommitments b rp) = some true := by
  constructor
  · rintro ⟨t, h⟩
    unfold verifyVote at h
    unbind h with b1 e1
    cases b1
    · rw [if_pos (by simp)] at h; simp at h
    rw [if_neg (by simp)] at h
    unbind h with b2 e2
    cases b2
    · rw [if_pos (by simp)] at h; simp at h
    rw [if_neg (by simp)] at h
    unbind h with b3 e3
    simp only [Option.some.injEq, VerifyOut.mk.injEq] at h
    exact ⟨e1, e2, by rw [e3, h.1]⟩
  · rintro ⟨h1, h2, h3⟩
    exact ⟨_, verifyVote_true h1 h2 h3⟩

/-- The verdict of the sigma check on an honest transcript against *any* statement with the same ciphertext
randomness: only the differences of the committed values matter. -/
theorem sigma_exact (sha : Bytes → Bytes) (pp : ProofParams E₁ E₂)
    (L₁ : Lawful pp.GFF.I q₁ M₁) (L₂ : Lawful pp.GEC.I q₂ M₂) (hN₁ : pp.GFF.N = some (q₁ : Int))
    (hN₂ : pp.GEC.N = some (q₂ : Int)) (hH₁ : L₁.V pp.GFF.H) (hH₂ : L₂.V pp.GEC.H)
    (hU : pp.zUpperBound ≤ q₁) (secret rp rq1 rq2 : Int) (tape : List SigmaSample)
    (hk : ∀ s ∈ tape, 0 ≤ s.k ∧ s.k < pp.zUpperBound) (pf : SigmaProof E₁ E₂)
    (h : sigmaProve sha pp secret rp rq1 rq2 tape = .done pf)
    (comm : VerCommitments E₁ E₂) (x₁ x₂ : Int) (vY : L₁.V comm.Y) (vXp : L₁.V comm.Xp) (vX1 : L₂.V comm.Xq1)
    (vX2 : L₂.V comm.Xq2)
    (hY : L₁.den comm.Y = (rp : ZMod q₁) • L₁.g)
    (hXp : L₁.den comm.Xp = (secret : ZMod q₁) • L₁.g + (rp : ZMod q₁) • L₁.den pp.GFF.H)
    (hX1 : L₂.den comm.Xq1 = (x₁ : ZMod q₂) • L₂.g + (rq1 : ZMod q₂) • L₂.den pp.GEC.H)
    (hX2 : L₂.den comm.Xq2 = (x₂ : ZMod q₂) • L₂.g + (rq2 : ZMod q₂) • L₂.den pp.GEC.H) :
    ∃ c b, pf.Challenge = some c ∧ pf.Params = pp ∧ pf.verify sha comm = some b ∧
      (b = true ↔ ((c * (x₁ - secret) : Int) : ZMod q₂) • L₂.g = 0 ∧ ((c * (x₂ - secret) : Int) : ZMod q₂) • L₂.g = 0) := by
  obtain ⟨pre, s, post, htape, _, hs⟩ := (sigmaProve_done_iff tape pf).mp h
  obtain ⟨hk0, hk1⟩ := hk s (by simp [htape])
  have hmod : s.k % (q₁ : Int) = s.k := Int.emod_eq_of_lt hk0 (lt_of_lt_of_le hk1 hU)
  cases hc : getFSChallenge sha pp.GFF.I pp.GEC.I (pp.GFF.I.mulGen s.tp) (vpCommit (s.k % q₁) s.tp pp.GFF)
      (vpCommit (s.k % q₁) s.tq1 pp.GEC) (vpCommit (s.k % q₁) s.tq2 pp.GEC) pp.Bc with
  | none => rw [sigmaAttempt_none hN₁ hN₂ hc] at hs; exact absurd hs (by simp)
  | some c =>
  rw [sigmaAttempt_done hN₁ hN₂ hc] at hs
  split at hs
  swap
  · exact absurd hs (by simp)
  rename_i hz
  simp only [Option.some.injEq] at hs
  subst hs
  refine ⟨c, _, rfl, rfl, sigma_verify_full sha _ comm rfl hc rfl rfl rfl rfl, ?_⟩
  dsimp only
  rw [hz, Bool.and_eq_true, sigmaChecks_iff pp L₁ L₂]
  · constructor
    · rintro ⟨-, -, -, e3, e4⟩
      dsimp only at e3 e4
      rw [cast_emod, den_vpCommit L₂ hH₂, hX1, hmod] at e3
      rw [cast_emod, den_vpCommit L₂ hH₂, hX2, hmod] at e4
      push_cast at e3 e4 ⊢
      exact ⟨by linear_combination (norm := module) -e3, by linear_combination (norm := module) -e4⟩
    · rintro ⟨e3, e4⟩
      push_cast at e3 e4
      refine ⟨by simp, ?_, ?_, ?_, ?_⟩
      · dsimp only
        rw [cast_emod, hY, L₁.den_mulGen]
        push_cast; module
      · dsimp only
        rw [cast_emod, den_vpCommit L₁ hH₁, hXp, cast_emod]
        push_cast; module
      · dsimp only
        rw [cast_emod, den_vpCommit L₂ hH₂, hX1, hmod]
        push_cast
        linear_combination (norm := module) -e3
      · dsimp only
        rw [cast_emod, den_vpCommit L₂ hH₂, hX2, hmod]
        push_cast
        linear_combination (norm := module) -e4
  · exact ⟨hH₁, hH₂, L₁.V_mulGen _, V_vpCommit L₁ hH₁ _ _, V_vpCommit L₂ hH₂ _ _, V_vpCommit L₂ hH₂ _ _, vY, vXp, vX1, vX2⟩

theorem Election.Xq1_den (D : Election E₁ E₂) (L₂ : Lawful D.EC q₂ M₂) (b : BallotData E₁ E₂) (h : L₂.V b.BpLower.V) :
    L₂.V (voteCommitments b D.rp).Xq1 ∧
    L₂.den (voteCommitments b D.rp).Xq1 = ((D.lo.toNat : Int) : ZMod q₂) • L₂.g + L₂.den b.BpLower.V := by
  change L₂.V (D.EC.add (D.EC.mulGen (D.lo.toNat : Int)) b.BpLower.V) ∧
    L₂.den (D.EC.add (D.EC.mulGen (D.lo.toNat : Int)) b.BpLower.V) = _
  rw [L₂.den_add (L₂.V_mulGen _) h, L₂.den_mulGen]
  exact ⟨L₂.V_add (L₂.V_mulGen _) h, rfl⟩

theorem Election.Xq2_den (D : Election E₁ E₂) (L₂ : Lawful D.EC q₂ M₂) (b : BallotData E₁ E₂) (h : L₂.V b.BpUpper.V) :
    L₂.V (voteCommitments b D.rp).Xq2 ∧
    L₂.den (voteCommitments b D.rp).Xq2 = ((D.hi.toNat : Int) : ZMod q₂) • L₂.g - L₂.den b.BpUpper.V := by
  change L₂.V (D.EC.add (D.EC.mulGen (D.hi.toNat : Int)) (D.EC.mul b.BpUpper.V (-1))) ∧
    L₂.den (D.EC.add (D.EC.mulGen (D.hi.toNat : Int)) (D.EC.mul b.BpUpper.V (-1))) = _
  rw [L₂.den_add (L₂.V_mulGen _) (L₂.V_mul _ h), L₂.den_mulGen, L₂.den_mul _ h]
  refine ⟨L₂.V_add (L₂.V_mulGen _) (L₂.V_mul _ h), ?_⟩
  push_cast; module

end
end MscPoc
