import Verif.Props.Ballot
import Verif.Props.BpTight
import Verif.Props.Setup
import Verif.Spec.BallotExtract
import Verif.Lemmas.RfcPrime

/-!
# C72 — what an accepted ballot proves
-/

set_option autoImplicit false

namespace MscPoc

section
variable {E₁ E₂ : Type} {q₁ q₂ : ℕ} {M₁ M₂ : Type} [AddCommGroup M₁] [Module (ZMod q₁) M₁] [AddCommGroup M₂]
  [Module (ZMod q₂) M₂]

/-- the answers in a vote proof -/
def SigmaProof.Answers (pf : SigmaProof E₁ E₂) (p : SigmaAns) : Prop :=
  pf.Challenge = some p.c ∧ pf.Z = some p.z ∧ pf.Sp = some p.sp ∧ pf.Sq1 = some p.s1 ∧ pf.Sq2 = some p.s2

/-- Two ballots that `verifyVote` accepts, with the same ciphertext, range-proof commitments and first move of the vote proof, but
different challenges.  Both vote proofs carry the election's parameters — the server does not compare them (C37). -/
structure BallotFork (sha sha' : Bytes → Bytes) (b b' : BallotData E₁ E₂) (rp : ProofParams E₁ E₂) : Prop where
  acc : ∃ t, verifyVote sha b rp = some { result := true, times := t }
  acc' : ∃ t, verifyVote sha' b' rp = some { result := true, times := t }
  params : b.VoteProof.Params = rp
  params' : b'.VoteProof.Params = rp
  ballot : b'.Ballot = b.Ballot
  lower : b'.BpLower.V = b.BpLower.V
  upper : b'.BpUpper.V = b.BpUpper.V
  W : b'.VoteProof.W = b.VoteProof.W
  Kp : b'.VoteProof.Kp = b.VoteProof.Kp
  Kq1 : b'.VoteProof.Kq1 = b.VoteProof.Kq1
  Kq2 : b'.VoteProof.Kq2 = b.VoteProof.Kq2
  chal : b.VoteProof.Challenge ≠ b'.VoteProof.Challenge

/-- the elements they share are legal -/
structure ForkLegal {D : Election E₁ E₂} (L₁ : Lawful D.FF q₁ M₁) (L₂ : Lawful D.EC q₂ M₂) (b : BallotData E₁ E₂) : Prop where
  U : L₁.V b.Ballot.U
  V : L₁.V b.Ballot.V
  W : L₁.V b.VoteProof.W
  Kp : L₁.V b.VoteProof.Kp
  Kq1 : L₂.V b.VoteProof.Kq1
  Kq2 : L₂.V b.VoteProof.Kq2
  lower : L₂.V b.BpLower.V
  upper : L₂.V b.BpUpper.V

theorem BallotFork.sigma {sha sha' : Bytes → Bytes} {b b' : BallotData E₁ E₂} {rp : ProofParams E₁ E₂}
    (f : BallotFork sha sha' b b' rp) : Fork sha sha' b.VoteProof b'.VoteProof (voteCommitments b rp) where
  acc := (verifyVote_accept_iff.mp f.acc).2.2
  acc' := by
    have := (verifyVote_accept_iff.mp f.acc').2.2
    unfold voteCommitments at this ⊢
    rw [f.ballot, f.lower, f.upper] at this
    exact this
  params := f.params'.trans f.params.symm
  W := f.W
  Kp := f.Kp
  Kq1 := f.Kq1
  Kq2 := f.Kq2

/-- the part of it that concerns the vote proofs: two accepted answers to different challenges -/
structure VoteFork (sha sha' : Bytes → Bytes) (b b' : BallotData E₁ E₂) (rp : ProofParams E₁ E₂) : Prop where
  sigma : Fork sha sha' b.VoteProof b'.VoteProof (voteCommitments b rp)
  params : b.VoteProof.Params = rp
  chal : b.VoteProof.Challenge ≠ b'.VoteProof.Challenge

theorem BallotFork.vote {sha sha' : Bytes → Bytes} {b b' : BallotData E₁ E₂} {rp : ProofParams E₁ E₂}
    (f : BallotFork sha sha' b b' rp) : VoteFork sha sha' b b' rp := ⟨f.sigma, f.params, f.chal⟩

section
variable (D : Election E₁ E₂) (L₁ : Lawful D.FF q₁ M₁) (L₂ : Lawful D.EC q₂ M₂)

/-- the equations a fork gives, in terms of the ballot -/
theorem VoteFork.eqs {sha sha' : Bytes → Bytes} (hsha : ∀ m, (sha m).length = 32) (hsha' : ∀ m, (sha' m).length = 32)
    {b b' : BallotData E₁ E₂} (hPK : L₁.V D.PK) (hH : L₂.V D.H)
    (f : VoteFork sha sha' b b' D.rp) (hl : ForkLegal L₁ L₂ b) :
    ∃ p p' : SigmaAns, b.VoteProof.Answers p ∧ b'.VoteProof.Answers p' ∧
      (0 ≤ p.c ∧ p.c < 2 ^ D.Bc.toNat) ∧ (0 ≤ p'.c ∧ p'.c < 2 ^ D.Bc.toNat) ∧ p.c ≠ p'.c ∧
      (D.rp.zLowerBound ≤ p.z ∧ p.z < D.rp.zUpperBound) ∧ (D.rp.zLowerBound ≤ p'.z ∧ p'.z < D.rp.zUpperBound) ∧
      ((p.c - p'.c : Int) : ZMod q₁) • L₁.den b.Ballot.U = ((p.sp - p'.sp : Int) : ZMod q₁) • L₁.g ∧
      ((p.c - p'.c : Int) : ZMod q₁) • L₁.den b.Ballot.V =
        ((p.z - p'.z : Int) : ZMod q₁) • L₁.g + ((p.sp - p'.sp : Int) : ZMod q₁) • L₁.den D.PK ∧
      ((p.c - p'.c : Int) : ZMod q₂) • (((D.lo.toNat : ℕ) : ZMod q₂) • L₂.g + L₂.den b.BpLower.V) =
        ((p.z - p'.z : Int) : ZMod q₂) • L₂.g + ((p.s1 - p'.s1 : Int) : ZMod q₂) • L₂.den D.H ∧
      ((p.c - p'.c : Int) : ZMod q₂) • (((D.hi.toNat : ℕ) : ZMod q₂) • L₂.g - L₂.den b.BpUpper.V) =
        ((p.z - p'.z : Int) : ZMod q₂) • L₂.g + ((p.s2 - p'.s2 : Int) : ZMod q₂) • L₂.den D.H := by
  have hf := f.sigma
  obtain ⟨v1, x1⟩ := D.Xq1_den L₂ b hl.lower
  obtain ⟨v2, x2⟩ := D.Xq2_den L₂ b hl.upper
  obtain ⟨ct, b1, b2, pf⟩ := b
  obtain ⟨W, Kp, Kq1, Kq2, C, Z, Sp, S1, S2, P⟩ := pf
  have hP := f.params
  have hne := f.chal
  dsimp only at hP hf hne v1 v2 x1 x2
  subst hP
  obtain ⟨z, c, sp, s1, s2, z', c', sp', s1', s2', ⟨a1, a2, a3, a4, a5⟩, ⟨b1, b2, b3, b4, b5⟩, hz, hz', hch, hch', e1, e2, e3,
    e4⟩ := hf.diff (q₁ := q₁) (q₂ := q₂) (M₁ := M₁) (M₂ := M₂) L₁ L₂
      ⟨hPK, hH, hl.W, hl.Kp, hl.Kq1, hl.Kq2, hl.U, hl.V, v1, v2⟩
  obtain ⟨_, c0, _, c1⟩ := (C28_challenge sha hsha _ _ _ _ _ _ _).2 c hch
  obtain ⟨_, d0, _, d1⟩ := (C28_challenge sha' hsha' _ _ _ _ _ _ _).2 c' hch'
  refine ⟨⟨c, z, sp, s1, s2⟩, ⟨c', z', sp', s1', s2'⟩, ⟨a2, a1, a3, a4, a5⟩, ⟨b2, b1, b3, b4, b5⟩, ⟨c0, c1⟩, ⟨d0, d1⟩, ?_, hz, hz',
    e1, e2, ?_, ?_⟩
  · rintro (h : c = c')
    exact hne (by rw [b2, ← h]; exact a2)
  · rw [x1, Int.cast_natCast] at e3
    exact e3
  · rw [x2, Int.cast_natCast] at e4
    exact e4

theorem cast_sub_ne {q B : ℕ} {c c' : Int} (h : 0 ≤ c ∧ c < 2 ^ B) (h' : 0 ≤ c' ∧ c' < 2 ^ B) (hne : c ≠ c') (hq : 2 ^ B ≤ q) :
    ((c - c' : Int) : ZMod q) ≠ 0 := by
  intro h0
  have hq' : (2 : Int) ^ B ≤ q := by exact_mod_cast hq
  have := Int.eq_zero_of_abs_lt_dvd ((ZMod.intCast_zmod_eq_zero_iff_dvd _ q).mp h0) (by rw [abs_lt]; omega)
  omega

theorem msm_zeroFn [Fact q₂.Prime] {k : ℕ} {l : List M₂} (hl : l.length = k) :
    msm l (firstN k ((0 : (ℕ → ZMod q₂) × (ℕ → ZMod q₂)).1)) = 0 := by
  unfold firstN
  rw [msm_firstN _ _ _ hl]
  simp

theorem msm_zeroFn' [Fact q₂.Prime] {k : ℕ} {l : List M₂} (hl : l.length = k) :
    msm l (firstN k ((0 : (ℕ → ZMod q₂) × (ℕ → ZMod q₂)).2)) = 0 := msm_zeroFn hl

/-- the answers are determined by the proof -/
theorem SigmaProof.Answers.unique {pf : SigmaProof E₁ E₂} {p p' : SigmaAns} (h : pf.Answers p) (h' : pf.Answers p') : p = p' := by
  obtain ⟨a1, a2, a3, a4, a5⟩ := h
  obtain ⟨b1, b2, b3, b4, b5⟩ := h'
  rw [a1] at b1; rw [a2] at b2; rw [a3] at b3; rw [a4] at b4; rw [a5] at b5
  cases p; cases p'
  simp only [Option.some.injEq] at b1 b2 b3 b4 b5
  subst b1 b2 b3 b4 b5
  rfl

variable [Fact q₁.Prime] [Fact q₂.Prime]

/-- **C72** Any openings of the two range-proof commitments of a forked ballot either give an explicit relation between `G` and `H`
on the curve, or both stand for one number: `lo + v₁ = hi - v₂ = (z-z')/(c-c')`, and the ciphertext encrypts `(z-z')/(c-c')`. -/
theorem C72_openings {sha sha' : Bytes → Bytes} (hsha : ∀ m, (sha m).length = 32) (hsha' : ∀ m, (sha' m).length = 32)
    {b b' : BallotData E₁ E₂} (hPK : L₁.V D.PK) (hH : L₂.V D.H) (hq₁ : 2 ^ D.Bc.toNat ≤ q₁) (hq₂ : 2 ^ D.Bc.toNat ≤ q₂)
    (f : VoteFork sha sha' b b' D.rp) (hl : ForkLegal L₁ L₂ b) (p p' : SigmaAns) (hp : b.VoteProof.Answers p)
    (hp' : b'.VoteProof.Answers p') (v₁ r₁ v₂ r₂ : ZMod q₂)
    (h₁ : L₂.den b.BpLower.V = v₁ • L₂.g + r₁ • L₂.den D.H) (h₂ : L₂.den b.BpUpper.V = v₂ • L₂.g + r₂ • L₂.den D.H) :
    match (ballotMerge D.lo.toNat D.hi.toNat p p' v₁ r₁ v₂ r₂ : BallotExtracted (ZMod q₁) (ZMod q₂)) with
    | .relation w => w.1.1 ≠ 0 ∧ w.1.2.2 = 0 ∧ w.2 = 0 ∧ w.1.1 • L₂.g + w.1.2.1 • L₂.den D.H = 0
    | .plaintext y₁ t₁ y₂ t₂ x s =>
        (y₁, t₁, y₂, t₂) = (v₁, r₁, v₂, r₂) ∧
        v₁ + D.lo.toNat = D.hi.toNat - v₂ ∧
        ((p.c - p'.c : Int) : ZMod q₂) * (v₁ + D.lo.toNat) = ((p.z - p'.z : Int) : ZMod q₂) ∧
        ((p.c - p'.c : Int) : ZMod q₁) * x = ((p.z - p'.z : Int) : ZMod q₁) ∧
        L₁.den b.Ballot.U = s • L₁.g ∧ L₁.den b.Ballot.V = x • L₁.g + s • L₁.den D.PK := by
  obtain ⟨t, t', ht, ht', hc, hc', hne, -, -, e1, e2, e3, e4⟩ := f.eqs D L₁ L₂ hsha hsha' hPK hH hl
  obtain rfl := ht.unique hp
  obtain rfl := ht'.unique hp'
  have n1 := cast_sub_ne hc hc' hne hq₁
  have n2 := cast_sub_ne hc hc' hne hq₂
  rw [h₁] at e3
  rw [h₂] at e4
  unfold ballotMerge
  dsimp only
  split
  · rename_i w hw
    split_ifs at hw with ha hb
    · cases hw
      refine ⟨ha, rfl, rfl, ?_⟩
      dsimp only
      linear_combination (norm := module) e3
    · cases hw
      refine ⟨hb, rfl, rfl, ?_⟩
      dsimp only
      linear_combination (norm := module) e4
  · rename_i y₁ u₁ y₂ u₂ x s hw
    split_ifs at hw with ha hb
    cases hw
    rw [not_not, sub_eq_zero] at ha hb
    refine ⟨rfl, ?_, ha, mul_div_cancel₀ _ n1, ?_, ?_⟩
    · exact mul_left_cancel₀ n2 (ha.trans hb.symm)
    · rw [smul_cancel n1 e1, smul_smul, div_eq_inv_mul]
    · rw [smul_cancel n1 e2, smul_add, smul_smul, smul_smul, div_eq_inv_mul, div_eq_inv_mul]


/-- **C72** If moreover the openings are to numbers that the range proofs are for — in `[0, 2ⁿ)` — then (unless a relation is found) the
ciphertext encrypts a number of the candidate range, the same one over the integers in all four places, and decrypts to it. -/
theorem C72_in_range {sha sha' : Bytes → Bytes} (hsha : ∀ m, (sha m).length = 32) (hsha' : ∀ m, (sha' m).length = 32)
    {b b' : BallotData E₁ E₂} (hPK : L₁.V D.PK) (hH : L₂.V D.H)
    (hsetup : vpSetup D.Bx D.Bc D.Bg D.lo D.hi { GFF := D.gff, GEC := D.gec } = .ok D.rp)
    (hq₁ : 2 ^ D.Bc.toNat ≤ q₁) (hq₂ : 2 ^ (D.Bg.toNat - 1) ≤ q₂) (hn : D.lo.toNat + 2 * 2 ^ D.n ≤ q₂) (hhi : D.hi.toNat < 2 ^ D.Bx.toNat)
    (f : VoteFork sha sha' b b' D.rp) (hl : ForkLegal L₁ L₂ b) (p p' : SigmaAns) (hp : b.VoteProof.Answers p)
    (hp' : b'.VoteProof.Answers p') (x₁ x₂ : ℕ) (hx₁ : x₁ < 2 ^ D.n) (hx₂ : x₂ < 2 ^ D.n) (r₁ r₂ : ZMod q₂)
    (h₁ : L₂.den b.BpLower.V = (x₁ : ZMod q₂) • L₂.g + r₁ • L₂.den D.H)
    (h₂ : L₂.den b.BpUpper.V = (x₂ : ZMod q₂) • L₂.g + r₂ • L₂.den D.H) :
    match (ballotMerge D.lo.toNat D.hi.toNat p p' (x₁ : ZMod q₂) r₁ x₂ r₂ : BallotExtracted (ZMod q₁) (ZMod q₂)) with
    | .relation w => w.1.1 ≠ 0 ∧ w.1.1 • L₂.g + w.1.2.1 • L₂.den D.H = 0
    | .plaintext _ _ _ _ x s => ∃ m : ℕ, m = D.lo.toNat + x₁ ∧ m + x₂ = D.hi.toNat ∧ D.lo.toNat ≤ m ∧ m ≤ D.hi.toNat ∧
        p.z - p'.z = (p.c - p'.c) * m ∧ x = (m : ZMod q₁) ∧
        L₁.den b.Ballot.U = s • L₁.g ∧ L₁.den b.Ballot.V = (m : ZMod q₁) • L₁.g + s • L₁.den D.PK ∧
        ∀ sk : Int, L₁.den D.PK = (sk : ZMod q₁) • L₁.g →
          L₁.den (elgamalDecrypt D.FF sk b.Ballot) = (m : ZMod q₁) • L₁.g := by
  obtain ⟨-, -, -, -, -, -, -, g8, -, -, g11, g12⟩ := vpSetup_ok hsetup
  have hq₂' : 2 ^ D.Bc.toNat ≤ q₂ := le_trans (Nat.pow_le_pow_right (by norm_num) (by omega)) hq₂
  have hm := C72_openings D L₁ L₂ hsha hsha' hPK hH hq₁ hq₂' f hl p p' hp hp' _ r₁ _ r₂ h₁ h₂
  revert hm
  cases (ballotMerge D.lo.toNat D.hi.toNat p p' (x₁ : ZMod q₂) r₁ x₂ r₂ : BallotExtracted (ZMod q₁) (ZMod q₂)) with
  | relation w => exact fun h => ⟨h.1, h.2.2.2⟩
  | plaintext y₁ t₁ y₂ t₂ x s =>
    dsimp only
    rintro ⟨-, e1, e2, e3, eU, eV⟩
    obtain ⟨t, t', ht, ht', hc, hc', hne, hz, hz', -⟩ := f.eqs D L₁ L₂ hsha hsha' hPK hH hl
    obtain rfl := ht.unique hp
    obtain rfl := ht'.unique hp'
    have n1 := cast_sub_ne hc hc' hne hq₁
    have hhi' : 2 ^ D.Bx.toNat ≤ q₂ := le_trans (Nat.pow_le_pow_right (by norm_num) (by omega)) hq₂
    -- the two openings agree over the integers
    have hsum : D.lo.toNat + x₁ + x₂ = D.hi.toNat := by
      have e1' : ((D.lo.toNat + x₁ + x₂ : ℕ) : ZMod q₂) = (D.hi.toNat : ℕ) := by
        push_cast
        linear_combination e1
      rw [ZMod.natCast_eq_natCast_iff] at e1'
      exact Nat.ModEq.eq_of_lt_of_lt e1' (by omega) (by omega)
    -- no wrap-around in the vote proof
    have hint : t.z - t'.z = (t.c - t'.c) * ((D.lo.toNat + x₁ : ℕ) : Int) := by
      have hrel : (((t.c - t'.c) * ((D.lo.toNat + x₁ : ℕ) : Int) - (t.z - t'.z) : Int) : ZMod q₂) = 0 := by
        push_cast at e2 ⊢
        linear_combination e2
      rw [g11, g12, pow_add] at hz hz'
      obtain ⟨B, hB⟩ : ∃ B : Int, (2 : Int) ^ D.Bc.toNat = B := ⟨_, rfl⟩
      obtain ⟨X, hX⟩ : ∃ X : Int, (2 : Int) ^ D.Bx.toNat = X := ⟨_, rfl⟩
      obtain ⟨U, hU⟩ : ∃ U : Int, (2 : Int) ^ (D.Bg.toNat - 1) = U := ⟨_, rfl⟩
      have hUq : U ≤ q₂ := by rw [← hU]; exact_mod_cast hq₂
      obtain ⟨m, hmdef⟩ : ∃ m : Int, ((D.lo.toNat + x₁ : ℕ) : Int) = m := ⟨_, rfl⟩
      have hmX : 0 ≤ m ∧ m < X := by
        have : (D.hi.toNat : Int) < X := by rw [← hX]; exact_mod_cast hhi
        omega
      rw [hmdef] at hrel ⊢
      rw [hB] at hc hc'
      rw [hX, hB, hU] at hz hz'
      have h1 : |t.c - t'.c| ≤ B - 1 := by rw [abs_le]; omega
      have h2 : |(t.c - t'.c) * m| ≤ (B - 1) * (X - 1) := by
        rw [abs_mul]
        have : |m| ≤ X - 1 := by rw [abs_le]; omega
        exact mul_le_mul h1 this (abs_nonneg _) (by omega)
      have h3 : |t.z - t'.z| < U - X * B := by rw [abs_lt]; omega
      have h4 : (B - 1) * (X - 1) < X * B := by nlinarith
      have h5 := abs_sub ((t.c - t'.c) * m) (t.z - t'.z)
      have := Int.eq_zero_of_abs_lt_dvd ((ZMod.intCast_zmod_eq_zero_iff_dvd _ q₂).mp hrel) (by omega)
      omega
    have hx : x = ((D.lo.toNat + x₁ : ℕ) : ZMod q₁) := by
      apply mul_left_cancel₀ n1
      rw [e3, hint, Int.cast_mul, Int.cast_natCast]
    subst hx
    refine ⟨D.lo.toNat + x₁, rfl, hsum, by omega, by omega, hint, rfl, eU, eV, fun sk hsk => ?_⟩
    unfold elgamalDecrypt
    rw [L₁.den_sub hl.V (L₁.V_mul _ hl.U), L₁.den_mul _ hl.U, eV, eU, hsk]
    module

/-- **C72** The whole ballot: from a fork, and a tree of accepted range proofs for each of the two commitments (C62), `ballotExtract`
computes a non-trivial relation between the generators, or openings of both commitments to `(z-z')/(c-c') - lo` and
`hi - (z-z')/(c-c')`, and the ciphertext encrypts `(z-z')/(c-c')`.  When the two openings are in `[0, 2ⁿ)`, that is a number of the
candidate range.  (That they are in `[0, 2ⁿ)` is what the range proofs should add and do not, C62, C43.) -/
theorem C72_extract {sha sha' : Bytes → Bytes} (hsha : ∀ m, (sha m).length = 32) (hsha' : ∀ m, (sha' m).length = 32)
    {b b' : BallotData E₁ E₂} {k : ℕ} (ok : D.OK L₁ L₂ k)
    (hsetup : vpSetup D.Bx D.Bc D.Bg D.lo D.hi { GFF := D.gff, GEC := D.gec } = .ok D.rp)
    (hq₁ : 2 ^ D.Bc.toNat ≤ q₁) (hq₂ : 2 ^ (D.Bg.toNat - 1) ≤ q₂) (hn : D.lo.toNat + 2 * 2 ^ D.n ≤ q₂) (hhi : D.hi.toNat < 2 ^ D.Bx.toNat)
    (f : BallotFork sha sha' b b' D.rp) (hl : ForkLegal L₁ L₂ b) (p p' : SigmaAns) (hp : b.VoteProof.Answers p)
    (hp' : b'.VoteProof.Answers p')
    (Uu : E₂) (vU : L₂.V Uu) (T₁ T₂ : BpTree E₂ (ZMod q₂) k) (hV₁ : T₁.V = b.BpLower.V) (hV₂ : T₂.V = b.BpUpper.V)
    (hL₁ : T₁.Legal (params := D.bp) L₂) (hL₂ : T₂.Legal (params := D.bp) L₂) (hd₁ : T₁.Distinct) (hd₂ : T₂.Distinct)
    (ha₁ : T₁.Accepted D.bp Uu) (ha₂ : T₂.Accepted D.bp Uu) :
    match (ballotExtract D.lo.toNat D.hi.toNat p p' T₁ T₂ : BallotExtracted (ZMod q₁) (ZMod q₂)) with
    | .relation w =>
        (w.1.1 ≠ 0 ∨ w.1.2.1 ≠ 0 ∨ w.1.2.2 ≠ 0 ∨ (∃ i < 2 ^ k, w.2.1 i ≠ 0) ∨ ∃ i < 2 ^ k, w.2.2 i ≠ 0) ∧
        w.1.1 • L₂.g + w.1.2.1 • L₂.den D.H + w.1.2.2 • L₂.den Uu +
          msm (L₂.denV D.Gg) (firstN (2 ^ k) w.2.1) + msm (L₂.denV D.Hh) (firstN (2 ^ k) w.2.2) = 0
    | .plaintext v₁ r₁ v₂ r₂ x s =>
        L₂.den b.BpLower.V = v₁ • L₂.g + r₁ • L₂.den D.H ∧ L₂.den b.BpUpper.V = v₂ • L₂.g + r₂ • L₂.den D.H ∧
        v₁ + D.lo.toNat = D.hi.toNat - v₂ ∧
        ((p.c - p'.c : Int) : ZMod q₂) * (v₁ + D.lo.toNat) = ((p.z - p'.z : Int) : ZMod q₂) ∧
        ((p.c - p'.c : Int) : ZMod q₁) * x = ((p.z - p'.z : Int) : ZMod q₁) ∧
        L₁.den b.Ballot.U = s • L₁.g ∧ L₁.den b.Ballot.V = x • L₁.g + s • L₁.den D.PK ∧
        (v₁.val < 2 ^ D.n → v₂.val < 2 ^ D.n → ∃ m : ℕ, m = D.lo.toNat + v₁.val ∧ m + v₂.val = D.hi.toNat ∧
          D.lo.toNat ≤ m ∧ m ≤ D.hi.toNat ∧ p.z - p'.z = (p.c - p'.c) * m ∧ x = (m : ZMod q₁) ∧
          ∀ sk : Int, L₁.den D.PK = (sk : ZMod q₁) • L₁.g →
            L₁.den (elgamalDecrypt D.FF sk b.Ballot) = (m : ZMod q₁) • L₁.g) := by
  obtain ⟨-, -, -, -, -, -, -, g8, -⟩ := vpSetup_ok hsetup
  have hq₂' : 2 ^ D.Bc.toNat ≤ q₂ := le_trans (Nat.pow_le_pow_right (by norm_num) (by omega)) hq₂
  have t1 := C62_extract D.bp L₂ k ok.bp Uu vU T₁ hL₁ hd₁ ha₁
  have t2 := C62_extract D.bp L₂ k ok.bp Uu vU T₂ hL₂ hd₂ ha₂
  unfold ballotExtract
  revert t1 t2
  cases T₁.extract with
  | relation w => exact fun t1 _ => t1
  | opening v₁ r₁ α aL aR =>
  cases T₂.extract with
  | relation w => exact fun _ t2 => t2
  | opening v₂ r₂ α' aL' aR' =>
  dsimp only
  rintro ⟨o1, -⟩ ⟨o2, -⟩
  rw [hV₁] at o1
  rw [hV₂] at o2
  have hH : L₂.V D.H := ok.bp.H
  have hm := C72_openings D L₁ L₂ hsha hsha' ok.pk hH hq₁ hq₂' f.vote hl p p' hp hp' v₁ r₁ v₂ r₂ o1 o2
  have hr : v₁.val < 2 ^ D.n → v₂.val < 2 ^ D.n → _ := fun k1 k2 =>
    C72_in_range D L₁ L₂ hsha hsha' ok.pk hH hsetup hq₁ hq₂ hn hhi f.vote hl p p' hp hp' v₁.val v₂.val k1 k2 r₁ r₂
      (by rw [ZMod.natCast_zmod_val]; exact o1) (by rw [ZMod.natCast_zmod_val]; exact o2)
  rw [ZMod.natCast_zmod_val, ZMod.natCast_zmod_val] at hr
  revert hm hr
  cases (ballotMerge D.lo.toNat D.hi.toNat p p' v₁ r₁ v₂ r₂ : BallotExtracted (ZMod q₁) (ZMod q₂)) with
  | relation w =>
    rintro ⟨h1, h2, h3, h4⟩ -
    refine ⟨.inl h1, ?_⟩
    rw [h2, h3]
    have lg : (L₂.denV D.Gg).length = 2 ^ k := by simp [show D.Gg.length = 2 ^ k from ok.bp.lenG]
    have lh : (L₂.denV D.Hh).length = 2 ^ k := by simp [show D.Hh.length = 2 ^ k from ok.bp.lenH]
    rw [msm_zeroFn lg, msm_zeroFn' lh, zero_smul, add_zero, add_zero, add_zero]
    exact h4
  | plaintext y₁ u₁ y₂ u₂ x s =>
    rintro ⟨h0, h1, h2, h3, h4, h5⟩ hr
    simp only [Prod.mk.injEq] at h0
    obtain ⟨rfl, rfl, rfl, rfl⟩ := h0
    refine ⟨o1, o2, h1, h2, h3, h4, h5, fun k1 k2 => ?_⟩
    obtain ⟨m, e1, e2, e3, e4, e5, e6, -, -, e7⟩ := hr k1 k2
    exact ⟨m, e1, e2, e3, e4, e5, e6, e7⟩

end
end

instance : Fact modp3072Q.Prime := ⟨modp3072Q_prime⟩

/-- the hypotheses of `C72_extract` on sizes, for the parameters `setup` returns -/
theorem Deployed.sizes {E : Type} {C : Grp E} {N bits : ℕ} {Bb : Int} (hr : (N, bits, Bb) ∈ curveTable) {D : Election Int E}
    (dep : Deployed C bits D) :
    vpSetup D.Bx D.Bc D.Bg D.lo D.hi { GFF := D.gff, GEC := D.gec } = .ok D.rp ∧ 2 ^ D.Bc.toNat ≤ modp3072Q ∧
      2 ^ (D.Bg.toNat - 1) ≤ N ∧ D.lo.toNat + 2 * 2 ^ D.n ≤ N ∧ D.hi.toNat < 2 ^ D.Bx.toNat ∧ D.lo.toNat = 101 ∧
      D.hi.toNat = 2000 ∧ D.n = 16 ∧ D.PK = D.FF.mulGen 13 := by
  have hrow := curveTable_ok _ hr
  dsimp only at hrow
  obtain ⟨-, -, h3, -, h5⟩ := hrow
  have hbits : 253 ≤ bits := by
    have : ∀ r ∈ curveTable, 253 ≤ r.2.1 := by decide
    exact this _ hr
  have hlo : D.lo.toNat = 101 := by rw [dep.lo]; rfl
  have hhi : D.hi.toNat = 2000 := by rw [dep.hi]; rfl
  have big : 2 ^ 252 ≤ 2 ^ (bits - 1) := Nat.pow_le_pow_right (by norm_num) (by omega)
  refine ⟨?_, ?_, by rw [dep.Bg]; exact h3.le, ?_, by rw [hhi, dep.Bx]; decide, hlo, hhi, dep.n, ?_⟩
  · have hx : D.Bx.toNat = 16 := by rw [dep.Bx]; rfl
    have hc : D.Bc.toNat = 224 := by rw [dep.Bc]; rfl
    unfold vpSetup Election.rp
    dsimp only
    rw [hx, hc, dep.Bg, if_neg (by omega), show D.Bb = (bits : Int) - 1 - (16 : ℕ) - (224 : ℕ) by rw [dep.Bb]; push_cast; ring]
  · rw [dep.Bc]
    refine le_trans ?_ h5.le
    refine le_trans ?_ h3.le
    refine le_trans ?_ big
    exact Nat.pow_le_pow_right (by norm_num) (by decide)
  · rw [dep.n, hlo]
    refine le_trans ?_ h3.le
    refine le_trans ?_ big
    norm_num
  · have : (modPGrp rfcGroup).mulGen 13 = 8192 := by decide +kernel
    rw [dep.PK, dep.FF, this]

/-- **C72** For the parameters `setup` returns, on every curve of the program. -/
theorem C72_deployed {E : Type} (nan64 : BitVec 64) (C : Grp E)
    (N bits : ℕ) (Bb : Int) (hr : (N, bits, Bb) ∈ curveTable) {M : Type} [AddCommGroup M] [Module (ZMod N) M] [Fact N.Prime]
    (L₂ : Lawful C N M) (hmap : ∀ s, SetupSeed 16 s → ∃ e, C.mapToGroup s = some e ∧ L₂.V e) :
    ∃ (D : Election Int E) (L₁ : Lawful D.FF modp3072Q (ModPM modp3072 modp3072Q)) (L : Lawful D.EC N M),
      setup nan64 C = some (.ok D.pp) ∧ L₁.den D.PK = (13 : ZMod modp3072Q) • L₁.g ∧
      ∀ (sha sha' : Bytes → Bytes), (∀ m, (sha m).length = 32) → (∀ m, (sha' m).length = 32) →
      ∀ (b b' : BallotData Int E), BallotFork sha sha' b b' D.pp.RPParams → ForkLegal L₁ L b →
      ∀ (p p' : SigmaAns), b.VoteProof.Answers p → b'.VoteProof.Answers p' →
      ∀ (Uu : E) (T₁ T₂ : BpTree E (ZMod N) 4), L.V Uu → T₁.V = b.BpLower.V → T₂.V = b.BpUpper.V →
      T₁.Legal (params := D.bp) L → T₂.Legal (params := D.bp) L → T₁.Distinct → T₂.Distinct →
      T₁.Accepted D.pp.BPParams Uu → T₂.Accepted D.pp.BPParams Uu →
      match (ballotExtract 101 2000 p p' T₁ T₂ : BallotExtracted (ZMod modp3072Q) (ZMod N)) with
      | .relation w =>
          (w.1.1 ≠ 0 ∨ w.1.2.1 ≠ 0 ∨ w.1.2.2 ≠ 0 ∨ (∃ i < 16, w.2.1 i ≠ 0) ∨ ∃ i < 16, w.2.2 i ≠ 0) ∧
          w.1.1 • L.g + w.1.2.1 • L.den D.H + w.1.2.2 • L.den Uu +
            msm (L.denV D.Gg) (firstN 16 w.2.1) + msm (L.denV D.Hh) (firstN 16 w.2.2) = 0
      | .plaintext v₁ _ v₂ _ x _ =>
          v₁ + 101 = 2000 - v₂ ∧ L₁.den (elgamalDecrypt D.FF 13 b.Ballot) = x • L₁.g ∧
          ((p.c - p'.c : Int) : ZMod modp3072Q) * x = ((p.z - p'.z : Int) : ZMod modp3072Q) ∧
          (v₁.val < 65536 → v₂.val < 65536 → ∃ m : ℕ, 101 ≤ m ∧ m ≤ 2000 ∧
            L₁.den (elgamalDecrypt D.FF 13 b.Ballot) = (m : ZMod modp3072Q) • L₁.g) := by
  obtain ⟨D, L₁, L, hD, dep, ok⟩ := C47_legal nan64 C N bits Bb hr L₂ hmap
  obtain ⟨hsetup, hq₁, hq₂, hn, hhx, hlo, hhi, hN, hpk⟩ := dep.sizes hr
  have hPK : L₁.den D.PK = ((13 : Int) : ZMod modp3072Q) • L₁.g := by rw [hpk, L₁.den_mulGen]
  refine ⟨D, L₁, L, hD, by exact_mod_cast hPK, fun sha sha' hs hs' b b' f hl p p' hp hp' Uu T₁ T₂ vU e1 e2 l1 l2 d1 d2 a1 a2 => ?_⟩
  have h := C72_extract D L₁ L hs hs' ok hsetup hq₁ hq₂ hn hhx f hl p p' hp hp' Uu vU T₁ T₂ e1 e2 l1 l2 d1 d2 a1 a2
  rw [hlo, hhi, hN] at h
  revert h
  cases (ballotExtract 101 2000 p p' T₁ T₂ : BallotExtracted (ZMod modp3072Q) (ZMod N)) with
  | relation w => exact id
  | plaintext v₁ r₁ v₂ r₂ x s =>
    dsimp only
    rintro ⟨-, -, g1, -, g3, gU, gV, gr⟩
    refine ⟨by exact_mod_cast g1, ?_, g3, fun k1 k2 => ?_⟩
    · unfold elgamalDecrypt
      rw [L₁.den_sub hl.V (L₁.V_mul _ hl.U), L₁.den_mul _ hl.U, gV, gU, hPK]
      module
    · obtain ⟨m, -, -, m1, m2, -, -, m3⟩ := gr k1 k2
      exact ⟨m, m1, m2, m3 13 hPK⟩

end MscPoc
