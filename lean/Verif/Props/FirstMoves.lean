import Verif.Props.Copy

/-!
# C106 — which ballots have the first moves of a given accepted ballot

The challenges are hashes of the first moves only.  So whoever keeps the first moves of an accepted ballot can take new responses and
compute the ciphertext and the commitments that fit.  Here: these are exactly the accepted ballots with these first moves.
-/

set_option autoImplicit false

namespace MscPoc

section
variable {E₁ E₂ : Type} {q₁ q₂ : ℕ} {M₁ M₂ : Type} [AddCommGroup M₁] [Module (ZMod q₁) M₁] [AddCommGroup M₂]
  [Module (ZMod q₂) M₂]

/-- a range proof with another commitment and other numbers for condition (65); all else is kept -/
def otherBp (pf : BulletProof E₂) (V : E₂) (tp tx : Int) : BulletProof E₂ := { pf with V := V, Tprime := some tp, Taux := some tx }

/-- **C106** Range proofs: an accepted proof stays accepted with another commitment and other `Tprime`, `Taux` iff the commitment was moved
by what the numbers prescribe, `z²` times. -/
theorem C106_range_proof (pf : BulletProof E₂) (L : Lawful pf.Params.GP q₂ M₂) (vV : L.V pf.V) (vT1 : L.V pf.T1)
    (vT2 : L.V pf.T2) (vH : L.V pf.Params.H) (sha : Bytes → Bytes) {tp tx : Int} (h2 : pf.Tprime = some tp) (h3 : pf.Taux = some tx)
    (hacc : pf.verify sha = some true) (V' : E₂) (vV' : L.V V') (tp' tx' : Int) :
    (otherBp pf V' tp' tx').verify sha = some true ↔
      (((hashBP sha pf.Params.GP pf.A pf.S).2 : ZMod q₂) ^ 2) • (L.den V' - L.den pf.V) =
        ((tp' - tp : Int) : ZMod q₂) • L.g + ((tx' - tx : Int) : ZMod q₂) • L.den pf.Params.H := by
  rw [hashBP_snd]
  unfold BulletProof.verify at hacc
  unfold otherBp BulletProof.verify
  dsimp only at hacc ⊢
  simp only [hashBP_fst, hashBP_snd] at hacc ⊢
  cases h1 : updateGenerators pf.Params.GP pf.Params.Hh (roundChallenge sha pf.Params.GP pf.A pf.S) pf.Params.N with
  | none => rw [h1] at hacc; exact absurd hacc (by simp)
  | some hp =>
  obtain ⟨dlt, hd⟩ := delta_isSome pf.Params.N pf.Params.GP.N (roundChallenge sha pf.Params.GP pf.A pf.S)
    (roundChallenge sha pf.Params.GP pf.A pf.S)
  simp only [h1, h2, h3, hd, Option.bind_eq_bind, Option.bind_some] at hacc ⊢
  obtain ⟨z, hz⟩ : ∃ z, roundChallenge sha pf.Params.GP pf.A pf.S = z := ⟨_, rfl⟩
  obtain ⟨x, hx⟩ : ∃ x, roundChallenge sha pf.Params.GP pf.T1 pf.T2 = x := ⟨_, rfl⟩
  simp only [hz, hx] at hacc ⊢
  have c65 : ∀ (V : E₂) (tp tx : Int), L.V V → (pf.Params.GP.isEqual (pf.Params.GP.add (pf.Params.GP.add (pf.Params.GP.add
      (pf.Params.GP.mul V (z * z % pf.Params.GP.N))
      (pf.Params.GP.mulGen dlt)) (pf.Params.GP.mul pf.T1 x)) (pf.Params.GP.mul pf.T2 (x * x % pf.Params.GP.N)))
      (pedersenCommit pf.Params.GP tp tx pf.Params.H) = true ↔
      ((z : ZMod q₂) * (z : ZMod q₂)) • L.den V + (dlt : ZMod q₂) • L.g + (x : ZMod q₂) • L.den pf.T1 + ((x : ZMod q₂) * (x : ZMod q₂)) • L.den pf.T2 =
        (tp : ZMod q₂) • L.g + (tx : ZMod q₂) • L.den pf.Params.H) := by
    intro V tp tx vV
    have b1 := L.V_mul (z * z % pf.Params.GP.N) vV
    have c1 := L.V_mulGen dlt
    have c2 := L.V_mul x vT1
    have c3 := L.V_mul (x * x % pf.Params.GP.N) vT2
    have b2 := L.V_add b1 c1
    have b3 := L.V_add b2 c2
    have b4 := L.V_add b3 c3
    rw [L.isEqual_iff b4 (L.V_pedersen vH _ _), L.den_pedersen vH, L.den_add b3 c3, L.den_add b2 c2, L.den_add b1 c1, L.den_mul _ vV,
      L.den_mul _ vT1, L.den_mul _ vT2]
    simp only [L.den_mulGen, L.cast_modN]
    push_cast
    rfl
  cases g1 : vectorExp pf.Params.GP pf.Params.Gg (vectorCopy (pf.Params.GP.N - z) pf.Params.N) with
  | none => rw [g1] at hacc; exact absurd hacc (by simp)
  | some gpmz =>
  simp only [g1, Option.bind_some] at hacc ⊢
  generalize vectorExp pf.Params.GP hp _ = o2 at hacc ⊢
  cases o2 with
  | none => exact absurd hacc (by simp)
  | some hpExp =>
  cases g3 : pf.Mu with
  | none => rw [g3] at hacc; exact absurd hacc (by simp)
  | some mu =>
  cases g4 : pf.InnerProductProof.verify sha with
  | none => rw [g4] at hacc; exact absurd hacc (by simp)
  | some b =>
  simp only [g3, g4, Option.bind_some, Option.some.injEq, Bool.and_eq_true] at hacc ⊢
  obtain ⟨⟨a1, a2⟩, a3⟩ := hacc
  have e := (c65 _ _ _ vV).mp a1
  rw [and_assoc, and_iff_left ⟨a2, a3⟩, c65 _ _ _ vV']
  push_cast
  constructor
  · intro h; linear_combination (norm := module) h - e
  · intro h; linear_combination (norm := module) h + e

/-- a vote proof with other responses; first moves, challenge and parameters are kept -/
def otherSigma (pf : SigmaProof E₁ E₂) (z sp s₁ s₂ : Int) : SigmaProof E₁ E₂ :=
  { pf with Z := some z, Sp := some sp, Sq1 := some s₁, Sq2 := some s₂ }

/-- **C106** Vote proofs: let `pf` be accepted for `comm`, with a challenge that is not 0 modulo the prime orders.  With the same first moves and
any responses, exactly this statement is accepted: `comm` moved by the differences of the responses over the challenge. -/
theorem C106_vote_proof [Fact q₁.Prime] [Fact q₂.Prime] (sha : Bytes → Bytes) (pf : SigmaProof E₁ E₂) (comm comm' : VerCommitments E₁ E₂)
    (L₁ : Lawful pf.Params.GFF.I q₁ M₁) (L₂ : Lawful pf.Params.GEC.I q₂ M₂) (hl : SigmaLegal pf.Params L₁ L₂ pf comm)
    (hl' : SigmaLegal pf.Params L₁ L₂ pf comm') {z c sp s₁ s₂ : Int} (hZ : pf.Z = some z) (hc : pf.Challenge = some c)
    (hsp : pf.Sp = some sp) (hs₁ : pf.Sq1 = some s₁) (hs₂ : pf.Sq2 = some s₂) (hacc : pf.verify sha comm = some true)
    (hc₁ : (c : ZMod q₁) ≠ 0) (hc₂ : (c : ZMod q₂) ≠ 0) (z' sp' s₁' s₂' : Int) :
    (otherSigma pf z' sp' s₁' s₂').verify sha comm' = some true ↔
      (pf.Params.zLowerBound ≤ z' ∧ z' < pf.Params.zUpperBound) ∧
      L₁.den comm'.Y = L₁.den comm.Y + (((sp' - sp : Int) : ZMod q₁) / c) • L₁.g ∧
      L₁.den comm'.Xp = L₁.den comm.Xp + (((z' - z : Int) : ZMod q₁) / c) • L₁.g +
        (((sp' - sp : Int) : ZMod q₁) / c) • L₁.den pf.Params.GFF.H ∧
      L₂.den comm'.Xq1 = L₂.den comm.Xq1 + (((z' - z : Int) : ZMod q₂) / c) • L₂.g +
        (((s₁' - s₁ : Int) : ZMod q₂) / c) • L₂.den pf.Params.GEC.H ∧
      L₂.den comm'.Xq2 = L₂.den comm.Xq2 + (((z' - z : Int) : ZMod q₂) / c) • L₂.g +
        (((s₂' - s₂ : Int) : ZMod q₂) / c) • L₂.den pf.Params.GEC.H := by
  obtain ⟨_, _, _, _, _, i1, i2, i3, i4, i5, hz0, hch, hk⟩ := (sigma_verify_iff _ _ _).mp hacc
  rw [hZ] at i1; rw [hc] at i2; rw [hsp] at i3; rw [hs₁] at i4; rw [hs₂] at i5
  cases i1; cases i2; cases i3; cases i4; cases i5
  have e := (sigmaChecks_iff pf.Params L₁ L₂ pf comm hl z c sp s₁ s₂).mp hk
  have hk' : ∀ z' sp' s₁' s₂' : Int, sigmaChecks pf.Params (otherSigma pf z' sp' s₁' s₂') comm' z' c sp' s₁' s₂' = true ↔
      SigmaEqs pf.Params L₁ L₂ pf comm' z' c sp' s₁' s₂' := by
    intro z' sp' s₁' s₂'
    exact sigmaChecks_iff pf.Params L₁ L₂ pf comm' hl' z' c sp' s₁' s₂'
  have solve₁ : ∀ (a b d : M₁), a = b + (c : ZMod q₁)⁻¹ • d ↔ (c : ZMod q₁) • a = (c : ZMod q₁) • b + d := by
    intro a b d
    constructor
    · rintro rfl
      rw [smul_add, smul_smul, mul_inv_cancel₀ hc₁, one_smul]
    · intro h
      rw [smul_cancel hc₁ h, smul_add, smul_smul, inv_mul_cancel₀ hc₁, one_smul]
  have solve₂ : ∀ (a b d : M₂), a = b + (c : ZMod q₂)⁻¹ • d ↔ (c : ZMod q₂) • a = (c : ZMod q₂) • b + d := by
    intro a b d
    constructor
    · rintro rfl
      rw [smul_add, smul_smul, mul_inv_cancel₀ hc₂, one_smul]
    · intro h
      rw [smul_cancel hc₂ h, smul_add, smul_smul, inv_mul_cancel₀ hc₂, one_smul]
  simp only [div_eq_inv_mul, mul_smul, add_assoc]
  rw [← smul_add, ← smul_add, ← smul_add, solve₁, solve₁, solve₂, solve₂, sigma_verify_iff]
  constructor
  · rintro ⟨_, _, _, _, _, j1, j2, j3, j4, j5, hz, -, hk2⟩
    cases j1; cases j3; cases j4; cases j5
    rw [show (otherSigma pf z' sp' s₁' s₂').Challenge = some c from hc] at j2
    cases j2
    have e' := (hk' z' sp' s₁' s₂').mp hk2
    refine ⟨(zOk_iff _ _).mp hz, ?_, ?_, ?_, ?_⟩
    · push_cast; linear_combination (norm := module) e.eqY - e'.eqY
    · push_cast; linear_combination (norm := module) e.eqXp - e'.eqXp
    · push_cast; linear_combination (norm := module) e.eqXq1 - e'.eqXq1
    · push_cast; linear_combination (norm := module) e.eqXq2 - e'.eqXq2
  · rintro ⟨hz, f1, f2, f3, f4⟩
    refine ⟨z', c, sp', s₁', s₂', rfl, hc, rfl, rfl, rfl, (zOk_iff _ _).mpr hz, hch, (hk' z' sp' s₁' s₂').mpr ⟨?_, ?_, ?_, ?_⟩⟩
    · push_cast at f1; linear_combination (norm := module) e.eqY - f1
    · push_cast at f2; linear_combination (norm := module) e.eqXp - f2
    · push_cast at f3; linear_combination (norm := module) e.eqXq1 - f3
    · push_cast at f4; linear_combination (norm := module) e.eqXq2 - f4

/-- the numbers that a ballot's prover sends after the challenges, as far as they belong to ciphertext and commitments -/
structure Responses where
  Z : Int
  Sp : Int
  Sq1 : Int
  Sq2 : Int
  tpLower : Int
  txLower : Int
  tpUpper : Int
  txUpper : Int

/-- the ballot has these numbers -/
structure Answers (b : BallotData E₁ E₂) (x : Responses) : Prop where
  Z : b.VoteProof.Z = some x.Z
  Sp : b.VoteProof.Sp = some x.Sp
  Sq1 : b.VoteProof.Sq1 = some x.Sq1
  Sq2 : b.VoteProof.Sq2 = some x.Sq2
  tpLower : b.BpLower.Tprime = some x.tpLower
  txLower : b.BpLower.Taux = some x.txLower
  tpUpper : b.BpUpper.Tprime = some x.tpUpper
  txUpper : b.BpUpper.Taux = some x.txUpper

/-- a ballot with other ciphertext, commitments and responses; all else, in particular all that is hashed, is kept -/
def otherBallot (b : BallotData E₁ E₂) (u v : E₁) (v₁ v₂ : E₂) (x : Responses) : BallotData E₁ E₂ where
  Ballot := ⟨u, v⟩
  BpLower := otherBp b.BpLower v₁ x.tpLower x.txLower
  BpUpper := otherBp b.BpUpper v₂ x.tpUpper x.txUpper
  VoteProof := otherSigma b.VoteProof x.Z x.Sp x.Sq1 x.Sq2

/-- **C106** Let `b` be an accepted ballot that carries the election's parameters, with a challenge that is not 0 modulo the prime orders.  Keep
all that is hashed.  Then new responses are accepted with exactly one ciphertext and at most one pair of commitments: those of `b`, moved by
the differences of the responses over the challenge, provided the range proofs' numbers prescribe the same move. -/
theorem C106_ballots [Fact q₁.Prime] [Fact q₂.Prime] (sha : Bytes → Bytes) (D : Election E₁ E₂) (L₁ : Lawful D.FF q₁ M₁)
    (L₂ : Lawful D.EC q₂ M₂) (b : BallotData E₁ E₂) (hb : BallotOk L₁.V L₂.V b) (h : Carries D b) (t : List Nat)
    (hacc : verifyVote sha b D.rp = some { result := true, times := t }) {x : Responses} (hx : Answers b x) {c : Int}
    (hc : b.VoteProof.Challenge = some c) (hc₁ : (c : ZMod q₁) ≠ 0) (hc₂ : (c : ZMod q₂) ≠ 0)
    (u v : E₁) (v₁ v₂ : E₂) (hu : L₁.V u) (hv : L₁.V v) (hv₁ : L₂.V v₁) (hv₂ : L₂.V v₂) (x' : Responses) :
    (∃ t', verifyVote sha (otherBallot b u v v₁ v₂ x') D.rp = some { result := true, times := t' }) ↔
      (D.rp.zLowerBound ≤ x'.Z ∧ x'.Z < D.rp.zUpperBound) ∧
      L₁.den u = L₁.den b.Ballot.U + (((x'.Sp - x.Sp : Int) : ZMod q₁) / c) • L₁.g ∧
      L₁.den v = L₁.den b.Ballot.V + (((x'.Z - x.Z : Int) : ZMod q₁) / c) • L₁.g + (((x'.Sp - x.Sp : Int) : ZMod q₁) / c) • L₁.den D.PK ∧
      L₂.den v₁ = L₂.den b.BpLower.V + (((x'.Z - x.Z : Int) : ZMod q₂) / c) • L₂.g + (((x'.Sq1 - x.Sq1 : Int) : ZMod q₂) / c) • L₂.den D.H ∧
      L₂.den v₂ = L₂.den b.BpUpper.V - (((x'.Z - x.Z : Int) : ZMod q₂) / c) • L₂.g - (((x'.Sq2 - x.Sq2 : Int) : ZMod q₂) / c) • L₂.den D.H ∧
      (((hashBP sha D.EC b.BpLower.A b.BpLower.S).2 : ZMod q₂) ^ 2) • (L₂.den v₁ - L₂.den b.BpLower.V) =
        ((x'.tpLower - x.tpLower : Int) : ZMod q₂) • L₂.g + ((x'.txLower - x.txLower : Int) : ZMod q₂) • L₂.den D.H ∧
      (((hashBP sha D.EC b.BpUpper.A b.BpUpper.S).2 : ZMod q₂) ^ 2) • (L₂.den v₂ - L₂.den b.BpUpper.V) =
        ((x'.tpUpper - x.tpUpper : Int) : ZMod q₂) • L₂.g + ((x'.txUpper - x.txUpper : Int) : ZMod q₂) • L₂.den D.H := by
  have hl := h.legal hb
  have vPK : L₁.V D.PK := by have := hl.HF; rwa [h.vote] at this
  have vH : L₂.V D.H := by have := hl.H1; rwa [h.lower] at this
  obtain ⟨a1, a2, a3⟩ := verifyVote_accept_iff.mp ⟨t, hacc⟩
  obtain ⟨x1, y1⟩ := D.Xq1_den L₂ b hl.V1
  obtain ⟨x2, y2⟩ := D.Xq2_den L₂ b hl.V2
  obtain ⟨x1', y1'⟩ := D.Xq1_den L₂ (otherBallot b u v v₁ v₂ x') hv₁
  obtain ⟨x2', y2'⟩ := D.Xq2_den L₂ (otherBallot b u v v₁ v₂ x') hv₂
  have bp : ∀ (pf : BulletProof E₂) (V' : E₂) (tp tx tp' tx' : Int), pf.Params = D.bp → L₂.V pf.V → L₂.V pf.T1 → L₂.V pf.T2 → L₂.V V' →
      pf.Tprime = some tp → pf.Taux = some tx → pf.verify sha = some true →
      ((otherBp pf V' tp' tx').verify sha = some true ↔ (((hashBP sha D.EC pf.A pf.S).2 : ZMod q₂) ^ 2) • (L₂.den V' - L₂.den pf.V) =
        ((tp' - tp : Int) : ZMod q₂) • L₂.g + ((tx' - tx : Int) : ZMod q₂) • L₂.den D.H) := by
    intro pf V' tp tx tp' tx' hp w1 w2 w3 w4 k1 k2 k3
    obtain ⟨V, A, S, T1, T2, tx0, mu, tp0, ip, par⟩ := pf
    dsimp only at hp
    subst hp
    exact C106_range_proof _ (show Lawful D.bp.GP q₂ M₂ from L₂) w1 w2 w3 vH sha k1 k2 k3 V' w4 tp' tx'
  have sg : ∀ (pf : SigmaProof E₁ E₂), pf = b.VoteProof → ((otherSigma pf x'.Z x'.Sp x'.Sq1 x'.Sq2).verify sha
      (voteCommitments (otherBallot b u v v₁ v₂ x') D.rp) = some true ↔
      (D.rp.zLowerBound ≤ x'.Z ∧ x'.Z < D.rp.zUpperBound) ∧
      L₁.den u = L₁.den b.Ballot.U + (((x'.Sp - x.Sp : Int) : ZMod q₁) / c) • L₁.g ∧
      L₁.den v = L₁.den b.Ballot.V + (((x'.Z - x.Z : Int) : ZMod q₁) / c) • L₁.g +
        (((x'.Sp - x.Sp : Int) : ZMod q₁) / c) • L₁.den D.PK ∧
      L₂.den (voteCommitments (otherBallot b u v v₁ v₂ x') D.rp).Xq1 = L₂.den (voteCommitments b D.rp).Xq1 +
        (((x'.Z - x.Z : Int) : ZMod q₂) / c) • L₂.g + (((x'.Sq1 - x.Sq1 : Int) : ZMod q₂) / c) • L₂.den D.H ∧
      L₂.den (voteCommitments (otherBallot b u v v₁ v₂ x') D.rp).Xq2 = L₂.den (voteCommitments b D.rp).Xq2 +
        (((x'.Z - x.Z : Int) : ZMod q₂) / c) • L₂.g + (((x'.Sq2 - x.Sq2 : Int) : ZMod q₂) / c) • L₂.den D.H) := by
    intro pf e
    have hp : pf.Params = D.rp := by rw [e]; exact h.vote
    have r1 : pf.Z = some x.Z := by rw [e]; exact hx.Z
    have r2 : pf.Challenge = some c := by rw [e]; exact hc
    have r3 : pf.Sp = some x.Sp := by rw [e]; exact hx.Sp
    have r4 : pf.Sq1 = some x.Sq1 := by rw [e]; exact hx.Sq1
    have r5 : pf.Sq2 = some x.Sq2 := by rw [e]; exact hx.Sq2
    have r6 : L₁.V pf.W ∧ L₁.V pf.Kp ∧ L₂.V pf.Kq1 ∧ L₂.V pf.Kq2 := by rw [e]; exact ⟨hl.W, hl.Kp, hl.Kq1, hl.Kq2⟩
    have r7 : pf.verify sha (voteCommitments b D.rp) = some true := by rw [e]; exact a3
    clear e
    obtain ⟨W, Kp, Kq1, Kq2, Z, Ch, Sp, Sq1, Sq2, par⟩ := pf
    dsimp only at hp
    subst hp
    exact C106_vote_proof sha _ (voteCommitments b D.rp) (voteCommitments (otherBallot b u v v₁ v₂ x') D.rp)
      (show Lawful D.rp.GFF.I q₁ M₁ from L₁) (show Lawful D.rp.GEC.I q₂ M₂ from L₂)
      ⟨vPK, vH, r6.1, r6.2.1, r6.2.2.1, r6.2.2.2, hl.U, hl.V, x1, x2⟩ ⟨vPK, vH, r6.1, r6.2.1, r6.2.2.1, r6.2.2.2, hu, hv, x1', x2'⟩
      r1 r2 r3 r4 r5 r7 hc₁ hc₂ _ _ _ _
  rw [verifyVote_accept_iff]
  change (otherBp b.BpLower v₁ x'.tpLower x'.txLower).verify sha = some true ∧
    (otherBp b.BpUpper v₂ x'.tpUpper x'.txUpper).verify sha = some true ∧
    (otherSigma b.VoteProof x'.Z x'.Sp x'.Sq1 x'.Sq2).verify sha _ = some true ↔ _
  rw [bp _ _ _ _ _ _ h.lower hl.V1 hl.T11 hl.T12 hv₁ hx.tpLower hx.txLower a1,
    bp _ _ _ _ _ _ h.upper hl.V2 hl.T21 hl.T22 hv₂ hx.tpUpper hx.txUpper a2, sg _ rfl, y1, y2, y1', y2']
  change _ ∧ _ ∧ _ ∧ _ ∧ _ ∧ _ + L₂.den v₁ = _ ∧ _ - L₂.den v₂ = _ ↔ _
  constructor
  · rintro ⟨e1, e2, e3, e4, e5, e6, e7⟩
    refine ⟨e3, e4, e5, ?_, ?_, e1, e2⟩
    · linear_combination (norm := module) e6
    · linear_combination (norm := module) -e7
  · rintro ⟨e3, e4, e5, e6, e7, e1, e2⟩
    refine ⟨e1, e2, e3, e4, e5, ?_, ?_⟩
    · linear_combination (norm := module) e6
    · linear_combination (norm := module) -e7

/-- C106: what such a ballot contains: for every key that belongs to the public key the plaintext moved by `(Z' - Z) / c`; so it is the same
plaintext exactly if `Z` is the same modulo the order. -/
theorem C106_plaintext [Fact q₁.Prime] [Fact q₂.Prime] (sha : Bytes → Bytes) (D : Election E₁ E₂) (L₁ : Lawful D.FF q₁ M₁)
    (L₂ : Lawful D.EC q₂ M₂) (hg : L₁.g ≠ 0) (b : BallotData E₁ E₂) (hb : BallotOk L₁.V L₂.V b) (h : Carries D b) (t : List Nat)
    (hacc : verifyVote sha b D.rp = some { result := true, times := t }) {x : Responses} (hx : Answers b x) {c : Int}
    (hc : b.VoteProof.Challenge = some c) (hc₁ : (c : ZMod q₁) ≠ 0) (hc₂ : (c : ZMod q₂) ≠ 0)
    (u v : E₁) (v₁ v₂ : E₂) (hu : L₁.V u) (hv : L₁.V v) (hv₁ : L₂.V v₁) (hv₂ : L₂.V v₂) (x' : Responses) (t' : List Nat)
    (hacc' : verifyVote sha (otherBallot b u v v₁ v₂ x') D.rp = some { result := true, times := t' }) (sk : Int)
    (hsk : L₁.den D.PK = (sk : ZMod q₁) • L₁.g) :
    L₁.den (elgamalDecrypt D.FF sk ⟨u, v⟩) = L₁.den (elgamalDecrypt D.FF sk b.Ballot) + (((x'.Z - x.Z : Int) : ZMod q₁) / c) • L₁.g ∧
    (L₁.den (elgamalDecrypt D.FF sk ⟨u, v⟩) = L₁.den (elgamalDecrypt D.FF sk b.Ballot) ↔ (q₁ : Int) ∣ x'.Z - x.Z) := by
  obtain ⟨-, e1, e2, -⟩ := (C106_ballots sha D L₁ L₂ b hb h t hacc hx hc hc₁ hc₂ u v v₁ v₂ hu hv hv₁ hv₂ x').mp ⟨t', hacc'⟩
  have e : L₁.den (elgamalDecrypt D.FF sk ⟨u, v⟩) =
      L₁.den (elgamalDecrypt D.FF sk b.Ballot) + (((x'.Z - x.Z : Int) : ZMod q₁) / c) • L₁.g := by
    unfold elgamalDecrypt
    dsimp only
    rw [L₁.den_sub hv (L₁.V_mul _ hu), L₁.den_sub hb.V (L₁.V_mul _ hb.U), L₁.den_mul _ hu, L₁.den_mul _ hb.U, e1, e2, hsk]
    module
  refine ⟨e, ?_⟩
  rw [e, add_eq_left, smul_eq_zero, or_iff_left hg, div_eq_zero_iff, or_iff_left hc₁, ZMod.intCast_zmod_eq_zero_iff_dvd]

end

/-- **C106** The parameters of `setup`, all four curves, any digest function of 32 bytes: the condition on the challenge is that it is not 0. -/
theorem C106_deployed {E : Type} (nan64 : BitVec 64) (C : Grp E)
    (N bits : ℕ) (Bb : Int) (hr : (N, bits, Bb) ∈ curveTable) [Fact N.Prime] {M : Type} [AddCommGroup M] [Module (ZMod N) M]
    (L₂ : Lawful C N M) (hmap : ∀ s, SetupSeed 16 s → ∃ e, C.mapToGroup s = some e ∧ L₂.V e) :
    ∃ (D : Election Int E) (L₁ : Lawful D.FF modp3072Q (ModPM modp3072 modp3072Q)) (L : Lawful D.EC N M),
      setup nan64 C = some (.ok D.pp) ∧
      ∀ (sha : Bytes → Bytes), (∀ m, (sha m).length = 32) →
      ∀ (b : BallotData Int E) (t : List Nat) (x : Responses) (c : Int), BallotOk L₁.V L.V b → Carries D b →
        verifyVote sha b D.pp.RPParams = some { result := true, times := t } → Answers b x → b.VoteProof.Challenge = some c → c ≠ 0 →
        ∀ (u v : Int) (v₁ v₂ : E) (x' : Responses), L₁.V u → L₁.V v → L.V v₁ → L.V v₂ →
        ((∃ t', verifyVote sha (otherBallot b u v v₁ v₂ x') D.pp.RPParams = some { result := true, times := t' }) ↔
          (2 ^ 240 ≤ x'.Z ∧ x'.Z < 2 ^ (bits - 1)) ∧
          L₁.den u = L₁.den b.Ballot.U + (((x'.Sp - x.Sp : Int) : ZMod modp3072Q) / c) • L₁.g ∧
          L₁.den v = L₁.den b.Ballot.V + (((x'.Z - x.Z : Int) : ZMod modp3072Q) / c) • L₁.g +
            (((x'.Sp - x.Sp : Int) : ZMod modp3072Q) / c) • L₁.den D.PK ∧
          L.den v₁ = L.den b.BpLower.V + (((x'.Z - x.Z : Int) : ZMod N) / c) • L.g + (((x'.Sq1 - x.Sq1 : Int) : ZMod N) / c) • L.den D.H ∧
          L.den v₂ = L.den b.BpUpper.V - (((x'.Z - x.Z : Int) : ZMod N) / c) • L.g - (((x'.Sq2 - x.Sq2 : Int) : ZMod N) / c) • L.den D.H ∧
          (((hashBP sha D.EC b.BpLower.A b.BpLower.S).2 : ZMod N) ^ 2) • (L.den v₁ - L.den b.BpLower.V) =
            ((x'.tpLower - x.tpLower : Int) : ZMod N) • L.g + ((x'.txLower - x.txLower : Int) : ZMod N) • L.den D.H ∧
          (((hashBP sha D.EC b.BpUpper.A b.BpUpper.S).2 : ZMod N) ^ 2) • (L.den v₂ - L.den b.BpUpper.V) =
            ((x'.tpUpper - x.tpUpper : Int) : ZMod N) • L.g + ((x'.txUpper - x.txUpper : Int) : ZMod N) • L.den D.H) ∧
        ((∃ t', verifyVote sha (otherBallot b u v v₁ v₂ x') D.pp.RPParams = some { result := true, times := t' }) →
          (L₁.den (elgamalDecrypt D.FF 13 ⟨u, v⟩) = L₁.den (elgamalDecrypt D.FF 13 b.Ballot) ↔ x'.Z = x.Z)) := by
  obtain ⟨D, L₁, L, hD, dep, ok⟩ := C47_legal nan64 C N bits Bb hr L₂ hmap
  have hPK : L₁.den D.PK = ((13 : Int) : ZMod modp3072Q) • L₁.g := by
    have hpk : D.PK = D.FF.mulGen 13 := by
      have : (modPGrp rfcGroup).mulGen 13 = 8192 := by decide +kernel
      rw [dep.PK, dep.FF, this]
    rw [hpk, L₁.den_mulGen]
  have hg : L₁.g ≠ 0 := by
    intro h
    have h1 := (L₁.isIdentity_iff L₁.V_gen).mpr h
    rw [dep.FF] at h1
    exact absurd h1 (by decide +kernel)
  have sizes : 2 ^ 224 ≤ N ∧ 2 ^ 224 ≤ modp3072Q ∧ 2 ^ (bits - 1) < modp3072Q := by
    have h1 := curveTable_ok _ hr
    dsimp only at h1
    have h2 : 253 ≤ bits := by
      have : ∀ r ∈ curveTable, 253 ≤ r.2.1 := by decide
      exact this _ hr
    have h3 : 2 ^ 224 ≤ 2 ^ (bits - 1) := Nat.pow_le_pow_right (by norm_num) (by omega)
    exact ⟨h3.trans h1.2.2.1.le, h3.trans (h1.2.2.1.le.trans h1.2.2.2.2.le), h1.2.2.1.trans h1.2.2.2.2⟩
  refine ⟨D, L₁, L, hD, fun sha hsha b t x c hb h hacc hx hc hc0 u v v₁ v₂ x' hu hv hv₁ hv₂ => ?_⟩
  obtain ⟨-, -, a3⟩ := verifyVote_accept_iff.mp ⟨t, hacc⟩
  obtain ⟨z₀, c', -, -, -, hz₀, hc', -, -, -, hzz, hch, -⟩ := (sigma_verify_iff _ _ _).mp a3
  rw [hc] at hc'
  cases hc'
  rw [hx.Z] at hz₀
  cases hz₀
  have hBc : b.VoteProof.Params.Bc = 224 := by rw [h.vote]; exact dep.Bc
  rw [hBc] at hch
  obtain ⟨-, c0, -, c1⟩ := (C28_challenge sha hsha _ _ _ _ _ _ _).2 _ hch
  have c1' : c < 2 ^ 224 := c1
  have unit : ∀ q : ℕ, 2 ^ 224 ≤ q → (c : ZMod q) ≠ 0 := by
    intro q hq e
    rw [ZMod.intCast_zmod_eq_zero_iff_dvd] at e
    have h1 := Int.le_of_dvd (lt_of_le_of_ne c0 hc0.symm) e
    have h2 : ((2 ^ 224 : ℕ) : Int) ≤ (q : Int) := by exact_mod_cast hq
    rw [Nat.cast_pow, Nat.cast_ofNat] at h2
    exact absurd (lt_of_lt_of_le c1' (h2.trans h1)) (lt_irrefl _)
  have key := C106_ballots sha D L₁ L b hb h t hacc hx hc (unit _ sizes.2.1) (unit _ sizes.1) u v v₁ v₂ hu hv hv₁ hv₂ x'
  rw [dep.zLower, dep.zUpper] at key
  refine ⟨key, ?_⟩
  rintro ⟨t', hacc'⟩
  rw [(C106_plaintext sha D L₁ L hg b hb h t hacc hx hc (unit _ sizes.2.1) (unit _ sizes.1) u v v₁ v₂ hu hv hv₁ hv₂ x' t' hacc' 13 hPK).2]
  obtain ⟨⟨k1, k2⟩, -⟩ := key.mp ⟨t', hacc'⟩
  have hz := (zOk_iff _ _).mp hzz
  rw [h.vote, dep.zLower, dep.zUpper] at hz
  have hb : (2 : Int) ^ (bits - 1) < modp3072Q := by exact_mod_cast sizes.2.2
  have p : (0 : Int) ≤ 2 ^ 240 := by positivity
  constructor
  · intro hd
    by_contra hne
    have := Int.le_of_dvd (abs_pos.mpr (sub_ne_zero.mpr hne)) ((dvd_abs _ _).mpr hd)
    have h2 : |x'.Z - x.Z| < 2 ^ (bits - 1) := by
      rw [abs_lt]
      constructor <;> linarith [hz.1, hz.2]
    exact absurd (lt_of_lt_of_le (h2.trans hb) this) (lt_irrefl _)
  · rintro hd
    rw [hd, sub_self]
    exact dvd_zero _

/-- evaluated in the toy election: a ballot with the first moves of an honest one and `Z` larger by 1, which is no multiple of the challenge,
is accepted with ciphertext and commitments moved by `1/c`, and is not without that -/
example : (match castVote exSha3 exElection.pp exCast with
    | .done b => (match b.VoteProof.Z, b.VoteProof.Challenge, b.VoteProof.Sp, b.VoteProof.Sq1, b.VoteProof.Sq2 with
      | some z, some c, some sp, some s₁, some s₂ =>
        (match b.BpLower.Tprime, b.BpLower.Taux, b.BpUpper.Tprime, b.BpUpper.Taux with
        | some tl, some xl, some tu, some xu =>
          let i₁ := (modInverse c exElection.FF.N).getD 0
          let i₂ := (modInverse c exElection.EC.N).getD 0
          let zl := (hashBP exSha3 exElection.EC b.BpLower.A b.BpLower.S).2
          let zu := (hashBP exSha3 exElection.EC b.BpUpper.A b.BpUpper.S).2
          let V := exElection.FF.add b.Ballot.V (exElection.FF.mulGen i₁)
          let v₁ := exElection.EC.add b.BpLower.V (exElection.EC.mulGen i₂)
          let v₂ := exElection.EC.sub b.BpUpper.V (exElection.EC.mulGen i₂)
          let x : Responses := ⟨z + 1, sp, s₁, s₂, tl + zl ^ 2 * i₂, xl, tu - zu ^ 2 * i₂, xu⟩
          (verifyVote exSha3 (otherBallot b b.Ballot.U V v₁ v₂ x) exElection.rp,
            verifyVote exSha3 (otherBallot b b.Ballot.U b.Ballot.V v₁ v₂ x) exElection.rp, decide (c ∣ 1))
        | _, _, _, _ => (none, none, true))
      | _, _, _, _, _ => (none, none, true))
    | _ => (none, none, true)) =
    (some { result := true, times := [0, 0] }, some { result := false, times := [0, 0] }, false) := by decide +kernel

end MscPoc
