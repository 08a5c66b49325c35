import Verif.Props.Tamper
import Verif.Spec.Reduced
import Verif.Lemmas.Reduced

/-!
# C105 — anybody on the wire can cast somebody else's vote again

No hash of a ballot covers the ciphertext or the commitments of the range proofs, so the randomness of all of them can be changed by
anybody.  The new ballot is accepted, has the same vote, and its ciphertext and commitments differ from the old ones.
-/

set_option autoImplicit false

namespace MscPoc

open JSpec Utf8Spec

section
variable {E₁ E₂ : Type} {q₁ q₂ : ℕ} {M₁ M₂ : Type} [AddCommGroup M₁] [Module (ZMod q₁) M₁] [AddCommGroup M₂]
  [Module (ZMod q₂) M₂]

/-- public change of the randomness of a range proof's commitment -/
def reblindBp (sha : Bytes → Bytes) (pf : BulletProof E₂) (s : Int) : BulletProof E₂ :=
  { pf with
    V := pf.Params.GP.add pf.V (pf.Params.GP.mul pf.Params.H s)
    Taux := pf.Taux.map fun t => (t + (hashBP sha pf.Params.GP pf.A pf.S).2 ^ 2 * s) % pf.Params.GP.N }

/-- somebody's ballot, cast again: the copier chooses `r`, `s₁`, `s₂` and uses the public key, but neither the vote nor a secret -/
def copyBallot (FF : Grp E₁) (EC : Grp E₂) (pk : E₁) (sha : Bytes → Bytes) (b : BallotData E₁ E₂) (r s₁ s₂ : Int) : BallotData E₁ E₂ where
  Ballot := ⟨FF.add b.Ballot.U (FF.mulGen r), FF.add b.Ballot.V (FF.mul pk r)⟩
  BpLower := reblindBp sha b.BpLower s₁
  BpUpper := reblindBp sha b.BpUpper s₂
  VoteProof := { b.VoteProof with
    Sp := b.VoteProof.Sp.bind fun x => b.VoteProof.Challenge.map fun c => (x + c * r) % FF.N
    Sq1 := b.VoteProof.Sq1.bind fun x => b.VoteProof.Challenge.map fun c => (x + c * s₁) % EC.N
    Sq2 := b.VoteProof.Sq2.bind fun x => b.VoteProof.Challenge.map fun c => (x - c * s₂) % EC.N }

/-- **C105** `BulletProof.Verify` gives the same result after the randomness of the commitment was changed. -/
theorem C105_range_proof (pf : BulletProof E₂) (L : Lawful pf.Params.GP q₂ M₂) (vV : L.V pf.V) (vT1 : L.V pf.T1)
    (vT2 : L.V pf.T2) (vH : L.V pf.Params.H) (sha : Bytes → Bytes) (s : Int) :
    (reblindBp sha pf s).verify sha = pf.verify sha ∧ L.V (reblindBp sha pf s).V ∧
    L.den (reblindBp sha pf s).V = L.den pf.V + (s : ZMod q₂) • L.den pf.Params.H := by
  refine ⟨?_, L.V_add vV (L.V_mul _ vH), ?_⟩
  swap
  · unfold reblindBp
    dsimp only
    rw [L.den_add vV (L.V_mul _ vH), L.den_mul _ vH]
  unfold reblindBp BulletProof.verify
  dsimp only
  simp only [hashBP_fst, hashBP_snd]
  cases h1 : updateGenerators pf.Params.GP pf.Params.Hh (roundChallenge sha pf.Params.GP pf.A pf.S) pf.Params.N with
  | none => rfl
  | some hp =>
  cases h2 : pf.Tprime with
  | none => rfl
  | some tp =>
  cases h3 : pf.Taux with
  | none => rfl
  | some tx =>
  simp only [Option.map_some, Option.bind_eq_bind, Option.bind_some]
  obtain ⟨dlt, hd⟩ := delta_isSome pf.Params.N pf.Params.GP.N (roundChallenge sha pf.Params.GP pf.A pf.S)
    (roundChallenge sha pf.Params.GP pf.A pf.S)
  simp only [hd, Option.bind_some]
  obtain ⟨z, hz⟩ : ∃ z, roundChallenge sha pf.Params.GP pf.A pf.S = z := ⟨_, rfl⟩
  obtain ⟨x, hx⟩ : ∃ x, roundChallenge sha pf.Params.GP pf.T1 pf.T2 = x := ⟨_, rfl⟩
  simp only [hz, hx]
  have key : pf.Params.GP.isEqual (pf.Params.GP.add (pf.Params.GP.add (pf.Params.GP.add
      (pf.Params.GP.mul (pf.Params.GP.add pf.V (pf.Params.GP.mul pf.Params.H s)) (z * z % pf.Params.GP.N))
      (pf.Params.GP.mulGen dlt)) (pf.Params.GP.mul pf.T1 x)) (pf.Params.GP.mul pf.T2 (x * x % pf.Params.GP.N)))
      (pedersenCommit pf.Params.GP tp ((tx + z ^ 2 * s) % pf.Params.GP.N) pf.Params.H) =
     pf.Params.GP.isEqual (pf.Params.GP.add (pf.Params.GP.add (pf.Params.GP.add
      (pf.Params.GP.mul pf.V (z * z % pf.Params.GP.N))
      (pf.Params.GP.mulGen dlt)) (pf.Params.GP.mul pf.T1 x)) (pf.Params.GP.mul pf.T2 (x * x % pf.Params.GP.N)))
      (pedersenCommit pf.Params.GP tp tx pf.Params.H) := by
    have vd := L.V_mul s vH
    have vVd := L.V_add vV vd
    have a1 := L.V_mul (z * z % pf.Params.GP.N) vVd
    have b1 := L.V_mul (z * z % pf.Params.GP.N) vV
    have c1 := L.V_mulGen dlt
    have c2 := L.V_mul x vT1
    have c3 := L.V_mul (x * x % pf.Params.GP.N) vT2
    have a2 := L.V_add a1 c1
    have a3 := L.V_add a2 c2
    have a4 := L.V_add a3 c3
    have b2 := L.V_add b1 c1
    have b3 := L.V_add b2 c2
    have b4 := L.V_add b3 c3
    rw [Bool.eq_iff_iff, L.isEqual_iff a4 (L.V_pedersen vH _ _), L.isEqual_iff b4 (L.V_pedersen vH _ _),
      L.den_pedersen vH, L.den_pedersen vH, L.den_add a3 c3, L.den_add a2 c2, L.den_add a1 c1, L.den_mul _ vVd,
      L.den_add vV vd, L.den_mul s vH, L.den_add b3 c3, L.den_add b2 c2, L.den_add b1 c1, L.den_mul _ vV]
    simp only [L.den_mulGen, L.cast_modN]
    push_cast
    constructor
    · intro h; linear_combination (norm := module) h
    · intro h; linear_combination (norm := module) h
  rw [key]

theorem reblindBp_verify {GP : Grp E₂} (L : Lawful GP q₂ M₂) (pf : BulletProof E₂) (hGP : pf.Params.GP = GP) (vV : L.V pf.V)
    (vT1 : L.V pf.T1) (vT2 : L.V pf.T2) (vH : L.V pf.Params.H) (sha : Bytes → Bytes) (s : Int) :
    (reblindBp sha pf s).verify sha = pf.verify sha ∧ L.V (reblindBp sha pf s).V ∧
    L.den (reblindBp sha pf s).V = L.den pf.V + (s : ZMod q₂) • L.den pf.Params.H := by
  subst hGP
  exact C105_range_proof pf L vV vT1 vT2 vH sha s

/-- **C105** Every accepted ballot that carries the election's parameters can be cast again with other randomness.  The copy is accepted,
every key that belongs to the public key decrypts it to the same plaintext, and ciphertext and commitments are those of the original
with randomness moved by `r`, `s₁`, `s₂`. -/
theorem C105_copy (sha : Bytes → Bytes) (D : Election E₁ E₂) (L₁ : Lawful D.FF q₁ M₁) (L₂ : Lawful D.EC q₂ M₂)
    (b : BallotData E₁ E₂) (hb : BallotOk L₁.V L₂.V b) (h : Carries D b) (t : List Nat)
    (hacc : verifyVote sha b D.rp = some { result := true, times := t }) (r s₁ s₂ : Int) :
    verifyVote sha (copyBallot D.FF D.EC D.PK sha b r s₁ s₂) D.rp = some { result := true, times := [0, 0] } ∧
    (∀ sk : Int, L₁.den D.PK = (sk : ZMod q₁) • L₁.g →
      L₁.den (elgamalDecrypt D.FF sk (copyBallot D.FF D.EC D.PK sha b r s₁ s₂).Ballot) = L₁.den (elgamalDecrypt D.FF sk b.Ballot)) ∧
    L₁.den (copyBallot D.FF D.EC D.PK sha b r s₁ s₂).Ballot.U = L₁.den b.Ballot.U + (r : ZMod q₁) • L₁.g ∧
    L₁.den (copyBallot D.FF D.EC D.PK sha b r s₁ s₂).Ballot.V = L₁.den b.Ballot.V + (r : ZMod q₁) • L₁.den D.PK ∧
    L₂.den (copyBallot D.FF D.EC D.PK sha b r s₁ s₂).BpLower.V = L₂.den b.BpLower.V + (s₁ : ZMod q₂) • L₂.den D.H ∧
    L₂.den (copyBallot D.FF D.EC D.PK sha b r s₁ s₂).BpUpper.V = L₂.den b.BpUpper.V + (s₂ : ZMod q₂) • L₂.den D.H := by
  have hl := h.legal hb
  have vPK : L₁.V D.PK := by have := hl.HF; rwa [h.vote] at this
  have vH : L₂.V D.H := by have := hl.H1; rwa [h.lower] at this
  have eU : L₁.den (copyBallot D.FF D.EC D.PK sha b r s₁ s₂).Ballot.U = L₁.den b.Ballot.U + (r : ZMod q₁) • L₁.g := by
    unfold copyBallot
    dsimp only
    rw [L₁.den_add hl.U (L₁.V_mulGen _), L₁.den_mulGen]
  have eV : L₁.den (copyBallot D.FF D.EC D.PK sha b r s₁ s₂).Ballot.V = L₁.den b.Ballot.V + (r : ZMod q₁) • L₁.den D.PK := by
    unfold copyBallot
    dsimp only
    rw [L₁.den_add hl.V (L₁.V_mul _ vPK), L₁.den_mul _ vPK]
  have vU : L₁.V (copyBallot D.FF D.EC D.PK sha b r s₁ s₂).Ballot.U := L₁.V_add hl.U (L₁.V_mulGen _)
  have vV : L₁.V (copyBallot D.FF D.EC D.PK sha b r s₁ s₂).Ballot.V := L₁.V_add hl.V (L₁.V_mul _ vPK)
  obtain ⟨a1, a2, a3⟩ := verifyVote_accept_iff.mp ⟨t, hacc⟩
  obtain ⟨c1, w1, d1⟩ := reblindBp_verify L₂ b.BpLower hl.gpLower hl.V1 hl.T11 hl.T12 hl.H1 sha s₁
  obtain ⟨c2, w2, d2⟩ := reblindBp_verify L₂ b.BpUpper hl.gpUpper hl.V2 hl.T21 hl.T22 hl.H2 sha s₂
  rw [show b.BpLower.Params.H = D.H by rw [h.lower]; rfl] at d1
  rw [show b.BpUpper.Params.H = D.H by rw [h.upper]; rfl] at d2
  obtain ⟨x1, y1⟩ := D.Xq1_den L₂ b hl.V1
  obtain ⟨x2, y2⟩ := D.Xq2_den L₂ b hl.V2
  obtain ⟨x1', y1'⟩ := D.Xq1_den L₂ (copyBallot D.FF D.EC D.PK sha b r s₁ s₂) w1
  obtain ⟨x2', y2'⟩ := D.Xq2_den L₂ (copyBallot D.FF D.EC D.PK sha b r s₁ s₂) w2
  refine ⟨verifyVote_true (c1.trans a1) (c2.trans a2) ?_, fun sk hsk => ?_, eU, eV, d1, d2⟩
  · obtain ⟨Z, c, Sp, Sq1, Sq2, hZ, hc, h1, h2, h3, hz0, hch, hk⟩ := (sigma_verify_iff _ _ _).mp a3
    refine (sigma_verify_iff _ _ _).mpr ⟨Z, c, (Sp + c * r) % D.FF.N, (Sq1 + c * s₁) % D.EC.N, (Sq2 - c * s₂) % D.EC.N, hZ, hc,
      by simp [copyBallot, h1, hc], by simp [copyBallot, h2, hc], by simp [copyBallot, h3, hc], hz0, hch, ?_⟩
    have hp : (copyBallot D.FF D.EC D.PK sha b r s₁ s₂).VoteProof.Params = D.rp := h.vote
    rw [h.vote] at hk
    rw [hp]
    have e := (sigmaChecks_iff D.rp L₁ L₂ b.VoteProof (voteCommitments b D.rp)
      ⟨vPK, vH, hl.W, hl.Kp, hl.Kq1, hl.Kq2, hl.U, hl.V, x1, x2⟩ Z c Sp Sq1 Sq2).mp hk
    refine (sigmaChecks_iff D.rp L₁ L₂ _ _ ⟨vPK, vH, hl.W, hl.Kp, hl.Kq1, hl.Kq2, vU, vV, x1', x2'⟩ _ _ _ _ _).mpr ?_
    obtain ⟨e1, e2, e3, e4⟩ := e
    rw [y1] at e3
    rw [y2] at e4
    constructor
    · rw [L₁.cast_modN]
      change _ = _ • L₁.den (copyBallot D.FF D.EC D.PK sha b r s₁ s₂).Ballot.U + L₁.den b.VoteProof.W
      change (Sp : ZMod q₁) • L₁.g = _ • L₁.den b.Ballot.U + _ at e1
      rw [eU]
      change ((Sp + c * r : Int) : ZMod q₁) • L₁.g = _
      push_cast
      linear_combination (norm := module) e1
    · rw [L₁.cast_modN]
      change _ = _ • L₁.den (copyBallot D.FF D.EC D.PK sha b r s₁ s₂).Ballot.V + L₁.den b.VoteProof.Kp
      rw [eV]; push_cast
      change _ + _ • L₁.den D.PK = _
      change _ + _ • L₁.den D.PK = _ • L₁.den b.Ballot.V + _ at e2
      linear_combination (norm := module) e2
    · rw [L₂.cast_modN, y1']
      change _ + _ • L₂.den D.H = _ • (_ + L₂.den (reblindBp sha b.BpLower s₁).V) + L₂.den b.VoteProof.Kq1
      change _ + _ • L₂.den D.H = _ at e3
      rw [d1]; push_cast
      linear_combination (norm := module) e3
    · rw [L₂.cast_modN, y2']
      change _ + _ • L₂.den D.H = _ • (_ - L₂.den (reblindBp sha b.BpUpper s₂).V) + L₂.den b.VoteProof.Kq2
      change _ + _ • L₂.den D.H = _ at e4
      rw [d2]; push_cast
      linear_combination (norm := module) e4
  · unfold elgamalDecrypt
    rw [L₁.den_sub vV (L₁.V_mul _ vU), L₁.den_sub hl.V (L₁.V_mul _ hl.U), L₁.den_mul _ vU, L₁.den_mul _ hl.U, eU, eV, hsk]
    module

/-- **C105** In groups of prime order with a generator, a public key and an `H` that are not neutral, the copy has another `U`, another `V`,
and other commitments whenever `r`, `s₁`, `s₂` are no multiples of the orders: removing repeated ciphertexts does not find copies. -/
theorem C105_differs (sha : Bytes → Bytes) (D : Election E₁ E₂) (L₁ : Lawful D.FF q₁ M₁) (L₂ : Lawful D.EC q₂ M₂) [Fact q₁.Prime]
    [Fact q₂.Prime] (hg : L₁.g ≠ 0) (hpk : L₁.den D.PK ≠ 0) (hH : L₂.den D.H ≠ 0)
    (b : BallotData E₁ E₂) (hb : BallotOk L₁.V L₂.V b) (h : Carries D b) (t : List Nat)
    (hacc : verifyVote sha b D.rp = some { result := true, times := t }) (r s₁ s₂ : Int) :
    ((copyBallot D.FF D.EC D.PK sha b r s₁ s₂).Ballot.U = b.Ballot.U → (q₁ : Int) ∣ r) ∧
    ((copyBallot D.FF D.EC D.PK sha b r s₁ s₂).Ballot.V = b.Ballot.V → (q₁ : Int) ∣ r) ∧
    ((copyBallot D.FF D.EC D.PK sha b r s₁ s₂).BpLower.V = b.BpLower.V → (q₂ : Int) ∣ s₁) ∧
    ((copyBallot D.FF D.EC D.PK sha b r s₁ s₂).BpUpper.V = b.BpUpper.V → (q₂ : Int) ∣ s₂) := by
  obtain ⟨-, -, e1, e2, e3, e4⟩ := C105_copy sha D L₁ L₂ b hb h t hacc r s₁ s₂
  refine ⟨fun e => ?_, fun e => ?_, fun e => ?_, fun e => ?_⟩
  · rw [e] at e1
    exact (ZMod.intCast_zmod_eq_zero_iff_dvd _ _).mp ((smul_eq_zero.mp (left_eq_add.mp e1)).resolve_right hg)
  · rw [e] at e2
    exact (ZMod.intCast_zmod_eq_zero_iff_dvd _ _).mp ((smul_eq_zero.mp (left_eq_add.mp e2)).resolve_right hpk)
  · rw [e] at e3
    exact (ZMod.intCast_zmod_eq_zero_iff_dvd _ _).mp ((smul_eq_zero.mp (left_eq_add.mp e3)).resolve_right hH)
  · rw [e] at e4
    exact (ZMod.intCast_zmod_eq_zero_iff_dvd _ _).mp ((smul_eq_zero.mp (left_eq_add.mp e4)).resolve_right hH)

/-- C105: what a copy leaves as it is: the first moves of all three proofs, the challenge and `z`.  A server that remembers them finds
copies of this kind. -/
theorem C105_kept (FF : Grp E₁) (EC : Grp E₂) (pk : E₁) (sha : Bytes → Bytes) (b : BallotData E₁ E₂) (r s₁ s₂ : Int) :
    let c := copyBallot FF EC pk sha b r s₁ s₂
    (c.VoteProof.W = b.VoteProof.W ∧ c.VoteProof.Kp = b.VoteProof.Kp ∧ c.VoteProof.Kq1 = b.VoteProof.Kq1 ∧
      c.VoteProof.Kq2 = b.VoteProof.Kq2 ∧ c.VoteProof.Challenge = b.VoteProof.Challenge ∧ c.VoteProof.Z = b.VoteProof.Z) ∧
    (c.BpLower.A = b.BpLower.A ∧ c.BpLower.S = b.BpLower.S ∧ c.BpLower.T1 = b.BpLower.T1 ∧ c.BpLower.T2 = b.BpLower.T2) ∧
    (c.BpUpper.A = b.BpUpper.A ∧ c.BpUpper.S = b.BpUpper.S ∧ c.BpUpper.T1 = b.BpUpper.T1 ∧ c.BpUpper.T2 = b.BpUpper.T2) :=
  ⟨⟨rfl, rfl, rfl, rfl, rfl, rfl⟩, ⟨rfl, rfl, rfl, rfl⟩, rfl, rfl, rfl, rfl⟩

/-- C105: a copy of a ballot with reduced numbers has reduced numbers: requiring them (C89) does not find copies. -/
theorem C105_reduced (sha : Bytes → Bytes) (D : Election E₁ E₂) (hq₁ : 0 < D.FF.N) (hq₂ : 0 < D.EC.N) (b : BallotData E₁ E₂)
    (h : Carries D b) {zlo zhi : Int} {Bc : ℕ} (hr : b.Reduced D.FF.N D.EC.N zlo zhi Bc) (r s₁ s₂ : Int) :
    (copyBallot D.FF D.EC D.PK sha b r s₁ s₂).Reduced D.FF.N D.EC.N zlo zhi Bc := by
  have bp : ∀ (p : BulletProof E₂) (s : Int), p.Params.GP = D.EC → p.Reduced D.EC.N → (reblindBp sha p s).Reduced D.EC.N := by
    intro p s hp hr
    obtain ⟨x, hx, -⟩ := hr.Taux
    refine ⟨?_, hr.Mu, hr.Tprime, hr.Cc, hr.A, hr.B⟩
    change InRange _ _ (p.Taux.map _)
    rw [hx, Option.map_some, hp]
    exact inRange_mod _ hq₂
  obtain ⟨c, hc, -⟩ := hr.vote.Challenge
  obtain ⟨x, hx, -⟩ := hr.vote.Sp
  obtain ⟨y, hy, -⟩ := hr.vote.Sq1
  obtain ⟨w, hw, -⟩ := hr.vote.Sq2
  refine ⟨bp _ _ (by rw [h.lower]; rfl) hr.lower, bp _ _ (by rw [h.upper]; rfl) hr.upper, hr.vote.Challenge, hr.vote.Z, ?_, ?_, ?_⟩
  · change InRange _ _ (b.VoteProof.Sp.bind _)
    rw [hx, hc]
    exact inRange_mod _ hq₁
  · change InRange _ _ (b.VoteProof.Sq1.bind _)
    rw [hy, hc]
    exact inRange_mod _ hq₂
  · change InRange _ _ (b.VoteProof.Sq2.bind _)
    rw [hw, hc]
    exact inRange_mod _ hq₂

theorem reblindBp_ok {GP : Grp E₂} (L : Lawful GP q₂ M₂) (sha : Bytes → Bytes) (pf : BulletProof E₂) (hGP : pf.Params.GP = GP)
    (h : BPOk L.V pf) (s : Int) : BPOk L.V (reblindBp sha pf s) where
  com := by subst hGP; exact L.V_add h.com (L.V_mul _ h.params.H)
  A := h.A
  S := h.S
  T1 := h.T1
  T2 := h.T2
  ip := h.ip
  params := h.params

theorem copyBallot_ok {D : Election E₁ E₂} {L₁ : Lawful D.FF q₁ M₁} {L₂ : Lawful D.EC q₂ M₂} {b : BallotData E₁ E₂} (sha : Bytes → Bytes)
    (h : Carries D b) (hb : BallotOk L₁.V L₂.V b) (r s₁ s₂ : Int) :
    BallotOk L₁.V L₂.V (copyBallot D.FF D.EC D.PK sha b r s₁ s₂) ∧ Carries D (copyBallot D.FF D.EC D.PK sha b r s₁ s₂) := by
  have vPK : L₁.V D.PK := by have := (h.legal hb).HF; rwa [h.vote] at this
  exact ⟨⟨L₁.V_add hb.U (L₁.V_mulGen _), L₁.V_add hb.V (L₁.V_mul _ vPK), reblindBp_ok L₂ sha _ (h.legal hb).gpLower hb.lower s₁,
      reblindBp_ok L₂ sha _ (h.legal hb).gpUpper hb.upper s₂,
      ⟨hb.sigma.W, hb.sigma.Kp, hb.sigma.Kq1, hb.sigma.Kq2, hb.sigma.G₁, hb.sigma.H₁, hb.sigma.G₂, hb.sigma.H₂, hb.sigma.Bb⟩⟩,
    ⟨h.lower, h.upper, h.ipLower, h.ipUpper, h.vote⟩⟩

/-- what somebody on the wire does with the bytes of a ballot to cast it again: only the bytes and public parameters are used -/
def recastBytes (sha : Bytes → Bytes) (C₁ : Codec E₁) (C₂ : Codec E₂) (pp : PublicParams E₁ E₂) (b : Bytes) (r s₁ s₂ : Int) : Option Bytes :=
  match decBallotBytes C₁ C₂ pp b with
  | some (.ok ballot) =>
    match encBallotText C₁ C₂ (copyBallot pp.RPParams.GFF.I pp.RPParams.GEC.I pp.EGPK sha ballot r s₁ s₂) with
    | some (.ok t) => some (Utf8.encode t)
    | _ => none
  | _ => none

/-- **C105** Any lawful groups and codecs: from the bytes of an accepted ballot with legal elements somebody on the wire gets, for all `r`,
`s₁`, `s₂`, bytes that the server accepts and that decode to the copy. -/
theorem C105_bytes (sha : Bytes → Bytes) (D : Election E₁ E₂) (L₁ : Lawful D.FF q₁ M₁) (L₂ : Lawful D.EC q₂ M₂)
    (C₁ : Codec E₁) (C₂ : Codec E₂) (hC₁ : C₁.Good L₁.V) (hC₂ : C₂.Good L₂.V) (hf₁ : C₁.Flat) (hf₂ : C₂.Flat)
    (b : BallotData E₁ E₂) (hb : BallotOk L₁.V L₂.V b) (h : Carries D b) (ts : List Nat)
    (hacc : verifyVote sha b D.rp = some { result := true, times := ts }) (r s₁ s₂ : Int) :
    ∃ t, encBallotText C₁ C₂ b = some (.ok t) ∧ ∃ b', recastBytes sha C₁ C₂ D.pp (Utf8.encode t) r s₁ s₂ = some b' ∧
      unmarshalAndVerify sha C₁ C₂ D.pp b' = some none ∧
      decBallotBytes C₁ C₂ D.pp b' = some (.ok (copyBallot D.FF D.EC D.PK sha b r s₁ s₂)) := by
  obtain ⟨t, e1, e2, -⟩ := carried D C₁ C₂ hC₁ hC₂ hf₁ hf₂ b hb h
  obtain ⟨hb', h'⟩ := copyBallot_ok sha h hb r s₁ s₂
  obtain ⟨t', f1, f2, f3⟩ := carried D C₁ C₂ hC₁ hC₂ hf₁ hf₂ _ hb' h'
  refine ⟨t, e1, Utf8.encode t', ?_, f3 sha [0, 0] (C105_copy sha D L₁ L₂ b hb h ts hacc r s₁ s₂).1, f2⟩
  unfold recastBytes
  rw [e2]
  dsimp only
  rw [show D.pp.RPParams.GFF.I = D.FF from rfl, show D.pp.RPParams.GEC.I = D.EC from rfl, show D.pp.EGPK = D.PK from rfl, f1]

end

/-- a ciphertext and its copy open to the same numbers -/
theorem opens_copy (u v r : Int) (L₁ : Lawful (modPGrp rfcGroup) modp3072Q (ModPM modp3072 modp3072Q)) (hu : L₁.V u) (hv : L₁.V v)
    (hpk : L₁.V 8192) (m : ℕ) :
    (OpensTo modp3072 ((modPGrp rfcGroup).add u ((modPGrp rfcGroup).mulGen r))
      ((modPGrp rfcGroup).add v ((modPGrp rfcGroup).mul 8192 r)) m ↔ OpensTo modp3072 u v m) := by
  have e13 : L₁.den 8192 = (13 : ZMod modp3072Q) • L₁.g := by
    have h := L₁.den_mulGen 13
    rw [show (modPGrp rfcGroup).mulGen 13 = 8192 by decide +kernel] at h
    rw [h]
    norm_num
  rw [opens_iff L₁ u v hu hv, opens_iff L₁ _ _ (L₁.V_add hu (L₁.V_mulGen _)) (L₁.V_add hv (L₁.V_mul _ hpk)), L₁.den_add hu (L₁.V_mulGen _),
    L₁.den_add hv (L₁.V_mul _ hpk), L₁.den_mulGen, L₁.den_mul _ hpk, e13]
  constructor
  · intro e; linear_combination (norm := module) e
  · intro e; linear_combination (norm := module) e

/-- the copy of a ciphertext has other numbers -/
theorem copy_differs (u v r : Int) (L₁ : Lawful (modPGrp rfcGroup) modp3072Q (ModPM modp3072 modp3072Q)) (hu : L₁.V u) (hv : L₁.V v)
    (hpk : L₁.V 8192) (h0 : 0 < r) (h1 : r < modp3072Q) :
    (modPGrp rfcGroup).add u ((modPGrp rfcGroup).mulGen r) ≠ u ∧ (modPGrp rfcGroup).add v ((modPGrp rfcGroup).mul 8192 r) ≠ v := by
  have : Fact modp3072Q.Prime := ⟨modp3072Q_prime⟩
  have hg : L₁.g ≠ 0 := by
    intro h
    exact absurd ((L₁.isIdentity_iff L₁.V_gen).mpr h) (by decide +kernel)
  have hk : L₁.den 8192 ≠ 0 := by
    intro h
    exact absurd ((L₁.isIdentity_iff hpk).mpr h) (by decide +kernel)
  have hr : (r : ZMod modp3072Q) ≠ 0 := by
    rw [Ne, ZMod.intCast_zmod_eq_zero_iff_dvd]
    intro h
    exact absurd (Int.le_of_dvd h0 h) (by omega)
  constructor
  · intro e
    have h := congrArg L₁.den e
    rw [L₁.den_add hu (L₁.V_mulGen _), L₁.den_mulGen, add_eq_left] at h
    exact (smul_eq_zero.mp h).elim hr hg
  · intro e
    have h := congrArg L₁.den e
    rw [L₁.den_add hv (L₁.V_mul _ hpk), L₁.den_mul _ hpk, add_eq_left] at h
    exact (smul_eq_zero.mp h).elim hr hk

/-- **C105** The deployed system (P-256, P-384; SHA-256).  From the bytes of any ballot of `castVote`, for all `r`, `s₁`, `s₂`, somebody on
the wire gets bytes which the server accepts; they open to the voter's choice and to no other number below 65536, and for
`0 < r < Q` both numbers of the ciphertext differ from those of the voter's ballot.  All numbers of the copy are reduced. -/
theorem C105_deployed (nan64 : BitVec 64) {C : CirclCurve} {bits : ℕ} {H U : WPoint} {Gg Hh : List WPoint}
    (row : RealRow C bits H U Gg Hh) :
    ∃ pp, setup nan64 (circlGrp C) = some (.ok pp) ∧
      ∀ (rnd : CastRand) (ballot : BallotData Int WPoint),
        (0 ≤ rnd.rChoice ∧ rnd.rChoice < 1899) →
        (rnd.bp1.sL.length = 16 ∧ rnd.bp1.sR.length = 16 ∧ rnd.bp2.sL.length = 16 ∧ rnd.bp2.sR.length = 16) →
        (∀ s ∈ rnd.tape, 0 ≤ s.k ∧ s.k < 2 ^ (bits - 1)) →
        castVote sha256 pp rnd = .done ballot →
        ∃ t, encBallotText modPCodec (wCodec C.c) ballot = some (.ok t) ∧
          ∀ r s₁ s₂ : Int, ∃ b' ballot', recastBytes sha256 modPCodec (wCodec C.c) pp (Utf8.encode t) r s₁ s₂ = some b' ∧
            unmarshalAndVerify sha256 modPCodec (wCodec C.c) pp b' = some none ∧
            decBallotBytes modPCodec (wCodec C.c) pp b' = some (.ok ballot') ∧
            (∀ m : ℕ, m < 65536 → (OpensTo modp3072 ballot'.Ballot.U ballot'.Ballot.V m ↔ (m : Int) = 101 + rnd.rChoice)) ∧
            (0 < r → r < modp3072Q → ballot'.Ballot.U ≠ ballot.Ballot.U ∧ ballot'.Ballot.V ≠ ballot.Ballot.V) ∧
            ballot'.Reduced modp3072Q C.n (2 ^ 240) (2 ^ (bits - 1)) 224 := by
  have ok := stdCircl_ord row.std.circl
  have := ok.fact'
  let := ok.module
  obtain ⟨Bb, hr, hb1, hb2, _⟩ := row.std.table
  let L₂ := ok.lawful
  obtain ⟨D, hD, dep, _⟩ := C47_curves nan64 (circlGrp C) (fun s _ => ⟨_, rfl⟩) C.n bits Bb hr rfl
  obtain ⟨L₁, L, hok, hV, _⟩ := deployed_legal (circlGrp C) D C.n bits Bb hr L₂
    (fun s e hs he => by injection he with he; exact he ▸ (wLegal_iff _ _).mpr (row.valid s)) dep
  have hopen : ∀ (rnd : CastRand), 0 ≤ rnd.rChoice → rnd.rChoice < 1899 → ∀ b, castVote sha256 D.pp rnd = .done b →
      ∀ m : ℕ, m < 65536 → (OpensTo modp3072 b.Ballot.U b.Ballot.V m ↔ (m : Int) = 101 + rnd.rChoice) := by
    obtain ⟨D', hD', h⟩ := C77_cast nan64 (circlGrp C) C.n bits Bb hr L₂
      (fun s _ => ⟨_, rfl, (wLegal_iff _ _).mpr (row.valid s)⟩)
    rw [hD] at hD'
    simp only [Option.some.injEq, Except.ok.injEq] at hD'
    rw [hD']
    exact h sha256
  refine ⟨D.pp, hD, fun rnd ballot hc hl ht hcast => ?_⟩
  have good₁ : modPCodec.Good L₁.V := fun e _ => modPCodec_good e trivial
  have good₂ : (wCodec C.c).Good L.V := fun e he => by
    rw [hV] at he
    exact C06_json_roundtrip C.c (stdCircl_curve row.std.circl) e ((wLegal_iff _ _).mp he)
  have vG : L.V D.G := by rw [hV, dep.G]; exact L₂.V_mulGen 1
  have hBb : -(2 ^ 63) ≤ D.Bb ∧ D.Bb < 2 ^ 63 := by rw [dep.Bb]; exact ⟨hb1, hb2⟩
  have hacc := (C41_honest_accepted sha256 D L₁ L 4 hok (by rw [dep.lo, dep.hi]; decide) (by rw [dep.lo, dep.hi]; decide) rnd
    (by rw [dep.lo, dep.hi]; exact hc) hl.1 hl.2.1 hl.2.2.1 hl.2.2.2 (by rw [dep.zUpper]; exact ht) ballot hcast).1
  have hop := hopen rnd hc.1 hc.2 ballot hcast
  unfold castVote at hcast
  cases hd : drawChoice D.pp rnd.rChoice with
  | none => rw [hd] at hcast; simp at hcast
  | some choice =>
  rw [hd] at hcast
  obtain ⟨hb, k1, k2, k3, k4, k5, -, -⟩ := castChoice_legal sha256 D L₁ L 4 hok vG hBb choice rnd hl.1 hl.2.1 hl.2.2.1 hl.2.2.2
    ballot hcast
  have hcar : Carries D ballot := ⟨k1, k2, k3, k4, k5⟩
  have n₁ : D.FF.N = (modp3072Q : Int) := L₁.N_eq
  have n₂ : D.EC.N = (C.n : Int) := L.N_eq
  have hq₁ : 0 < D.FF.N := by rw [n₁]; decide +kernel
  have hq₂ : 0 < D.EC.N := by rw [n₂]; exact_mod_cast ok.n_prime.pos
  have hred := castChoice_reduced sha256 sha256_length D hq₁ hq₂ choice rnd ballot hcast
  obtain ⟨t, e1, -, -⟩ := carried D modPCodec (wCodec C.c) good₁ good₂ JText.modP_flat (JText.w_flat C.c) ballot hb hcar
  refine ⟨t, e1, fun r s₁ s₂ => ?_⟩
  obtain ⟨t', g1, b', g2, g3, g4⟩ := C105_bytes sha256 D L₁ L modPCodec (wCodec C.c) good₁ good₂ JText.modP_flat (JText.w_flat C.c)
    ballot hb hcar _ hacc r s₁ s₂
  rw [e1] at g1
  simp only [Option.some.injEq, Except.ok.injEq] at g1
  rw [← g1] at g2
  refine ⟨b', _, g2, g3, g4, ?_, ?_, ?_⟩
  · intro m hm
    rw [← hop m hm]
    have e := dep.FF
    have e' := dep.PK
    have hpk := hok.pk
    clear * - hb e e' hpk
    obtain ⟨hu, hv, -, -, -⟩ := hb
    obtain ⟨FF, EC, PK, n, G, H, Gg, Hh, F, Bx, Bc, Bg, Bb, lo, hi⟩ := D
    dsimp only at e e'
    subst e e'
    exact opens_copy _ _ r L₁ hu hv hpk m
  · have e := dep.FF
    have e' := dep.PK
    have hpk := hok.pk
    clear * - hb e e' hpk
    intro h0 h1
    obtain ⟨hu, hv, -, -, -⟩ := hb
    obtain ⟨FF, EC, PK, n, G, H, Gg, Hh, F, Bx, Bc, Bg, Bb, lo, hi⟩ := D
    dsimp only at e e'
    subst e e'
    exact copy_differs _ _ r L₁ hu hv hpk h0 h1
  · have h := C105_reduced sha256 D hq₁ hq₂ ballot hcar hred.1 r s₁ s₂
    rw [dep.zLower, dep.zUpper, dep.Bc, n₁, n₂] at h
    exact h

/-- evaluated in the toy election, from bytes to bytes: the ballot is cast again, and the server accepts -/
example : (match castVote exSha3 exElection.pp exCast with
    | .done b => (match encBallotText modPCodec modPCodec b with
      | some (.ok t) => (recastBytes exSha3 modPCodec modPCodec exElection.pp (Utf8.encode t) 3 5 4).map fun b' =>
          (b' == Utf8.encode t, unmarshalAndVerify exSha3 modPCodec modPCodec exElection.pp b')
      | _ => none)
    | _ => none) = some (false, some none) := by decide +kernel

/-- both curves are rows of that kind -/
example (dec : Bytes → Option WPoint) : RealRow (p256Real dec) 256 recH256 recU256 recGg256 recHh256 ∧
    RealRow (p384Real dec) 384 recH384 recU384 recGg384 recHh384 := ⟨.p256 dec, .p384 dec⟩

end MscPoc
