import Verif.Lemmas.Vote
import Verif.Lemmas.ModP
import Verif.Props.Bp
import Verif.Props.Sigma

/-!
# C39–C42 — ballots
-/

set_option autoImplicit false

namespace MscPoc

section
variable {E₁ E₂ : Type} {q₁ q₂ : ℕ} {M₁ M₂ : Type} [AddCommGroup M₁] [Module (ZMod q₁) M₁] [AddCommGroup M₂]
  [Module (ZMod q₂) M₂]

/-! ## C39 -/

/-- ElGamal decryption with the secret key: `V - sk.U` -/
def elgamalDecrypt (FFG : Grp E₁) (sk : Int) (ct : Ciphertext E₁) : E₁ := FFG.sub ct.V (FFG.mul ct.U sk)

theorem encryptVote_den (FFG : Grp E₁) (L : Lawful FFG q₁ M₁) (pk : E₁) (hpk : L.V pk) (choice : UInt16) (r : Int)
    (ct : Ciphertext E₁) (rnd : Int) (h : encryptVote FFG pk choice r = some (ct, rnd)) :
    rnd = r + 1 ∧ L.V ct.U ∧ L.V ct.V ∧ L.den ct.U = (rnd : ZMod q₁) • L.g ∧
    L.den ct.V = ((choice.toNat : Int) : ZMod q₁) • L.g + (rnd : ZMod q₁) • L.den pk := by
  unfold encryptVote at h
  dsimp only at h
  split at h
  · exact absurd h (by simp)
  simp only [Option.some.injEq, Prod.mk.injEq] at h
  obtain ⟨rfl, rfl⟩ := h
  exact ⟨rfl, L.V_mulGen _, L.V_add (L.V_mulGen _) (L.V_mul _ hpk), L.den_mulGen _,
    by rw [L.den_add (L.V_mulGen _) (L.V_mul _ hpk), L.den_mulGen, L.den_mul _ hpk]⟩

/-- **C39** Decryption recovers `choice.G`, and componentwise sums decrypt to the sum. -/
theorem C39_decrypt (FFG : Grp E₁) (L : Lawful FFG q₁ M₁) (sk : Int) (choice : UInt16) (r : Int)
    (ct : Ciphertext E₁) (rnd : Int) (h : encryptVote FFG (FFG.mulGen sk) choice r = some (ct, rnd)) :
    L.den (elgamalDecrypt FFG sk ct) = ((choice.toNat : Int) : ZMod q₁) • L.g ∧
    ∀ choice' r' ct' rnd', encryptVote FFG (FFG.mulGen sk) choice' r' = some (ct', rnd') →
      L.den (elgamalDecrypt FFG sk ⟨FFG.add ct.U ct'.U, FFG.add ct.V ct'.V⟩) =
        ((choice.toNat + choice'.toNat : Int) : ZMod q₁) • L.g := by
  obtain ⟨_, vU, vV, dU, dV⟩ := encryptVote_den FFG L _ (L.V_mulGen _) choice r ct rnd h
  constructor
  · unfold elgamalDecrypt
    rw [L.den_sub vV (L.V_mul _ vU), L.den_mul _ vU, dU, dV, L.den_mulGen]
    push_cast; module
  · intro choice' r' ct' rnd' h'
    obtain ⟨_, vU', vV', dU', dV'⟩ := encryptVote_den FFG L _ (L.V_mulGen _) choice' r' ct' rnd' h'
    unfold elgamalDecrypt
    dsimp only
    rw [L.den_sub (L.V_add vV vV') (L.V_mul _ (L.V_add vU vU')), L.den_mul _ (L.V_add vU vU'), L.den_add vV vV',
      L.den_add vU vU', dU, dV, dU', dV', L.den_mulGen]
    push_cast; module

/-- C39: a ciphertext determines the choice, when the generator has order `q > 65535`; and `U` is never the identity. -/
theorem C39_determines (FFG : Grp E₁) (L : Lawful FFG q₁ M₁) (hfree : ∀ c : ZMod q₁, c • L.g = 0 → c = 0)
    (hq : 65535 < q₁) (pk : E₁) (hpk : L.V pk) (choice choice' : UInt16) (r r' : Int)
    (ct ct' : Ciphertext E₁) (rnd rnd' : Int) (h : encryptVote FFG pk choice r = some (ct, rnd))
    (h' : encryptVote FFG pk choice' r' = some (ct', rnd'))
    (hU : FFG.isEqual ct.U ct'.U = true) (hV : FFG.isEqual ct.V ct'.V = true) : choice = choice' := by
  obtain ⟨_, vU, vV, dU, dV⟩ := encryptVote_den FFG L pk hpk choice r ct rnd h
  obtain ⟨_, vU', vV', dU', dV'⟩ := encryptVote_den FFG L pk hpk choice' r' ct' rnd' h'
  rw [L.isEqual_iff vU vU', dU, dU'] at hU
  rw [L.isEqual_iff vV vV', dV, dV'] at hV
  have e1 : (rnd : ZMod q₁) = rnd' := by
    have := hfree ((rnd : ZMod q₁) - rnd') (by rw [sub_smul, hU, sub_self])
    exact sub_eq_zero.mp this
  rw [e1] at hV
  have e2 := hfree (((choice.toNat : Int) : ZMod q₁) - ((choice'.toNat : Int) : ZMod q₁))
    (by rw [sub_smul, add_right_cancel hV, sub_self])
  have b1 := choice.toNat_lt
  have b2 := choice'.toNat_lt
  rw [← Int.cast_sub] at e2
  have := Int.eq_zero_of_abs_lt_dvd ((ZMod.intCast_zmod_eq_zero_iff_dvd _ q₁).mp e2) (by rw [abs_lt]; omega)
  exact UInt16.toNat_inj.mp (by omega)

theorem C39_U_not_identity (FFG : Grp E₁) (L : Lawful FFG q₁ M₁) (hfree : ∀ c : ZMod q₁, c • L.g = 0 → c = 0)
    (pk : E₁) (hpk : L.V pk) (choice : UInt16) (r : Int) (hr : 0 ≤ r ∧ r < FFG.N - 1)
    (ct : Ciphertext E₁) (rnd : Int) (h : encryptVote FFG pk choice r = some (ct, rnd)) :
    FFG.isIdentity ct.U = false ∧ 0 < rnd ∧ rnd < FFG.N := by
  obtain ⟨hrnd, vU, _, dU, _⟩ := encryptVote_den FFG L pk hpk choice r ct rnd h
  refine ⟨?_, by omega, by omega⟩
  rw [Bool.eq_false_iff, ne_eq, L.isIdentity_iff vU, dU]
  intro h0
  have hN := L.N_eq
  have := Int.eq_zero_of_abs_lt_dvd ((ZMod.intCast_zmod_eq_zero_iff_dvd _ q₁).mp (hfree _ h0)) (by rw [abs_lt]; omega)
  omega

/-- C39: encryption of 300 under secret key 13 in a group of order 65537 (> 65535), decrypted. -/
example : ∃ ct rnd, encryptVote (toyGrp 65537) ((toyGrp 65537).mulGen 13) 300 1000 = some (ct, rnd) ∧
    elgamalDecrypt (toyGrp 65537) 13 ct = 300 ∧ ct.U = 1001 ∧ ct.V = 13313 := ⟨_, _, rfl, by decide +kernel, by decide +kernel, by decide +kernel⟩

/-! ## C40 -/

/-- **C40** For `min < max` and `rand.Int` output `0 ≤ r < max-min`, the choice is `min + r`: in `[min, max-1]`. -/
theorem C40_choice_range (pp : PublicParams E₁ E₂) (hlt : pp.candidateMin < pp.candidateMax) (r : Int)
    (hr : 0 ≤ r ∧ r < (pp.candidateMax - pp.candidateMin).toNat) :
    ∃ choice, drawChoice pp r = some choice ∧ (choice.toNat : Int) = pp.candidateMin.toNat + r ∧
      pp.candidateMin ≤ choice ∧ choice < pp.candidateMax ∧ choice ≠ pp.candidateMax := by
  have hle : pp.candidateMin ≤ pp.candidateMax := UInt16.le_of_lt hlt
  have hs := UInt16.toNat_sub_of_le pp.candidateMax pp.candidateMin hle
  rw [UInt16.lt_iff_toNat_lt] at hlt
  have hM := pp.candidateMax.toNat_lt
  rw [hs] at hr
  have hv : (UInt16.ofNat r.toNat + pp.candidateMin).toNat = r.toNat + pp.candidateMin.toNat := by
    rw [UInt16.toNat_add, UInt16.toNat_ofNat']
    omega
  refine ⟨UInt16.ofNat r.toNat + pp.candidateMin, ?_, ?_, ?_, ?_, ?_⟩
  · unfold drawChoice
    rw [if_neg (by omega)]
  · rw [hv]; omega
  · rw [UInt16.le_iff_toNat_le, hv]; omega
  · rw [UInt16.lt_iff_toNat_lt, hv]; omega
  · intro h
    rw [h] at hv
    omega

/-- C40: every candidate below the maximum can be drawn. -/
theorem C40_choice_reachable (pp : PublicParams E₁ E₂) (choice : UInt16) (h1 : pp.candidateMin ≤ choice)
    (h2 : choice < pp.candidateMax) :
    ∃ r : Int, 0 ≤ r ∧ r < (pp.candidateMax - pp.candidateMin).toNat ∧ drawChoice pp r = some choice := by
  have hle : pp.candidateMin ≤ pp.candidateMax := UInt16.le_of_lt (UInt16.lt_of_le_of_lt h1 h2)
  have hs := UInt16.toNat_sub_of_le pp.candidateMax pp.candidateMin hle
  rw [UInt16.lt_iff_toNat_lt] at h2
  rw [UInt16.le_iff_toNat_le] at h1
  have hM := pp.candidateMax.toNat_lt
  refine ⟨(choice.toNat : Int) - pp.candidateMin.toNat, by omega, by rw [hs]; omega, ?_⟩
  unfold drawChoice
  rw [if_neg (by omega)]
  congr 1
  apply UInt16.toNat_inj.mp
  rw [UInt16.toNat_add, UInt16.toNat_ofNat']
  omega

/-- C40: with `min = max` (a single candidate) `castVote` panics, for all randomness. -/
theorem C40_single_candidate (sha : Bytes → Bytes) (pp : PublicParams E₁ E₂) (h : pp.candidateMin = pp.candidateMax)
    (rnd : CastRand) : castVote sha pp rnd = .panic := by
  unfold castVote drawChoice
  rw [h]
  simp

/-- C40: whatever the random number, the last candidate is never cast. -/
theorem C40_last_never_cast (pp : PublicParams E₁ E₂) (hlt : pp.candidateMin < pp.candidateMax) (r : Int)
    (hr : 0 ≤ r ∧ r < (pp.candidateMax - pp.candidateMin).toNat) : drawChoice pp r ≠ some pp.candidateMax := by
  obtain ⟨c, h1, _, _, _, h2⟩ := C40_choice_range pp hlt r hr
  rw [h1]
  simpa using h2

example : (101 : UInt16) < 2000 ∧ ((2000 : UInt16) - 101).toNat = 1899 := by decide

/-! ## C41, C42 -/

/-- uint16 subtraction -/
theorem uint16_sub (a b : UInt16) :
    ((a - b).toNat : Int) = a.toNat - b.toNat + (if b.toNat ≤ a.toNat then 0 else 65536) := by
  have ha := a.toNat_lt
  have hb := b.toNat_lt
  rw [UInt16.toNat_sub]
  split <;> omega

/-- Everything about the ballot that `castVote` builds for a given choice. -/
theorem castChoice_exact (sha : Bytes → Bytes) (D : Election E₁ E₂) (L₁ : Lawful D.FF q₁ M₁) (L₂ : Lawful D.EC q₂ M₂) (k : ℕ)
    (ok : D.OK L₁ L₂ k) (choice : UInt16) (rnd : CastRand)
    (l1 : rnd.bp1.sL.length = 2 ^ k) (l2 : rnd.bp1.sR.length = 2 ^ k) (l3 : rnd.bp2.sL.length = 2 ^ k)
    (l4 : rnd.bp2.sR.length = 2 ^ k) (hk : ∀ s ∈ rnd.tape, 0 ≤ s.k ∧ s.k < D.rp.zUpperBound)
    (hlo : (choice - D.lo).toNat < 2 ^ (2 ^ k)) (hhi : (D.hi - choice).toNat < 2 ^ (2 ^ k))
    (ballot : BallotData E₁ E₂) (h : castChoice sha D.pp choice rnd = .done ballot) :
    (∃ rp : Int, rp = rnd.rEnc + 1 ∧ L₁.V ballot.Ballot.U ∧ L₁.V ballot.Ballot.V ∧
      L₁.den ballot.Ballot.U = (rp : ZMod q₁) • L₁.g ∧
      L₁.den ballot.Ballot.V = ((choice.toNat : Int) : ZMod q₁) • L₁.g + (rp : ZMod q₁) • L₁.den D.PK) ∧
    ∃ c b, ballot.VoteProof.Challenge = some c ∧ verifyVote sha ballot D.rp = some { result := b, times := [0, 0] } ∧
      (b = true ↔ ((c * (D.lo.toNat + (choice - D.lo).toNat - choice.toNat) : Int) : ZMod q₂) • L₂.g = 0 ∧
        ((c * (D.hi.toNat - (D.hi - choice).toNat - choice.toNat) : Int) : ZMod q₂) • L₂.g = 0) := by
  unfold castChoice at h
  cases henc : encryptVote D.pp.FFGroupParams.I D.pp.EGPK choice rnd.rEnc with
  | none => rw [henc] at h; exact absurd h (by simp)
  | some enc =>
  obtain ⟨ct, rp⟩ := enc
  rw [henc] at h
  dsimp only at h
  obtain ⟨hrp, vU, vV, dU, dV⟩ := encryptVote_den D.FF L₁ D.PK ok.pk choice rnd.rEnc ct rp henc
  cases hb1 : bpProve sha D.pp.BPParams rnd.bp1 ((choice - D.pp.candidateMin).toNat : Int) with
  | none => rw [hb1] at h; exact absurd h (by simp)
  | some r1 =>
  cases r1 with
  | error e => rw [hb1] at h; exact absurd h (by simp)
  | ok r1 =>
  obtain ⟨pf1, rq1⟩ := r1
  rw [hb1] at h
  dsimp only at h
  cases hb2 : bpProve sha D.pp.BPParams rnd.bp2 ((D.pp.candidateMax - choice).toNat : Int) with
  | none => rw [hb2] at h; exact absurd h (by simp)
  | some r2 =>
  cases r2 with
  | error e => rw [hb2] at h; exact absurd h (by simp)
  | ok r2 =>
  obtain ⟨pf2, rq2⟩ := r2
  rw [hb2] at h
  dsimp only at h
  have hN : D.pp.ECGroupParams.N = some D.EC.N := rfl
  rw [hN] at h
  dsimp only at h
  cases hs : sigmaProve sha D.pp.RPParams (choice.toNat : Int) rp rq1 (D.EC.N - rq2) rnd.tape with
  | running => rw [hs] at h; exact absurd h (by simp)
  | panic => rw [hs] at h; exact absurd h (by simp)
  | done sp =>
  rw [hs] at h
  simp only [Outcome.done.injEq] at h
  subst h
  refine ⟨⟨rp, hrp, vU, vV, dU, dV⟩, ?_⟩
  obtain ⟨a1, _, a3⟩ := C18_bp_complete D.bp L₂ k ok.bp sha rnd.bp1 l1 l2 _ rq1 (by omega) (by exact_mod_cast hlo) pf1 hb1
  obtain ⟨b1, _, b3⟩ := C18_bp_complete D.bp L₂ k ok.bp sha rnd.bp2 l3 l4 _ rq2 (by omega) (by exact_mod_cast hhi) pf2 hb2
  obtain ⟨_, hV1, _⟩ := bpProve_exact D.bp L₂ k ok.bp sha rnd.bp1 l1 l2 _ rq1 pf1 hb1
  obtain ⟨_, hV2, _⟩ := bpProve_exact D.bp L₂ k ok.bp sha rnd.bp2 l3 l4 _ rq2 pf2 hb2
  have vV1 : L₂.V pf1.V := hV1 ▸ L₂.V_pedersen ok.bp.H _ _
  have vV2 : L₂.V pf2.V := hV2 ▸ L₂.V_pedersen ok.bp.H _ _
  have hNq : (D.EC.N : Int) = q₂ := L₂.N_eq
  obtain ⟨vX1, dX1⟩ := D.Xq1_den L₂ ⟨ct, pf1, pf2, sp⟩ vV1
  obtain ⟨vX2, dX2⟩ := D.Xq2_den L₂ ⟨ct, pf1, pf2, sp⟩ vV2
  change L₂.den pf1.V = (((choice - D.lo).toNat : Int) : ZMod q₂) • L₂.g + (rq1 : ZMod q₂) • L₂.den D.H at a3
  change L₂.den pf2.V = (((D.hi - choice).toNat : Int) : ZMod q₂) • L₂.g + (rq2 : ZMod q₂) • L₂.den D.H at b3
  obtain ⟨c, b, hc, _, hv, hiff⟩ := sigma_exact sha D.rp L₁ L₂ (congrArg some L₁.N_eq) (congrArg some L₂.N_eq) ok.pk ok.bp.H
    ok.mask (choice.toNat : Int) rp rq1 (D.EC.N - rq2) rnd.tape hk sp hs
    (voteCommitments ⟨ct, pf1, pf2, sp⟩ D.rp) (D.lo.toNat + (choice - D.lo).toNat) (D.hi.toNat - (D.hi - choice).toNat)
    vU vV vX1 vX2 dU dV
    (by
      refine dX1.trans ?_
      change _ = ((D.lo.toNat + (choice - D.lo).toNat : Int) : ZMod q₂) • L₂.g + (rq1 : ZMod q₂) • L₂.den D.H
      rw [a3]
      push_cast; module)
    (by
      refine dX2.trans ?_
      change _ = ((D.hi.toNat - (D.hi - choice).toNat : Int) : ZMod q₂) • L₂.g + ((D.EC.N - rq2 : Int) : ZMod q₂) • L₂.den D.H
      rw [b3, hNq]
      push_cast
      rw [ZMod.natCast_self]
      module)
  exact ⟨c, b, hc, verifyVote_true a1 b1 hv, hiff⟩

/-- **C41** Honest ballots are accepted (and decrypt to the drawn choice). -/
theorem C41_honest_accepted (sha : Bytes → Bytes) (D : Election E₁ E₂) (L₁ : Lawful D.FF q₁ M₁) (L₂ : Lawful D.EC q₂ M₂)
    (k : ℕ) (ok : D.OK L₁ L₂ k) (hlt : D.lo < D.hi) (hwidth : D.hi.toNat - D.lo.toNat < 2 ^ (2 ^ k)) (rnd : CastRand)
    (hr : 0 ≤ rnd.rChoice ∧ rnd.rChoice < (D.hi - D.lo).toNat)
    (l1 : rnd.bp1.sL.length = 2 ^ k) (l2 : rnd.bp1.sR.length = 2 ^ k) (l3 : rnd.bp2.sL.length = 2 ^ k)
    (l4 : rnd.bp2.sR.length = 2 ^ k) (hk : ∀ s ∈ rnd.tape, 0 ≤ s.k ∧ s.k < D.rp.zUpperBound)
    (ballot : BallotData E₁ E₂) (h : castVote sha D.pp rnd = .done ballot) :
    verifyVote sha ballot D.rp = some { result := true, times := [0, 0] } ∧
    ∃ choice : UInt16, (choice.toNat : Int) = D.lo.toNat + rnd.rChoice ∧ D.lo ≤ choice ∧ choice < D.hi ∧
      L₁.den ballot.Ballot.V = ((choice.toNat : Int) : ZMod q₁) • L₁.g + ((rnd.rEnc + 1 : Int) : ZMod q₁) • L₁.den D.PK := by
  obtain ⟨choice, hd, hcv, hle, hlt2, _⟩ := C40_choice_range D.pp hlt rnd.rChoice hr
  have e1 : D.pp.candidateMin = D.lo := rfl
  have e2 : D.pp.candidateMax = D.hi := rfl
  rw [e1] at hcv hle
  rw [e2] at hlt2
  unfold castVote at h
  rw [hd] at h
  dsimp only at h
  rw [UInt16.le_iff_toNat_le] at hle
  rw [UInt16.lt_iff_toNat_lt] at hlt2
  have s1 := uint16_sub choice D.lo
  have s2 := uint16_sub D.hi choice
  rw [if_pos hle] at s1
  rw [if_pos hlt2.le] at s2
  obtain ⟨⟨rp, hrp, _, _, _, dV⟩, c, b, _, hv, hiff⟩ := castChoice_exact sha D L₁ L₂ k ok choice rnd l1 l2 l3 l4 hk
    (by omega) (by omega) ballot h
  have hb : b = true := by
    rw [hiff, s1, s2]
    constructor
    · rw [show (D.lo.toNat : Int) + (choice.toNat - D.lo.toNat + 0) - choice.toNat = 0 by ring]; simp
    · rw [show (D.hi.toNat : Int) - (D.hi.toNat - choice.toNat + 0) - choice.toNat = 0 by ring]; simp
  rw [hb] at hv
  refine ⟨hv, choice, hcv, UInt16.le_iff_toNat_le.mpr hle, UInt16.lt_iff_toNat_lt.mpr hlt2, ?_⟩
  rw [dV, hrp]

/-- **C42** The voter code on any uint16 choice and a 16-bit (or longer) range proof: accepted iff the choice is in the
interval, or 65536 times the challenge vanishes on the curve.  Both range proofs always verify. -/
theorem C42_any_choice (sha : Bytes → Bytes) (D : Election E₁ E₂) (L₁ : Lawful D.FF q₁ M₁) (L₂ : Lawful D.EC q₂ M₂)
    (hfree : ∀ c : ZMod q₂, c • L₂.g = 0 → c = 0) (k : ℕ) (hk4 : 4 ≤ k)
    (ok : D.OK L₁ L₂ k) (choice : UInt16) (rnd : CastRand)
    (l1 : rnd.bp1.sL.length = 2 ^ k) (l2 : rnd.bp1.sR.length = 2 ^ k) (l3 : rnd.bp2.sL.length = 2 ^ k)
    (l4 : rnd.bp2.sR.length = 2 ^ k) (hk : ∀ s ∈ rnd.tape, 0 ≤ s.k ∧ s.k < D.rp.zUpperBound)
    (ballot : BallotData E₁ E₂) (h : castChoice sha D.pp choice rnd = .done ballot) :
    ∃ c b, ballot.VoteProof.Challenge = some c ∧ verifyVote sha ballot D.rp = some { result := b, times := [0, 0] } ∧
      (b = true ↔ (D.lo ≤ choice ∧ choice ≤ D.hi) ∨ (q₂ : Int) ∣ 65536 * c) := by
  have big : ∀ x : UInt16, x.toNat < 2 ^ (2 ^ k) := fun x => by
    have h1 := x.toNat_lt
    have h2 : 2 ^ 16 ≤ 2 ^ (2 ^ k) := Nat.pow_le_pow_right (by norm_num) (by
      calc 16 = 2 ^ 4 := rfl
        _ ≤ 2 ^ k := Nat.pow_le_pow_right (by norm_num) hk4)
    omega
  obtain ⟨_, c, b, hc, hv, hiff⟩ := castChoice_exact sha D L₁ L₂ k ok choice rnd l1 l2 l3 l4 hk (big _) (big _) ballot h
  refine ⟨c, b, hc, hv, hiff.trans ?_⟩
  have zero : ∀ n : Int, (n : ZMod q₂) • L₂.g = 0 ↔ (q₂ : Int) ∣ n := fun n =>
    ⟨fun h => (ZMod.intCast_zmod_eq_zero_iff_dvd _ _).mp (hfree _ h), fun h => by
      rw [(ZMod.intCast_zmod_eq_zero_iff_dvd _ _).mpr h, zero_smul]⟩
  have s1 := uint16_sub choice D.lo
  have s2 := uint16_sub D.hi choice
  rw [zero, zero, UInt16.le_iff_toNat_le, UInt16.le_iff_toNat_le]
  by_cases c1 : D.lo.toNat ≤ choice.toNat
  · rw [if_pos c1] at s1
    have z1 : (D.lo.toNat : Int) + (choice - D.lo).toNat - choice.toNat = 0 := by omega
    by_cases c2 : choice.toNat ≤ D.hi.toNat
    · rw [if_pos c2] at s2
      have z2 : (D.hi.toNat : Int) - (D.hi - choice).toNat - choice.toNat = 0 := by omega
      simp [z1, z2, c1, c2]
    · rw [if_neg c2] at s2
      have z2 : (D.hi.toNat : Int) - (D.hi - choice).toNat - choice.toNat = -65536 := by omega
      rw [z1, z2]
      simp [c1, c2, mul_comm]
  · rw [if_neg c1] at s1
    have z1 : (D.lo.toNat : Int) + (choice - D.lo).toNat - choice.toNat = 65536 := by omega
    rw [z1]
    by_cases c2 : choice.toNat ≤ D.hi.toNat
    · rw [if_pos c2] at s2
      have z2 : (D.hi.toNat : Int) - (D.hi - choice).toNat - choice.toNat = 0 := by omega
      rw [z2]
      simp [c1, mul_comm]
    · rw [if_neg c2] at s2
      have z2 : (D.hi.toNat : Int) - (D.hi - choice).toNat - choice.toNat = -65536 := by omega
      rw [z2]
      simp [c1, mul_comm]

/-- C42 for an odd prime order above the challenges: an out-of-range choice is accepted only with challenge 0. -/
theorem C42_rejected [hp : Fact q₂.Prime] (h2 : q₂ ≠ 2) {c : Int} (h0 : 0 ≤ c) (h1 : c < q₂) :
    (q₂ : Int) ∣ 65536 * c ↔ c = 0 := by
  constructor
  · intro h
    have hpi : Prime (q₂ : Int) := Nat.prime_iff_prime_int.mp hp.out
    rcases hpi.dvd_or_dvd h with h | h
    · exfalso
      have : q₂ ∣ 2 ^ 16 := by exact_mod_cast h
      exact h2 ((Nat.prime_dvd_prime_iff_eq hp.out Nat.prime_two).mp (hp.out.dvd_of_dvd_pow this))
    · exact Int.eq_zero_of_abs_lt_dvd h (by rw [abs_of_nonneg h0]; exact h1)
  · rintro rfl; simp

end

/-- A toy election: candidates 3..9, four-bit range proofs, curve order 1031 (11 bits), ElGamal group of order 2039,
8-bit challenges. -/
def exElection : Election Int Int where
  FF := toyGrp 2039
  EC := toyGrp 1031
  PK := 13
  n := 4
  G := 1
  H := 7
  Gg := [3, 5, 7, 9]
  Hh := [2, 4, 8, 16]
  F := 2039
  Bx := 1
  Bc := 8
  Bg := 11
  Bb := 1
  lo := 3
  hi := 9

def exCast : CastRand where
  rChoice := 2
  rEnc := 40
  bp1 := exRnd
  bp2 := { exRnd with gamma := 33 }
  tape := [⟨30, 4, 5, 6⟩, ⟨600, 7, 8, 9⟩, ⟨500, 1, 2, 3⟩]

theorem exElection_ok : exElection.OK (toyLawful 2039) (toyLawful 1031) 2 := by
  refine ⟨⟨by decide, by decide⟩, ⟨rfl, ⟨by decide, by decide⟩, ?_, ?_, rfl, rfl, fun _ h => toy_map _ h⟩, by decide +kernel⟩
  · unfold toyLawful exElection Election.bp; decide
  · unfold toyLawful exElection Election.bp; decide

/-- C41: the hypotheses are met and a ballot is returned. -/
example : exElection.lo < exElection.hi ∧ exElection.hi.toNat - exElection.lo.toNat < 2 ^ (2 ^ 2) ∧
    0 ≤ exCast.rChoice ∧ exCast.rChoice < (exElection.hi - exElection.lo).toNat ∧
    (match castVote exSha3 exElection.pp exCast with
      | .done b => verifyVote exSha3 b exElection.rp
      | _ => none) = some ⟨true, [0, 0]⟩ := by
  refine ⟨by decide, by decide, by decide, by decide, ?_⟩
  decide +kernel

/-- C42: with 16-bit range proofs, candidate 9 is accepted and candidates 2, 10 and 65535 are rejected. -/
def exElection16 : Election Int Int :=
  { exElection with n := 16, FF := toyGrp 16381, EC := toyGrp 8209, Bx := 4, Bg := 14, Gg := (List.range 16).map (fun i => (i + 3 : Int)), Hh := (List.range 16).map (fun i => (5 * i + 1 : Int)) }

def exCast16 : CastRand :=
  { exCast with
    bp1 := { exRnd with sL := (List.range 16).map (fun i => (i : Int)), sR := (List.range 16).map (fun i => (2 * i : Int)) }
    bp2 := { exRnd with sL := (List.range 16).map (fun i => (7 * i : Int)), sR := (List.range 16).map (fun i => (3 * i : Int)) }
    tape := [⟨4200, 7, 8, 9⟩] }

example : [9, 2, 10].map (fun choice => match castChoice exSha3 exElection16.pp choice exCast16 with
      | .done b => verifyVote exSha3 b exElection16.rp
      | _ => none) = [some ⟨true, [0, 0]⟩, some ⟨false, [0, 0]⟩, some ⟨false, [0, 0]⟩] := by decide +kernel

end MscPoc
