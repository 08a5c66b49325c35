import Verif.Props.Vote

/-!
# C36, C37, C43, C46 — what an accepted ballot does not guarantee
-/

set_option autoImplicit false

namespace MscPoc

section
variable {E₁ E₂ : Type} {q₁ q₂ : ℕ} {M₁ M₂ : Type} [AddCommGroup M₁] [Module (ZMod q₁) M₁] [AddCommGroup M₂]
  [Module (ZMod q₂) M₂]

/-! ## C36 -/

/-- public change of a range proof's commitment by `d` -/
def shiftBp (sha : Bytes → Bytes) (pf : BulletProof E₂) (d : Int) : BulletProof E₂ :=
  { pf with
    V := pf.Params.GP.add pf.V (pf.Params.GP.mulGen d)
    Tprime := pf.Tprime.map (· + (hashBP sha pf.Params.GP pf.A pf.S).2 ^ 2 * d) }

/-- public change of a ballot by `d`: no secret, no randomness is used -/
def maul (FF : Grp E₁) (sha : Bytes → Bytes) (b : BallotData E₁ E₂) (d : Int) : BallotData E₁ E₂ where
  Ballot := ⟨b.Ballot.U, FF.add b.Ballot.V (FF.mulGen d)⟩
  BpLower := shiftBp sha b.BpLower d
  BpUpper := shiftBp sha b.BpUpper (-d)
  VoteProof := { b.VoteProof with Z := b.VoteProof.Z.bind fun z => b.VoteProof.Challenge.map fun c => z + c * d }

/-- a ballot over the election's groups with legal elements -/
structure BallotLegal (D : Election E₁ E₂) (L₁ : Lawful D.FF q₁ M₁) (L₂ : Lawful D.EC q₂ M₂) (b : BallotData E₁ E₂) : Prop where
  gpLower : b.BpLower.Params.GP = D.EC
  gpUpper : b.BpUpper.Params.GP = D.EC
  gff : b.VoteProof.Params.GFF.I = D.FF
  gec : b.VoteProof.Params.GEC.I = D.EC
  V1 : L₂.V b.BpLower.V
  T11 : L₂.V b.BpLower.T1
  T12 : L₂.V b.BpLower.T2
  H1 : L₂.V b.BpLower.Params.H
  V2 : L₂.V b.BpUpper.V
  T21 : L₂.V b.BpUpper.T1
  T22 : L₂.V b.BpUpper.T2
  H2 : L₂.V b.BpUpper.Params.H
  U : L₁.V b.Ballot.U
  V : L₁.V b.Ballot.V
  HF : L₁.V b.VoteProof.Params.GFF.H
  HE : L₂.V b.VoteProof.Params.GEC.H
  W : L₁.V b.VoteProof.W
  Kp : L₁.V b.VoteProof.Kp
  Kq1 : L₂.V b.VoteProof.Kq1
  Kq2 : L₂.V b.VoteProof.Kq2

theorem shiftBp_verify {GP : Grp E₂} (L : Lawful GP q₂ M₂) (pf : BulletProof E₂) (hGP : pf.Params.GP = GP) (vV : L.V pf.V)
    (vT1 : L.V pf.T1) (vT2 : L.V pf.T2) (vH : L.V pf.Params.H) (sha : Bytes → Bytes) (d : Int) :
    (shiftBp sha pf d).verify sha = pf.verify sha ∧ L.V (shiftBp sha pf d).V ∧
    L.den (shiftBp sha pf d).V = L.den pf.V + (d : ZMod q₂) • L.g := by
  subst hGP
  refine ⟨C21_shift pf L vV vT1 vT2 vH sha d, L.V_add vV (L.V_mulGen _), ?_⟩
  unfold shiftBp
  dsimp only
  rw [L.den_add vV (L.V_mulGen _), L.den_mulGen]

/-- sigma proofs move along with the statement -/
theorem sigma_shift {FF : Grp E₁} {EC : Grp E₂} (L₁ : Lawful FF q₁ M₁) (L₂ : Lawful EC q₂ M₂) (sha : Bytes → Bytes)
    (pf : SigmaProof E₁ E₂) (hF : pf.Params.GFF.I = FF) (hE : pf.Params.GEC.I = EC)
    (comm comm' : VerCommitments E₁ E₂) (vHF : L₁.V pf.Params.GFF.H) (vHE : L₂.V pf.Params.GEC.H)
    (vW : L₁.V pf.W) (vKp : L₁.V pf.Kp) (vK1 : L₂.V pf.Kq1) (vK2 : L₂.V pf.Kq2)
    (vY : L₁.V comm.Y) (vXp : L₁.V comm.Xp) (v1 : L₂.V comm.Xq1) (v2 : L₂.V comm.Xq2)
    (hY : comm'.Y = comm.Y) (vXp' : L₁.V comm'.Xp) (v1' : L₂.V comm'.Xq1) (v2' : L₂.V comm'.Xq2) (d : Int)
    (dXp : L₁.den comm'.Xp = L₁.den comm.Xp + (d : ZMod q₁) • L₁.g)
    (d1 : L₂.den comm'.Xq1 = L₂.den comm.Xq1 + (d : ZMod q₂) • L₂.g)
    (d2 : L₂.den comm'.Xq2 = L₂.den comm.Xq2 + (d : ZMod q₂) • L₂.g)
    (h : pf.verify sha comm = some true)
    (hz : ∀ z c, pf.Z = some z → pf.Challenge = some c → pf.Params.zOk (z + c * d) = true) :
    { pf with Z := pf.Z.bind fun z => pf.Challenge.map fun c => z + c * d }.verify sha comm' = some true := by
  subst hF hE
  obtain ⟨Z, c, Sp, Sq1, Sq2, hZ, hc, h1, h2, h3, hz0, hch, hk⟩ := (sigma_verify_iff _ _ _).mp h
  have e := (sigmaChecks_iff pf.Params L₁ L₂ pf comm ⟨vHF, vHE, vW, vKp, vK1, vK2, vY, vXp, v1, v2⟩ Z c Sp Sq1 Sq2).mp hk
  refine (sigma_verify_iff _ _ _).mpr ⟨Z + c * d, c, Sp, Sq1, Sq2, by simp [hZ, hc], hc, h1, h2, h3, hz Z c hZ hc, hch, ?_⟩
  refine (sigmaChecks_iff pf.Params L₁ L₂ _ comm' ⟨vHF, vHE, vW, vKp, vK1, vK2, hY ▸ vY, vXp', v1', v2'⟩ _ _ _ _ _).mpr ?_
  constructor
  · rw [hY]; exact e.eqY
  · rw [dXp]; push_cast
    linear_combination (norm := module) e.eqXp
  · rw [d1]; push_cast
    linear_combination (norm := module) e.eqXq1
  · rw [d2]; push_cast
    linear_combination (norm := module) e.eqXq2

/-- **C36** Every accepted ballot can be changed by every `d` that keeps `z` in the release interval: the changed ballot is
accepted, and it decrypts to the old plaintext plus `d`. -/
theorem C36_malleable (sha : Bytes → Bytes) (D : Election E₁ E₂) (L₁ : Lawful D.FF q₁ M₁) (L₂ : Lawful D.EC q₂ M₂)
    (b : BallotData E₁ E₂) (hl : BallotLegal D L₁ L₂ b) (t : List Nat)
    (hacc : verifyVote sha b D.rp = some { result := true, times := t }) (d : Int)
    (hz : ∀ z c, b.VoteProof.Z = some z → b.VoteProof.Challenge = some c →
      b.VoteProof.Params.zLowerBound ≤ z + c * d ∧ z + c * d < b.VoteProof.Params.zUpperBound) :
    verifyVote sha (maul D.FF sha b d) D.rp = some { result := true, times := [0, 0] } ∧
    ∀ sk : Int, L₁.den (elgamalDecrypt D.FF sk (maul D.FF sha b d).Ballot) =
      L₁.den (elgamalDecrypt D.FF sk b.Ballot) + (d : ZMod q₁) • L₁.g := by
  obtain ⟨a1, a2, a3⟩ := verifyVote_accept_iff.mp ⟨t, hacc⟩
  obtain ⟨s1, vs1, ds1⟩ := shiftBp_verify L₂ b.BpLower hl.gpLower hl.V1 hl.T11 hl.T12 hl.H1 sha d
  obtain ⟨s2, vs2, ds2⟩ := shiftBp_verify L₂ b.BpUpper hl.gpUpper hl.V2 hl.T21 hl.T22 hl.H2 sha (-d)
  obtain ⟨x1, y1⟩ := D.Xq1_den L₂ b hl.V1
  obtain ⟨x2, y2⟩ := D.Xq2_den L₂ b hl.V2
  obtain ⟨x1', y1'⟩ := D.Xq1_den L₂ (maul D.FF sha b d) vs1
  obtain ⟨x2', y2'⟩ := D.Xq2_den L₂ (maul D.FF sha b d) vs2
  constructor
  · refine verifyVote_true (s1.trans a1) (s2.trans a2) ?_
    refine sigma_shift L₁ L₂ sha b.VoteProof hl.gff hl.gec (voteCommitments b D.rp)
      (voteCommitments (maul D.FF sha b d) D.rp) hl.HF hl.HE hl.W hl.Kp hl.Kq1 hl.Kq2
      hl.U hl.V x1 x2 rfl (L₁.V_add hl.V (L₁.V_mulGen _)) x1' x2' d ?_ ?_ ?_ a3
      (fun z c e1 e2 => (zOk_iff _ _).mpr (hz z c e1 e2))
    · change L₁.den (D.FF.add b.Ballot.V (D.FF.mulGen d)) = L₁.den b.Ballot.V + _
      rw [L₁.den_add hl.V (L₁.V_mulGen _), L₁.den_mulGen]
    · rw [y1, y1']
      change _ + L₂.den (shiftBp sha b.BpLower d).V = _
      rw [ds1]; module
    · rw [y2, y2']
      change _ - L₂.den (shiftBp sha b.BpUpper (-d)).V = _
      rw [ds2]; push_cast; module
  · intro sk
    unfold elgamalDecrypt maul
    dsimp only
    have vV' := L₁.V_add hl.V (L₁.V_mulGen d)
    rw [L₁.den_sub vV' (L₁.V_mul _ hl.U), L₁.den_sub hl.V (L₁.V_mul _ hl.U), L₁.den_add hl.V (L₁.V_mulGen _), L₁.den_mulGen]
    module

/-! ## C37 -/

/-- a sigma proof with challenge length 0 in its embedded parameters -/
def zeroProof (D : Election E₁ E₂) : SigmaProof E₁ E₂ where
  W := D.FF.mulGen 0
  Kp := vpCommit 1 0 D.gff
  Kq1 := vpCommit 1 0 D.gec
  Kq2 := vpCommit 1 0 D.gec
  Challenge := some 0
  Z := some 1
  Sp := some 0
  Sq1 := some 0
  Sq2 := some 0
  Params := { D.rp with Bx := 0, Bc := 0, Bb := 1 }

/-- **C37** The sigma parameters come from the ballot.  Any ciphertext is accepted together with any two range proofs that
verify. -/
theorem C37_any_ciphertext (sha : Bytes → Bytes) (D : Election E₁ E₂) (L₁ : Lawful D.FF q₁ M₁) (L₂ : Lawful D.EC q₂ M₂)
    (hPK : L₁.V D.PK) (hH : L₂.V D.H) (ct : Ciphertext E₁) (hU : L₁.V ct.U) (hV : L₁.V ct.V)
    (bpLower bpUpper : BulletProof E₂) (v1 : L₂.V bpLower.V) (v2 : L₂.V bpUpper.V)
    (h1 : bpLower.verify sha = some true) (h2 : bpUpper.verify sha = some true) :
    verifyVote sha { Ballot := ct, BpLower := bpLower, BpUpper := bpUpper, VoteProof := zeroProof D } D.rp =
      some { result := true, times := [0, 0] } := by
  obtain ⟨x1, y1⟩ := D.Xq1_den L₂ ⟨ct, bpLower, bpUpper, zeroProof D⟩ v1
  obtain ⟨x2, y2⟩ := D.Xq2_den L₂ ⟨ct, bpLower, bpUpper, zeroProof D⟩ v2
  refine verifyVote_true h1 h2 ((sigma_verify_iff _ _ _).mpr ⟨1, 0, 0, 0, 0, rfl, rfl, rfl, rfl, rfl, ?_, ?_, ?_⟩)
  · rfl
  · unfold getFSChallenge sliceTo
    dsimp only
    have : (zeroProof D).Params.Bc.toNat / 8 = 0 := by change (0 : UInt16).toNat / 8 = 0; rfl
    rw [this, if_pos (Nat.zero_le _)]
    rfl
  · refine (sigmaChecks_iff (zeroProof D).Params L₁ L₂ (zeroProof D) _ ?_ 1 0 0 0 0).mpr ?_
    · exact ⟨hPK, hH, L₁.V_mulGen _, V_vpCommit (gp := D.gff) L₁ hPK _ _, V_vpCommit (gp := D.gec) L₂ hH _ _,
        V_vpCommit (gp := D.gec) L₂ hH _ _, hU, hV, x1, x2⟩
    · constructor
      · change _ = _ + L₁.den (D.FF.mulGen 0)
        rw [L₁.den_mulGen]; simp
      · change _ = _ + L₁.den (vpCommit 1 0 D.gff)
        rw [den_vpCommit (gp := D.gff) L₁ hPK]; simp; rfl
      · change _ = _ + L₂.den (vpCommit 1 0 D.gec)
        rw [den_vpCommit (gp := D.gec) L₂ hH]; simp; rfl
      · change _ = _ + L₂.den (vpCommit 1 0 D.gec)
        rw [den_vpCommit (gp := D.gec) L₂ hH]; simp; rfl

/-- C37: the verdict does not depend on the parameters the election prescribes for challenge lengths and mask sizes: they are
read from the ballot only. -/
theorem C37_election_lengths_ignored (sha : Bytes → Bytes) (b : BallotData E₁ E₂) (rp : ProofParams E₁ E₂) (Bx : UInt8)
    (Bc Bg : UInt16) (Bb : Int) (GFF : GroupParams E₁) :
    verifyVote sha b { rp with Bx := Bx, Bc := Bc, Bg := Bg, Bb := Bb, GFF := GFF } = verifyVote sha b rp := rfl

/-! ## C43 -/

/-- **C43** For the election's own parameters, every `v ≥ 0` with `2^Bc v ≤ 2^(Bx+Bc+Bb) - 2^(Bx+Bc)`, every range and every
hash function: once the library prover produces range proofs for 0, there is an accepted ballot encrypting `v`. -/
theorem C43_any_plaintext (sha : Bytes → Bytes) (hsha : ∀ m, (sha m).length = 32) (D : Election E₁ E₂)
    (L₁ : Lawful D.FF q₁ M₁) (L₂ : Lawful D.EC q₂ M₂) (k : ℕ) (ok : D.OK L₁ L₂ k) (hBc : D.Bc.toNat < 264)
    (rnd1 rnd2 : BPRand) (l1 : rnd1.sL.length = 2 ^ k) (l2 : rnd1.sR.length = 2 ^ k) (l3 : rnd2.sL.length = 2 ^ k)
    (l4 : rnd2.sR.length = 2 ^ k) (pf1 pf2 : BulletProof E₂) (g1 g2 : Int)
    (h1 : bpProve sha D.bp rnd1 0 = some (.ok (pf1, g1))) (h2 : bpProve sha D.bp rnd2 0 = some (.ok (pf2, g2)))
    (v r : Int) (h0 : 0 ≤ v) (hv : 2 ^ D.Bc.toNat * v ≤ D.rp.zUpperBound - D.rp.zLowerBound)
    (hpos : D.rp.zLowerBound < D.rp.zUpperBound) :
    ∃ b : BallotData E₁ E₂, verifyVote sha b D.rp = some { result := true, times := [0, 0] } ∧
      b.VoteProof.Params = D.rp ∧ b.BpLower.Params = D.bp ∧ b.BpUpper.Params = D.bp ∧
      L₁.den b.Ballot.U = (r : ZMod q₁) • L₁.g ∧
      L₁.den b.Ballot.V = (v : ZMod q₁) • L₁.g + (r : ZMod q₁) • L₁.den D.PK := by
  have hk0 : 0 ≤ D.rp.zLowerBound := by unfold ProofParams.zLowerBound; positivity
  -- range proofs for 0, moved to v - lo and hi - v
  obtain ⟨a1, p1, d1⟩ := C18_bp_complete D.bp L₂ k ok.bp sha rnd1 l1 l2 0 g1 le_rfl (pow_pos (by norm_num) _) pf1 h1
  obtain ⟨a2, p2, d2⟩ := C18_bp_complete D.bp L₂ k ok.bp sha rnd2 l3 l4 0 g2 le_rfl (pow_pos (by norm_num) _) pf2 h2
  obtain ⟨_, hV1, _⟩ := bpProve_exact D.bp L₂ k ok.bp sha rnd1 l1 l2 0 g1 pf1 h1
  obtain ⟨_, hV2, _⟩ := bpProve_exact D.bp L₂ k ok.bp sha rnd2 l3 l4 0 g2 pf2 h2
  obtain ⟨t1, t2, ht1, ht2⟩ := proveFrom_T _ _ _ _ _ _ _ ((bpProve_iff _ _ _ _ _ _).mp h1).2
  obtain ⟨u1, u2, hu1, hu2⟩ := proveFrom_T _ _ _ _ _ _ _ ((bpProve_iff _ _ _ _ _ _).mp h2).2
  have vH : L₂.V D.bp.H := ok.bp.H
  obtain ⟨s1, vs1, ds1⟩ := shiftBp_verify L₂ pf1 (by rw [p1]; rfl) (hV1 ▸ L₂.V_pedersen vH _ _) (ht1 ▸ L₂.V_pedersen vH _ _)
    (ht2 ▸ L₂.V_pedersen vH _ _) (by rw [p1]; exact vH) sha (v - D.lo.toNat)
  obtain ⟨s2, vs2, ds2⟩ := shiftBp_verify L₂ pf2 (by rw [p2]; rfl) (hV2 ▸ L₂.V_pedersen vH _ _) (hu1 ▸ L₂.V_pedersen vH _ _)
    (hu2 ▸ L₂.V_pedersen vH _ _) (by rw [p2]; exact vH) sha (D.hi.toNat - v)
  -- a sigma proof for v with mask 2^(Bx+Bc): one attempt suffices
  obtain ⟨s, hs⟩ : ∃ s : SigmaSample, s = ⟨D.rp.zLowerBound, 0, 0, 0⟩ := ⟨_, rfl⟩
  have hN₁ : D.rp.GFF.N = some (q₁ : Int) := congrArg some L₁.N_eq
  have hN₂ : D.rp.GEC.N = some (q₂ : Int) := congrArg some L₂.N_eq
  have hsk : s.k = D.rp.zLowerBound := by rw [hs]
  obtain ⟨sp, hsp⟩ : ∃ sp, sigmaProve sha D.rp v r g1 (-g2) [s] = .done sp := by
    have hchal := C28_challenge sha hsha D.rp.GFF.I D.rp.GEC.I (D.rp.GFF.I.mulGen s.tp) (vpCommit (s.k % q₁) s.tp D.rp.GFF)
      (vpCommit (s.k % q₁) s.tq1 D.rp.GEC) (vpCommit (s.k % q₁) s.tq2 D.rp.GEC) D.rp.Bc
    cases hc : getFSChallenge sha D.rp.GFF.I D.rp.GEC.I (D.rp.GFF.I.mulGen s.tp) (vpCommit (s.k % q₁) s.tp D.rp.GFF)
        (vpCommit (s.k % q₁) s.tq1 D.rp.GEC) (vpCommit (s.k % q₁) s.tq2 D.rp.GEC) D.rp.Bc with
    | none =>
      have := hchal.1.mp hc
      have e : D.rp.Bc = D.Bc := rfl
      rw [e] at this
      omega
    | some c =>
      obtain ⟨_, c0, _, c1⟩ := hchal.2 c hc
      have e : D.rp.Bc = D.Bc := rfl
      rw [e] at c1
      have hcv : c * v ≤ 2 ^ D.Bc.toNat * v := mul_le_mul_of_nonneg_right c1.le h0
      have hcv0 : 0 ≤ c * v := mul_nonneg c0 h0
      have hstrict : D.rp.zLowerBound + c * v < D.rp.zUpperBound := by
        rcases h0.eq_or_lt with h | h
        · rw [← h, mul_zero, add_zero]; exact hpos
        · have : c * v < 2 ^ D.Bc.toNat * v := mul_lt_mul_of_pos_right c1 h
          omega
      have att := sigmaAttempt_done (secret := v) (rp := r) (rq1 := g1) (rq2 := -g2) hN₁ hN₂ hc
      rw [if_pos ((zOk_iff _ _).mpr ⟨by rw [hsk]; omega, by rw [hsk]; exact hstrict⟩)] at att
      exact ⟨_, (sigmaProve_done_iff [s] _).mpr ⟨[], s, [], rfl, by simp, att⟩⟩
  refine ⟨⟨⟨D.FF.mulGen r, vpCommit v r D.gff⟩, shiftBp sha pf1 (v - D.lo.toNat), shiftBp sha pf2 (D.hi.toNat - v), sp⟩,
    ?_, ?_, p1, p2, L₁.den_mulGen _, den_vpCommit (gp := D.gff) L₁ ok.pk _ _⟩
  · obtain ⟨x1, y1⟩ := D.Xq1_den L₂ ⟨⟨D.FF.mulGen r, vpCommit v r D.gff⟩, shiftBp sha pf1 (v - D.lo.toNat),
      shiftBp sha pf2 (D.hi.toNat - v), sp⟩ vs1
    obtain ⟨x2, y2⟩ := D.Xq2_den L₂ ⟨⟨D.FF.mulGen r, vpCommit v r D.gff⟩, shiftBp sha pf1 (v - D.lo.toNat),
      shiftBp sha pf2 (D.hi.toNat - v), sp⟩ vs2
    change L₂.den pf1.V = ((0 : Int) : ZMod q₂) • L₂.g + (g1 : ZMod q₂) • L₂.den D.H at d1
    change L₂.den pf2.V = ((0 : Int) : ZMod q₂) • L₂.g + (g2 : ZMod q₂) • L₂.den D.H at d2
    obtain ⟨c, b, _, _, hver, hiff⟩ := sigma_exact sha D.rp L₁ L₂ hN₁ hN₂ ok.pk ok.bp.H ok.mask v r g1 (-g2) [s]
      (by
        intro x hx
        rw [List.mem_singleton] at hx
        subst hx
        rw [hsk]
        exact ⟨hk0, hpos⟩) sp hsp _ v v (L₁.V_mulGen _) (V_vpCommit (gp := D.gff) L₁ ok.pk _ _) x1 x2 (L₁.den_mulGen _)
      (den_vpCommit (gp := D.gff) L₁ ok.pk _ _)
      (by
        refine y1.trans ?_
        change _ + L₂.den (shiftBp sha pf1 (v - D.lo.toNat)).V = (v : ZMod q₂) • L₂.g + (g1 : ZMod q₂) • L₂.den D.H
        rw [ds1, d1]; push_cast; module)
      (by
        refine y2.trans ?_
        change _ - L₂.den (shiftBp sha pf2 (D.hi.toNat - v)).V = (v : ZMod q₂) • L₂.g + ((-g2 : Int) : ZMod q₂) • L₂.den D.H
        rw [ds2, d2]; push_cast; module)
    have hb : b = true := hiff.mpr (by simp)
    rw [hb] at hver
    exact verifyVote_true (s1.trans a1) (s2.trans a2) hver
  · obtain ⟨pre, s', post, _, _, hs'⟩ := (sigmaProve_done_iff _ _).mp hsp
    cases hc : getFSChallenge sha D.rp.GFF.I D.rp.GEC.I (D.rp.GFF.I.mulGen s'.tp) (vpCommit (s'.k % q₁) s'.tp D.rp.GFF)
        (vpCommit (s'.k % q₁) s'.tq1 D.rp.GEC) (vpCommit (s'.k % q₁) s'.tq2 D.rp.GEC) D.rp.Bc with
    | none => rw [sigmaAttempt_none hN₁ hN₂ hc] at hs'; exact absurd hs' (by simp)
    | some c =>
      rw [sigmaAttempt_done hN₁ hN₂ hc] at hs'
      split at hs'
      · simp only [Option.some.injEq] at hs'
        rw [← hs']
      · exact absurd hs' (by simp)

/-! ## C46 -/

/-- **C46** `verifyVote` returns timing data iff both range proofs verify. -/
theorem C46_times (sha : Bytes → Bytes) (b : BallotData E₁ E₂) (rp : ProofParams E₁ E₂) (out : VerifyOut)
    (h : verifyVote sha b rp = some out) :
    (out.times.length = 2 ∨ out.times = []) ∧
    (out.times ≠ [] ↔ b.BpLower.verify sha = some true ∧ b.BpUpper.verify sha = some true) ∧
    (out.times = [] → out.result = false) := by
  unfold verifyVote at h
  unbind h with b1 e1
  cases b1
  · rw [if_pos (by simp)] at h
    simp only [Option.some.injEq] at h
    subst h
    simp [e1]
  rw [if_neg (by simp)] at h
  unbind h with b2 e2
  cases b2
  · rw [if_pos (by simp)] at h
    simp only [Option.some.injEq] at h
    subst h
    simp [e2]
  rw [if_neg (by simp)] at h
  unbind h with b3 e3
  simp only [Option.some.injEq] at h
  subst h
  simp [e1, e2]

/-- C46: the driver's loop ends with a report exactly when all range proofs verify and no sigma check panics; the report is
the conjunction of the sigma verdicts.  In every other case it panics. -/
theorem C46_main_loop (sha : Bytes → Bytes) (rp : ProofParams E₁ E₂) (votes : List (BallotData E₁ E₂)) (s r : Bool) :
    mainLoop sha rp votes s = some r ↔ ∃ rs : List Bool, List.Forall₂ (fun v x => v.BpLower.verify sha = some true ∧
      v.BpUpper.verify sha = some true ∧ v.VoteProof.verify sha (voteCommitments v rp) = some x) votes rs ∧
      r = (s && rs.all id) := by
  induction votes generalizing s with
  | nil =>
    simp only [mainLoop, List.forall₂_nil_left_iff, exists_eq_left, List.all_nil, Bool.and_true, Option.some.injEq]
    exact eq_comm
  | cons v votes ih =>
    unfold mainLoop
    constructor
    · intro h
      unbind h with out eo
      unbind h with t0 e0
      unbind h with t1 e1
      rw [ih] at h
      obtain ⟨rs, hrs, hr⟩ := h
      obtain ⟨_, ht, _⟩ := C46_times sha v rp out eo
      obtain ⟨a1, a2⟩ := ht.mp (by rintro h; rw [h] at e0; simp at e0)
      cases hv : v.VoteProof.verify sha (voteCommitments v rp) with
      | none =>
        exfalso
        unfold verifyVote at eo
        rw [a1, bind_step rfl, if_neg (by simp), a2, bind_step rfl, if_neg (by simp), hv] at eo
        simp at eo
      | some x =>
        rw [verifyVote_true a1 a2 hv] at eo
        simp only [Option.some.injEq] at eo
        subst eo
        exact ⟨x :: rs, List.Forall₂.cons ⟨a1, a2, hv⟩ hrs, by simp [hr, Bool.and_assoc]⟩
    · rintro ⟨rs, hrs, hr⟩
      obtain ⟨x, rs', ⟨a1, a2, a3⟩, hrs', rfl⟩ := List.forall₂_cons_left_iff.mp hrs
      runs verifyVote_true a1 a2 a3
      dsimp only
      have e0 : ([0, 0] : List Nat)[0]? = some 0 := rfl
      have e1 : ([0, 0] : List Nat)[1]? = some 0 := rfl
      runs e0
      runs e1
      exact (ih _).mpr ⟨rs', hrs', by simp [hr, Bool.and_assoc]⟩

/-- C46: one ballot whose range proof is rejected crashes the driver, whatever the other ballots are. -/
theorem C46_crash (sha : Bytes → Bytes) (rp : ProofParams E₁ E₂) (votes : List (BallotData E₁ E₂)) (s : Bool)
    (v : BallotData E₁ E₂) (hv : v ∈ votes) (hbad : v.BpLower.verify sha = some false ∨ v.BpUpper.verify sha = some false) :
    mainLoop sha rp votes s = none := by
  cases h : mainLoop sha rp votes s with
  | none => rfl
  | some r =>
    exfalso
    obtain ⟨rs, hrs, hr⟩ := (C46_main_loop sha rp votes s r).mp h
    clear h hr
    induction hrs with
    | nil => simp at hv
    | cons hx _ ih =>
      rcases List.mem_cons.mp hv with rfl | hv
      · rcases hbad with h | h
        · rw [hx.1] at h; simp at h
        · rw [hx.2.1] at h; simp at h
      · exact ih hv

end

/-- C36, C37, C46 on the toy election: the accepted example ballot, the same ballot changed by `d = -2`, an arbitrary ciphertext with
the zero proof, and a ballot with a damaged range proof crashing the driver. -/
example : (match castVote exSha3 exElection.pp exCast with
      | .done b => (verifyVote exSha3 b exElection.rp, verifyVote exSha3 (maul exElection.FF exSha3 b (-2)) exElection.rp,
          verifyVote exSha3 { b with Ballot := ⟨77, 1234⟩, VoteProof := zeroProof exElection } exElection.rp,
          verifyVote exSha3 { b with Ballot := ⟨77, 1234⟩ } exElection.rp,
          mainLoop exSha3 exElection.rp [b, { b with Ballot := ⟨77, 1234⟩ }] true,
          mainLoop exSha3 exElection.rp [b, { b with BpLower := { b.BpLower with V := 5 } }] true)
      | _ => (none, none, none, none, none, none)) =
    (some ⟨true, [0, 0]⟩, some ⟨true, [0, 0]⟩, some ⟨true, [0, 0]⟩, some ⟨false, [0, 0]⟩, some false, none) := by
  decide +kernel

/-- C43: the gap of the toy election allows `v = 2`, below the least candidate 3; of the real one every `v < 2^31 - 2^16`. -/
example : 2 ^ exElection.Bc.toNat * 2 ≤ exElection.rp.zUpperBound - exElection.rp.zLowerBound ∧ (2 : Int) < exElection.lo.toNat ∧
    (2 : Int) ^ 224 * (2 ^ 15 * 65536 - 65536) ≤ 2 ^ 255 - 2 ^ 240 := by decide +kernel

end MscPoc
