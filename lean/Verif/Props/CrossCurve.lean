import Verif.Spec.CrossCurve
import Verif.Props.Receive

/-!
# C88 — ballots sent to the server of another curve
-/

set_option autoImplicit false

namespace MscPoc

open JSpec Utf8Spec

theorem BadPoint.mono {a b : ℕ} (h : a ≤ b) {r : Raw} (hb : BadPoint b r) : BadPoint a r := by
  have p1 : 256 ^ (a + 1) ≤ 256 ^ (b + 1) := Nat.pow_le_pow_right (by norm_num) (by omega)
  have p2 : 256 ^ (2 * a + 1) ≤ 256 ^ (2 * b + 1) := Nat.pow_le_pow_right (by norm_num) (by omega)
  rcases hb with rfl | ⟨kvs, X, Y, rfl, hX, hY, hb⟩
  · exact Or.inl rfl
  · refine Or.inr ⟨kvs, X, Y, rfl, hX, hY, ?_⟩
    rcases hb with hb | hb | ⟨x, y, rfl, rfl, h0, hb⟩
    · exact Or.inl hb
    · exact Or.inr (Or.inl hb)
    · exact Or.inr (Or.inr ⟨x, y, rfl, rfl, h0, hb.imp p1.trans p2.trans⟩)

theorem BallotCrash.mono {bad₁ bad₂ bad₂' : Raw → Prop} (h : ∀ r, bad₂ r → bad₂' r) {msg : String → Raw}
    (hb : BallotCrash bad₁ bad₂ msg) : BallotCrash bad₁ bad₂' msg := by
  have pairs : ∀ xs ys, PairsCrash bad₂ xs ys → PairsCrash bad₂' xs ys := by
    rintro xs ys (h1 | ⟨x, hx, h1⟩ | ⟨x, hx, h1⟩)
    · exact Or.inl h1
    · exact Or.inr (Or.inl ⟨x, hx, h _ h1⟩)
    · exact Or.inr (Or.inr ⟨x, hx, h _ h1⟩)
  have range : ∀ j, RangeCrash bad₂ j → RangeCrash bad₂' j := by
    rintro j (h1 | h1 | h1)
    · refine Or.inl ?_
      rcases h1 with h1 | h1 | h1 | h1 | h1 | h1 | h1
      · exact Or.inl (h _ h1)
      · exact Or.inr (Or.inl (h _ h1))
      · exact Or.inr (Or.inr (Or.inl (h _ h1)))
      · exact Or.inr (Or.inr (Or.inr (Or.inl (h _ h1))))
      · exact Or.inr (Or.inr (Or.inr (Or.inr (Or.inl (h _ h1)))))
      · exact Or.inr (Or.inr (Or.inr (Or.inr (Or.inr (Or.inl (h _ h1))))))
      · exact Or.inr (Or.inr (Or.inr (Or.inr (Or.inr (Or.inr (h _ h1))))))
    · exact Or.inr (Or.inl (pairs _ _ h1))
    · exact Or.inr (Or.inr (pairs _ _ h1))
  obtain ⟨ct, h0, h1 | ⟨lo, h2, h1 | ⟨hi, h3, h1 | ⟨vp, h4, h1⟩⟩⟩⟩ := hb
  · exact ⟨ct, h0, Or.inl h1⟩
  · exact ⟨ct, h0, Or.inr ⟨lo, h2, Or.inl (range _ h1)⟩⟩
  · exact ⟨ct, h0, Or.inr ⟨lo, h2, Or.inr ⟨hi, h3, Or.inl (range _ h1)⟩⟩⟩
  · refine ⟨ct, h0, Or.inr ⟨lo, h2, Or.inr ⟨hi, h3, Or.inr ⟨vp, h4, ?_⟩⟩⟩⟩
    rcases h1 with h1 | h1
    · exact Or.inl h1
    · exact Or.inr (h1.imp (h _) (Or.imp (h _) (Or.imp (h _) (h _))))

section
variable {E₁ E₂ E₂' : Type}

/-- the message of the generator in the document of a vote proof -/
theorem encSigma_gen {C₁ : Codec E₁} {C₂ : Codec E₂} {p : SigmaProof E₁ E₂} {j : Json} (h : encSigma C₁ C₂ p = some (.ok j))
    {raw : SigmaRaw} (hr : rawSigma (some j) = .ok raw) : ∃ g, C₂.enc p.Params.GEC.G = some (.ok g) ∧ raw.Params.GEC.G = some g := by
  unfold encSigma encProofParams encGroupParams at h
  obtain ⟨w, _, h⟩ := bindEnc_inv h
  obtain ⟨kp, _, h⟩ := bindEnc_inv h
  obtain ⟨kq1, _, h⟩ := bindEnc_inv h
  obtain ⟨kq2, _, h⟩ := bindEnc_inv h
  obtain ⟨ps, hps, h⟩ := bindEnc_inv h
  obtain ⟨gff, h1, hps⟩ := bindEnc_inv hps
  obtain ⟨gec, h2, hps⟩ := bindEnc_inv hps
  obtain ⟨g₁, _, h1⟩ := bindEnc_inv h1
  obtain ⟨h₁, _, h1⟩ := bindEnc_inv h1
  obtain ⟨g₂, hg, h2⟩ := bindEnc_inv h2
  obtain ⟨h₂, _, h2⟩ := bindEnc_inv h2
  simp only [Option.some.injEq, Except.ok.injEq] at h hps h1 h2
  refine ⟨g₂, hg, ?_⟩
  rw [← h, ← hps, ← h1, ← h2] at hr
  unfold rawSigma at hr
  obtain ⟨kvs, e0, hr⟩ := except_bind_ok hr
  cases e0
  obtain ⟨_, -, hr⟩ := except_bind_ok hr
  obtain ⟨_, -, hr⟩ := except_bind_ok hr
  obtain ⟨_, -, hr⟩ := except_bind_ok hr
  obtain ⟨_, -, hr⟩ := except_bind_ok hr
  obtain ⟨_, -, hr⟩ := except_bind_ok hr
  obtain ⟨ps, hp, hr⟩ := except_bind_ok hr
  cases hr
  change rawProofParams [_] = _ at hp
  rw [rawProofParams_doc] at hp
  obtain ⟨_, -, hp⟩ := except_bind_ok hp
  obtain ⟨_, -, hp⟩ := except_bind_ok hp
  obtain ⟨_, -, hp⟩ := except_bind_ok hp
  obtain ⟨_, -, hp⟩ := except_bind_ok hp
  obtain ⟨_, -, hp⟩ := except_bind_ok hp
  obtain ⟨_, -, hp⟩ := except_bind_ok hp
  obtain ⟨_, -, hp⟩ := except_bind_ok hp
  obtain ⟨ge, hge, hp⟩ := except_bind_ok hp
  cases hp
  unfold rawGroupParams at hge
  obtain ⟨kvs, e0, hge⟩ := except_bind_ok hge
  cases e0
  obtain ⟨_, -, hge⟩ := except_bind_ok hge
  obtain ⟨_, -, hge⟩ := except_bind_ok hge
  cases hge
  rfl

/-- C88: a document with a generator of the curve on which the decoder panics crashes the server -/
theorem C88_generator (sha : Bytes → Bytes) (C₁ C₁' : Codec E₁) (C₂ : Codec E₂) (C₂' : Codec E₂') (pp : PublicParams E₁ E₂)
    (pp' : PublicParams E₁ E₂') (he : pp'.RPParams.GEC.I.elt = pp'.BPParams.GP.elt) (ballot b : BallotData E₁ E₂) (j g : Json) (t : Text)
    (e1 : encBallot C₁ C₂ ballot = some (.ok j)) (e2 : decBallot C₁ C₂ pp (some j) = some (.ok b))
    (eg : C₂.enc ballot.VoteProof.Params.GEC.G = some (.ok g)) (hg : C₂'.decode pp'.BPParams.GP.elt (some g) = none)
    (ht : IsText 10000 t j) : unmarshalAndVerify sha C₁' C₂' pp' (Utf8.encode t) = none := by
  have hp : JText.parse (Utf8.decode (Utf8.encode t)) = some j := by rw [Utf8.decode_encode, (C61_scanner _ _).mpr ht]
  have hn : decBallot C₁' C₂' pp' (some j) = none := by
    unfold encBallot at e1
    obtain ⟨ct, h0, e1⟩ := bindEnc_inv e1
    obtain ⟨lo, h1, e1⟩ := bindEnc_inv e1
    obtain ⟨hi, h2, e1⟩ := bindEnc_inv e1
    obtain ⟨vp, h3, e1⟩ := bindEnc_inv e1
    simp only [Option.some.injEq, Except.ok.injEq] at e1
    subst e1
    obtain ⟨jl, jh, jv, hP⟩ := parts_of e2
    rw [C84_ballot C₁' C₂' pp' _ he]
    have hb := hP.ballot
    unfold decCiphertext at hb
    cases hc : asObj (lookupField ballotFields
        [("ballot", ct), ("lbProof", lo), ("ubProof", hi), ("voteProof", vp)] "ballot") with
    | error e => rw [hc] at hb; simp at hb
    | ok kvs =>
    refine ⟨kvs, hc, Or.inr ⟨jl, hP.lower.1, Or.inr ⟨jh, hP.upper.1, Or.inr ⟨jv, hP.vote.1, ?_⟩⟩⟩⟩
    obtain ⟨g', g1, g2⟩ := encSigma_gen h3 hP.vote.1
    rw [eg] at g1
    simp only [Option.some.injEq, Except.ok.injEq] at g1
    subst g1
    exact Or.inr (Or.inl (by rw [g2]; exact hg))
  unfold unmarshalAndVerify decBallotBytesN
  rw [hp, ((C70_decode C₁' C₂' pp' _).1).mpr hn]

/-- the messages that two servers with the same ElGamal group hash for one document -/
theorem C88_challenge (sha : Bytes → Bytes) (hsha : ∀ m, (sha m).length = 32) (C₁ : Codec E₁) (C₂ : Codec E₂) (C₂' : Codec E₂')
    (pp : PublicParams E₁ E₂) (pp' : PublicParams E₁ E₂') (hf : pp.RPParams.GFF.I = pp'.RPParams.GFF.I) (b : Bytes)
    (h : unmarshalAndVerify sha C₁ C₂ pp b = some none) (h' : unmarshalAndVerify sha C₁ C₂' pp' b = some none) :
    ∃ t kvs lo hi vp ballot ballot', Decodes b t ∧ IsText 10000 t (.obj kvs) ∧
      Parts C₁ C₂ pp (lookupField ballotFields kvs) lo hi vp ballot ∧ Parts C₁ C₂' pp' (lookupField ballotFields kvs) lo hi vp ballot' ∧
      (ballot.VoteProof.W = ballot'.VoteProof.W ∧ ballot.VoteProof.Kp = ballot'.VoteProof.Kp) ∧
      ballot.VoteProof.Params.Bc = ballot'.VoteProof.Params.Bc ∧
      (sha ballot.VoteProof.hashed).take (ballot.VoteProof.Params.Bc.toNat / 8) =
        (sha ballot'.VoteProof.hashed).take (ballot.VoteProof.Params.Bc.toNat / 8) := by
  obtain ⟨t, kvs, lo, hi, vp, ballot, t1, t2, hp, hv⟩ := unmarshalAndVerify_accepts.mp h
  obtain ⟨t', kvs', lo', hi', vp', ballot', t1', t2', hp', hv'⟩ := unmarshalAndVerify_accepts.mp h'
  have e : some (Json.obj kvs) = some (Json.obj kvs') :=
    ((C75_document b _).mpr ⟨t, t1, t2⟩).symm.trans ((C75_document b _).mpr ⟨t', t1', t2'⟩)
  simp only [Option.some.injEq, Json.obj.injEq] at e
  subst e
  have el := hp.lower.1.symm.trans hp'.lower.1
  have eh := hp.upper.1.symm.trans hp'.upper.1
  have ev := hp.vote.1.symm.trans hp'.vote.1
  simp only [Except.ok.injEq] at el eh ev
  subst el eh ev
  obtain ⟨-, -, v, -⟩ := verifyVote_parts (C70_no_new_verdicts _ _ _ _ _ _ hv)
  obtain ⟨-, -, v', -⟩ := verifyVote_parts (C70_no_new_verdicts _ _ _ _ _ _ hv')
  obtain ⟨_, c, _, _, _, -, z2, -, -, -, -, hc, -⟩ := (sigma_verify_iff sha _ _).mp v
  obtain ⟨_, c', _, _, _, -, z2', -, -, -, -, hc', -⟩ := (sigma_verify_iff sha _ _).mp v'
  obtain ⟨-, e2, -, -, -, e6⟩ := decSigma_raw hp.vote.2
  obtain ⟨-, e2', -, -, -, e6'⟩ := decSigma_raw hp'.vote.2
  have hW : ballot.VoteProof.W = ballot'.VoteProof.W ∧ ballot.VoteProof.Kp = ballot'.VoteProof.Kp := by
    have d := hp.vote.2
    have d' := hp'.vote.2
    unfold decSigmaRaw at d d'
    rw [← hf] at d'
    unbind d with gff a1
    unbind d with gec a2
    unbind d with w a3
    unbind d with kp a4
    unbind d with kq1 a5
    unbind d with kq2 a6
    unbind d' with gff' a1'
    unbind d' with gec' a2'
    unbind d' with w' a3'
    unbind d' with kp' a4'
    unbind d' with kq1' a5'
    unbind d' with kq2' a6'
    simp only [Option.some.injEq] at d d'
    rw [← d, ← d']
    rw [a3] at a3'
    rw [a4] at a4'
    exact ⟨Option.some.inj a3', Option.some.inj a4'⟩
  have hB : ballot.VoteProof.Params.Bc = ballot'.VoteProof.Params.Bc := e6.trans e6'.symm
  have hcc : c = c' := by
    have : some c = some c' := by rw [← z2, ← z2', e2, e2']
    exact Option.some.inj this
  refine ⟨t, kvs, lo, hi, vp, ballot, ballot', t1, t2, hp, hp', hW, hB, ?_⟩
  have k := ((C28_challenge sha hsha _ _ _ _ _ _ _).2 c hc).1
  have k' := ((C28_challenge sha hsha _ _ _ _ _ _ _).2 c' hc').1
  rw [← hB] at k'
  have hs : setBytes ((sha ballot.VoteProof.hashed).take (ballot.VoteProof.Params.Bc.toNat / 8)) =
      setBytes ((sha ballot'.VoteProof.hashed).take (ballot.VoteProof.Params.Bc.toNat / 8)) := by
    have : (setBytes ((sha ballot.VoteProof.hashed).take (ballot.VoteProof.Params.Bc.toNat / 8)) : Int) =
        (setBytes ((sha ballot'.VoteProof.hashed).take (ballot.VoteProof.Params.Bc.toNat / 8)) : Int) :=
      k.symm.trans (hcc.trans k')
    exact_mod_cast this
  exact setBytes_inj (by rw [List.length_take, List.length_take, hsha, hsha]) hs

end

/-- how long the string of a decoded point is -/
theorem str_decoded {C : CirclCurve} (hc : StdCurve C.c) {r : Raw} {P : WPoint} (h : (wCodec C.c).decode ⟨0, 0⟩ r = some P) :
    (P = ⟨0, 0⟩ ∧ ((circlGrp C).str P).length = 1) ∨ (P ≠ ⟨0, 0⟩ ∧ ((circlGrp C).str P).length = 1 + 2 * C.c.byteLen) := by
  have hv : P.Valid C.c := by
    unfold Codec.decode at h
    cases hu : (wCodec C.c).unmarshal ⟨0, 0⟩ r with
    | none => rw [hu] at h; simp at h
    | some x =>
      obtain ⟨err, e⟩ := x
      rw [hu] at h
      simp only [Option.map_some, Option.some.injEq] at h
      subst h
      obtain ⟨h1, h2⟩ := C07_sound C.c hc _ _ _ _ hu
      cases err with
      | false => exact h1 rfl
      | true => exact Or.inl (h2 rfl)
  show _ ∧ (P.marshalBinary C.c).length = _ ∨ _ ∧ (P.marshalBinary C.c).length = _
  unfold WPoint.marshalBinary
  by_cases h0 : P = ⟨0, 0⟩
  · exact Or.inl ⟨h0, by rw [if_pos h0]; rfl⟩
  · refine Or.inr ⟨h0, ?_⟩
    obtain ⟨hp, -⟩ := hc.size
    obtain ⟨hx, hy, -⟩ := hv.resolve_left h0
    rw [if_neg h0, List.length_cons, List.length_append, fillBytes_length (hx.trans hp), fillBytes_length (hy.trans hp)]
    omega

/-- **C88** A byte string that a P-256 server and a P-384 server both accept has the identity for `Kq1` and `Kq2`, or the digests of
two different messages, the ones the servers hash for its vote proof, start with the same `Bc/8` bytes, `Bc` being the one in the
document. -/
theorem C88_two_servers (sha : Bytes → Bytes) (hsha : ∀ m, (sha m).length = 32) (dec dec' : Bytes → Option WPoint)
    (hash hash' : Bytes → WPoint) (pp pp' : PublicParams Int WPoint) (hf : pp.RPParams.GFF.I = pp'.RPParams.GFF.I)
    (he : pp.RPParams.GEC.I = circlGrp (p256Circl dec hash)) (he' : pp'.RPParams.GEC.I = circlGrp (p384Circl dec' hash')) (b : Bytes)
    (h : unmarshalAndVerify sha modPCodec (wCodec (p256Curve dec)) pp b = some none)
    (h' : unmarshalAndVerify sha modPCodec (wCodec (p384Curve dec')) pp' b = some none) :
    ∃ t kvs lo hi vp ballot ballot', Decodes b t ∧ IsText 10000 t (.obj kvs) ∧
      Parts modPCodec (wCodec (p256Curve dec)) pp (lookupField ballotFields kvs) lo hi vp ballot ∧
      Parts modPCodec (wCodec (p384Curve dec')) pp' (lookupField ballotFields kvs) lo hi vp ballot' ∧
      ((ballot.VoteProof.Kq1 = ⟨0, 0⟩ ∧ ballot.VoteProof.Kq2 = ⟨0, 0⟩ ∧ ballot'.VoteProof.Kq1 = ⟨0, 0⟩ ∧
          ballot'.VoteProof.Kq2 = ⟨0, 0⟩) ∨
        Collide sha (vp.Params.Bc / 8) ballot.VoteProof.hashed ballot'.VoteProof.hashed) := by
  obtain ⟨t, kvs, lo, hi, vp, ballot, ballot', t1, t2, hp, hp', ⟨hW, hK⟩, hB, hs⟩ :=
    C88_challenge sha hsha modPCodec _ _ pp pp' hf b h h'
  refine ⟨t, kvs, lo, hi, vp, ballot, ballot', t1, t2, hp, hp', ?_⟩
  have hBc : ballot.VoteProof.Params.Bc.toNat = vp.Params.Bc := by
    rw [(decSigma_raw hp.vote.2).2.2.2.2.2, UInt16.toNat_ofNat', Nat.mod_eq_of_lt (rawSigma_Bc hp.vote.1)]
  rw [hBc] at hs
  by_cases hm : ballot.VoteProof.hashed = ballot'.VoteProof.hashed
  swap
  · exact Or.inr ⟨hm, hs⟩
  refine Or.inl ?_
  have grp : ∀ {C : Codec WPoint} {p : PublicParams Int WPoint} {bl : BallotData Int WPoint},
      decSigmaRaw modPCodec C p.RPParams.GFF.I p.RPParams.GEC.I vp = some bl.VoteProof →
      bl.VoteProof.Params.GFF.I = p.RPParams.GFF.I ∧ bl.VoteProof.Params.GEC.I = p.RPParams.GEC.I ∧
      C.decode p.RPParams.GEC.I.elt vp.Kq1 = some bl.VoteProof.Kq1 ∧ C.decode p.RPParams.GEC.I.elt vp.Kq2 = some bl.VoteProof.Kq2 := by
    intro C p bl d
    unfold decSigmaRaw decGroupParams at d
    unbind d with gff a1
    unbind a1 with g1 b1
    unbind a1 with g2 b2
    unbind d with gec a2
    unbind a2 with g3 b3
    unbind a2 with g4 b4
    unbind d with w a3
    unbind d with kp a4
    unbind d with kq1 a5
    unbind d with kq2 a6
    simp only [Option.some.injEq] at d a1 a2
    rw [← d]
    exact ⟨by rw [← a1], by rw [← a2], a5, a6⟩
  obtain ⟨f1, f2, f3, f4⟩ := grp hp.vote.2
  obtain ⟨f1', f2', f3', f4'⟩ := grp hp'.vote.2
  unfold SigmaProof.hashed at hm
  rw [f1, f1', f2, f2', ← hf, hW, hK, he, he'] at hm
  simp only [List.append_assoc] at hm
  have hm' := List.append_cancel_left (List.append_cancel_left hm)
  have hl := congrArg List.length hm'
  rw [List.length_append, List.length_append] at hl
  rw [he] at f3 f4
  rw [he'] at f3' f4'
  have s1 := str_decoded (C := p256Circl dec hash) ⟨dec, Or.inl rfl⟩ f3
  have s2 := str_decoded (C := p256Circl dec hash) ⟨dec, Or.inl rfl⟩ f4
  have s3 := str_decoded (C := p384Circl dec' hash') ⟨dec', Or.inr rfl⟩ f3'
  have s4 := str_decoded (C := p384Circl dec' hash') ⟨dec', Or.inr rfl⟩ f4'
  rw [show (p256Circl dec hash).c.byteLen = 32 from rfl] at s1 s2
  rw [show (p384Circl dec' hash').c.byteLen = 48 from rfl] at s3 s4
  rcases s1 with ⟨r1, s1⟩ | ⟨r1, s1⟩ <;> rcases s2 with ⟨r2, s2⟩ | ⟨r2, s2⟩ <;> rcases s3 with ⟨r3, s3⟩ | ⟨r3, s3⟩ <;>
    rcases s4 with ⟨r4, s4⟩ | ⟨r4, s4⟩ <;> first | exact ⟨r1, r2, r3, r4⟩ | (exfalso; rw [s1, s2, s3, s4] at hl; omega)

/-- **C88** The deployed system (SHA-256, circl's hash to the curve): the bytes of every ballot of a P-384 voter crash a P-256 server.  In
the other direction: what the P-256 server accepts — the bytes of every ballot of a P-256 voter — crashes the P-384 server only if the
order of P-384 divides a challenge, and is accepted by it only if `Kq1` and `Kq2` are the identity or SHA-256 has a collision, in the
first `Bc/8` bytes, on the two messages the servers hash. -/
theorem C88_deployed (nan64 : BitVec 64) (dec dec' : Bytes → Option WPoint) :
    ∃ pp pp', setup nan64 (circlGrp (p256Real dec)) = some (.ok pp) ∧ setup nan64 (circlGrp (p384Real dec')) = some (.ok pp') ∧
      (∀ (rnd : CastRand) (ballot : BallotData Int WPoint),
        (0 ≤ rnd.rChoice ∧ rnd.rChoice < 1899) →
        (rnd.bp1.sL.length = 16 ∧ rnd.bp1.sR.length = 16 ∧ rnd.bp2.sL.length = 16 ∧ rnd.bp2.sR.length = 16) →
        (∀ s ∈ rnd.tape, 0 ≤ s.k ∧ s.k < 2 ^ 383) →
        castVote sha256 pp' rnd = .done ballot →
        ∃ t, encBallotText modPCodec (wCodec (p384Curve dec')) ballot = some (.ok t) ∧
          unmarshalAndVerify sha256 modPCodec (wCodec (p256Curve dec)) pp (Utf8.encode t) = none) ∧
      ∀ b, unmarshalAndVerify sha256 modPCodec (wCodec (p256Curve dec)) pp b = some none →
        ∃ t kvs, Decodes b t ∧ IsText 10000 t (.obj kvs) ∧
        (unmarshalAndVerify sha256 modPCodec (wCodec (p384Curve dec')) pp' b = none →
          ∃ lo hi vp ballot', Parts modPCodec (wCodec (p384Curve dec')) pp' (lookupField ballotFields kvs) lo hi vp ballot' ∧
            (ZeroChallenge sha256 (circlGrp (p384Real dec')) ballot'.BpLower ∨
              ZeroChallenge sha256 (circlGrp (p384Real dec')) ballot'.BpUpper)) ∧
        (unmarshalAndVerify sha256 modPCodec (wCodec (p384Curve dec')) pp' b = some none →
          ∃ lo hi vp ballot ballot', Parts modPCodec (wCodec (p256Curve dec)) pp (lookupField ballotFields kvs) lo hi vp ballot ∧
            Parts modPCodec (wCodec (p384Curve dec')) pp' (lookupField ballotFields kvs) lo hi vp ballot' ∧
            ((ballot.VoteProof.Kq1 = ⟨0, 0⟩ ∧ ballot.VoteProof.Kq2 = ⟨0, 0⟩ ∧ ballot'.VoteProof.Kq1 = ⟨0, 0⟩ ∧
                ballot'.VoteProof.Kq2 = ⟨0, 0⟩) ∨
              Collide sha256 (vp.Params.Bc / 8) ballot.VoteProof.hashed ballot'.VoteProof.hashed)) := by
  have row := RealRow.p256 dec
  have row' := RealRow.p384 dec'
  obtain ⟨pp, hpp, -, -, chk, -⟩ := C87_deployed nan64 row
  obtain ⟨pp', hpp', -, -, -, chk'⟩ := C87_deployed nan64 row'
  obtain ⟨Bb, hr, -⟩ := row.std.table
  obtain ⟨Bb', hr', hb1, hb2, -⟩ := row'.std.table
  obtain ⟨D, hD, dep, _⟩ := C47_curves nan64 (circlGrp (p256Real dec)) (fun s _ => ⟨_, rfl⟩) _ 256 Bb hr rfl
  obtain ⟨D', hD', dep', _⟩ := C47_curves nan64 (circlGrp (p384Real dec')) (fun s _ => ⟨_, rfl⟩) _ 384 Bb' hr' rfl
  rw [hD] at hpp
  rw [hD'] at hpp'
  simp only [Option.some.injEq, Except.ok.injEq] at hpp hpp'
  subst hpp hpp'
  refine ⟨D.pp, D'.pp, hD, hD', fun rnd ballot h1 h2 h3 h4 => ?_, fun b hb => ?_⟩
  · obtain ⟨pp'', hpp, h⟩ := C60_honest nan64 row'
    rw [hD'] at hpp
    simp only [Option.some.injEq, Except.ok.injEq] at hpp
    subst hpp
    obtain ⟨j, e1, e2, -⟩ := h rnd ballot h1 h2 h3 h4
    have e : encBallotText modPCodec (wCodec (p384Curve dec')) ballot = some (.ok (JText.print j)) := by
      unfold encBallotText
      rw [show encBallot modPCodec (wCodec (p384Curve dec')) ballot = some (.ok j) from e1]
      rfl
    refine ⟨_, e, ?_⟩
    obtain ⟨⟨l, -, f4, ht⟩, -⟩ := C61_marshalled modPCodec (wCodec (p384Curve dec')) JText.modP_flat (JText.w_flat _) D'.pp ballot _ e
    rw [show encBallot modPCodec (wCodec (p384Curve dec')) ballot = some (.ok j) from e1] at f4
    simp only [Option.some.injEq, Except.ok.injEq] at f4
    rw [← f4] at ht
    have hP : ballot.VoteProof.Params = D'.rp := by
      have ok := stdCircl_ord row'.std.circl
      have := ok.fact'
      let := ok.module
      let L₂ := ok.lawful
      obtain ⟨L₁, L, hok, hV, _⟩ := deployed_legal (circlGrp (p384Real dec')) D' _ 384 Bb' hr' L₂
        (fun s e hs he => by injection he with he; exact he ▸ (wLegal_iff _ _).mpr (row'.valid s)) dep'
      have vG : L.V D'.G := by rw [hV, dep'.G]; exact L₂.V_mulGen 1
      have hBb : -(2 ^ 63) ≤ D'.Bb ∧ D'.Bb < 2 ^ 63 := by rw [dep'.Bb]; exact ⟨hb1, hb2⟩
      unfold castVote at h4
      cases hd : drawChoice D'.pp rnd.rChoice with
      | none => rw [hd] at h4; simp at h4
      | some choice =>
        rw [hd] at h4
        obtain ⟨-, -, -, -, -, hP, -⟩ := castChoice_legal sha256 D' L₁ L 4 hok vG hBb choice rnd h2.1 h2.2.1 h2.2.2.1 h2.2.2.2 ballot h4
        exact hP
    have hG : ballot.VoteProof.Params.GEC.G = p384Gen := by
      rw [hP]
      show D'.EC.generator = p384Gen
      rw [dep'.EC]
      rfl
    refine C88_generator sha256 modPCodec modPCodec (wCodec (p384Curve dec')) (wCodec (p256Curve dec)) D'.pp D.pp rfl ballot ballot j
      (ecPointJson p384Gen.x p384Gen.y) _ e1 e2 ?_ ?_ ht
    · rw [hG]
      show marshalPoint 48 (p384Gen.marshalBinary (p384Curve dec')) = _
      unfold WPoint.marshalBinary
      rw [if_neg (by decide +kernel)]
      exact marshalPoint_fit _ _ _ (by decide +kernel) (by decide +kernel)
    · rw [(C84_points (p256Curve dec) (fun _ => true) _).1]
      exact Or.inr ⟨_, some (p384Gen.x : Int), some (p384Gen.y : Int), rfl, rfl, rfl, Or.inr (Or.inr ⟨_, _, rfl, rfl, by decide +kernel,
        Or.inl (show 256 ^ 33 ≤ p384Gen.x by decide +kernel)⟩)⟩
  · obtain ⟨t, kvs, t1, t2, hc⟩ := chk b hb
    refine ⟨t, kvs, t1, t2, fun hn => ?_, fun hn => ?_⟩
    · exact chk' b t kvs t1 t2 ⟨fun h => hc.points (h.mono fun r hr => hr.mono (show 32 ≤ 48 by decide)), hc.ranges, hc.vote⟩ hn
    · obtain ⟨t', kvs', lo, hi, vp, ballot, ballot', t1', t2', hp, hp', hr⟩ := C88_two_servers sha256 sha256_length dec dec' _ _ D.pp D'.pp
        (dep.FF.trans dep'.FF.symm) dep.EC dep'.EC b hb hn
      have e : some (Json.obj kvs) = some (Json.obj kvs') :=
        ((C75_document b _).mpr ⟨t, t1, t2⟩).symm.trans ((C75_document b _).mpr ⟨t', t1', t2'⟩)
      simp only [Option.some.injEq, Json.obj.injEq] at e
      subst e
      exact ⟨lo, hi, vp, ballot, ballot', hp, hp', hr⟩

/-- the message of the generator of P-384 crashes the decoder of P-256, that of P-256 is taken for the identity by the decoder of P-384 -/
example (dec dec' : Bytes → Option WPoint) :
    (wCodec (p256Curve dec)).decode ⟨0, 0⟩ (some (ecPointJson p384Gen.x p384Gen.y)) = none ∧
    (wCodec (p384Curve dec')).decode ⟨0, 0⟩ (some (ecPointJson p256Gen.x p256Gen.y)) = some ⟨0, 0⟩ := by
  constructor
  · rw [(C84_points (p256Curve dec) (fun _ => true) _).1]
    exact Or.inr ⟨_, some (p384Gen.x : Int), some (p384Gen.y : Int), rfl, rfl, rfl, Or.inr (Or.inr ⟨_, _, rfl, rfl, by decide +kernel,
      Or.inl (show 256 ^ 33 ≤ p384Gen.x by decide +kernel)⟩)⟩
  · have := C07_accepts_iff (p384Curve dec') ⟨dec', Or.inr rfl⟩ ⟨0, 0⟩ p256Gen.x p256Gen.y (show p256Gen.x < 256 ^ 48 by decide +kernel)
      (show p256Gen.y < 256 ^ 48 by decide +kernel) (by decide +kernel)
    rw [if_neg (fun h => absurd h.2.2 (show ¬ (p384Curve fun _ => none).onCurve ⟨p256Gen.x, p256Gen.y⟩ = true by decide +kernel))] at this
    exact congrArg (Option.map Prod.snd) this

/-- a ballot that two servers with the same ElGamal group both accept: the toy election, and the same with other bounds -/
example : (match castVote exSha3 exElection.pp exCast with
    | .done b => (match encBallotText modPCodec modPCodec b with
      | some (.ok t) => [exElection.pp, { exElection.pp with candidateMin := 0, candidateMax := 1 }].map fun pp =>
        unmarshalAndVerify exSha3 modPCodec modPCodec pp (Utf8.encode t)
      | _ => [])
    | _ => []) = [some none, some none] := by decide +kernel

end MscPoc
