import Verif.Lemmas.Legal
import Verif.Props.Codec

/-!
# C44–C45 — transport of ballots
-/

set_option autoImplicit false

namespace MscPoc

section
variable {E E₁ E₂ : Type}

/-! ## C44 -/

/-- **C44** Transport of every ballot with legal elements, P-256 and P-384: the ciphertext, all proof elements, all scalars and
the sigma parameters come back unchanged; the group handles and the range-proof parameters are the server's. -/
theorem C44_transport (c : WCurve) (hc : StdCurve c) (pp : PublicParams Int WPoint) (b : BallotData Int WPoint)
    (hb : BallotOk (fun _ => True) (WPoint.Valid c) b) :
    ∃ j, encBallot modPCodec (wCodec c) b = some (.ok j) ∧
      decBallot modPCodec (wCodec c) pp (some j) = some (.ok (received pp b)) :=
  ballot_roundtrip modPCodec_good (C06_json_roundtrip c hc) pp b hb

/-- C44: a ballot that carries the election's parameters comes back identical, so it gets the same verdict. -/
theorem C44_identical (c : WCurve) (hc : StdCurve c) (D : Election Int WPoint) (b : BallotData Int WPoint)
    (hb : BallotOk (fun _ => True) (WPoint.Valid c) b) (h1 : b.BpLower.Params = D.bp) (h2 : b.BpUpper.Params = D.bp)
    (h3 : b.BpLower.InnerProductProof.Params.GP = D.EC) (h4 : b.BpUpper.InnerProductProof.Params.GP = D.EC)
    (h5 : b.VoteProof.Params = D.rp) :
    ∃ j, encBallot modPCodec (wCodec c) b = some (.ok j) ∧ decBallot modPCodec (wCodec c) D.pp (some j) = some (.ok b) := by
  obtain ⟨j, e1, e2⟩ := C44_transport c hc D.pp b hb
  rw [received_eq D b h1 h2 h3 h4 h5] at e2
  exact ⟨j, e1, e2⟩

variable {q₁ q₂ : ℕ} {M₁ M₂ : Type} [AddCommGroup M₁] [Module (ZMod q₁) M₁] [AddCommGroup M₂]
  [Module (ZMod q₂) M₂]

/-- C44, end to end: whatever `castVote` returns is encoded, decoded to the same ballot, and accepted — for any two codecs that
transport the legal elements of the two groups. -/
theorem C44_end_to_end (sha : Bytes → Bytes) (D : Election E₁ E₂) (L₁ : Lawful D.FF q₁ M₁) (L₂ : Lawful D.EC q₂ M₂)
    (C₁ : Codec E₁) (C₂ : Codec E₂) (hC₁ : C₁.Good L₁.V) (hC₂ : C₂.Good L₂.V)
    (k : ℕ) (ok : D.OK L₁ L₂ k) (vG : L₂.V D.G) (hBb : -(2 ^ 63) ≤ D.Bb ∧ D.Bb < 2 ^ 63)
    (hlt : D.lo < D.hi) (hwidth : D.hi.toNat - D.lo.toNat < 2 ^ (2 ^ k)) (rnd : CastRand)
    (hr : 0 ≤ rnd.rChoice ∧ rnd.rChoice < (D.hi - D.lo).toNat)
    (l1 : rnd.bp1.sL.length = 2 ^ k) (l2 : rnd.bp1.sR.length = 2 ^ k) (l3 : rnd.bp2.sL.length = 2 ^ k)
    (l4 : rnd.bp2.sR.length = 2 ^ k) (hk : ∀ s ∈ rnd.tape, 0 ≤ s.k ∧ s.k < D.rp.zUpperBound)
    (ballot : BallotData E₁ E₂) (h : castVote sha D.pp rnd = .done ballot) :
    ∃ j, encBallot C₁ C₂ ballot = some (.ok j) ∧ ∃ b, decBallot C₁ C₂ D.pp (some j) = some (.ok b) ∧ b = ballot ∧
      verifyVote sha b D.rp = some { result := true, times := [0, 0] } := by
  have hacc := (C41_honest_accepted sha D L₁ L₂ k ok hlt hwidth rnd hr l1 l2 l3 l4 hk ballot h).1
  unfold castVote at h
  cases hd : drawChoice D.pp rnd.rChoice with
  | none => rw [hd] at h; simp at h
  | some choice =>
    rw [hd] at h
    obtain ⟨hb, h1, h2, h3, h4, h5, _⟩ := castChoice_legal sha D L₁ L₂ k ok vG hBb choice rnd l1 l2 l3 l4 ballot h
    obtain ⟨j, e1, e2⟩ := ballot_roundtrip hC₁ hC₂ D.pp ballot hb
    rw [received_eq D ballot h1 h2 h3 h4 h5] at e2
    exact ⟨j, e1, ballot, e2, rfl, hacc⟩

/-- C44: the codecs the program uses are such codecs: every integer, and every point of P-256 or P-384. -/
theorem C44_codecs (c : WCurve) (hc : StdCurve c) : modPCodec.Good (fun _ => True) ∧ (wCodec c).Good (WPoint.Valid c) :=
  ⟨modPCodec_good, C06_json_roundtrip c hc⟩

/-- C44 on the toy election: cast, encode, decode, verify. -/
example : (match castVote exSha3 exElection.pp exCast with
    | .done b => (match encBallot modPCodec modPCodec b with
      | some (.ok j) => (match decBallot modPCodec modPCodec exElection.pp (some j) with
        | some (.ok b) => verifyVote exSha3 b exElection.rp
        | _ => none)
      | _ => none)
    | _ => none) = some ⟨true, [0, 0]⟩ := by decide +kernel

/-- a P-256 proof skeleton with real points -/
def exP256Ballot (GP : Grp WPoint) (FF : Grp Int) : BallotData Int WPoint :=
  let ip : IPProof WPoint := ⟨p256Five, some 5, some (-3), none, [p256Gen], [p256Five], ⟨[p256Gen], [⟨0, 0⟩], p256Gen, GP⟩⟩
  let bp : BulletProof WPoint := ⟨p256Gen, p256Five, ⟨0, 0⟩, p256Gen, p256Gen, some 1, none, some 2, ip,
    ⟨1, p256Gen, p256Five, [p256Gen], [p256Five], GP⟩⟩
  ⟨⟨5, 7⟩, bp, bp, ⟨1, 2, p256Gen, p256Five, some 3, some 4, none, some 5, some 6,
    ⟨16, 224, 256, 15, 101, 2000, ⟨2, 3, some 5, none, FF⟩, ⟨p256Gen, p256Five, none, some 9, GP⟩⟩⟩⟩

/-- C44: the hypotheses are met by a ballot over real P-256 points. -/
example (d : Bytes → Option WPoint) (GP : Grp WPoint) (FF : Grp Int) : StdCurve (p256Curve d) ∧
    BallotOk (fun _ => True) (WPoint.Valid (p256Curve d)) (exP256Ballot GP FF) := by
  have h0 : WPoint.Valid (p256Curve d) ⟨0, 0⟩ := Or.inl rfl
  have h1 : WPoint.Valid (p256Curve d) p256Gen := Or.inr (by unfold p256Gen p256Curve; norm_num)
  have h2 : WPoint.Valid (p256Curve d) p256Five := Or.inr (by unfold p256Five p256Curve; norm_num)
  have bp : BPOk (WPoint.Valid (p256Curve d)) (exP256Ballot GP FF).BpLower :=
    { com := h1, A := h2, S := h0, T1 := h1, T2 := h1
      ip := { P := h2, L := by simpa [exP256Ballot] using h1, R := by simpa [exP256Ballot] using h2, len := rfl
              params := ⟨by simpa [exP256Ballot] using h1, by simpa [exP256Ballot] using h0, h1, rfl⟩ }
      params := ⟨h1, h2, by simpa [exP256Ballot] using h1, by simpa [exP256Ballot] using h2⟩ }
  exact ⟨⟨d, Or.inl rfl⟩, ⟨trivial, trivial, bp, bp, ⟨trivial, trivial, h1, h2, trivial, trivial, h1, h2, by
    change -(2 ^ 63) ≤ (15 : Int) ∧ (15 : Int) < 2 ^ 63; decide⟩⟩⟩

end

section
variable {E E₁ E₂ : Type}

theorem except_bind {α β : Type} {x : Except String α} {f : α → Except String β} {b : β} (h : x >>= f = .ok b) :
    ∃ a, x = .ok a ∧ f a = .ok b := by
  cases x with
  | error e => exact absurd h (by simp [bind, Except.bind])
  | ok a => exact ⟨a, rfl, h⟩

theorem bindEnc_inv {α β : Type} {x : Option (Except String α)} {f : α → Option (Except String β)} {b : β}
    (h : bindEnc x f = some (.ok b)) : ∃ a, x = some (.ok a) ∧ f a = some (.ok b) := by
  cases x with
  | none => exact absurd h (by simp [bindEnc])
  | some x => cases x with
    | error e => exact absurd h (by simp [bindEnc])
    | ok a => exact ⟨a, rfl, h⟩

/-- what the first stage of the range-proof decoder extracts -/
theorem rawBP_fields {r : Raw} {j : BPRaw} (h : rawBP r = .ok j) : ∃ kvs, asObj r = .ok kvs ∧
    j.V = lookupField bpFields kvs "V" ∧ j.A = lookupField bpFields kvs "A" ∧ j.S = lookupField bpFields kvs "S" ∧
    j.T1 = lookupField bpFields kvs "T1" ∧ j.T2 = lookupField bpFields kvs "T2" := by
  unfold rawBP at h
  obtain ⟨kvs, e, h⟩ := except_bind h
  obtain ⟨_, _, h⟩ := except_bind h
  obtain ⟨_, _, h⟩ := except_bind h
  obtain ⟨_, _, h⟩ := except_bind h
  obtain ⟨_, _, h⟩ := except_bind h
  simp only [pure, Except.pure, Except.ok.injEq] at h
  subst h
  exact ⟨kvs, e, rfl, rfl, rfl, rfl, rfl⟩

theorem decBP_inv {C : Codec E} {params : BPParams E} {r : Raw} {p : BulletProof E}
    (h : decBP C params r = some (.ok p)) : ∃ j, rawBP r = .ok j ∧ decBPRaw C params j = some p := by
  unfold decBP at h
  cases hj : rawBP r with
  | error e => rw [hj] at h; simp at h
  | ok j =>
    rw [hj] at h
    dsimp only at h
    cases hd : decBPRaw C params j with
    | none => rw [hd] at h; simp at h
    | some p' => rw [hd] at h; simp at h; exact ⟨j, rfl, by rw [hd, h]⟩

theorem decPairs_forall {GP : Grp E} {C : Codec E} {Q : E → Prop}
    (hQ : ∀ data e, C.decode GP.elt data = some e → Q e) : ∀ {xs ys : List Json} {as bs : List E},
    decPairs GP C xs ys = some (as, bs) → (∀ e ∈ as, Q e) ∧ (∀ e ∈ bs, Q e) ∧ as.length = bs.length ∧ as.length = xs.length
  | [], _, as, bs, h => by
    unfold decPairs at h
    simp only [Option.some.injEq, Prod.mk.injEq] at h
    obtain ⟨rfl, rfl⟩ := h
    simp
  | _ :: _, [], _, _, h => by simp [decPairs] at h
  | x :: xs, y :: ys, as, bs, h => by
    unfold decPairs at h
    unbind h with a ea
    unbind h with b eb
    unbind h with ab eab
    obtain ⟨as', bs'⟩ := ab
    simp only [Option.some.injEq, Prod.mk.injEq] at h
    obtain ⟨rfl, rfl⟩ := h
    obtain ⟨h1, h2, h3, h4⟩ := decPairs_forall hQ eab
    refine ⟨?_, ?_, by simp [h3], by simp [h4]⟩
    · intro e he
      rcases List.mem_cons.mp he with rfl | he
      · exact hQ _ _ ea
      · exact h1 e he
    · intro e he
      rcases List.mem_cons.mp he with rfl | he
      · exact hQ _ _ eb
      · exact h2 e he

/-- every element of a decoded range proof comes out of the element decoder -/
theorem decBP_forall {C : Codec E} {params : BPParams E} {Q : E → Prop}
    (hQ : ∀ data e, C.decode params.GP.elt data = some e → Q e) {r : Raw} {p : BulletProof E}
    (h : decBP C params r = some (.ok p)) :
    (Q p.V ∧ Q p.A ∧ Q p.S ∧ Q p.T1 ∧ Q p.T2) ∧ IPProofOk Q p.InnerProductProof ∧ p.Params = params := by
  obtain ⟨j, _, h⟩ := decBP_inv h
  unfold decBPRaw at h
  dsimp only at h
  unbind h with ip eip
  unbind h with v ev
  unbind h with a ea
  unbind h with s es
  unbind h with t1 et1
  unbind h with t2 et2
  simp only [Option.some.injEq] at h
  subst h
  refine ⟨⟨hQ _ _ ev, hQ _ _ ea, hQ _ _ es, hQ _ _ et1, hQ _ _ et2⟩, ?_, rfl⟩
  unfold decIPProof at eip
  unbind eip with ps eps
  unbind eip with lr elr
  obtain ⟨l, r⟩ := lr
  dsimp only at eip
  unbind eip with p ep
  simp only [Option.some.injEq] at eip
  subst eip
  unfold decIPParams at eps
  unbind eps with u eu
  unbind eps with gh egh
  obtain ⟨gg, hh⟩ := gh
  simp only [Option.some.injEq] at eps
  subst eps
  obtain ⟨a1, a2, a3, _⟩ := decPairs_forall hQ elr
  obtain ⟨b1, b2, b3, _⟩ := decPairs_forall hQ egh
  exact ⟨hQ _ _ ep, a1, a2, a3, ⟨b1, b2, hQ _ _ eu, b3⟩⟩

/-- C44: with secp256k1 nothing survives: every point of every decoded range proof is the fresh element. -/
theorem C44_secp256k1_loses (params : BPParams K1Point) (r : Raw) (p : BulletProof K1Point)
    (h : decBP k1Codec params r = some (.ok p)) :
    p.V = params.GP.elt ∧ p.A = params.GP.elt ∧ p.S = params.GP.elt ∧ p.T1 = params.GP.elt ∧ p.T2 = params.GP.elt ∧
    (∀ e ∈ p.InnerProductProof.L ++ p.InnerProductProof.R, e = params.GP.elt) := by
  obtain ⟨⟨h1, h2, h3, h4, h5⟩, hip, _⟩ := decBP_forall (Q := fun e => e = params.GP.elt) (fun data e he => by
    change some params.GP.elt = some e at he
    exact (Option.some.inj he).symm) h
  refine ⟨h1, h2, h3, h4, h5, fun e he => ?_⟩
  rcases List.mem_append.mp he with he | he
  · exact hip.L e he
  · exact hip.R e he

/-- C44: with ristretto255 nothing survives either; and a ballot whose commitment's encoding does not begin with a zero byte makes
the encoder panic. -/
theorem C44_ristretto_loses (valid : Bytes → Bool) (params : BPParams R255Point) (r : Raw) (p : BulletProof R255Point)
    (h : decBP (r255Codec valid) params r = some (.ok p)) :
    p.V = params.GP.elt ∧ p.A = params.GP.elt ∧ p.S = params.GP.elt ∧ p.T1 = params.GP.elt ∧ p.T2 = params.GP.elt ∧
    (∀ e ∈ p.InnerProductProof.L ++ p.InnerProductProof.R, e = params.GP.elt) := by
  obtain ⟨⟨h1, h2, h3, h4, h5⟩, hip, _⟩ := decBP_forall (Q := fun e => e = params.GP.elt) (fun data e he => by
    unfold Codec.decode at he
    cases hu : (r255Codec valid).unmarshal params.GP.elt data with
    | none => rw [hu] at he; simp at he
    | some u =>
      rw [hu] at he
      obtain ⟨err, e'⟩ := u
      simp at he
      rw [← he]
      exact (C09_unmarshal_never valid _ _ _ _ hu).2) h
  refine ⟨h1, h2, h3, h4, h5, fun e he => ?_⟩
  rcases List.mem_append.mp he with he | he
  · exact hip.L e he
  · exact hip.R e he

theorem C44_ristretto_panics (valid : Bytes → Bool) (p : BulletProof R255Point) (hl : p.V.enc.length = 32)
    (h0 : p.V.enc[0]? ≠ some 0) : encBP (r255Codec valid) p = none := by
  have := C09_marshal valid p.V hl
  rw [if_neg h0] at this
  unfold encBP Codec.enc
  rw [this]
  rfl

/-! ## C45 -/

theorem lookupField_mem {fields : List String} {kvs : List (String × Json)} {f : String} {j : Json}
    (h : lookupField fields kvs f = some j) : ∃ kv ∈ kvs, fieldOf fields kv.1 = some f ∧ kv.2 = j := by
  unfold lookupField at h
  rw [Option.map_eq_some_iff] at h
  obtain ⟨kv, hkv, rfl⟩ := h
  exact ⟨kv, by simpa using List.mem_of_find?_eq_some hkv, by simpa using List.find?_some hkv, rfl⟩

theorem asObj_ok {r : Raw} {kvs : List (String × Json)} (h : asObj r = .ok kvs) :
    (r = some .null ∧ kvs = []) ∨ r = some (.obj kvs) := by
  unfold asObj at h
  split at h <;> simp_all

theorem decBallot_kvs (C₁ : Codec E₁) (C₂ : Codec E₂) (pp : PublicParams E₁ E₂) (r : Raw) :
    ∃ kvs, (asObj r = .ok kvs ∨ kvs = []) ∧ decBallot C₁ C₂ pp r =
      bindEnc (decCiphertext pp.RPParams.GFF.I C₁ (lookupField ballotFields kvs "ballot")) fun ballot =>
      bindEnc (decBP C₂ pp.BPParams (lookupField ballotFields kvs "lbProof")) fun lo =>
      bindEnc (decBP C₂ pp.BPParams (lookupField ballotFields kvs "ubProof")) fun hi =>
      bindEnc (decSigma C₁ C₂ pp.RPParams.GFF.I pp.RPParams.GEC.I (lookupField ballotFields kvs "voteProof")) fun vp =>
      some (.ok { Ballot := ballot, BpLower := lo, BpUpper := hi, VoteProof := vp }) := by
  unfold decBallot
  cases asObj r with
  | ok kvs => exact ⟨kvs, Or.inl rfl, rfl⟩
  | error e => exact ⟨[], Or.inr rfl, rfl⟩

/-- **C45** The decoder returns a ballot only for an object in which each of the four parts is present and is an object or `null`. -/
theorem C45_parts (C₁ : Codec E₁) (C₂ : Codec E₂) (pp : PublicParams E₁ E₂) (r : Raw) (b : BallotData E₁ E₂)
    (h : decBallot C₁ C₂ pp r = some (.ok b)) :
    ∃ kvs, r = some (.obj kvs) ∧ ∀ f ∈ ["ballot", "lbProof", "ubProof", "voteProof"],
      ∃ kv ∈ kvs, fieldOf ballotFields kv.1 = some f ∧ (kv.2 = .null ∨ ∃ o, kv.2 = .obj o) := by
  obtain ⟨kvs, hkvs, hdec⟩ := decBallot_kvs C₁ C₂ pp r
  rw [hdec] at h
  obtain ⟨ct, e1, h⟩ := bindEnc_inv h
  obtain ⟨lo, e2, h⟩ := bindEnc_inv h
  obtain ⟨hi, e3, h⟩ := bindEnc_inv h
  obtain ⟨vp, e4, h⟩ := bindEnc_inv h
  have key : ∀ f o, asObj (lookupField ballotFields kvs f) = .ok o →
      ∃ kv ∈ kvs, fieldOf ballotFields kv.1 = some f ∧ (kv.2 = .null ∨ ∃ o, kv.2 = .obj o) := by
    intro f o ho
    rcases asObj_ok ho with ⟨h1, _⟩ | h1
    · obtain ⟨kv, m1, m2, m3⟩ := lookupField_mem h1
      exact ⟨kv, m1, m2, Or.inl m3⟩
    · obtain ⟨kv, m1, m2, m3⟩ := lookupField_mem h1
      exact ⟨kv, m1, m2, Or.inr ⟨_, m3⟩⟩
  have k1 : ∃ o, asObj (lookupField ballotFields kvs "ballot") = .ok o := by
    unfold decCiphertext at e1
    cases ho : asObj (lookupField ballotFields kvs "ballot") with
    | error e => rw [ho] at e1; simp at e1
    | ok o => exact ⟨o, rfl⟩
  have k2 : ∃ o, asObj (lookupField ballotFields kvs "lbProof") = .ok o := by
    obtain ⟨j, hj, _⟩ := decBP_inv e2
    obtain ⟨o, ho, _⟩ := rawBP_fields hj
    exact ⟨o, ho⟩
  have k3 : ∃ o, asObj (lookupField ballotFields kvs "ubProof") = .ok o := by
    obtain ⟨j, hj, _⟩ := decBP_inv e3
    obtain ⟨o, ho, _⟩ := rawBP_fields hj
    exact ⟨o, ho⟩
  have k4 : ∃ o, asObj (lookupField ballotFields kvs "voteProof") = .ok o := by
    unfold decSigma at e4
    cases hj : rawSigma (lookupField ballotFields kvs "voteProof") with
    | error e => rw [hj] at e4; simp at e4
    | ok j =>
      unfold rawSigma at hj
      obtain ⟨o, ho, _⟩ := except_bind hj
      exact ⟨o, ho⟩
  have hr : r = some (.obj kvs) := by
    obtain ⟨o', ho'⟩ := k1
    obtain ⟨kv, hm, _⟩ := key _ _ ho'
    rcases hkvs with ha | h0
    · rcases asObj_ok ha with ⟨_, h0⟩ | h0
      · rw [h0] at hm
        exact absurd hm (by simp)
      · exact h0
    · rw [h0] at hm
      exact absurd hm (by simp)
  refine ⟨kvs, hr, fun f hf => ?_⟩
  simp only [List.mem_cons, List.not_mem_nil, or_false] at hf
  rcases hf with rfl | rfl | rfl | rfl
  · exact key _ _ k1.choose_spec
  · exact key _ _ k2.choose_spec
  · exact key _ _ k3.choose_spec
  · exact key _ _ k4.choose_spec

/-- C45: text that is not a JSON object is reported as an error — by the first part, since the outer error is overwritten. -/
theorem C45_not_object (C₁ : Codec E₁) (C₂ : Codec E₂) (pp : PublicParams E₁ E₂) (r : Raw) (h : ∀ kvs, r ≠ some (.obj kvs)) :
    decBallot C₁ C₂ pp r = some (.error "unexpected end of JSON input") := by
  obtain ⟨kvs, hkvs, hdec⟩ := decBallot_kvs C₁ C₂ pp r
  have hk : kvs = [] := by
    rcases hkvs with ha | h0
    · rcases asObj_ok ha with ⟨_, h0⟩ | h0
      · exact h0
      · exact absurd h0 (h _)
    · exact h0
  rw [hdec, hk]
  rfl

theorem lookupField_append (fields : List String) (kvs : List (String × Json)) (k : String) (v : Json) (f : String) :
    lookupField fields (kvs ++ [(k, v)]) f = if fieldOf fields k = some f then some v else lookupField fields kvs f := by
  unfold lookupField
  rw [List.reverse_append, List.reverse_cons, List.reverse_nil, List.nil_append, List.singleton_append, List.find?_cons]
  by_cases h : fieldOf fields k = some f
  · rw [if_pos h]; simp [h]
  · rw [if_neg h]
    have : (fieldOf fields k == some f) = false := by simpa using h
    simp only [this]

theorem lookupField_filter (fields : List String) (g : String) (f : String) (hfg : f ≠ g) : ∀ kvs : List (String × Json),
    lookupField fields (kvs.filter fun kv => fieldOf fields kv.1 != some g) f = lookupField fields kvs f := by
  intro kvs
  induction kvs using List.reverseRecOn with
  | nil => rfl
  | append_singleton kvs kv ih =>
    obtain ⟨k, v⟩ := kv
    rw [List.filter_append, lookupField_append]
    by_cases h : fieldOf fields k = some g
    · have e : List.filter (fun kv : String × Json => fieldOf fields kv.1 != some g) [(k, v)] = [] := by simp [h]
      rw [e, List.append_nil, ih, if_neg]
      rw [h]
      simpa using fun e => hfg e.symm
    · have e : List.filter (fun kv : String × Json => fieldOf fields kv.1 != some g) [(k, v)] = [(k, v)] := by simp [h]
      rw [e, lookupField_append, ih]

/-- **C45** Repeated parts: the last occurrence counts, earlier ones (exact or up to case) are not looked at. -/
theorem C45_last_wins (C₁ : Codec E₁) (C₂ : Codec E₂) (pp : PublicParams E₁ E₂) (kvs : List (String × Json)) (k f : String)
    (v : Json) (hk : fieldOf ["ballot", "lbProof", "ubProof", "voteProof"] k = some f) :
    decBallot C₁ C₂ pp (some (.obj (kvs ++ [(k, v)]))) =
      decBallot C₁ C₂ pp (some (.obj
        ((kvs.filter fun kv => fieldOf ["ballot", "lbProof", "ubProof", "voteProof"] kv.1 != some f) ++ [(k, v)]))) := by
  have h : ∀ g, lookupField ballotFields (kvs ++ [(k, v)]) g = lookupField ballotFields
      ((kvs.filter fun kv => fieldOf ["ballot", "lbProof", "ubProof", "voteProof"] kv.1 != some f) ++ [(k, v)]) g := by
    intro g
    rw [lookupField_append, lookupField_append]
    by_cases hg : fieldOf ballotFields k = some g
    · rw [if_pos hg, if_pos hg]
    · rw [if_neg hg, if_neg hg]
      refine (lookupField_filter ballotFields f g ?_ kvs).symm
      rintro rfl
      exact hg hk
  unfold decBallot asObj
  simp only [h]

/-- **C45** Members with other names are ignored, wherever they stand. -/
theorem C45_unknown_ignored (C₁ : Codec E₁) (C₂ : Codec E₂) (pp : PublicParams E₁ E₂) (kvs kvs' : List (String × Json))
    (k : String) (v : Json) (hk : fieldOf ["ballot", "lbProof", "ubProof", "voteProof"] k = none) :
    decBallot C₁ C₂ pp (some (.obj (kvs ++ (k, v) :: kvs'))) = decBallot C₁ C₂ pp (some (.obj (kvs ++ kvs'))) := by
  have h : ∀ g, lookupField ballotFields (kvs ++ (k, v) :: kvs') g = lookupField ballotFields (kvs ++ kvs') g := by
    intro g
    induction kvs' using List.reverseRecOn with
    | nil =>
      rw [lookupField_append, List.append_nil, if_neg]
      show ¬ fieldOf ["ballot", "lbProof", "ubProof", "voteProof"] k = some g
      rw [hk]; simp
    | append_singleton l kv ih =>
      obtain ⟨k', v'⟩ := kv
      have e : kvs ++ (k, v) :: (l ++ [(k', v')]) = (kvs ++ (k, v) :: l) ++ [(k', v')] := by simp
      rw [e, ← List.append_assoc, lookupField_append, lookupField_append, ih]
  unfold decBallot asObj
  simp only [h]

/-- C45: the key resolution of the two theorems above on concrete keys: exact, up to case, unknown. -/
example : fieldOf ["ballot", "lbProof", "ubProof", "voteProof"] "lbProof" = some "lbProof" ∧
    fieldOf ["ballot", "lbProof", "ubProof", "voteProof"] "LBPROOF" = some "lbProof" ∧
    fieldOf ["ballot", "lbProof", "ubProof", "voteProof"] "lowerProof" = none ∧
    lookupField ballotFields [("ballot", .num 1), ("BALLOT", .num 2), ("x", .num 3)] "ballot" = some (.num 2) := by
  refine ⟨by decide, by decide, by decide, rfl⟩

/-- C45: no curve point that the decoder returns is off the curve: it is a point of P-256 / P-384 or the fresh element. -/
theorem C45_points_on_curve (c : WCurve) (hc : StdCurve c) (params : BPParams WPoint) (helt : params.GP.elt.Valid c) (r : Raw)
    (p : BulletProof WPoint) (h : decBP (wCodec c) params r = some (.ok p)) :
    (p.V.Valid c ∧ p.A.Valid c ∧ p.S.Valid c ∧ p.T1.Valid c ∧ p.T2.Valid c) ∧
      IPProofOk (WPoint.Valid c) p.InnerProductProof ∧ p.Params = params :=
  decBP_forall (Q := WPoint.Valid c) (fun data e he => by
    unfold Codec.decode at he
    cases hu : (wCodec c).unmarshal params.GP.elt data with
    | none => rw [hu] at he; simp at he
    | some u =>
      rw [hu] at he
      obtain ⟨err, e'⟩ := u
      simp only [Option.map_some, Option.some.injEq] at he
      subst he
      obtain ⟨s1, s2⟩ := C07_sound c hc _ _ _ _ hu
      cases err with
      | false => exact s1 rfl
      | true => rw [s2 rfl]; exact helt) h

/-- C45: an undecodable commitment is not an error: the proof is returned with the fresh element in its place. -/
theorem C45_bad_point_replaced (C : Codec E) (params : BPParams E) (kvs : List (String × Json)) (p : BulletProof E)
    (hbad : C.unmarshal params.GP.elt (lookupField bpFields kvs "V") = some (true, params.GP.elt))
    (h : decBP C params (some (.obj kvs)) = some (.ok p)) : p.V = params.GP.elt := by
  obtain ⟨j, hj, h⟩ := decBP_inv h
  obtain ⟨kvs', e, hV, _⟩ := rawBP_fields hj
  rcases asObj_ok e with ⟨h0, _⟩ | h0
  · simp at h0
  simp only [Option.some.injEq, Json.obj.injEq] at h0
  subst h0
  unfold decBPRaw at h
  dsimp only at h
  unbind h with ip eip
  unbind h with v ev
  unbind h with a ea
  unbind h with s es
  unbind h with t1 et1
  unbind h with t2 et2
  simp only [Option.some.injEq] at h
  subst h
  rw [hV] at ev
  unfold Codec.decode at ev
  rw [hbad] at ev
  simpa using ev.symm

/-- C45: a `null` commitment is never decoded: it is a panic, unless an error was reported before. -/
theorem C45_null_point (c : WCurve) (params : BPParams WPoint) (kvs : List (String × Json))
    (hV : lookupField bpFields kvs "V" = some .null) :
    decBP (wCodec c) params (some (.obj kvs)) = none ∨ ∃ e, decBP (wCodec c) params (some (.obj kvs)) = some (.error e) := by
  cases hd : decBP (wCodec c) params (some (.obj kvs)) with
  | none => exact Or.inl rfl
  | some x => cases x with
    | error e => exact Or.inr ⟨e, rfl⟩
    | ok p =>
      exfalso
      obtain ⟨j, hj, h⟩ := decBP_inv hd
      obtain ⟨kvs', e, hV', _⟩ := rawBP_fields hj
      rcases asObj_ok e with ⟨h0, _⟩ | h0
      · simp at h0
      simp only [Option.some.injEq, Json.obj.injEq] at h0
      subst h0
      unfold decBPRaw at h
      dsimp only at h
      unbind h with ip eip
      unbind h with v ev
      rw [hV', hV] at ev
      change none = some v at ev
      simp at ev

/-- C45: a proof without one of its scalars makes the verifier panic (or, for a missing `Cc`, `a`, `b`: panic if it gets that far;
it never returns a verdict). -/
theorem C45_missing_scalar (sha : Bytes → Bytes) (p : BulletProof E)
    (h : p.Tprime = none ∨ p.Taux = none ∨ p.Mu = none ∨ p.InnerProductProof.Cc = none ∨ p.InnerProductProof.A = none ∨
      p.InnerProductProof.B = none) : p.verify sha = none := by
  cases hv : p.verify sha with
  | none => rfl
  | some v =>
    exfalso
    unfold BulletProof.verify at hv
    dsimp only at hv
    unbind hv with hp e1
    unbind hv with tp e2
    unbind hv with ta e3
    unbind hv with d e4
    unbind hv with g e5
    unbind hv with he e6
    unbind hv with mu e7
    unbind hv with ok e8
    unfold IPProof.verify at e8
    dsimp only at e8
    unbind e8 with cc f1
    unbind e8 with x f2
    unbind e8 with l f3
    unbind e8 with a f4
    unbind e8 with b f5
    rcases h with h | h | h | h | h | h <;> simp_all

/-- a document whose four parts are all `null` -/
def nullBallot : Json := .obj [("ballot", .null), ("lbProof", .null), ("ubProof", .null), ("voteProof", .null)]

/-- C45: the document with four `null` parts decodes without an error, and `verifyVote` panics on the result. -/
theorem C45_null_parts (sha : Bytes → Bytes) (c : WCurve) (pp : PublicParams Int WPoint) :
    ∃ b, decBallot modPCodec (wCodec c) pp (some nullBallot) = some (.ok b) ∧ ∀ rp, verifyVote sha b rp = none := by
  refine ⟨_, rfl, fun rp => ?_⟩
  unfold verifyVote
  rw [C45_missing_scalar sha _ (Or.inl rfl)]
  rfl

/-- an object with a commitment off the curve and everything else missing -/
def offCurveProof : List (String × Json) := [("V", ecPointJson 1 1)]

/-- C45: `(1, 1)` is not on P-256; the proof is decoded all the same, with the fresh element as commitment; and a `null`
commitment makes the decoder panic. -/
example (d : Bytes → Option WPoint) (params : BPParams WPoint) :
    (wCodec (p256Curve d)).unmarshal params.GP.elt (lookupField bpFields offCurveProof "V") = some (true, params.GP.elt) ∧
    (∃ p, decBP (wCodec (p256Curve d)) params (some (.obj offCurveProof)) = some (.ok p) ∧ p.V = params.GP.elt) ∧
    decBP (wCodec (p256Curve d)) params (some (.obj [("V", .null)])) = none := by
  have e : ∀ recv, (wCodec (p256Curve d)).unmarshal recv (some (ecPointJson 1 1)) = some (true, recv) := by
    intro recv
    have h := C07_accepts_iff (p256Curve d) ⟨d, Or.inl rfl⟩ recv 1 1 (by unfold p256Curve; norm_num)
      (by unfold p256Curve; norm_num) (by norm_num)
    rw [if_neg (by unfold p256Curve WCurve.onCurve; norm_num)] at h
    exact h
  refine ⟨e _, ?_, rfl⟩
  have hd : ∃ p, decBP (wCodec (p256Curve d)) params (some (.obj offCurveProof)) = some (.ok p) := by
    have hr : rawBP (some (.obj offCurveProof)) =
      .ok ⟨some (ecPointJson 1 1), none, none, none, none, none, none, none, ⟨none, none, none, none, [], [], ⟨none, [], []⟩⟩⟩ := rfl
    unfold decBP
    rw [hr]
    dsimp only
    have hdec : (wCodec (p256Curve d)).decode params.GP.elt (some (ecPointJson 1 1)) = some params.GP.elt := by
      unfold Codec.decode; rw [e]; rfl
    have hnone : (wCodec (p256Curve d)).decode params.GP.elt none = some params.GP.elt := rfl
    have : ∃ p, decBPRaw (wCodec (p256Curve d)) params ⟨some (ecPointJson 1 1), none, none, none, none, none, none, none,
        ⟨none, none, none, none, [], [], ⟨none, [], []⟩⟩⟩ = some p := by
      refine ⟨⟨params.GP.elt, params.GP.elt, params.GP.elt, params.GP.elt, params.GP.elt, none, none, none,
        ⟨params.GP.elt, none, none, none, [], [], ⟨[], [], params.GP.elt, params.GP⟩⟩, params⟩, ?_⟩
      simp only [decBPRaw, decIPProof, decIPParams, decPairs, hnone, hdec, Option.bind_eq_bind, Option.bind_some]
    obtain ⟨p, hp⟩ := this
    exact ⟨p, by rw [hp]; rfl⟩
  obtain ⟨p, hp⟩ := hd
  exact ⟨p, hp, C45_bad_point_replaced _ _ _ p (e _) hp⟩

end
end MscPoc
