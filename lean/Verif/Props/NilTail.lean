import Verif.Lemmas.NilTail
import Verif.Props.HashToCurve

/-!
# C70 — arrays of unequal length in a ballot

`decBallotN` / `verifyVoteN` keep the nil entries that `BallotDataUnmarshalJSON` leaves behind when `Hh` or `R` is longer than
`Gg` or `L`; `decBallot` / `verifyVote` are the functions without them, which the other properties speak about.
-/

set_option autoImplicit false

namespace MscPoc

open JSpec

section
variable {E E₁ E₂ : Type}

/-- the same ballot, with `k.1`, `k.2` nil entries behind the lower proof's `Hh`, `R`, and `m.1`, `m.2` behind the upper proof's -/
def BallotData.withNils (b : BallotData E₁ E₂) (k m : ℕ × ℕ) : NBallotData E₁ E₂ where
  Ballot := b.Ballot
  BpLower := b.BpLower.withNils k.1 k.2
  BpUpper := b.BpUpper.withNils m.1 m.2
  VoteProof := b.VoteProof

/-- **C70** On every document the decoder panics, fails or succeeds as without nil entries, and the ballots agree up to nil
entries at the ends of `Hh` and `R`. -/
theorem C70_decode (C₁ : Codec E₁) (C₂ : Codec E₂) (pp : PublicParams E₁ E₂) (r : Raw) :
    (decBallotN C₁ C₂ pp r = none ↔ decBallot C₁ C₂ pp r = none) ∧
    (∀ e, decBallotN C₁ C₂ pp r = some (.error e) ↔ decBallot C₁ C₂ pp r = some (.error e)) ∧
    (∀ b, decBallot C₁ C₂ pp r = some (.ok b) → ∃ k m, decBallotN C₁ C₂ pp r = some (.ok (b.withNils k m))) := by
  have one : ∀ r : Raw, (decBPN C₂ pp.BPParams r = none ∧ decBP C₂ pp.BPParams r = none) ∨
      (∃ e, decBPN C₂ pp.BPParams r = some (.error e) ∧ decBP C₂ pp.BPParams r = some (.error e)) ∨
      (∃ (p : BulletProof E₂) (k : ℕ × ℕ), decBPN C₂ pp.BPParams r = some (.ok (p.withNils k.1 k.2)) ∧ decBP C₂ pp.BPParams r = some (.ok p)) := by
    intro r
    unfold decBPN decBP
    cases rawBP r with
    | error e => exact Or.inr (Or.inl ⟨e, rfl, rfl⟩)
    | ok j =>
      dsimp only
      rw [decBPRawN_eq]
      cases decBPRaw C₂ pp.BPParams j with
      | none => exact Or.inl ⟨rfl, rfl⟩
      | some p => exact Or.inr (Or.inr ⟨p, (_, _), rfl, rfl⟩)
  obtain ⟨kvs, d1, d2⟩ : ∃ kvs,
      decBallotN C₁ C₂ pp r =
        (bindEnc (decCiphertext pp.RPParams.GFF.I C₁ (lookupField ballotFields kvs "ballot")) fun ballot =>
        bindEnc (decBPN C₂ pp.BPParams (lookupField ballotFields kvs "lbProof")) fun lo =>
        bindEnc (decBPN C₂ pp.BPParams (lookupField ballotFields kvs "ubProof")) fun hi =>
        bindEnc (decSigma C₁ C₂ pp.RPParams.GFF.I pp.RPParams.GEC.I (lookupField ballotFields kvs "voteProof")) fun vp =>
        some (.ok { Ballot := ballot, BpLower := lo, BpUpper := hi, VoteProof := vp })) ∧
      decBallot C₁ C₂ pp r =
        (bindEnc (decCiphertext pp.RPParams.GFF.I C₁ (lookupField ballotFields kvs "ballot")) fun ballot =>
        bindEnc (decBP C₂ pp.BPParams (lookupField ballotFields kvs "lbProof")) fun lo =>
        bindEnc (decBP C₂ pp.BPParams (lookupField ballotFields kvs "ubProof")) fun hi =>
        bindEnc (decSigma C₁ C₂ pp.RPParams.GFF.I pp.RPParams.GEC.I (lookupField ballotFields kvs "voteProof")) fun vp =>
        some (.ok { Ballot := ballot, BpLower := lo, BpUpper := hi, VoteProof := vp })) := by
    unfold decBallotN decBallot
    cases asObj r <;> exact ⟨_, rfl, rfl⟩
  rw [d1, d2]
  cases decCiphertext pp.RPParams.GFF.I C₁ (lookupField ballotFields kvs "ballot") with
  | none => simp [bindEnc]
  | some ct => cases ct with
    | error e => simp [bindEnc]
    | ok ct =>
      rcases one (lookupField ballotFields kvs "lbProof") with ⟨h1, h2⟩ | ⟨e, h1, h2⟩ | ⟨lo, k, h1, h2⟩
      · rw [h1, h2]; simp [bindEnc]
      · rw [h1, h2]; simp [bindEnc]
      rcases one (lookupField ballotFields kvs "ubProof") with ⟨h3, h4⟩ | ⟨e, h3, h4⟩ | ⟨hi, m, h3, h4⟩
      · rw [h1, h2, h3, h4]; simp [bindEnc]
      · rw [h1, h2, h3, h4]; simp [bindEnc]
      rw [h1, h2, h3, h4]
      cases decSigma C₁ C₂ pp.RPParams.GFF.I pp.RPParams.GEC.I (lookupField ballotFields kvs "voteProof") with
      | none => simp [bindEnc]
      | some vp => cases vp with
        | error e => simp [bindEnc]
        | ok vp =>
          simp only [bindEnc]
          refine ⟨by simp, by simp, fun b hb => ⟨k, m, ?_⟩⟩
          simp only [Option.some.injEq, Except.ok.injEq] at hb
          subst hb
          rfl

/-- C70: what the server returns on a ballot with nil entries. -/
theorem C70_server (sha : Bytes → Bytes) (b : BallotData E₁ E₂) (k m : ℕ × ℕ) (rp : ProofParams E₁ E₂) :
    verifyVoteN sha (b.withNils k m) rp =
      if k.1 ≠ 0 ∧ b.BpLower.InnerProductProof.L ≠ [] then none
      else if b.BpLower.verify sha = some true ∧ m.1 ≠ 0 ∧ b.BpUpper.InnerProductProof.L ≠ [] then none
      else verifyVote sha b rp := by
  unfold verifyVoteN verifyVote BallotData.withNils
  simp only [NBulletProof.verify_eq]
  by_cases h1 : k.1 ≠ 0 ∧ b.BpLower.InnerProductProof.L ≠ []
  · rw [if_neg (by tauto), if_pos h1]
    rfl
  rw [if_pos (by tauto), if_neg h1]
  cases hv : b.BpLower.verify sha with
  | none => simp
  | some ok =>
    cases ok with
    | false => simp
    | true =>
      by_cases h2 : m.1 ≠ 0 ∧ b.BpUpper.InnerProductProof.L ≠ []
      · rw [if_neg (show ¬ (m.1 = 0 ∨ b.BpUpper.InnerProductProof.L = []) by tauto), if_pos ⟨rfl, h2⟩]
        rfl
      · rw [if_pos (show m.1 = 0 ∨ b.BpUpper.InnerProductProof.L = [] by tauto), if_neg (by tauto)]
        rfl

/-- C70: nothing is accepted because of nil entries: a verdict is the verdict on the ballot without them. -/
theorem C70_no_new_verdicts (sha : Bytes → Bytes) (b : BallotData E₁ E₂) (k m : ℕ × ℕ) (rp : ProofParams E₁ E₂) (out : VerifyOut)
    (h : verifyVoteN sha (b.withNils k m) rp = some out) : verifyVote sha b rp = some out := by
  rw [C70_server] at h
  split at h
  · exact absurd h (by simp)
  · split at h
    · exact absurd h (by simp)
    · exact h

/-- what the encoder of ballots returns -/
theorem encBallot_doc {C₁ : Codec E₁} {C₂ : Codec E₂} {b : BallotData E₁ E₂} {j : Json} (h : encBallot C₁ C₂ b = some (.ok j)) :
    ∃ ct lo hi vp, j = .obj [("ballot", ct), ("lbProof", lo), ("ubProof", hi), ("voteProof", vp)] ∧
      encBP C₂ b.BpLower = some (.ok lo) ∧ encBP C₂ b.BpUpper = some (.ok hi) := by
  unfold encBallot at h
  obtain ⟨ct, _, h⟩ := bindEnc_inv h
  obtain ⟨lo, h1, h⟩ := bindEnc_inv h
  obtain ⟨hi, h2, h⟩ := bindEnc_inv h
  obtain ⟨vp, _, h⟩ := bindEnc_inv h
  simp only [Option.some.injEq, Except.ok.injEq] at h
  exact ⟨ct, lo, hi, vp, h.symm, h1, h2⟩

theorem decBallot_doc (C₁ : Codec E₁) (C₂ : Codec E₂) (pp : PublicParams E₁ E₂) (ct lo hi vp : Json) :
    decBallot C₁ C₂ pp (some (.obj [("ballot", ct), ("lbProof", lo), ("ubProof", hi), ("voteProof", vp)])) =
      bindEnc (decCiphertext pp.RPParams.GFF.I C₁ (some ct)) fun ballot =>
      bindEnc (decBP C₂ pp.BPParams (some lo)) fun lo =>
      bindEnc (decBP C₂ pp.BPParams (some hi)) fun hi =>
      bindEnc (decSigma C₁ C₂ pp.RPParams.GFF.I pp.RPParams.GEC.I (some vp)) fun vp =>
      some (.ok { Ballot := ballot, BpLower := lo, BpUpper := hi, VoteProof := vp }) := rfl

theorem decBallotN_doc (C₁ : Codec E₁) (C₂ : Codec E₂) (pp : PublicParams E₁ E₂) (ct lo hi vp : Json) :
    decBallotN C₁ C₂ pp (some (.obj [("ballot", ct), ("lbProof", lo), ("ubProof", hi), ("voteProof", vp)])) =
      bindEnc (decCiphertext pp.RPParams.GFF.I C₁ (some ct)) fun ballot =>
      bindEnc (decBPN C₂ pp.BPParams (some lo)) fun lo =>
      bindEnc (decBPN C₂ pp.BPParams (some hi)) fun hi =>
      bindEnc (decSigma C₁ C₂ pp.RPParams.GFF.I pp.RPParams.GEC.I (some vp)) fun vp =>
      some (.ok { Ballot := ballot, BpLower := lo, BpUpper := hi, VoteProof := vp }) := rfl

/-- **C70** One more entry in an array of a marshalled ballot, whatever the entry.  In `Hh` of a range proof with at least one
round it is not noticed by the decoder and makes the server panic (for the upper proof: when the lower one is accepted); in `R` it
is not noticed at all: the verdict is the one on the ballot without it. -/
theorem C70_one_entry (C₁ : Codec E₁) (C₂ : Codec E₂) (pp : PublicParams E₁ E₂) (b₀ b : BallotData E₁ E₂) (j x : Json)
    (he : encBallot C₁ C₂ b₀ = some (.ok j)) (hd : decBallot C₁ C₂ pp (some j) = some (.ok b)) :
    (∃ b', decBallotN C₁ C₂ pp (some (edit (push x) ["lbProof", "InnerProductProof", "Params", "Hh"] j)) = some (.ok b') ∧
      (b.BpLower.InnerProductProof.L ≠ [] → ∀ sha rp, verifyVoteN sha b' rp = none)) ∧
    (∃ b', decBallotN C₁ C₂ pp (some (edit (push x) ["ubProof", "InnerProductProof", "Params", "Hh"] j)) = some (.ok b') ∧
      (b.BpUpper.InnerProductProof.L ≠ [] → ∀ sha rp, b.BpLower.verify sha = some true → verifyVoteN sha b' rp = none)) ∧
    (∃ bN, decBallotN C₁ C₂ pp (some j) = some (.ok bN) ∧ ∀ f ∈ ["lbProof", "ubProof"],
      ∃ b', decBallotN C₁ C₂ pp (some (edit (push x) [f, "InnerProductProof", "R"] j)) = some (.ok b') ∧
        ∀ sha rp, verifyVoteN sha b' rp = verifyVoteN sha bN rp) := by
  obtain ⟨ct, lo, hi, vp, rfl, e1, e2⟩ := encBallot_doc he
  rw [decBallot_doc] at hd
  obtain ⟨c, hc, hd⟩ := bindEnc_inv hd
  obtain ⟨l, hl, hd⟩ := bindEnc_inv hd
  obtain ⟨u, hu, hd⟩ := bindEnc_inv hd
  obtain ⟨s, hs, hd⟩ := bindEnc_inv hd
  simp only [Option.some.injEq, Except.ok.injEq] at hd
  subst hd
  obtain ⟨k, kr, l1, l2, kr', l3⟩ := decBPN_push e1 hl x
  obtain ⟨m, mr, u1, u2, mr', u3⟩ := decBPN_push e2 hu x
  have ed : ∀ (p : List String) (f : String), edit (push x) (f :: p)
      (.obj [("ballot", ct), ("lbProof", lo), ("ubProof", hi), ("voteProof", vp)]) =
      .obj [("ballot", if "ballot" = f then edit (push x) p ct else ct), ("lbProof", if "lbProof" = f then edit (push x) p lo else lo),
        ("ubProof", if "ubProof" = f then edit (push x) p hi else hi),
        ("voteProof", if "voteProof" = f then edit (push x) p vp else vp)] := by
    intro p f
    simp only [edit, List.map_cons, List.map_nil]
    congr 2
    · split <;> rfl
    · congr 1
      · split <;> rfl
      · congr 1
        · split <;> rfl
        · congr 1
          split <;> rfl
  have none1 : ∀ (b : BallotData E₁ E₂) (k m : ℕ × ℕ) sha rp, k.1 ≠ 0 → b.BpLower.InnerProductProof.L ≠ [] →
      verifyVoteN sha (b.withNils k m) rp = none := fun b k m sha rp h1 h2 => by rw [C70_server, if_pos ⟨h1, h2⟩]
  have none2 : ∀ (b : BallotData E₁ E₂) (k m : ℕ × ℕ) sha rp, m.1 ≠ 0 → b.BpUpper.InnerProductProof.L ≠ [] →
      b.BpLower.verify sha = some true → verifyVoteN sha (b.withNils k m) rp = none := fun b k m sha rp h1 h2 h3 => by
    rw [C70_server]
    split
    · rfl
    · rw [if_pos ⟨h3, h1, h2⟩]
  have same : ∀ (b : BallotData E₁ E₂) (k m : ℕ) (a c a' c' : ℕ) sha rp,
      verifyVoteN sha (b.withNils (k, a) (m, c)) rp = verifyVoteN sha (b.withNils (k, a') (m, c')) rp :=
    fun b k m a c a' c' sha rp => by rw [C70_server, C70_server]
  refine ⟨⟨BallotData.withNils ⟨c, l, u, s⟩ (k + 1, kr) (m, mr), ?_, fun h sha rp => none1 _ _ _ sha rp (by simp) h⟩,
    ⟨BallotData.withNils ⟨c, l, u, s⟩ (k, kr) (m + 1, mr), ?_, fun h sha rp hv => none2 _ _ _ sha rp (by simp) h hv⟩,
    ⟨BallotData.withNils ⟨c, l, u, s⟩ (k, kr) (m, mr), ?_, fun f hf => ?_⟩⟩
  · rw [ed]
    simp only [String.reduceEq, if_true, if_false]
    rw [decBallotN_doc, bindEnc_ok hc, bindEnc_ok l2, bindEnc_ok u1, bindEnc_ok hs]
    rfl
  · rw [ed]
    simp only [String.reduceEq, if_true, if_false]
    rw [decBallotN_doc, bindEnc_ok hc, bindEnc_ok l1, bindEnc_ok u2, bindEnc_ok hs]
    rfl
  · rw [decBallotN_doc, bindEnc_ok hc, bindEnc_ok l1, bindEnc_ok u1, bindEnc_ok hs]
    rfl
  · simp only [List.mem_cons, List.not_mem_nil, or_false] at hf
    rcases hf with rfl | rfl
    · refine ⟨BallotData.withNils ⟨c, l, u, s⟩ (k, kr') (m, mr), ?_, fun sha rp => same _ _ _ _ _ _ _ _ _⟩
      rw [ed]
      simp only [String.reduceEq, if_true, if_false]
      rw [decBallotN_doc, bindEnc_ok hc, bindEnc_ok l3, bindEnc_ok u1, bindEnc_ok hs]
      rfl
    · refine ⟨BallotData.withNils ⟨c, l, u, s⟩ (k, kr) (m, mr'), ?_, fun sha rp => same _ _ _ _ _ _ _ _ _⟩
      rw [ed]
      simp only [String.reduceEq, if_true, if_false]
      rw [decBallotN_doc, bindEnc_ok hc, bindEnc_ok l1, bindEnc_ok u3, bindEnc_ok hs]
      rfl

theorem verifyVote_lower {sha : Bytes → Bytes} {b : BallotData E₁ E₂} {rp : ProofParams E₁ E₂} {t : List Nat}
    (h : verifyVote sha b rp = some ⟨true, t⟩) : b.BpLower.verify sha = some true := by
  unfold verifyVote at h
  cases hv : b.BpLower.verify sha with
  | none => rw [hv] at h; exact absurd h (by simp)
  | some ok =>
    cases ok with
    | true => rfl
    | false => rw [hv] at h; exact absurd h (by simp)

/-- C70: on a marshalled ballot whose range proofs carry as many `Hh` as `Gg` — every honest ballot — the server behaves as
without the distinction. -/
theorem C70_equal_lengths (C₁ : Codec E₁) (C₂ : Codec E₂) (pp : PublicParams E₁ E₂) (b₀ b : BallotData E₁ E₂) (j : Json)
    (he : encBallot C₁ C₂ b₀ = some (.ok j)) (hd : decBallot C₁ C₂ pp (some j) = some (.ok b))
    (l1 : b₀.BpLower.InnerProductProof.Params.Gg.length = b₀.BpLower.InnerProductProof.Params.Hh.length)
    (l2 : b₀.BpUpper.InnerProductProof.Params.Gg.length = b₀.BpUpper.InnerProductProof.Params.Hh.length) :
    ∃ b', decBallotN C₁ C₂ pp (some j) = some (.ok b') ∧ ∀ sha rp, verifyVoteN sha b' rp = verifyVote sha b rp := by
  obtain ⟨ct, lo, hi, vp, rfl, e1, e2⟩ := encBallot_doc he
  rw [decBallot_doc] at hd
  obtain ⟨c, hc, hd⟩ := bindEnc_inv hd
  obtain ⟨l, hl, hd⟩ := bindEnc_inv hd
  obtain ⟨u, hu, hd⟩ := bindEnc_inv hd
  obtain ⟨s, hs, hd⟩ := bindEnc_inv hd
  simp only [Option.some.injEq, Except.ok.injEq] at hd
  subst hd
  obtain ⟨kr, l3⟩ := decBPN_plain e1 hl l1
  obtain ⟨mr, u3⟩ := decBPN_plain e2 hu l2
  refine ⟨BallotData.withNils ⟨c, l, u, s⟩ (0, kr) (0, mr), ?_, fun sha rp => ?_⟩
  · rw [decBallotN_doc, bindEnc_ok hc, bindEnc_ok l3, bindEnc_ok u3, bindEnc_ok hs]
    rfl
  · rw [C70_server, if_neg (by simp), if_neg (by simp)]

end

/-- **C70** The deployed system (P-256, P-384; SHA-256): take any ballot that `castVote` completes — the server accepts it — and
append any one JSON value to the array `Hh` of either range proof: the document is decoded without an error, and then the server
panics. -/
theorem C70_deployed (nan64 : BitVec 64) {C : CirclCurve} {bits : ℕ} {H U : WPoint} {Gg Hh : List WPoint}
    (row : RealRow C bits H U Gg Hh) :
    ∃ pp, setup nan64 (circlGrp C) = some (.ok pp) ∧ ∀ (rnd : CastRand) (ballot : BallotData Int WPoint),
      (0 ≤ rnd.rChoice ∧ rnd.rChoice < 1899) →
      (rnd.bp1.sL.length = 16 ∧ rnd.bp1.sR.length = 16 ∧ rnd.bp2.sL.length = 16 ∧ rnd.bp2.sR.length = 16) →
      (∀ s ∈ rnd.tape, 0 ≤ s.k ∧ s.k < 2 ^ (bits - 1)) →
      castVote sha256 pp rnd = .done ballot →
      ∃ j, encBallot modPCodec (wCodec C.c) ballot = some (.ok j) ∧
        (∃ b, decBallotN modPCodec (wCodec C.c) pp (some j) = some (.ok b) ∧
          verifyVoteN sha256 b pp.RPParams = some { result := true, times := [0, 0] }) ∧
        ∀ x, ∀ f ∈ ["lbProof", "ubProof"],
          ∃ b, decBallotN modPCodec (wCodec C.c) pp (some (edit (push x) [f, "InnerProductProof", "Params", "Hh"] j)) =
              some (.ok b) ∧ verifyVoteN sha256 b pp.RPParams = none := by
  have ok := stdCircl_ord row.std.circl
  have := ok.fact'
  let := ok.module
  obtain ⟨Bb, hr, hb1, hb2, _⟩ := row.std.table
  let L₂ := ok.lawful
  obtain ⟨D, hD, dep, _⟩ := C47_curves nan64 (circlGrp C) (fun s _ => ⟨_, rfl⟩) C.n bits Bb hr rfl
  obtain ⟨L₁, L, hok, hV, _⟩ := deployed_legal (circlGrp C) D C.n bits Bb hr L₂
    (fun s e hs he => by injection he with he; exact he ▸ (wLegal_iff _ _).mpr (row.valid s)) dep
  refine ⟨D.pp, hD, fun rnd ballot hc hl ht hcast => ?_⟩
  have good₁ : modPCodec.Good L₁.V := fun e _ => modPCodec_good e trivial
  have good₂ : (wCodec C.c).Good L.V := fun e he => by
    rw [hV] at he
    exact C06_json_roundtrip C.c (stdCircl_curve row.std.circl) e ((wLegal_iff _ _).mp he)
  have vG : L.V D.G := by rw [hV, dep.G]; exact L₂.V_mulGen 1
  have hBb : -(2 ^ 63) ≤ D.Bb ∧ D.Bb < 2 ^ 63 := by rw [dep.Bb]; exact ⟨hb1, hb2⟩
  obtain ⟨j, e1, b, e2, rfl, e3⟩ := C44_end_to_end sha256 D L₁ L modPCodec (wCodec C.c) good₁ good₂ 4 hok vG hBb
    (by rw [dep.lo, dep.hi]; decide) (by rw [dep.lo, dep.hi]; decide) rnd (by rw [dep.lo, dep.hi]; exact hc)
    hl.1 hl.2.1 hl.2.2.1 hl.2.2.2 (by rw [dep.zUpper]; exact ht) ballot hcast
  unfold castVote at hcast
  cases hd : drawChoice D.pp rnd.rChoice with
  | none => rw [hd] at hcast; simp at hcast
  | some choice =>
  rw [hd] at hcast
  obtain ⟨hb, -, -, -, -, -, n1, n2⟩ := castChoice_legal sha256 D L₁ L 4 hok vG hBb choice rnd hl.1 hl.2.1 hl.2.2.1 hl.2.2.2 b hcast
  have r1 : b.BpLower.InnerProductProof.L ≠ [] := by rw [← List.length_pos_iff, n1]; decide
  have r2 : b.BpUpper.InnerProductProof.L ≠ [] := by rw [← List.length_pos_iff, n2]; decide
  refine ⟨j, e1, ?_, fun x f hf => ?_⟩
  · obtain ⟨b', h1, h2⟩ := C70_equal_lengths modPCodec (wCodec C.c) D.pp b b j e1 e2 hb.lower.ip.params.len hb.upper.ip.params.len
    exact ⟨b', h1, by rw [h2]; exact e3⟩
  · obtain ⟨⟨bl, l1, l2⟩, ⟨bu, u1, u2⟩, _⟩ := C70_one_entry modPCodec (wCodec C.c) D.pp b b j x e1 e2
    simp only [List.mem_cons, List.not_mem_nil, or_false] at hf
    rcases hf with rfl | rfl
    · exact ⟨bl, l1, l2 r1 _ _⟩
    · exact ⟨bu, u1, u2 r2 _ _ (verifyVote_lower e3)⟩

/-- C70 on the toy election (two rounds per proof): the ballot, with one more entry in `lbProof`'s `Hh`, in `ubProof`'s `Hh`, and
in `R`. -/
example : (match castVote exSha3 exElection.pp exCast with
    | .done b => (match encBallot modPCodec modPCodec b with
      | some (.ok j) =>
        [j, edit (push (.str "x")) ["lbProof", "InnerProductProof", "Params", "Hh"] j,
          edit (push .null) ["ubProof", "InnerProductProof", "Params", "Hh"] j,
          edit (push (.arr [])) ["lbProof", "InnerProductProof", "R"] j].map fun j =>
        (match decBallotN modPCodec modPCodec exElection.pp (some j) with
          | some (.ok b) => some (verifyVoteN exSha3 b exElection.rp)
          | _ => none)
      | _ => [])
    | _ => []) = [some (some ⟨true, [0, 0]⟩), some none, some none, some (some ⟨true, [0, 0]⟩)] := by decide +kernel

end MscPoc
