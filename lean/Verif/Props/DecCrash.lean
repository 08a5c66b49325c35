import Verif.Lemmas.DecCrash
import Verif.Props.Robust

/-!
# C84 — which documents crash the decoder
-/

set_option autoImplicit false

namespace MscPoc

open JSpec

variable {E E₁ E₂ : Type}

theorem unmarshalPoint_none (len : ℕ) (r : Raw) : unmarshalPoint len r = none ↔ BadPoint len r := by
  have obj : ∀ kvs, asObj r = .ok kvs → (unmarshalPoint len r = none ↔ ∃ X Y, CoordIs kvs "x" X ∧ CoordIs kvs "y" Y ∧
      (X = none ∨ Y = none ∨ ∃ x y, X = some x ∧ Y = some y ∧ ¬ (x = 0 ∧ y = 0) ∧
        (256 ^ (len + 1) ≤ x.natAbs ∨ 256 ^ (2 * len + 1) ≤ y.natAbs))) := by
    intro kvs hk
    have hr : unmarshalPoint len r = unmarshalPoint len (some (.obj kvs)) := by
      unfold unmarshalPoint
      rw [hk]
      rfl
    rw [hr]
    cases hX : asBig (fieldVals ["x", "y"] kvs "x") with
    | error e =>
      refine ⟨fun h => ?_, fun ⟨X, _, h, _⟩ => ?_⟩
      · unfold unmarshalPoint asObj at h
        simp [hX] at h
      · unfold CoordIs at h
        rw [hX] at h
        cases h
    | ok X =>
      cases hY : asBig (fieldVals ["x", "y"] kvs "y") with
      | error e =>
        refine ⟨fun h => ?_, fun ⟨_, Y, _, h, _⟩ => ?_⟩
        · unfold unmarshalPoint asObj at h
          simp [hX, hY] at h
        · unfold CoordIs at h
          rw [hY] at h
          cases h
      | ok Y =>
        have e : unmarshalPoint len (some (.obj kvs)) = none ↔ (wCodec ⟨0, 0, len, fun _ => none⟩).unmarshal ⟨0, 0⟩ (some (.obj kvs)) = none := by
          change _ ↔ (match unmarshalPoint len (some (.obj kvs)) with
            | none => none
            | some .error => some (true, _)
            | some (.bytes b) => some (WPoint.unmarshalBinary _ _ b)) = none
          cases unmarshalPoint len (some (.obj kvs)) with
          | none => simp
          | some x => cases x <;> simp
        rw [e, C07_panics_iff _ _ kvs X Y hX hY]
        refine ⟨fun h => ⟨X, Y, hX, hY, h⟩, ?_⟩
        rintro ⟨X', Y', h1, h2, h⟩
        unfold CoordIs at h1 h2
        rw [hX] at h1
        rw [hY] at h2
        obtain rfl := Except.ok.inj h1
        obtain rfl := Except.ok.inj h2
        exact h
  have err : ∀ e, asObj r = .error e → unmarshalPoint len r ≠ none := by
    intro e he h
    unfold unmarshalPoint at h
    rw [he] at h
    simp at h
  unfold BadPoint
  match r with
  | none => exact ⟨fun h => absurd h (err _ rfl), by rintro (h | ⟨_, _, _, h, _⟩) <;> cases h⟩
  | some .null =>
    refine ⟨fun _ => Or.inl rfl, fun _ => (obj [] rfl).mpr ⟨none, none, rfl, rfl, Or.inl rfl⟩⟩
  | some (.obj kvs) =>
    rw [obj kvs rfl]
    refine ⟨fun ⟨X, Y, h⟩ => Or.inr ⟨kvs, X, Y, rfl, h⟩, ?_⟩
    rintro (h | ⟨kvs', X, Y, h, h'⟩)
    · cases h
    · cases h
      exact ⟨X, Y, h'⟩
  | some (.bool _) => exact ⟨fun h => absurd h (err _ rfl), by rintro (h | ⟨_, _, _, h, _⟩) <;> cases h⟩
  | some (.num _) => exact ⟨fun h => absurd h (err _ rfl), by rintro (h | ⟨_, _, _, h, _⟩) <;> cases h⟩
  | some (.frac _) => exact ⟨fun h => absurd h (err _ rfl), by rintro (h | ⟨_, _, _, h, _⟩) <;> cases h⟩
  | some .negZero => exact ⟨fun h => absurd h (err _ rfl), by rintro (h | ⟨_, _, _, h, _⟩) <;> cases h⟩
  | some (.str _) => exact ⟨fun h => absurd h (err _ rfl), by rintro (h | ⟨_, _, _, h, _⟩) <;> cases h⟩
  | some (.arr _) => exact ⟨fun h => absurd h (err _ rfl), by rintro (h | ⟨_, _, _, h, _⟩) <;> cases h⟩

/-- **C84** Exactly which raw messages crash the decoders of elements, whatever the receiver holds: those of the curves on a bad
point, those of the ElGamal group and of secp256k1 never. -/
theorem C84_points (c : WCurve) (valid : Bytes → Bool) (r : Raw) :
    (∀ recv, (wCodec c).decode recv r = none ↔ BadPoint c.byteLen r) ∧
    (∀ recv, (r255Codec valid).decode recv r = none ↔ BadPoint 32 r) ∧
    (∀ recv, modPCodec.decode recv r ≠ none) ∧ ∀ recv, k1Codec.decode recv r ≠ none := by
  refine ⟨fun recv => ?_, fun recv => ?_, fun recv => ?_, fun recv => by simp [Codec.decode, k1Codec]⟩
  · rw [← unmarshalPoint_none]
    unfold Codec.decode wCodec
    dsimp only
    cases unmarshalPoint c.byteLen r with
    | none => simp
    | some x => cases x <;> simp
  · rw [← unmarshalPoint_none]
    unfold Codec.decode r255Codec
    dsimp only
    cases unmarshalPoint 32 r with
    | none => simp
    | some x => cases x <;> simp
  · unfold Codec.decode modPCodec
    dsimp only
    split <;> simp

/-- **C84** Exactly which documents crash the decoder of ballots, for any decoders of elements. -/
theorem C84_ballot (C₁ : Codec E₁) (C₂ : Codec E₂) (pp : PublicParams E₁ E₂) (kvs : List (String × Json))
    (he : pp.RPParams.GEC.I.elt = pp.BPParams.GP.elt) :
    decBallot C₁ C₂ pp (some (.obj kvs)) = none ↔ BallotCrash (fun r => C₁.decode pp.RPParams.GFF.I.elt r = none)
      (fun r => C₂.decode pp.BPParams.GP.elt r = none) (lookupField ballotFields kvs) := by
  unfold decBallot asObj
  dsimp only
  rw [bindEnc_none (fun _ => bindEnc_none (fun _ => bindEnc_none (fun _ => bindEnc_none (P := False) (by simp)))),
    decBP_cases, decBP_cases]
  unfold BallotCrash decCiphertext
  have hs : ∀ r : Raw, (decSigma C₁ C₂ pp.RPParams.GFF.I pp.RPParams.GEC.I r = none ∨
      (∃ p, decSigma C₁ C₂ pp.RPParams.GFF.I pp.RPParams.GEC.I r = some (.ok p)) ∧ False) ↔
      ∃ j, rawSigma r = .ok j ∧ SigmaCrash (fun r => C₁.decode pp.RPParams.GFF.I.elt r = none)
        (fun r => C₂.decode pp.BPParams.GP.elt r = none) j := by
    intro r
    unfold decSigma
    cases hr : rawSigma r with
    | error e => simp
    | ok j =>
      have := decSigmaRaw_none C₁ C₂ pp.RPParams.GFF.I pp.RPParams.GEC.I j
      rw [he] at this
      simp only [Except.ok.injEq, exists_eq_left']
      rw [← this]
      cases decSigmaRaw C₁ C₂ pp.RPParams.GFF.I pp.RPParams.GEC.I j <;> simp
  rw [hs]
  cases asObj (lookupField ballotFields kvs "ballot") with
  | error e => simp
  | ok ct =>
    simp only [Except.ok.injEq, exists_eq_left']
    cases C₁.decode pp.RPParams.GFF.I.elt (lookupField ["u", "v"] ct "u") with
    | none => simp
    | some u => cases C₁.decode pp.RPParams.GFF.I.elt (lookupField ["u", "v"] ct "v") <;> simp

/-- **C84** A document that is not an object never crashes it: the error is the one of the missing ciphertext message (marshal.go:41-46). -/
theorem C84_no_object (C₁ : Codec E₁) (C₂ : Codec E₂) (pp : PublicParams E₁ E₂) (r : Raw) (h : ∀ kvs, r ≠ some (.obj kvs)) :
    ∃ e, decBallot C₁ C₂ pp r = some (.error e) := by
  match r with
  | some (.obj kvs) => exact absurd rfl (h kvs)
  | none | some .null | some (.bool _) | some (.num _) | some (.frac _) | some .negZero | some (.str _) | some (.arr _) =>
    exact ⟨_, rfl⟩

/-- **C84** In the document of a ballot that decodes, `null` for any one of the 18 points outside the arrays panics, and so
does `null` for an entry of one of the eight arrays, or the last entry of `Hh` or `R` missing: for every curve decoder that panics
on `null`. -/
theorem C84_null (C₁ : Codec E₁) (C₂ : Codec E₂) (pp : PublicParams E₁ E₂) (b₀ b : BallotData E₁ E₂) (j : Json)
    (he : encBallot C₁ C₂ b₀ = some (.ok j)) (hd : decBallot C₁ C₂ pp (some j) = some (.ok b))
    (hg : pp.RPParams.GEC.I.elt = pp.BPParams.GP.elt) (hn : C₂.decode pp.BPParams.GP.elt (some .null) = none) :
    (∀ pk ∈ votePoints, decBallotN C₁ C₂ pp (some (edit (fun _ => .null) ("voteProof" :: (pk.1 ++ [pk.2])) j)) = none) ∧
    ∀ fp ∈ [("lbProof", b₀.BpLower), ("ubProof", b₀.BpUpper)],
      (∀ pk ∈ rangePoints, decBallotN C₁ C₂ pp (some (edit (fun _ => .null) (fp.1 :: (pk.1 ++ [pk.2])) j)) = none) ∧
      (∀ i < fp.2.InnerProductProof.Params.Gg.length, ∀ k ∈ ["Gg", "Hh"],
        decBallotN C₁ C₂ pp (some (edit (nullAt i) [fp.1, "InnerProductProof", "Params", k] j)) = none) ∧
      (∀ i < fp.2.InnerProductProof.L.length, ∀ k ∈ ["L", "R"],
        decBallotN C₁ C₂ pp (some (edit (nullAt i) [fp.1, "InnerProductProof", k] j)) = none) ∧
      (0 < fp.2.InnerProductProof.Params.Gg.length →
        fp.2.InnerProductProof.Params.Hh.length ≤ fp.2.InnerProductProof.Params.Gg.length →
        decBallotN C₁ C₂ pp (some (edit pop [fp.1, "InnerProductProof", "Params", "Hh"] j)) = none) ∧
      (0 < fp.2.InnerProductProof.L.length → fp.2.InnerProductProof.R.length ≤ fp.2.InnerProductProof.L.length →
        decBallotN C₁ C₂ pp (some (edit pop [fp.1, "InnerProductProof", "R"] j)) = none) := by
  simp only [(C70_decode C₁ C₂ pp _).1]
  obtain ⟨ct, lo, hi, vp, rfl, e1, e2⟩ := encBallot_doc he
  have e3 := encBallot_sigma he
  rw [decBallot_doc] at hd
  obtain ⟨c, hc, hd⟩ := bindEnc_inv hd
  obtain ⟨l, hl, hd⟩ := bindEnc_inv hd
  obtain ⟨u, hu, hd⟩ := bindEnc_inv hd
  obtain ⟨s, hs, hd⟩ := bindEnc_inv hd
  have lower : ∀ f p, decBP C₂ pp.BPParams (some (edit f p lo)) = none → decBallot C₁ C₂ pp (some (edit f ("lbProof" :: p)
      (.obj [("ballot", ct), ("lbProof", lo), ("ubProof", hi), ("voteProof", vp)]))) = none := by
    intro f p h
    rw [edit_ballot]
    simp only [String.reduceEq, if_true, if_false]
    rw [decBallot_doc, bindEnc_ok hc, h]
    rfl
  have upper : ∀ f p, decBP C₂ pp.BPParams (some (edit f p hi)) = none → decBallot C₁ C₂ pp (some (edit f ("ubProof" :: p)
      (.obj [("ballot", ct), ("lbProof", lo), ("ubProof", hi), ("voteProof", vp)]))) = none := by
    intro f p h
    rw [edit_ballot]
    simp only [String.reduceEq, if_true, if_false]
    rw [decBallot_doc, bindEnc_ok hc, bindEnc_ok hl, h]
    rfl
  refine ⟨fun pk hk => ?_, fun fp hf => ?_⟩
  · rw [edit_ballot]
    simp only [String.reduceEq, if_true, if_false]
    rw [decBallot_doc, bindEnc_ok hc, bindEnc_ok hl, bindEnc_ok hu, (decSigma_points e3 hs).1 (by rw [hg]; exact hn) pk hk]
    rfl
  · simp only [List.mem_cons, List.not_mem_nil, or_false] at hf
    rcases hf with rfl | rfl
    · obtain ⟨a1, a2, a3, a4, a5⟩ := decBP_crash (params := pp.BPParams) e1 hn
      exact ⟨fun pk h => lower _ _ (a1 pk h), fun i h k hk => lower _ _ (a2 i h k hk), fun i h k hk => lower _ _ (a3 i h k hk),
        fun h h' => lower _ _ (a4 h h'), fun h h' => lower _ _ (a5 h h')⟩
    · obtain ⟨a1, a2, a3, a4, a5⟩ := decBP_crash (params := pp.BPParams) e2 hn
      exact ⟨fun pk h => upper _ _ (a1 pk h), fun i h k hk => upper _ _ (a2 i h k hk), fun i h k hk => upper _ _ (a3 i h k hk),
        fun h h' => upper _ _ (a4 h h'), fun h h' => upper _ _ (a5 h h')⟩

/-- **C84** Leaving the key of an element out does not panic and is not reported: the ballot decodes to the one with the group's
initial element at that place, which is the identity of the curve, and the number 0 in the ElGamal group.  `null` for an element of the ElGamal group does the same. -/
theorem C84_missing (C₁ : Codec E₁) (C₂ : Codec E₂) (pp : PublicParams E₁ E₂) (b₀ b : BallotData E₁ E₂) (j : Json)
    (he : encBallot C₁ C₂ b₀ = some (.ok j)) (hd : decBallot C₁ C₂ pp (some j) = some (.ok b))
    (hg : pp.RPParams.GEC.I.elt = pp.BPParams.GP.elt)
    (h₁ : C₁.decode pp.RPParams.GFF.I.elt none = some pp.RPParams.GFF.I.elt)
    (h₁' : C₁.decode pp.RPParams.GFF.I.elt (some .null) = some pp.RPParams.GFF.I.elt)
    (h₂ : C₂.decode pp.BPParams.GP.elt none = some pp.BPParams.GP.elt) :
    (∀ pk ∈ rangePoints, decBallot C₁ C₂ pp (some (edit (dropKey pk.2) ("lbProof" :: pk.1) j)) =
      some (.ok { b with BpLower := b.BpLower.putPoint pp.BPParams.GP.elt pk.2 })) ∧
    (∀ pk ∈ rangePoints, decBallot C₁ C₂ pp (some (edit (dropKey pk.2) ("ubProof" :: pk.1) j)) =
      some (.ok { b with BpUpper := b.BpUpper.putPoint pp.BPParams.GP.elt pk.2 })) ∧
    (∀ pk ∈ votePoints ++ voteNumbers, decBallot C₁ C₂ pp (some (edit (dropKey pk.2) ("voteProof" :: pk.1) j)) =
      some (.ok { b with VoteProof := b.VoteProof.putPoint pp.RPParams.GFF.I.elt pp.BPParams.GP.elt pk })) ∧
    ∀ pk ∈ voteNumbers, decBallot C₁ C₂ pp (some (edit (fun _ => .null) ("voteProof" :: (pk.1 ++ [pk.2])) j)) =
      some (.ok { b with VoteProof := b.VoteProof.putPoint pp.RPParams.GFF.I.elt pp.BPParams.GP.elt pk }) := by
  obtain ⟨ct, lo, hi, vp, rfl, e1, e2⟩ := encBallot_doc he
  have e3 := encBallot_sigma he
  rw [decBallot_doc] at hd
  obtain ⟨c, hc, hd⟩ := bindEnc_inv hd
  obtain ⟨l, hl, hd⟩ := bindEnc_inv hd
  obtain ⟨u, hu, hd⟩ := bindEnc_inv hd
  obtain ⟨s, hs, hd⟩ := bindEnc_inv hd
  simp only [Option.some.injEq, Except.ok.injEq] at hd
  subst hd
  obtain ⟨-, s2, s3⟩ := decSigma_points e3 hs
  rw [hg] at s2 s3
  refine ⟨fun pk hk => ?_, fun pk hk => ?_, fun pk hk => ?_, fun pk hk => ?_⟩
  · rw [edit_ballot]
    simp only [String.reduceEq, if_true, if_false]
    rw [decBallot_doc, bindEnc_ok hc, bindEnc_ok (decBP_drop e1 hl h₂ pk hk), bindEnc_ok hu, bindEnc_ok hs]
  · rw [edit_ballot]
    simp only [String.reduceEq, if_true, if_false]
    rw [decBallot_doc, bindEnc_ok hc, bindEnc_ok hl, bindEnc_ok (decBP_drop e2 hu h₂ pk hk), bindEnc_ok hs]
  · rw [edit_ballot]
    simp only [String.reduceEq, if_true, if_false]
    rw [decBallot_doc, bindEnc_ok hc, bindEnc_ok hl, bindEnc_ok hu, bindEnc_ok (s3 h₁ h₂ pk hk)]
  · rw [edit_ballot]
    simp only [String.reduceEq, if_true, if_false]
    rw [decBallot_doc, bindEnc_ok hc, bindEnc_ok hl, bindEnc_ok hu, bindEnc_ok (s2 h₁' pk hk)]

/-- **C84** The deployed system (P-256, P-384; SHA-256): exactly which documents crash the decoder, and what `null` or nothing in
place of a point of the ballot of any `castVote` does. -/
theorem C84_deployed (nan64 : BitVec 64) {C : CirclCurve} {bits : ℕ} {H U : WPoint} {Gg Hh : List WPoint}
    (row : RealRow C bits H U Gg Hh) :
    ∃ pp, setup nan64 (circlGrp C) = some (.ok pp) ∧
      (∀ kvs, decBallotN modPCodec (wCodec C.c) pp (some (.obj kvs)) = none ↔
        BallotCrash (fun _ => False) (BadPoint C.c.byteLen) (lookupField ballotFields kvs)) ∧
      ∀ (rnd : CastRand) (ballot : BallotData Int WPoint),
      (0 ≤ rnd.rChoice ∧ rnd.rChoice < 1899) →
      (rnd.bp1.sL.length = 16 ∧ rnd.bp1.sR.length = 16 ∧ rnd.bp2.sL.length = 16 ∧ rnd.bp2.sR.length = 16) →
      (∀ s ∈ rnd.tape, 0 ≤ s.k ∧ s.k < 2 ^ (bits - 1)) →
      castVote sha256 pp rnd = .done ballot →
      ∃ j, encBallot modPCodec (wCodec C.c) ballot = some (.ok j) ∧
        decBallot modPCodec (wCodec C.c) pp (some j) = some (.ok ballot) ∧
        (∀ pk ∈ votePoints,
          decBallotN modPCodec (wCodec C.c) pp (some (edit (fun _ => .null) ("voteProof" :: (pk.1 ++ [pk.2])) j)) = none ∧
          decBallot modPCodec (wCodec C.c) pp (some (edit (dropKey pk.2) ("voteProof" :: pk.1) j)) =
            some (.ok { ballot with VoteProof := ballot.VoteProof.putPoint 0 ⟨0, 0⟩ pk })) ∧
        (∀ pk ∈ rangePoints, (∀ f ∈ ["lbProof", "ubProof"],
          decBallotN modPCodec (wCodec C.c) pp (some (edit (fun _ => .null) (f :: (pk.1 ++ [pk.2])) j)) = none) ∧
          decBallot modPCodec (wCodec C.c) pp (some (edit (dropKey pk.2) ("lbProof" :: pk.1) j)) =
            some (.ok { ballot with BpLower := ballot.BpLower.putPoint ⟨0, 0⟩ pk.2 }) ∧
          decBallot modPCodec (wCodec C.c) pp (some (edit (dropKey pk.2) ("ubProof" :: pk.1) j)) =
            some (.ok { ballot with BpUpper := ballot.BpUpper.putPoint ⟨0, 0⟩ pk.2 })) ∧
        ∀ f ∈ ["lbProof", "ubProof"],
          (∀ i < 16, ∀ k ∈ ["Gg", "Hh"],
            decBallotN modPCodec (wCodec C.c) pp (some (edit (nullAt i) [f, "InnerProductProof", "Params", k] j)) = none) ∧
          (∀ i < 4, ∀ k ∈ ["L", "R"],
            decBallotN modPCodec (wCodec C.c) pp (some (edit (nullAt i) [f, "InnerProductProof", k] j)) = none) ∧
          decBallotN modPCodec (wCodec C.c) pp (some (edit pop [f, "InnerProductProof", "Params", "Hh"] j)) = none ∧
          decBallotN modPCodec (wCodec C.c) pp (some (edit pop [f, "InnerProductProof", "R"] j)) = none := by
  have ok := stdCircl_ord row.std.circl
  have := ok.fact'
  let := ok.module
  obtain ⟨Bb, hr, hb1, hb2, _⟩ := row.std.table
  let L₂ := ok.lawful
  obtain ⟨D, hD, dep, _⟩ := C47_curves nan64 (circlGrp C) (fun s _ => ⟨_, rfl⟩) C.n bits Bb hr rfl
  obtain ⟨L₁, L, hok, hV, _⟩ := deployed_legal (circlGrp C) D C.n bits Bb hr L₂
    (fun s e hs he => by injection he with he; exact he ▸ (wLegal_iff _ _).mpr (row.valid s)) dep
  have hEC : D.pp.BPParams.GP = circlGrp C := dep.EC
  have hFF : D.pp.RPParams.GFF.I = modPGrp rfcGroup := dep.FF
  have hel : D.pp.BPParams.GP.elt = ⟨0, 0⟩ := by rw [hEC]; rfl
  have hel₁ : D.pp.RPParams.GFF.I.elt = 0 := by rw [hFF]; rfl
  refine ⟨D.pp, hD, fun kvs => ?_, fun rnd ballot hc hl ht hcast => ?_⟩
  · rw [(C70_decode _ _ _ _).1, C84_ballot _ _ _ _ rfl]
    have e1 : (fun r => modPCodec.decode D.pp.RPParams.GFF.I.elt r = none) = fun _ => False := by
      funext r
      exact propext ⟨(C84_points C.c (fun _ => true) r).2.2.1 _, False.elim⟩
    have e2 : (fun r => (wCodec C.c).decode D.pp.BPParams.GP.elt r = none) = BadPoint C.c.byteLen := by
      funext r
      exact propext ((C84_points C.c (fun _ => true) r).1 _)
    rw [e1, e2]
  have good₁ : modPCodec.Good L₁.V := fun e _ => modPCodec_good e trivial
  have good₂ : (wCodec C.c).Good L.V := fun e he => by
    rw [hV] at he
    exact C06_json_roundtrip C.c (stdCircl_curve row.std.circl) e ((wLegal_iff _ _).mp he)
  have vG : L.V D.G := by rw [hV, dep.G]; exact L₂.V_mulGen 1
  have hBb : -(2 ^ 63) ≤ D.Bb ∧ D.Bb < 2 ^ 63 := by rw [dep.Bb]; exact ⟨hb1, hb2⟩
  obtain ⟨j, e1, b, e2, rfl, e3⟩ := C44_end_to_end sha256 D L₁ L modPCodec (wCodec C.c) good₁ good₂ 4 hok vG hBb
    (by rw [dep.lo, dep.hi]; decide) (by rw [dep.lo, dep.hi]; decide) rnd (by rw [dep.lo, dep.hi]; exact hc)
    hl.1 hl.2.1 hl.2.2.1 hl.2.2.2 (by rw [dep.zUpper]; exact ht) ballot hcast
  obtain ⟨hb, n1, n2⟩ : BallotOk L₁.V L.V b ∧ b.BpLower.InnerProductProof.L.length = 4 ∧
      b.BpUpper.InnerProductProof.L.length = 4 := by
    unfold castVote at hcast
    cases hd : drawChoice D.pp rnd.rChoice with
    | none => rw [hd] at hcast; simp at hcast
    | some choice =>
    rw [hd] at hcast
    obtain ⟨hb, -, -, -, -, -, n1, n2⟩ := castChoice_legal sha256 D L₁ L 4 hok vG hBb choice rnd hl.1 hl.2.1 hl.2.2.1 hl.2.2.2 b hcast
    exact ⟨hb, n1, n2⟩
  obtain ⟨v1, v2, -, -⟩ := verifyVote_parts e3
  have m1 := ((C83_range sha256 _).mp ⟨_, v1⟩).ip.gens
  have m2 := ((C83_range sha256 _).mp ⟨_, v2⟩).ip.gens
  rw [n1] at m1
  rw [n2] at m2
  have g1 := Nat.le_of_dvd m1.1 m1.2.2.1
  have g2 := Nat.le_of_dvd m2.1 m2.2.2.1
  have l1 := hb.lower.ip.params.len
  have l2 := hb.upper.ip.params.len
  have r1 := hb.lower.ip.len
  have r2 := hb.upper.ip.len
  have hnull : (wCodec C.c).decode D.pp.BPParams.GP.elt (some .null) = none :=
    ((C84_points C.c (fun _ => true) _).1 _).mpr (Or.inl rfl)
  obtain ⟨c1, c2⟩ := C84_null modPCodec (wCodec C.c) D.pp b b j e1 e2 rfl hnull
  obtain ⟨a1, a2, a3, a4, a5⟩ := c2 _ (List.mem_cons_self ..)
  obtain ⟨b1, b2, b3, b4, b5⟩ := c2 _ (List.mem_cons_of_mem _ (List.mem_cons_self ..))
  dsimp only at a1 a2 a3 a4 a5 b1 b2 b3 b4 b5
  obtain ⟨d1, d2, d3, -⟩ := C84_missing modPCodec (wCodec C.c) D.pp b b j e1 e2 rfl rfl rfl rfl
  rw [hel] at d1 d2 d3
  rw [hel₁] at d3
  refine ⟨j, e1, e2, fun pk hk => ⟨c1 pk hk, d3 pk (List.mem_append_left _ hk)⟩,
    fun pk hk => ⟨fun f hf => ?_, d1 pk hk, d2 pk hk⟩, fun f hf => ?_⟩
  · simp only [List.mem_cons, List.not_mem_nil, or_false] at hf
    rcases hf with rfl | rfl
    · exact a1 pk hk
    · exact b1 pk hk
  · simp only [List.mem_cons, List.not_mem_nil, or_false] at hf
    rcases hf with rfl | rfl
    · exact ⟨fun i hi => a2 i (by omega), fun i hi => a3 i (by omega), a4 (by omega) (by omega), a5 (by omega) (by omega)⟩
    · exact ⟨fun i hi => b2 i (by omega), fun i hi => b3 i (by omega), b4 (by omega) (by omega), b5 (by omega) (by omega)⟩

/-- C84 on points of P-256: what crashes the decoder, and what does not. -/
example : ([some .null, some (.obj []), some (.obj [("x", .num 1)]), some (.obj [("x", .num 1), ("y", .null)]),
      some (.obj [("x", .num (256 ^ 33)), ("y", .num 1)]), some (.obj [("x", .num 1), ("y", .num (256 ^ 65))]),
      none, some (.num 5), some (.arr []), some (.obj [("x", .str "a"), ("y", .null)]), some (.obj [("x", .num 0), ("y", .num 0)]),
      some (.obj [("x", .num (256 ^ 33 - 1)), ("y", .num (256 ^ 65 - 1))])].map fun r =>
        ((wCodec (p256Curve fun _ => none)).decode ⟨0, 0⟩ r).isNone) =
    [true, true, true, true, true, true, false, false, false, false, false, false] := by decide +kernel

/-- C84 on the toy election's ballot, whose elements are numbers (for them `null` is not an error): a key left out, `null`, and an
array cut short. -/
example : (match castVote exSha3 exElection.pp exCast with
    | .done b => (match encBallot modPCodec modPCodec b with
      | some (.ok j) =>
        [edit (dropKey "V") ["lbProof"] j, edit (dropKey "G") ["voteProof", "Params", "GEC"] j,
          edit (fun _ => .null) ["voteProof", "W"] j, edit pop ["ubProof", "InnerProductProof", "L"] j,
          edit pop ["ubProof", "InnerProductProof", "R"] j, edit pop ["lbProof", "InnerProductProof", "Params", "Hh"] j,
          .obj [("ballot", .null)], .arr []].map fun j =>
        (match decBallotN modPCodec modPCodec exElection.pp (some j) with
          | some (.ok _) => "ok"
          | some (.error _) => "error"
          | none => "panic")
      | _ => [])
    | _ => []) = ["ok", "ok", "ok", "ok", "panic", "panic", "error", "error"] := by decide +kernel

end MscPoc
