import Verif.Lemmas.RecordedBallot
import Verif.Lemmas.Marshal
import Verif.Lemmas.Codec
import Verif.Props.Json
import Verif.Props.Curve

/-!
# The recorded ballots: decoding
-/

set_option autoImplicit false

namespace MscPoc

/-- a key the struct does not have is skipped -/
theorem lookupField_skip {fields : List String} {k : String} (h : fieldOf fields k = none) (pre post : List (String × Json))
    (v : Json) (f : String) : lookupField fields (pre ++ (k, v) :: post) f = lookupField fields (pre ++ post) f := by
  unfold lookupField
  rw [List.reverse_append, List.reverse_append, List.find?_append, List.find?_append, List.reverse_cons, List.find?_append]
  have : List.find? (fun kv : String × Json => fieldOf fields kv.1 == some f) [(k, v)] = none := by simp [h]
  rw [this, Option.or_none]

theorem fieldVals_skip {fields : List String} {k : String} (h : fieldOf fields k = none) (pre post : List (String × Json))
    (v : Json) (f : String) : fieldVals fields (pre ++ (k, v) :: post) f = fieldVals fields (pre ++ post) f := by
  unfold fieldVals
  rw [List.filter_append, List.filter_append, List.filter_cons_of_neg (by simp [h])]

theorem rawBP_skip {k : String} (h : fieldOf bpFields k = none) (pre post : List (String × Json)) (v : Json) :
    rawBP (some (.obj (pre ++ (k, v) :: post))) = rawBP (some (.obj (pre ++ post))) := by
  unfold rawBP asObj
  simp only [bind, Except.bind, lookupField_skip h, fieldVals_skip h]

/-- the raw messages of a range proof -/
def RecBP.raw (K : RecCurve) (p : RecBP) : BPRaw where
  V := some (recPt p.V)
  A := some (recPt p.A)
  S := some (recPt p.S)
  T1 := some (recPt p.T1)
  T2 := some (recPt p.T2)
  Taux := some p.Taux
  Mu := some p.Mu
  Tprime := some p.Tprime
  IP :=
    { P := some (recPt p.P), Cc := some p.Cc, A := some p.a, B := some p.b, L := p.L.map recPt, R := p.R.map recPt,
      Params := { Uu := some (recPt K.Uu), Gg := K.Gg.map recPt, Hh := p.Hh.map recPt } }

/-- the raw messages of the parameters of the sigma proof -/
def RecBallot.rawParams (K : RecCurve) (b : RecBallot) : ProofParamsRaw where
  Bx := 16
  Bc := 128
  Bg := b.Bg.toNat
  Bb := b.Bb
  RangeLo := 101
  RangeHi := 1000
  GFF := { G := some (.num 2), H := some (.num 8192), N := some recN, F := some recF }
  GEC := { G := some (recPt K.G), H := some (recPt K.H), N := some K.N, F := some recF }

/-- the raw messages of the sigma proof -/
def RecBallot.rawVote (K : RecCurve) (b : RecBallot) : SigmaRaw where
  W := some (.num b.W)
  Kp := some (.num b.Kp)
  Kq1 := some (recPt b.Kq1)
  Kq2 := some (recPt b.Kq2)
  Challenge := some b.c
  Z := some b.z
  Sp := some b.sp
  Sq1 := some b.sq1
  Sq2 := some b.sq2
  Params := b.rawParams K

section
variable {C : CirclCurve} (hc : StdCurve C.c)
include hc

/-- the points of the files are what `MarshalJSON` writes -/
theorem decode_recPt {P : WPoint} (hP : WLegal C.c P ∧ P ≠ ⟨0, 0⟩) (recv : WPoint) :
    (wCodec C.c).decode recv (some (recPt P)) = some P := by
  obtain ⟨j, h1, h2⟩ := (C44_codecs C.c hc).2 P ((wLegal_iff _ _).mp hP.1)
  have e : j = recPt P := by
    have hx : P.x < 256 ^ C.c.byteLen ∧ P.y < 256 ^ C.c.byteLen := by
      rcases hP.1 with h | ⟨h1, h2, _⟩
      · exact absurd h hP.2
      · exact ⟨h1.trans hc.size.1, h2.trans hc.size.1⟩
    have h1' : marshalPoint C.c.byteLen (P.marshalBinary C.c) = some (.ok j) := h1
    rw [WPoint.marshalBinary, if_neg hP.2, marshalPoint_fit _ _ _ hx.1 hx.2] at h1'
    injection h1' with h1'
    injection h1' with h1'
    exact h1'.symm
  unfold Codec.decode
  rw [← e, h2]
  rfl

theorem decPairs_rec : ∀ (l r : List WPoint), l.length = r.length → (∀ P ∈ l, WLegal C.c P ∧ P ≠ ⟨0, 0⟩) →
    (∀ P ∈ r, WLegal C.c P ∧ P ≠ ⟨0, 0⟩) → decPairs (circlGrp C) (wCodec C.c) (l.map recPt) (r.map recPt) = some (l, r)
  | [], [], _, _, _ => rfl
  | a :: l, b :: r, h, hl, hr => by
    have ih := decPairs_rec l r (by simpa using h) (fun P m => hl P (List.mem_cons_of_mem _ m))
      (fun P m => hr P (List.mem_cons_of_mem _ m))
    simp only [List.map_cons, decPairs]
    rw [decode_recPt hc (hl a (by simp)), decode_recPt hc (hr b (by simp)), ih]
    rfl

/-- both layouts of a range proof decode to the recorded values -/
theorem decBP_rec {K : RecCurve} {p : RecBP} (hp : ∀ P ∈ p.pts K, WLegal C.c P ∧ P ≠ ⟨0, 0⟩)
    (lens : K.Gg.length = 16 ∧ p.Hh.length = 16 ∧ p.L.length = 4 ∧ p.R.length = 4) (r : Raw)
    (hr : r = some (p.json K) ∨ r = some (p.jsonCommit K)) :
    decBP (wCodec C.c) (p.proof C K).Params r = some (.ok (p.proof C K)) := by
  have hraw : rawBP r = .ok (p.raw K) := by
    rcases hr with rfl | rfl
    · rfl
    · unfold RecBP.jsonCommit
      rw [rawBP_skip (by decide +kernel)]
      rfl
  unfold decBP
  rw [hraw]
  show Option.map _ (decBPRaw _ _ _) = _
  have m : ∀ P ∈ p.pts K, (wCodec C.c).decode (circlGrp C).elt (some (recPt P)) = some P :=
    fun P h => decode_recPt hc (hp P h) _
  have d1 := decPairs_rec hc K.Gg p.Hh (lens.1.trans lens.2.1.symm) (fun P h => hp P (by simp [RecBP.pts, h]))
    (fun P h => hp P (by simp [RecBP.pts, h]))
  have d2 := decPairs_rec hc p.L p.R (lens.2.2.1.trans lens.2.2.2.symm) (fun P h => hp P (by simp [RecBP.pts, h]))
    (fun P h => hp P (by simp [RecBP.pts, h]))
  have hip : decIPProof (circlGrp C) (wCodec C.c) (p.raw K).IP =
      some (p.proof C K).InnerProductProof := by
    unfold decIPProof decIPParams
    dsimp only [RecBP.raw]
    rw [m K.Uu (by simp [RecBP.pts]), d1, d2, m p.P (by simp [RecBP.pts])]
    rfl
  have : decBPRaw (wCodec C.c) (p.proof C K).Params (p.raw K) =
      some (p.proof C K) := by
    unfold decBPRaw
    have e : (p.proof C K).Params.GP = circlGrp C := rfl
    rw [e]
    dsimp only
    rw [hip]
    dsimp only [RecBP.raw]
    rw [ m p.V (by simp [RecBP.pts]), m p.A (by simp [RecBP.pts]), m p.S (by simp [RecBP.pts]),
      m p.T1 (by simp [RecBP.pts]), m p.T2 (by simp [RecBP.pts])]
    rfl
  rw [this]
  rfl

/-- the sigma proof decodes to the recorded values -/
theorem decSigma_rec {K : RecCurve} {b : RecBallot} (hp : ∀ P ∈ [K.G, K.H, b.Kq1, b.Kq2], WLegal C.c P ∧ P ≠ ⟨0, 0⟩)
    (hbg : 0 ≤ b.Bg ∧ b.Bg < 2 ^ 16) (hbb : -(2 ^ 63) ≤ b.Bb ∧ b.Bb < 2 ^ 63) :
    decSigma modPCodec (wCodec C.c) (modPGrp rfcGroup) (circlGrp C) (some (b.voteJson K)) = some (.ok (b.vote C K)) := by
  have e1 : asUInt 16 [.num b.Bg] = .ok b.Bg.toNat := asUInt_num hbg
  have e2 : asInt64 [.num b.Bb] = .ok b.Bb := asInt64_num hbb
  have e3 : rawProofParams [b.paramsJson K] = .ok (b.rawParams K) := by
    have : rawProofParams [b.paramsJson K] = (asUInt 16 [.num b.Bg] >>= fun bg =>
      asInt64 [.num b.Bb] >>= fun bb => .ok { b.rawParams K with Bg := bg, Bb := bb }) := rfl
    rw [this, e1, e2]
    rfl
  have e4 : rawSigma (some (b.voteJson K)) = .ok (b.rawVote K) := by
    have : rawSigma (some (b.voteJson K)) = (rawProofParams [b.paramsJson K] >>= fun q =>
      .ok { b.rawVote K with Params := q }) := rfl
    rw [this, e3]
    rfl
  unfold decSigma
  rw [e4]
  show Option.map _ (decSigmaRaw _ _ _ _ _) = _
  have m : ∀ P ∈ [K.G, K.H, b.Kq1, b.Kq2], (wCodec C.c).decode (circlGrp C).elt (some (recPt P)) = some P :=
    fun P h => decode_recPt hc (hp P h) _
  have : decSigmaRaw modPCodec (wCodec C.c) (modPGrp rfcGroup) (circlGrp C) (b.rawVote K) = some (b.vote C K) := by
    have g2 : decGroupParams (circlGrp C) (wCodec C.c) (b.rawVote K).Params.GEC = some (b.vote C K).Params.GEC := by
      unfold decGroupParams
      show ((wCodec C.c).decode _ (some (recPt K.G)) >>= fun g => (wCodec C.c).decode _ (some (recPt K.H)) >>= fun h => some _) = _
      rw [m _ (by simp), m _ (by simp)]
      rfl
    have g1 : decGroupParams (modPGrp rfcGroup) modPCodec (b.rawVote K).Params.GFF = some (b.vote C K).Params.GFF := rfl
    unfold decSigmaRaw
    rw [g1, g2]
    show ((wCodec C.c).decode _ (some (recPt b.Kq1)) >>= fun k1 => (wCodec C.c).decode _ (some (recPt b.Kq2)) >>= fun k2 =>
      some { b.vote C K with Kq1 := k1, Kq2 := k2 }) = _
    rw [m _ (by simp), m _ (by simp)]
    rfl
  rw [this]
  rfl

/-- the whole document -/
theorem decBallot_rec {K : RecCurve} {b : RecBallot} (pp : PublicParams Int WPoint)
    (h1 : pp.RPParams.GFF.I = modPGrp rfcGroup) (h2 : pp.RPParams.GEC.I = circlGrp C)
    (h3 : pp.BPParams = { N := 16, G := K.G, H := K.H, Gg := K.Gg, Hh := K.Hh, GP := circlGrp C })
    (hlo : ∀ P ∈ b.lo.pts K, WLegal C.c P ∧ P ≠ ⟨0, 0⟩) (hhi : ∀ P ∈ b.hi.pts K, WLegal C.c P ∧ P ≠ ⟨0, 0⟩)
    (hp : ∀ P ∈ [K.G, K.H, b.Kq1, b.Kq2], WLegal C.c P ∧ P ≠ ⟨0, 0⟩)
    (l1 : K.Gg.length = 16 ∧ b.lo.Hh.length = 16 ∧ b.lo.L.length = 4 ∧ b.lo.R.length = 4)
    (l2 : K.Gg.length = 16 ∧ b.hi.Hh.length = 16 ∧ b.hi.L.length = 4 ∧ b.hi.R.length = 4)
    (hbg : 0 ≤ b.Bg ∧ b.Bg < 2 ^ 16) (hbb : -(2 ^ 63) ≤ b.Bb ∧ b.Bb < 2 ^ 63) :
    decBallot modPCodec (wCodec C.c) pp (some (b.json K)) = some (.ok (b.ballot C K)) := by
  have d1 := decBP_rec hc hlo l1 _ (Or.inl rfl)
  have d2 := decBP_rec hc hhi l2 _ (Or.inr rfl)
  have d3 := decSigma_rec hc hp hbg hbb
  have e : decBallot modPCodec (wCodec C.c) pp (some (b.json K)) =
      bindEnc (decCiphertext pp.RPParams.GFF.I modPCodec (some (.obj [("u", .num b.u), ("v", .num b.v)]))) fun ballot =>
      bindEnc (decBP (wCodec C.c) pp.BPParams (some (b.lo.json K))) fun lo =>
      bindEnc (decBP (wCodec C.c) pp.BPParams (some (b.hi.jsonCommit K))) fun hi =>
      bindEnc (decSigma modPCodec (wCodec C.c) pp.RPParams.GFF.I pp.RPParams.GEC.I (some (b.voteJson K))) fun vp =>
      some (.ok { Ballot := ballot, BpLower := lo, BpUpper := hi, VoteProof := vp }) := rfl
  rw [e, h1, h2, h3, d3]
  have e1 : decBP (wCodec C.c) { N := 16, G := K.G, H := K.H, Gg := K.Gg, Hh := K.Hh, GP := circlGrp C } (some (b.lo.json K)) = _ := d1
  have e2 : decBP (wCodec C.c) { N := 16, G := K.G, H := K.H, Gg := K.Gg, Hh := K.Hh, GP := circlGrp C } (some (b.hi.jsonCommit K)) = _ := d2
  rw [e1, e2]
  rfl

end

end MscPoc
