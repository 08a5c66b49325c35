import Verif.Model.Marshal
import Verif.Lemmas.Vec

/-!
# Round trips of the JSON encoders, for element codecs that round-trip
-/

set_option autoImplicit false

namespace MscPoc

/-- the codec transports every element satisfying `V` -/
def Codec.Good {E : Type} (C : Codec E) (V : E → Prop) : Prop :=
  ∀ e, V e → ∃ j, C.marshal e = some (.ok j) ∧ ∀ recv, C.unmarshal recv (some j) = some (false, e)

section
variable {E E₁ E₂ : Type}

theorem bindEnc_ok {α β : Type} {x : Option (Except String α)} {a : α} (e : x = some (.ok a))
    (f : α → Option (Except String β)) : bindEnc x f = f a := by subst e; rfl

theorem Codec.Good.step {C : Codec E} {V : E → Prop} (h : C.Good V) {e : E} (he : V e) :
    ∃ j, C.enc e = some (.ok j) ∧ ∀ recv, C.decode recv (some j) = some e := by
  obtain ⟨j, h1, h2⟩ := h e he
  exact ⟨j, h1, fun recv => by unfold Codec.decode; rw [h2]; rfl⟩

theorem encElems_ok {C : Codec E} {V : E → Prop} (h : C.Good V) (es : List E) (hes : ∀ e ∈ es, V e) :
    ∃ js, encElems C es = some (.ok js) ∧ List.Forall₂ (fun e j => ∀ recv, C.decode recv (some j) = some e) es js := by
  induction es with
  | nil => exact ⟨[], rfl, .nil⟩
  | cons e es ih =>
    obtain ⟨j, h1, h2⟩ := h.step (hes e (by simp))
    obtain ⟨js, h3, h4⟩ := ih (fun x hx => hes x (by simp [hx]))
    refine ⟨j :: js, ?_, .cons h2 h4⟩
    unfold encElems
    rw [bindEnc_ok h1, bindEnc_ok h3]

theorem decPairs_ok (GP : Grp E) (C : Codec E) {as : List E} {ja : List Json}
    (ha : List.Forall₂ (fun e j => ∀ recv, C.decode recv (some j) = some e) as ja) :
    ∀ {bs : List E} {jb : List Json}, List.Forall₂ (fun e j => ∀ recv, C.decode recv (some j) = some e) bs jb →
      as.length = bs.length → decPairs GP C ja jb = some (as, bs) := by
  induction ha with
  | nil =>
    intro bs jb hb hl
    cases hb with
    | nil => rfl
    | cons => simp at hl
  | cons h1 _ ih =>
    intro bs jb hb hl
    cases hb with
    | nil => simp at hl
    | cons h2 h3 =>
      unfold decPairs
      runs h1 GP.elt
      runs h2 GP.elt
      runs ih h3 (by simpa using hl)
      rfl

/-- legality of the parts of a proof: exactly what the encoder needs -/
structure IPParamsOk (V : E → Prop) (p : IPParams E) : Prop where
  Gg : ∀ e ∈ p.Gg, V e
  Hh : ∀ e ∈ p.Hh, V e
  Uu : V p.Uu
  len : p.Gg.length = p.Hh.length

structure IPProofOk (V : E → Prop) (p : IPProof E) : Prop where
  P : V p.P
  L : ∀ e ∈ p.L, V e
  R : ∀ e ∈ p.R, V e
  len : p.L.length = p.R.length
  params : IPParamsOk V p.Params

structure BPParamsOk (V : E → Prop) (p : BPParams E) : Prop where
  G : V p.G
  H : V p.H
  Gg : ∀ e ∈ p.Gg, V e
  Hh : ∀ e ∈ p.Hh, V e

structure BPOk (V : E → Prop) (p : BulletProof E) : Prop where
  com : V p.V
  A : V p.A
  S : V p.S
  T1 : V p.T1
  T2 : V p.T2
  ip : IPProofOk V p.InnerProductProof
  params : BPParamsOk V p.Params

structure SigmaOk (V₁ : E₁ → Prop) (V₂ : E₂ → Prop) (p : SigmaProof E₁ E₂) : Prop where
  W : V₁ p.W
  Kp : V₁ p.Kp
  Kq1 : V₂ p.Kq1
  Kq2 : V₂ p.Kq2
  G₁ : V₁ p.Params.GFF.G
  H₁ : V₁ p.Params.GFF.H
  G₂ : V₂ p.Params.GEC.G
  H₂ : V₂ p.Params.GEC.H
  Bb : -(2 ^ 63) ≤ p.Params.Bb ∧ p.Params.Bb < 2 ^ 63

structure BallotOk (V₁ : E₁ → Prop) (V₂ : E₂ → Prop) (b : BallotData E₁ E₂) : Prop where
  U : V₁ b.Ballot.U
  V : V₁ b.Ballot.V
  lower : BPOk V₂ b.BpLower
  upper : BPOk V₂ b.BpUpper
  sigma : SigmaOk V₁ V₂ b.VoteProof

theorem asBig_bigJson (x : Option Int) : asBig [bigJson x] = .ok x := by cases x <;> rfl

theorem asRawList_arr (l : List Json) : asRawList [.arr l] = .ok l := rfl

theorem asObjs_one (kvs : List (String × Json)) : asObjs [.obj kvs] = .ok kvs := by
  simp [asObjs, asObj, bind, Except.bind, pure, Except.pure]

theorem ipParams_roundtrip {C : Codec E} {V : E → Prop} (h : C.Good V) (GP : Grp E) (p : IPParams E) (hp : IPParamsOk V p) :
    ∃ j r, encIPParams C p = some (.ok j) ∧ rawIPParams [j] = .ok r ∧
      decIPParams GP C r = some { p with GP := GP } := by
  obtain ⟨gg, g1, g2⟩ := encElems_ok h p.Gg hp.Gg
  obtain ⟨hh, h1, h2⟩ := encElems_ok h p.Hh hp.Hh
  obtain ⟨u, u1, u2⟩ := h.step hp.Uu
  refine ⟨.obj [("Gg", .arr gg), ("Hh", .arr hh), ("Uu", u), ("GP", groupJson p.GP.name)], ⟨some u, gg, hh⟩, ?_, ?_, ?_⟩
  · unfold encIPParams
    rw [bindEnc_ok g1, bindEnc_ok h1, bindEnc_ok u1]
  · rfl
  · unfold decIPParams
    runs u2 GP.elt
    runs decPairs_ok GP C g2 h2 hp.len
    rfl

theorem ipProof_roundtrip {C : Codec E} {V : E → Prop} (h : C.Good V) (GP : Grp E) (p : IPProof E) (hp : IPProofOk V p) :
    ∃ j r, encIPProof C p = some (.ok j) ∧ rawIPProof [j] = .ok r ∧
      decIPProof GP C r = some { p with Params := { p.Params with GP := GP } } := by
  obtain ⟨pj, p1, p2⟩ := h.step hp.P
  obtain ⟨l, l1, l2⟩ := encElems_ok h p.L hp.L
  obtain ⟨r, r1, r2⟩ := encElems_ok h p.R hp.R
  obtain ⟨j, raw, j1, j2, j3⟩ := ipParams_roundtrip h GP p.Params hp.params
  refine ⟨.obj [("P", pj), ("Cc", bigJson p.Cc), ("a", bigJson p.A), ("b", bigJson p.B),
    ("L", .arr l), ("R", .arr r), ("Params", j)], ⟨some pj, p.Cc, p.A, p.B, l, r, raw⟩, ?_, ?_, ?_⟩
  · unfold encIPProof
    rw [bindEnc_ok p1, bindEnc_ok l1, bindEnc_ok r1, bindEnc_ok j1]
  · obtain ⟨kvs, hk⟩ : ∃ kvs, [("P", pj), ("Cc", bigJson p.Cc), ("a", bigJson p.A), ("b", bigJson p.B),
      ("L", Json.arr l), ("R", Json.arr r), ("Params", j)] = kvs := ⟨_, rfl⟩
    have f1 : lookupField ipProofFields kvs "P" = some pj := by rw [← hk]; rfl
    have f2 : fieldVals ipProofFields kvs "Cc" = [bigJson p.Cc] := by rw [← hk]; rfl
    have f3 : fieldVals ipProofFields kvs "a" = [bigJson p.A] := by rw [← hk]; rfl
    have f4 : fieldVals ipProofFields kvs "b" = [bigJson p.B] := by rw [← hk]; rfl
    have f5 : fieldVals ipProofFields kvs "L" = [.arr l] := by rw [← hk]; rfl
    have f6 : fieldVals ipProofFields kvs "R" = [.arr r] := by rw [← hk]; rfl
    have f7 : fieldVals ipProofFields kvs "Params" = [j] := by rw [← hk]; rfl
    rw [hk]
    unfold rawIPProof
    rw [asObjs_one]
    simp only [f1, f2, f3, f4, f5, f6, f7, asBig_bigJson, asRawList_arr, j2, bind, Except.bind, pure, Except.pure]
  · unfold decIPProof
    runs j3
    runs decPairs_ok GP C l2 r2 hp.len
    dsimp only
    runs p2 GP.elt
    rfl

theorem bpParams_enc {C : Codec E} {V : E → Prop} (h : C.Good V) (p : BPParams E) (hp : BPParamsOk V p) :
    ∃ j, encBPParams C p = some (.ok j) := by
  obtain ⟨g, g1, _⟩ := h.step hp.G
  obtain ⟨u, u1, _⟩ := h.step hp.H
  obtain ⟨gg, h1, _⟩ := encElems_ok h p.Gg hp.Gg
  obtain ⟨hh, h2, _⟩ := encElems_ok h p.Hh hp.Hh
  exact ⟨_, by unfold encBPParams; rw [bindEnc_ok g1, bindEnc_ok u1, bindEnc_ok h1, bindEnc_ok h2]⟩

theorem bp_roundtrip {C : Codec E} {V : E → Prop} (h : C.Good V) (params : BPParams E) (p : BulletProof E) (hp : BPOk V p) :
    ∃ j, encBP C p = some (.ok j) ∧ decBP C params (some j) = some (.ok { p with
      InnerProductProof := { p.InnerProductProof with Params := { p.InnerProductProof.Params with GP := params.GP } }
      Params := params }) := by
  obtain ⟨v, v1, v2⟩ := h.step hp.com
  obtain ⟨a, a1, a2⟩ := h.step hp.A
  obtain ⟨s, s1, s2⟩ := h.step hp.S
  obtain ⟨t, t1, t2⟩ := h.step hp.T1
  obtain ⟨u, u1, u2⟩ := h.step hp.T2
  obtain ⟨ip, raw, i1, i2, i3⟩ := ipProof_roundtrip h params.GP p.InnerProductProof hp.ip
  obtain ⟨pj, hpj⟩ := bpParams_enc h p.Params hp.params
  obtain ⟨kvs, hk⟩ : ∃ kvs, [("V", v), ("A", a), ("S", s), ("T1", t), ("T2", u), ("Taux", bigJson p.Taux),
    ("Mu", bigJson p.Mu), ("Tprime", bigJson p.Tprime), ("InnerProductProof", ip), ("Params", pj)] = kvs := ⟨_, rfl⟩
  refine ⟨.obj kvs, ?_, ?_⟩
  · unfold encBP
    rw [bindEnc_ok v1, bindEnc_ok a1, bindEnc_ok s1, bindEnc_ok t1, bindEnc_ok u1, bindEnc_ok i1, bindEnc_ok hpj, hk]
  · have f1 : lookupField bpFields kvs "V" = some v := by rw [← hk]; rfl
    have f2 : lookupField bpFields kvs "A" = some a := by rw [← hk]; rfl
    have f3 : lookupField bpFields kvs "S" = some s := by rw [← hk]; rfl
    have f4 : lookupField bpFields kvs "T1" = some t := by rw [← hk]; rfl
    have f5 : lookupField bpFields kvs "T2" = some u := by rw [← hk]; rfl
    have f6 : fieldVals bpFields kvs "Taux" = [bigJson p.Taux] := by rw [← hk]; rfl
    have f7 : fieldVals bpFields kvs "Mu" = [bigJson p.Mu] := by rw [← hk]; rfl
    have f8 : fieldVals bpFields kvs "Tprime" = [bigJson p.Tprime] := by rw [← hk]; rfl
    have f9 : fieldVals bpFields kvs "InnerProductProof" = [ip] := by rw [← hk]; rfl
    have hraw : rawBP (some (.obj kvs)) = .ok ⟨some v, some a, some s, some t, some u, p.Taux, p.Mu, p.Tprime, raw⟩ := by
      unfold rawBP asObj
      simp only [f1, f2, f3, f4, f5, f6, f7, f8, f9, asBig_bigJson, i2, bind, Except.bind, pure, Except.pure]
    unfold decBP
    rw [hraw]
    dsimp only
    have hdec : decBPRaw C params ⟨some v, some a, some s, some t, some u, p.Taux, p.Mu, p.Tprime, raw⟩ = some { p with
        InnerProductProof := { p.InnerProductProof with Params := { p.InnerProductProof.Params with GP := params.GP } }
        Params := params } := by
      unfold decBPRaw
      dsimp only
      runs i3
      runs v2 params.GP.elt
      runs a2 params.GP.elt
      runs s2 params.GP.elt
      runs t2 params.GP.elt
      runs u2 params.GP.elt
      rfl
    rw [hdec]
    rfl

theorem groupParams_roundtrip {C : Codec E} {V : E → Prop} (h : C.Good V) (GP : Grp E) (p : GroupParams E) (hG : V p.G)
    (hH : V p.H) : ∃ j r, encGroupParams C p = some (.ok j) ∧ rawGroupParams [j] = .ok r ∧
      decGroupParams GP C r = some { p with I := GP } := by
  obtain ⟨g, g1, g2⟩ := h.step hG
  obtain ⟨u, u1, u2⟩ := h.step hH
  obtain ⟨kvs, hk⟩ : ∃ kvs, [("G", g), ("H", u), ("N", bigJson p.N), ("F", bigJson p.F), ("I", groupJson p.I.name)] = kvs :=
    ⟨_, rfl⟩
  refine ⟨.obj kvs, ⟨some g, some u, p.N, p.F⟩, ?_, ?_, ?_⟩
  · unfold encGroupParams
    rw [bindEnc_ok g1, bindEnc_ok u1, hk]
  · have f1 : lookupField groupParamsFields kvs "G" = some g := by rw [← hk]; rfl
    have f2 : lookupField groupParamsFields kvs "H" = some u := by rw [← hk]; rfl
    have f3 : fieldVals groupParamsFields kvs "N" = [bigJson p.N] := by rw [← hk]; rfl
    have f4 : fieldVals groupParamsFields kvs "F" = [bigJson p.F] := by rw [← hk]; rfl
    unfold rawGroupParams
    rw [asObjs_one]
    simp only [f1, f2, f3, f4, asBig_bigJson, bind, Except.bind, pure, Except.pure]
  · unfold decGroupParams
    runs g2 GP.elt
    runs u2 GP.elt
    rfl

theorem asUInt_num {bits : ℕ} {n : Int} (h : 0 ≤ n ∧ n < 2 ^ bits) : asUInt bits [.num n] = .ok n.toNat := by
  have e : uintStep bits 0 (.num n) = .ok n.toNat := if_pos h
  unfold asUInt decodeSeq
  rw [e]
  rfl

theorem asUInt_nat (bits n : ℕ) (h : n < 2 ^ bits) : asUInt bits [.num n] = .ok n :=
  asUInt_num ⟨Int.natCast_nonneg n, by exact_mod_cast h⟩

theorem asInt64_num {n : Int} (h : -(2 ^ 63) ≤ n ∧ n < 2 ^ 63) : asInt64 [.num n] = .ok n := by
  have e : int64Step 0 (.num n) = .ok n := if_pos h
  unfold asInt64 decodeSeq
  rw [e]
  rfl

theorem proofParams_roundtrip {C₁ : Codec E₁} {C₂ : Codec E₂} {V₁ : E₁ → Prop} {V₂ : E₂ → Prop} (h₁ : C₁.Good V₁)
    (h₂ : C₂.Good V₂) (gFF : Grp E₁) (gEC : Grp E₂) (p : ProofParams E₁ E₂) (a1 : V₁ p.GFF.G) (a2 : V₁ p.GFF.H) (a3 : V₂ p.GEC.G)
    (a4 : V₂ p.GEC.H) (hBb : -(2 ^ 63) ≤ p.Bb ∧ p.Bb < 2 ^ 63) :
    ∃ j r1 r2, encProofParams C₁ C₂ p = some (.ok j) ∧ rawProofParams [j] =
      .ok ⟨p.Bx.toNat, p.Bc.toNat, p.Bg.toNat, p.Bb, p.RangeLo.toNat, p.RangeHi.toNat, r1, r2⟩ ∧
      decGroupParams gFF C₁ r1 = some { p.GFF with I := gFF } ∧ decGroupParams gEC C₂ r2 = some { p.GEC with I := gEC } := by
  obtain ⟨j1, r1, x1, x2, x3⟩ := groupParams_roundtrip h₁ gFF p.GFF a1 a2
  obtain ⟨j2, r2, y1, y2, y3⟩ := groupParams_roundtrip h₂ gEC p.GEC a3 a4
  obtain ⟨kvs, hk⟩ : ∃ kvs, [("Bx", Json.num p.Bx.toNat), ("Bc", .num p.Bc.toNat), ("Bg", .num p.Bg.toNat),
    ("Bb", .num p.Bb), ("RangeLo", .num p.RangeLo.toNat), ("RangeHi", .num p.RangeHi.toNat),
    ("GFF", j1), ("GEC", j2)] = kvs := ⟨_, rfl⟩
  refine ⟨.obj kvs, r1, r2, ?_, ?_, x3, y3⟩
  · unfold encProofParams
    rw [bindEnc_ok x1, bindEnc_ok y1, hk]
  · have f1 : fieldVals proofParamsFields kvs "Bx" = [.num p.Bx.toNat] := by rw [← hk]; rfl
    have f2 : fieldVals proofParamsFields kvs "Bc" = [.num p.Bc.toNat] := by rw [← hk]; rfl
    have f3 : fieldVals proofParamsFields kvs "Bg" = [.num p.Bg.toNat] := by rw [← hk]; rfl
    have f4 : fieldVals proofParamsFields kvs "Bb" = [.num p.Bb] := by rw [← hk]; rfl
    have f5 : fieldVals proofParamsFields kvs "RangeLo" = [.num p.RangeLo.toNat] := by rw [← hk]; rfl
    have f6 : fieldVals proofParamsFields kvs "RangeHi" = [.num p.RangeHi.toNat] := by rw [← hk]; rfl
    have f7 : fieldVals proofParamsFields kvs "GFF" = [j1] := by rw [← hk]; rfl
    have f8 : fieldVals proofParamsFields kvs "GEC" = [j2] := by rw [← hk]; rfl
    have g4 : asInt64 [.num p.Bb] = .ok p.Bb := asInt64_num hBb
    unfold rawProofParams
    rw [asObjs_one]
    simp only [f1, f2, f3, f4, f5, f6, f7, f8, asUInt_nat 8 _ p.Bx.toNat_lt, asUInt_nat 16 _ p.Bc.toNat_lt,
      asUInt_nat 16 _ p.Bg.toNat_lt, g4, asUInt_nat 16 _ p.RangeLo.toNat_lt, asUInt_nat 16 _ p.RangeHi.toNat_lt, x2, y2,
      bind, Except.bind, pure, Except.pure]

theorem sigma_roundtrip {C₁ : Codec E₁} {C₂ : Codec E₂} {V₁ : E₁ → Prop} {V₂ : E₂ → Prop} (h₁ : C₁.Good V₁)
    (h₂ : C₂.Good V₂) (gFF : Grp E₁) (gEC : Grp E₂) (p : SigmaProof E₁ E₂) (hp : SigmaOk V₁ V₂ p) :
    ∃ j, encSigma C₁ C₂ p = some (.ok j) ∧ decSigma C₁ C₂ gFF gEC (some j) = some (.ok { p with
      Params := { p.Params with GFF := { p.Params.GFF with I := gFF }, GEC := { p.Params.GEC with I := gEC } } }) := by
  obtain ⟨w, w1, w2⟩ := h₁.step hp.W
  obtain ⟨k, k1, k2⟩ := h₁.step hp.Kp
  obtain ⟨l, l1, l2⟩ := h₂.step hp.Kq1
  obtain ⟨m, m1, m2⟩ := h₂.step hp.Kq2
  obtain ⟨j, r1, r2, j1, j2, j3, j4⟩ := proofParams_roundtrip h₁ h₂ gFF gEC p.Params hp.G₁ hp.H₁ hp.G₂ hp.H₂ hp.Bb
  obtain ⟨kvs, hk⟩ : ∃ kvs, [("W", w), ("Kp", k), ("Kq1", l), ("Kq2", m), ("Challenge", bigJson p.Challenge),
    ("Z", bigJson p.Z), ("Sp", bigJson p.Sp), ("Sq1", bigJson p.Sq1), ("Sq2", bigJson p.Sq2), ("Params", j)] = kvs := ⟨_, rfl⟩
  refine ⟨.obj kvs, ?_, ?_⟩
  · unfold encSigma
    rw [bindEnc_ok w1, bindEnc_ok k1, bindEnc_ok l1, bindEnc_ok m1, bindEnc_ok j1, hk]
  · have f1 : lookupField sigmaFields kvs "W" = some w := by rw [← hk]; rfl
    have f2 : lookupField sigmaFields kvs "Kp" = some k := by rw [← hk]; rfl
    have f3 : lookupField sigmaFields kvs "Kq1" = some l := by rw [← hk]; rfl
    have f4 : lookupField sigmaFields kvs "Kq2" = some m := by rw [← hk]; rfl
    have f5 : fieldVals sigmaFields kvs "Challenge" = [bigJson p.Challenge] := by rw [← hk]; rfl
    have f6 : fieldVals sigmaFields kvs "Z" = [bigJson p.Z] := by rw [← hk]; rfl
    have f7 : fieldVals sigmaFields kvs "Sp" = [bigJson p.Sp] := by rw [← hk]; rfl
    have f8 : fieldVals sigmaFields kvs "Sq1" = [bigJson p.Sq1] := by rw [← hk]; rfl
    have f9 : fieldVals sigmaFields kvs "Sq2" = [bigJson p.Sq2] := by rw [← hk]; rfl
    have f10 : fieldVals sigmaFields kvs "Params" = [j] := by rw [← hk]; rfl
    have hraw : rawSigma (some (.obj kvs)) = .ok ⟨some w, some k, some l, some m, p.Challenge, p.Z, p.Sp, p.Sq1, p.Sq2,
        ⟨p.Params.Bx.toNat, p.Params.Bc.toNat, p.Params.Bg.toNat, p.Params.Bb, p.Params.RangeLo.toNat, p.Params.RangeHi.toNat,
          r1, r2⟩⟩ := by
      unfold rawSigma asObj
      simp only [f1, f2, f3, f4, f5, f6, f7, f8, f9, f10, asBig_bigJson, j2, bind, Except.bind, pure, Except.pure]
    unfold decSigma
    rw [hraw]
    dsimp only
    have hdec : decSigmaRaw C₁ C₂ gFF gEC ⟨some w, some k, some l, some m, p.Challenge, p.Z, p.Sp, p.Sq1, p.Sq2,
        ⟨p.Params.Bx.toNat, p.Params.Bc.toNat, p.Params.Bg.toNat, p.Params.Bb, p.Params.RangeLo.toNat, p.Params.RangeHi.toNat,
          r1, r2⟩⟩ = some { p with
        Params := { p.Params with GFF := { p.Params.GFF with I := gFF }, GEC := { p.Params.GEC with I := gEC } } } := by
      unfold decSigmaRaw
      runs j3
      runs j4
      runs w2 gFF.elt
      runs k2 gFF.elt
      runs l2 gEC.elt
      runs m2 gEC.elt
      simp
    rw [hdec]
    rfl

theorem ciphertext_roundtrip {C : Codec E} {V : E → Prop} (h : C.Good V) (GP : Grp E) (c : Ciphertext E) (hU : V c.U)
    (hV : V c.V) : ∃ j, encCiphertext C c = some (.ok j) ∧ decCiphertext GP C (some j) = some (.ok c) := by
  obtain ⟨u, u1, u2⟩ := h.step hU
  obtain ⟨v, v1, v2⟩ := h.step hV
  refine ⟨.obj [("u", u), ("v", v)], ?_, ?_⟩
  · unfold encCiphertext
    rw [bindEnc_ok u1, bindEnc_ok v1]
  · unfold decCiphertext asObj
    dsimp only
    have f1 : lookupField ["u", "v"] [("u", u), ("v", v)] "u" = some u := rfl
    have f2 : lookupField ["u", "v"] [("u", u), ("v", v)] "v" = some v := rfl
    rw [f1, f2]
    runs u2 GP.elt
    runs v2 GP.elt
    rfl

/-- the ballot that comes out: group handles and range-proof parameters are the server's -/
def received (pp : PublicParams E₁ E₂) (b : BallotData E₁ E₂) : BallotData E₁ E₂ where
  Ballot := b.Ballot
  BpLower := { b.BpLower with
    InnerProductProof := { b.BpLower.InnerProductProof with
      Params := { b.BpLower.InnerProductProof.Params with GP := pp.BPParams.GP } }
    Params := pp.BPParams }
  BpUpper := { b.BpUpper with
    InnerProductProof := { b.BpUpper.InnerProductProof with
      Params := { b.BpUpper.InnerProductProof.Params with GP := pp.BPParams.GP } }
    Params := pp.BPParams }
  VoteProof := { b.VoteProof with
    Params := { b.VoteProof.Params with
      GFF := { b.VoteProof.Params.GFF with I := pp.RPParams.GFF.I }
      GEC := { b.VoteProof.Params.GEC with I := pp.RPParams.GEC.I } } }

theorem ballot_roundtrip {C₁ : Codec E₁} {C₂ : Codec E₂} {V₁ : E₁ → Prop} {V₂ : E₂ → Prop} (h₁ : C₁.Good V₁)
    (h₂ : C₂.Good V₂) (pp : PublicParams E₁ E₂) (b : BallotData E₁ E₂) (hb : BallotOk V₁ V₂ b) :
    ∃ j, encBallot C₁ C₂ b = some (.ok j) ∧ decBallot C₁ C₂ pp (some j) = some (.ok (received pp b)) := by
  obtain ⟨c, c1, c2⟩ := ciphertext_roundtrip h₁ pp.RPParams.GFF.I b.Ballot hb.U hb.V
  obtain ⟨l, l1, l2⟩ := bp_roundtrip h₂ pp.BPParams b.BpLower hb.lower
  obtain ⟨u, u1, u2⟩ := bp_roundtrip h₂ pp.BPParams b.BpUpper hb.upper
  obtain ⟨s, s1, s2⟩ := sigma_roundtrip h₁ h₂ pp.RPParams.GFF.I pp.RPParams.GEC.I b.VoteProof hb.sigma
  obtain ⟨kvs, hk⟩ : ∃ kvs, [("ballot", c), ("lbProof", l), ("ubProof", u), ("voteProof", s)] = kvs := ⟨_, rfl⟩
  refine ⟨.obj kvs, ?_, ?_⟩
  · unfold encBallot
    rw [bindEnc_ok c1, bindEnc_ok l1, bindEnc_ok u1, bindEnc_ok s1, hk]
  · have f1 : lookupField ballotFields kvs "ballot" = some c := by rw [← hk]; rfl
    have f2 : lookupField ballotFields kvs "lbProof" = some l := by rw [← hk]; rfl
    have f3 : lookupField ballotFields kvs "ubProof" = some u := by rw [← hk]; rfl
    have f4 : lookupField ballotFields kvs "voteProof" = some s := by rw [← hk]; rfl
    unfold decBallot asObj
    dsimp only
    rw [f1, f2, f3, f4, bindEnc_ok c2, bindEnc_ok l2, bindEnc_ok u2, bindEnc_ok s2]
    rfl

end

/-- the safe-prime codec transports every integer -/
theorem modPCodec_good : modPCodec.Good fun _ => True := fun e _ => ⟨.num e, rfl, fun _ => rfl⟩

end MscPoc
