import Verif.Model.Points
import Verif.Model.Vote

/-!
# marshal.go, bulletproofs/marshal.go, voteproof/marshal.go
-/

set_option autoImplicit false

namespace MscPoc

/-! ## Encoding (`json.Marshal` on the repository's structs) -/

/-- run an element's `MarshalJSON` -/
def Codec.enc {E : Type} (C : Codec E) (e : E) : Option (Except String Json) := C.marshal e

/-- sequencing of encoders: first panic or error wins -/
def bindEnc {α β : Type} (x : Option (Except String α)) (f : α → Option (Except String β)) :
    Option (Except String β) :=
  match x with
  | none => none
  | some (.error e) => some (.error e)
  | some (.ok a) => f a

/-- `json.Marshal` of a `[]group.Element`. -/
def encElems {E : Type} (C : Codec E) : List E → Option (Except String (List Json))
  | [] => some (.ok [])
  | e :: es => bindEnc (C.enc e) fun j => bindEnc (encElems C es) fun js => some (.ok (j :: js))

/-- group/types.go:12-14 `GroupId` -/
def groupJson (name : String) : Json := .obj [("group", .str name)]

/-- bulletproofs/bip.go:37-42 -/
def encIPParams {E : Type} (C : Codec E) (p : IPParams E) : Option (Except String Json) :=
  bindEnc (encElems C p.Gg) fun gg => bindEnc (encElems C p.Hh) fun hh =>
  bindEnc (C.enc p.Uu) fun uu =>
  some (.ok (.obj [("Gg", .arr gg), ("Hh", .arr hh), ("Uu", uu), ("GP", groupJson p.GP.name)]))

/-- bulletproofs/bip.go:47-55 -/
def encIPProof {E : Type} (C : Codec E) (p : IPProof E) : Option (Except String Json) :=
  bindEnc (C.enc p.P) fun pj => bindEnc (encElems C p.L) fun l => bindEnc (encElems C p.R) fun r =>
  bindEnc (encIPParams C p.Params) fun params =>
  some (.ok (.obj [("P", pj), ("Cc", bigJson p.Cc), ("a", bigJson p.A), ("b", bigJson p.B),
    ("L", .arr l), ("R", .arr r), ("Params", params)]))

/-- bulletproofs/bp.go:35-50 -/
def encBPParams {E : Type} (C : Codec E) (p : BPParams E) : Option (Except String Json) :=
  bindEnc (C.enc p.G) fun g => bindEnc (C.enc p.H) fun h => bindEnc (encElems C p.Gg) fun gg =>
  bindEnc (encElems C p.Hh) fun hh =>
  some (.ok (.obj [("N", .num p.N), ("G", g), ("H", h), ("Gg", .arr gg), ("Hh", .arr hh),
    ("GP", groupJson p.GP.name)]))

/-- bulletproofs/bp.go:56-67 -/
def encBP {E : Type} (C : Codec E) (p : BulletProof E) : Option (Except String Json) :=
  bindEnc (C.enc p.V) fun v => bindEnc (C.enc p.A) fun a => bindEnc (C.enc p.S) fun s =>
  bindEnc (C.enc p.T1) fun t1 => bindEnc (C.enc p.T2) fun t2 =>
  bindEnc (encIPProof C p.InnerProductProof) fun ip => bindEnc (encBPParams C p.Params) fun params =>
  some (.ok (.obj [("V", v), ("A", a), ("S", s), ("T1", t1), ("T2", t2), ("Taux", bigJson p.Taux),
    ("Mu", bigJson p.Mu), ("Tprime", bigJson p.Tprime), ("InnerProductProof", ip), ("Params", params)]))

/-- voteproof/voteproof.go:16-22 -/
def encGroupParams {E : Type} (C : Codec E) (p : GroupParams E) : Option (Except String Json) :=
  bindEnc (C.enc p.G) fun g => bindEnc (C.enc p.H) fun h =>
  some (.ok (.obj [("G", g), ("H", h), ("N", bigJson p.N), ("F", bigJson p.F), ("I", groupJson p.I.name)]))

/-- voteproof/voteproof.go:31-39 -/
def encProofParams {E₁ E₂ : Type} (C₁ : Codec E₁) (C₂ : Codec E₂) (p : ProofParams E₁ E₂) :
    Option (Except String Json) :=
  bindEnc (encGroupParams C₁ p.GFF) fun gff => bindEnc (encGroupParams C₂ p.GEC) fun gec =>
  some (.ok (.obj [("Bx", .num p.Bx.toNat), ("Bc", .num p.Bc.toNat), ("Bg", .num p.Bg.toNat),
    ("Bb", .num p.Bb), ("RangeLo", .num p.RangeLo.toNat), ("RangeHi", .num p.RangeHi.toNat),
    ("GFF", gff), ("GEC", gec)]))

/-- voteproof/voteproof.go:72-77 -/
def encSigma {E₁ E₂ : Type} (C₁ : Codec E₁) (C₂ : Codec E₂) (p : SigmaProof E₁ E₂) :
    Option (Except String Json) :=
  bindEnc (C₁.enc p.W) fun w => bindEnc (C₁.enc p.Kp) fun kp => bindEnc (C₂.enc p.Kq1) fun kq1 =>
  bindEnc (C₂.enc p.Kq2) fun kq2 => bindEnc (encProofParams C₁ C₂ p.Params) fun params =>
  some (.ok (.obj [("W", w), ("Kp", kp), ("Kq1", kq1), ("Kq2", kq2), ("Challenge", bigJson p.Challenge),
    ("Z", bigJson p.Z), ("Sp", bigJson p.Sp), ("Sq1", bigJson p.Sq1), ("Sq2", bigJson p.Sq2),
    ("Params", params)]))

/-- elgamal.go:9-12 -/
def encCiphertext {E : Type} (C : Codec E) (c : Ciphertext E) : Option (Except String Json) :=
  bindEnc (C.enc c.U) fun u => bindEnc (C.enc c.V) fun v => some (.ok (.obj [("u", u), ("v", v)]))

/-- voter.go:12-17: `json.Marshal(ballotData)` (main_test.go:44) -/
def encBallot {E₁ E₂ : Type} (C₁ : Codec E₁) (C₂ : Codec E₂) (b : BallotData E₁ E₂) :
    Option (Except String Json) :=
  bindEnc (encCiphertext C₁ b.Ballot) fun ct => bindEnc (encBP C₂ b.BpLower) fun lo =>
  bindEnc (encBP C₂ b.BpUpper) fun hi => bindEnc (encSigma C₁ C₂ b.VoteProof) fun vp =>
  some (.ok (.obj [("ballot", ct), ("lbProof", lo), ("ubProof", hi), ("voteProof", vp)]))

/-! ## Decoding -/

/-- bulletproofs/marshal.go:48-53 / 69-74: decode two parallel lists of elements, indexed by the first one;
`j.Hh[i]` panics when the second list is shorter.  Entries of a longer second list stay nil interfaces in Go; here that
tail is dropped.  `Model/NilTail.lean` keeps it, and C70 states what it changes. -/
def decPairs {E : Type} (GP : Grp E) (C : Codec E) :
    List Json → List Json → Option (List E × List E)
  | [], _ => some ([], [])
  | _ :: _, [] => none
  | x :: xs, y :: ys => do
    let a ← C.decode GP.elt (some x)
    let b ← C.decode GP.elt (some y)
    let (as, bs) ← decPairs GP C xs ys
    some (a :: as, b :: bs)

/-- Field names of bulletproofs/marshal.go:9-14. -/
def ipParamsFields : List String := ["Uu", "Gg", "Hh", "GP"]

/-- bulletproofs/marshal.go:16-24. -/
def ipProofFields : List String := ["P", "Cc", "a", "b", "L", "R", "Params"]

/-- bulletproofs/marshal.go:26-37. -/
def bpFields : List String :=
  ["V", "A", "S", "T1", "T2", "Taux", "Mu", "Tprime", "InnerProductProof", "Params"]

/-- bulletproofs/marshal.go:9-14 after `json.Unmarshal`. -/
structure IPParamsRaw where
  Uu : Raw
  Gg : List Json
  Hh : List Json

/-- type-check of `innerProductParamsJSON` -/
def rawIPParams (js : List Json) : Except String IPParamsRaw := do
  let kvs ← asObjs js
  let gg ← asRawList (fieldVals ipParamsFields kvs "Gg")
  let hh ← asRawList (fieldVals ipParamsFields kvs "Hh")
  pure { Uu := lookupField ipParamsFields kvs "Uu", Gg := gg, Hh := hh }

/-- bulletproofs/marshal.go:16-24 after `json.Unmarshal`. -/
structure IPProofRaw where
  P : Raw
  Cc : Option Int
  A : Option Int
  B : Option Int
  L : List Json
  R : List Json
  Params : IPParamsRaw

/-- type-check of `innerProductProofJSON` -/
def rawIPProof (js : List Json) : Except String IPProofRaw := do
  let kvs ← asObjs js
  let f := fieldVals ipProofFields kvs
  let cc ← asBig (f "Cc")
  let a ← asBig (f "a")
  let b ← asBig (f "b")
  let l ← asRawList (f "L")
  let rr ← asRawList (f "R")
  let params ← rawIPParams (f "Params")
  pure { P := lookupField ipProofFields kvs "P", Cc := cc, A := a, B := b, L := l, R := rr, Params := params }

/-- bulletproofs/marshal.go:39-56 `ipParamsFromRawMessage` (see `decPairs` for unequal lengths). -/
def decIPParams {E : Type} (GP : Grp E) (C : Codec E) (j : IPParamsRaw) : Option (IPParams E) := do
  let uu ← C.decode GP.elt j.Uu
  let (gg, hh) ← decPairs GP C j.Gg j.Hh
  some { Gg := gg, Hh := hh, Uu := uu, GP := GP }

/-- bulletproofs/marshal.go:58-78 `ipProofFromRawMessage` (same remark for `L`, `R`). -/
def decIPProof {E : Type} (GP : Grp E) (C : Codec E) (j : IPProofRaw) : Option (IPProof E) := do
  let params ← decIPParams GP C j.Params
  let (l, r) ← decPairs GP C j.L j.R
  let p ← C.decode GP.elt j.P
  some { P := p, Cc := j.Cc, A := j.A, B := j.B, L := l, R := r, Params := params }

/-- bulletproofs/marshal.go:26-37 after `json.Unmarshal`. -/
structure BPRaw where
  V : Raw
  A : Raw
  S : Raw
  T1 : Raw
  T2 : Raw
  Taux : Option Int
  Mu : Option Int
  Tprime : Option Int
  IP : IPProofRaw

/-- bulletproofs/marshal.go:81-85 -/
def rawBP (r : Raw) : Except String BPRaw := do
  let kvs ← asObj r
  let f := fieldVals bpFields kvs
  let taux ← asBig (f "Taux")
  let mu ← asBig (f "Mu")
  let tprime ← asBig (f "Tprime")
  let ip ← rawIPProof (f "InnerProductProof")
  let m := lookupField bpFields kvs
  pure { V := m "V", A := m "A", S := m "S", T1 := m "T1", T2 := m "T2", Taux := taux, Mu := mu,
         Tprime := tprime, IP := ip }

/-- bulletproofs/marshal.go:87-106 -/
def decBPRaw {E : Type} (C : Codec E) (params : BPParams E) (j : BPRaw) : Option (BulletProof E) := do
  let GP := params.GP
  let ip ← decIPProof GP C j.IP
  let v ← C.decode GP.elt j.V
  let a ← C.decode GP.elt j.A
  let s ← C.decode GP.elt j.S
  let t1 ← C.decode GP.elt j.T1
  let t2 ← C.decode GP.elt j.T2
  some { V := v, A := a, S := s, T1 := t1, T2 := t2, Taux := j.Taux, Mu := j.Mu, Tprime := j.Tprime,
         InnerProductProof := ip, Params := params }

/-- bulletproofs/marshal.go:80-107 `BulletProofUnmarshalJSON(b, params)` -/
def decBP {E : Type} (C : Codec E) (params : BPParams E) (r : Raw) :
    Option (Except String (BulletProof E)) :=
  match rawBP r with
  | .error e => some (.error e)
  | .ok j => (decBPRaw C params j).map .ok

/-- voteproof/marshal.go:9-15 -/
def groupParamsFields : List String := ["G", "H", "N", "F", "I"]

/-- voteproof/marshal.go:22-30 with the promoted fields of the embedded struct (lines 17-20). -/
def proofParamsFields : List String := ["Bx", "Bc", "Bg", "Bb", "RangeLo", "RangeHi", "GFF", "GEC"]

/-- voteproof/marshal.go:39-44 with promoted fields (32-37, voteproof.go:58-68). -/
def sigmaFields : List String :=
  ["W", "Kp", "Kq1", "Kq2", "Challenge", "Z", "Sp", "Sq1", "Sq2", "Params"]

/-- voteproof/marshal.go:9-15 after `json.Unmarshal`. -/
structure GroupParamsRaw where
  G : Raw
  H : Raw
  N : Option Int
  F : Option Int

/-- type-check of `groupParametersJSON` -/
def rawGroupParams (js : List Json) : Except String GroupParamsRaw := do
  let kvs ← asObjs js
  let f := fieldVals groupParamsFields kvs
  let n ← asBig (f "N")
  let ff ← asBig (f "F")
  let m := lookupField groupParamsFields kvs
  pure { G := m "G", H := m "H", N := n, F := ff }

/-- voteproof/marshal.go:22-30 after `json.Unmarshal`. -/
structure ProofParamsRaw where
  Bx : Nat
  Bc : Nat
  Bg : Nat
  Bb : Int
  RangeLo : Nat
  RangeHi : Nat
  GFF : GroupParamsRaw
  GEC : GroupParamsRaw

/-- type-check of `proofParamsJSON` -/
def rawProofParams (js : List Json) : Except String ProofParamsRaw := do
  let kvs ← asObjs js
  let f := fieldVals proofParamsFields kvs
  let bx ← asUInt 8 (f "Bx")
  let bc ← asUInt 16 (f "Bc")
  let bg ← asUInt 16 (f "Bg")
  let bb ← asInt64 (f "Bb")
  let lo ← asUInt 16 (f "RangeLo")
  let hi ← asUInt 16 (f "RangeHi")
  let gff ← rawGroupParams (f "GFF")
  let gec ← rawGroupParams (f "GEC")
  pure { Bx := bx, Bc := bc, Bg := bg, Bb := bb, RangeLo := lo, RangeHi := hi, GFF := gff, GEC := gec }

/-- voteproof/marshal.go:39-44 after `json.Unmarshal`. -/
structure SigmaRaw where
  W : Raw
  Kp : Raw
  Kq1 : Raw
  Kq2 : Raw
  Challenge : Option Int
  Z : Option Int
  Sp : Option Int
  Sq1 : Option Int
  Sq2 : Option Int
  Params : ProofParamsRaw

/-- voteproof/marshal.go:47-51 -/
def rawSigma (r : Raw) : Except String SigmaRaw := do
  let kvs ← asObj r
  let f := fieldVals sigmaFields kvs
  let c ← asBig (f "Challenge")
  let z ← asBig (f "Z")
  let sp ← asBig (f "Sp")
  let sq1 ← asBig (f "Sq1")
  let sq2 ← asBig (f "Sq2")
  let params ← rawProofParams (f "Params")
  let m := lookupField sigmaFields kvs
  pure { W := m "W", Kp := m "Kp", Kq1 := m "Kq1", Kq2 := m "Kq2", Challenge := c, Z := z, Sp := sp,
         Sq1 := sq1, Sq2 := sq2, Params := params }

/-- voteproof/marshal.go:53-70: the group parameters; the group implementation is the verifier's. -/
def decGroupParams {E : Type} (GP : Grp E) (C : Codec E) (j : GroupParamsRaw) : Option (GroupParams E) := do
  let g ← C.decode GP.elt j.G
  let h ← C.decode GP.elt j.H
  some { G := g, H := h, N := j.N, F := j.F, I := GP }

/-- voteproof/marshal.go:53-98 -/
def decSigmaRaw {E₁ E₂ : Type} (C₁ : Codec E₁) (C₂ : Codec E₂) (gFF : Grp E₁) (gEC : Grp E₂)
    (j : SigmaRaw) : Option (SigmaProof E₁ E₂) := do
  let gff ← decGroupParams gFF C₁ j.Params.GFF
  let gec ← decGroupParams gEC C₂ j.Params.GEC
  let w ← C₁.decode gFF.elt j.W
  let kp ← C₁.decode gFF.elt j.Kp
  let kq1 ← C₂.decode gEC.elt j.Kq1
  let kq2 ← C₂.decode gEC.elt j.Kq2
  some { W := w, Kp := kp, Kq1 := kq1, Kq2 := kq2, Challenge := j.Challenge, Z := j.Z, Sp := j.Sp,
         Sq1 := j.Sq1, Sq2 := j.Sq2,
         Params := { Bx := UInt8.ofNat j.Params.Bx, Bc := UInt16.ofNat j.Params.Bc,
                     Bg := UInt16.ofNat j.Params.Bg, Bb := j.Params.Bb,
                     RangeLo := UInt16.ofNat j.Params.RangeLo, RangeHi := UInt16.ofNat j.Params.RangeHi,
                     GFF := gff, GEC := gec } }

/-- voteproof/marshal.go:46-97 `ProofUnmarshalJSON(b, gFF, gEC)` -/
def decSigma {E₁ E₂ : Type} (C₁ : Codec E₁) (C₂ : Codec E₂) (gFF : Grp E₁) (gEC : Grp E₂) (r : Raw) :
    Option (Except String (SigmaProof E₁ E₂)) :=
  match rawSigma r with
  | .error e => some (.error e)
  | .ok j => (decSigmaRaw C₁ C₂ gFF gEC j).map .ok

/-- marshal.go:22-37 `BallotUnmarshalJSON(b, g)` -/
def decCiphertext {E : Type} (GP : Grp E) (C : Codec E) (r : Raw) :
    Option (Except String (Ciphertext E)) :=
  match asObj r with
  | .error e => some (.error e)
  | .ok kvs => do
    let u ← C.decode GP.elt (lookupField ["u", "v"] kvs "u")
    let v ← C.decode GP.elt (lookupField ["u", "v"] kvs "v")
    some (.ok { U := u, V := v })

/-- marshal.go:15-20 -/
def ballotFields : List String := ["ballot", "lbProof", "ubProof", "voteProof"]

/-- marshal.go:39-72 `BallotDataUnmarshalJSON(b, pp)`.  The error of the outer `json.Unmarshal` (line 41) is
overwritten by the next call; a failed outer decode leaves all raw messages nil. -/
def decBallot {E₁ E₂ : Type} (C₁ : Codec E₁) (C₂ : Codec E₂) (pp : PublicParams E₁ E₂) (r : Raw) :
    Option (Except String (BallotData E₁ E₂)) :=
  let kvs := match asObj r with
    | .ok kvs => kvs
    | .error _ => []
  let f := lookupField ballotFields kvs
  bindEnc (decCiphertext pp.RPParams.GFF.I C₁ (f "ballot")) fun ballot =>
  bindEnc (decBP C₂ pp.BPParams (f "lbProof")) fun lo =>
  bindEnc (decBP C₂ pp.BPParams (f "ubProof")) fun hi =>
  bindEnc (decSigma C₁ C₂ pp.RPParams.GFF.I pp.RPParams.GEC.I (f "voteProof")) fun vp =>
  some (.ok { Ballot := ballot, BpLower := lo, BpUpper := hi, VoteProof := vp })

end MscPoc
