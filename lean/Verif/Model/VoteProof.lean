import Verif.Model.Group

/-!
# voteproof/voteproof.go
-/

set_option autoImplicit false

namespace MscPoc

/-- voteproof/voteproof.go:16-22 `GroupParameters`; `N`, `F` are nil-able pointers. -/
structure GroupParams (E : Type) where
  G : E
  H : E
  N : Option Int
  F : Option Int
  I : Grp E

/-- voteproof/voteproof.go:25-28 `AlgebraicParameters` -/
structure AlgebraicParams (E₁ E₂ : Type) where
  GFF : GroupParams E₁
  GEC : GroupParams E₂

/-- voteproof/voteproof.go:31-39 `ProofParams` (the embedded `AlgebraicParameters` is flattened).
`Bb` is a Go `int`; it is never large enough to wrap. -/
structure ProofParams (E₁ E₂ : Type) where
  Bx : UInt8
  Bc : UInt16
  Bg : UInt16
  Bb : Int
  RangeLo : UInt16
  RangeHi : UInt16
  GFF : GroupParams E₁
  GEC : GroupParams E₂

/-- voteproof/voteproof.go:42-47 `VerCommitments` -/
structure VerCommitments (E₁ E₂ : Type) where
  Y : E₁
  Xp : E₁
  Xq1 : E₂
  Xq2 : E₂

/-- voteproof/voteproof.go:50-77 `SigmaProof` with its embedded structs flattened; scalars are nil-able. -/
structure SigmaProof (E₁ E₂ : Type) where
  W : E₁
  Kp : E₁
  Kq1 : E₂
  Kq2 : E₂
  Challenge : Option Int
  Z : Option Int
  Sp : Option Int
  Sq1 : Option Int
  Sq2 : Option Int
  Params : ProofParams E₁ E₂

/-- voteproof/voteproof.go:80-97 `Setup`.  On error Go also returns the parameters; callers drop them. -/
def vpSetup {E₁ E₂ : Type} (lenSecret : UInt8) (lenChallenge groupOrderLog rangeLo rangeHi : UInt16)
    (AP : AlgebraicParams E₁ E₂) : Except String (ProofParams E₁ E₂) :=
  let Bb : Int := (groupOrderLog.toNat : Int) - 1 - (lenSecret.toNat : Int) - (lenChallenge.toNat : Int)
  let params : ProofParams E₁ E₂ :=
    { Bx := lenSecret, Bc := lenChallenge, Bg := groupOrderLog, Bb := Bb,
      RangeLo := rangeLo, RangeHi := rangeHi, GFF := AP.GFF, GEC := AP.GEC }
  if params.Bb < 1 then .error "inconsistent parameter choice" else .ok params

/-- voteproof/voteproof.go:127 / 183: `int64(uint16(params.Bx) + params.Bc)` — a 16-bit addition. -/
def ProofParams.bxbc {E₁ E₂ : Type} (p : ProofParams E₁ E₂) : Nat := (p.Bx.toUInt16 + p.Bc).toNat

/-- voteproof/voteproof.go:129 / 185: inclusive lower bound `2^(Bx+Bc)`. -/
def ProofParams.zLowerBound {E₁ E₂ : Type} (p : ProofParams E₁ E₂) : Int := 2 ^ p.bxbc

/-- voteproof/voteproof.go:131 / 187: exclusive upper bound `Exp(2, Bx+Bc+Bb, nil)`; `Exp` with nil modulus
returns 1 for a non-positive exponent. -/
def ProofParams.zUpperBound {E₁ E₂ : Type} (p : ProofParams E₁ E₂) : Int := 2 ^ ((p.bxbc : Int) + p.Bb).toNat

/-- voteproof/voteproof.go:153 / 190, negated: neither `z < lower` nor `z >= upper`. -/
def ProofParams.zOk {E₁ E₂ : Type} (p : ProofParams E₁ E₂) (z : Int) : Bool :=
  !(z < p.zLowerBound || !(z < p.zUpperBound))

/-- voteproof/voteproof.go:99-103 `pedersenCommit(m, r, gp)` -/
def vpCommit {E : Type} (m r : Int) (gp : GroupParams E) : E :=
  let bind := gp.I.mulGen m
  let blind := gp.I.mul gp.H r
  gp.I.add bind blind

/-- voteproof/voteproof.go:105-110 `sigmaPedersenCheck` -/
def sigmaPedersenCheck {E : Type} (z s c : Int) (k x : E) (gp : GroupParams E) : Bool :=
  let left := vpCommit z s gp
  let right := gp.I.mul x c
  let right := gp.I.add right k
  gp.I.isEqual left right

/-- voteproof/voteproof.go:112-124: the bytes that are hashed. -/
def fsTranscript {E₁ E₂ : Type} (G₁ : Grp E₁) (G₂ : Grp E₂) (w Kp : E₁) (Kq1 Kq2 : E₂) : Bytes :=
  G₁.str w ++ G₁.str Kp ++ G₂.str Kq1 ++ G₂.str Kq2

/-- voteproof/voteproof.go:112-124 `getFSChallenge`; the slice expression on the digest may panic. -/
def getFSChallenge {E₁ E₂ : Type} (sha : Bytes → Bytes) (G₁ : Grp E₁) (G₂ : Grp E₂)
    (w Kp : E₁) (Kq1 Kq2 : E₂) (pow2bound : UInt16) : Option Int := do
  let challenge ← sliceTo (sha (fsTranscript G₁ G₂ w Kp Kq1 Kq2)) (pow2bound.toNat / 8)
  some (setBytes challenge)

/-- One iteration's random draws (voteproof/voteproof.go:136, 140-142). -/
structure SigmaSample where
  k : Int
  tp : Int
  tq1 : Int
  tq2 : Int

/-- voteproof/voteproof.go:135-175: one iteration of the abort loop.
Outer `none`: panic.  `some none`: aborted (`continue`).  Line 138 reduces `k` modulo `GFF.N` for the
curve commitments too. -/
def sigmaAttempt {E₁ E₂ : Type} (sha : Bytes → Bytes) (params : ProofParams E₁ E₂)
    (secret rp rq1 rq2 : Int) (s : SigmaSample) : Option (Option (SigmaProof E₁ E₂)) := do
  let NF ← params.GFF.N
  let NE ← params.GEC.N
  let kp := s.k % NF
  let kq := s.k % NF
  let w := params.GFF.I.mulGen s.tp
  let Kp := vpCommit kp s.tp params.GFF
  let Kq1 := vpCommit kq s.tq1 params.GEC
  let Kq2 := vpCommit kq s.tq2 params.GEC
  let challenge ← getFSChallenge sha params.GFF.I params.GEC.I w Kp Kq1 Kq2 params.Bc
  let z := s.k + challenge * secret
  if !params.zOk z then some none
  else
    let sp := (s.tp + challenge * rp) % NF
    let sq1 := (s.tq1 + challenge * rq1) % NE
    let sq2 := (s.tq2 + challenge * rq2) % NE
    some (some { W := w, Kp := Kp, Kq1 := Kq1, Kq2 := Kq2, Challenge := some challenge, Z := some z,
                 Sp := some sp, Sq1 := some sq1, Sq2 := some sq2, Params := params })

/-- Result of running a loop on a finite prefix of the random tape. -/
inductive Outcome (α : Type) where
  /-- still looping when the given prefix is used up -/
  | running : Outcome α
  | panic : Outcome α
  | done : α → Outcome α

/-- voteproof/voteproof.go:126-177 `Prove` run on a prefix of the random tape. -/
def sigmaProve {E₁ E₂ : Type} (sha : Bytes → Bytes) (params : ProofParams E₁ E₂)
    (secret rp rq1 rq2 : Int) : List SigmaSample → Outcome (SigmaProof E₁ E₂)
  | [] => .running
  | s :: tape =>
    match sigmaAttempt sha params secret rp rq1 rq2 s with
    | none => .panic
    | some none => sigmaProve sha params secret rp rq1 rq2 tape
    | some (some p) => .done p

/-- voteproof/voteproof.go:182-226 `SigmaProof.Verify(comm)`; nil scalars panic when they are used. -/
def SigmaProof.verify {E₁ E₂ : Type} (sha : Bytes → Bytes) (proof : SigmaProof E₁ E₂)
    (comm : VerCommitments E₁ E₂) : Option Bool := do
  let pp := proof.Params
  let Z ← proof.Z
  if !pp.zOk Z then some false
  else
    let challenge ← getFSChallenge sha pp.GFF.I pp.GEC.I proof.W proof.Kp proof.Kq1 proof.Kq2 pp.Bc
    let c ← proof.Challenge
    if challenge ≠ c then some false
    else
      let Sp ← proof.Sp
      let l := pp.GFF.I.mulGen Sp
      let r := pp.GFF.I.mul comm.Y c
      let r := pp.GFF.I.add r proof.W
      if !pp.GFF.I.isEqual l r then some false
      else if !sigmaPedersenCheck Z Sp c proof.Kp comm.Xp pp.GFF then some false
      else
        let Sq1 ← proof.Sq1
        if !sigmaPedersenCheck Z Sq1 c proof.Kq1 comm.Xq1 pp.GEC then some false
        else
          let Sq2 ← proof.Sq2
          if !sigmaPedersenCheck Z Sq2 c proof.Kq2 comm.Xq2 pp.GEC then some false
          else some true

end MscPoc
