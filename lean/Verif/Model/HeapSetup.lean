import Verif.Model.HeapProve
import Verif.Model.MainOut

/-!
# The whole program with mutable group elements

`setup` and `main` with group elements as pointers to cells, continuing `Model/HeapProve.lean`: which elements the public
parameters allocate, and which records share them.  The pure model is compared with this one by theorem C82.
-/

set_option autoImplicit false

namespace MscPoc

namespace HM
variable {E : Type}

/-- `GP.Generator()`: every implementation returns a new element (group/modsafeprime.go:49-54, group/p256.go:39-44,
group/p256k1.go:37-42, group/p384.go:39-44, group/ristretto255.go:39-44) -/
def generator (GP : Grp E) : HM E Nat := alloc GP.generator

/-- bulletproofs/bp.go:92-95: the loop over `i` -/
def seedLoop (SP : Grp E) : List Nat → HM E (List Nat × List Nat)
  | [] => pure ([], [])
  | i :: is => do
    let g ← newMap SP (seedG i)
    let h ← newMap SP (seedHh i)
    let (gs, hs) ← seedLoop SP is
    pure (g :: gs, h :: hs)

/-- bulletproofs/bp.go:74-97 `Setup(b, SP)` -/
def bpSetup (nan64 : BitVec 64) (b : BitVec 64) (SP : Grp E) : HM E (Except String BPParamsH) :=
  if !isPowerOfTwo b then pure (.error "range end is not a power of 2")
  else do
    let G ← newBaseScale SP 1
    let H ← newMap SP SEEDH
    let N := log2Int64 nan64 b
    if !isPowerOfTwo N then
      pure (.error "range end is a power of 2, but it's exponent should also be.")
    else if 32 < N.toInt then pure (.error "range end can not be greater than 2**32")
    else if N.toInt < 0 then lift none
    else do
      let (Gg, Hh) ← seedLoop SP (List.range N.toNat)
      pure (.ok { N := N.toNat, G, H, Gg, Hh })

end HM

/-- voteproof/voteproof.go:79-97 `Setup`: the group parameters are copied, so their elements are shared -/
def vpSetupH {E₁ E₂ : Type} (lenSecret : UInt8) (lenChallenge groupOrderLog rangeLo rangeHi : UInt16)
    (GFF : GroupParamsH E₁) (GEC : GroupParamsH E₂) : Except String (ProofParamsH E₁ E₂) :=
  let Bb : Int := (groupOrderLog.toNat : Int) - 1 - (lenSecret.toNat : Int) - (lenChallenge.toNat : Int)
  if Bb < 1 then .error "inconsistent parameter choice"
  else .ok { Bx := lenSecret, Bc := lenChallenge, Bg := groupOrderLog, Bb := Bb,
             RangeLo := rangeLo, RangeHi := rangeHi, GFF := GFF, GEC := GEC }

/-- main.go:30-112 `setup(curveGroup)`; line 90 `curveGroupParams.H = bpParams.H`, line 105 `pp.EGPK = pp.FFGroupParams.H` -/
def HM2.setup {E₂ : Type} (nan64 : BitVec 64) (curveGroup : Grp E₂) : HM2 Int E₂ (Except String (PublicParamsH Int E₂)) := do
  let modp ← HM2.lift (newModPGroup "RFC3526ModPGroup3072" rfc3526Hex "2")
  let FF := modPGrp modp
  let bp ← HM2.on2 (HM.bpSetup nan64 65536 curveGroup)
  match bp with
  | .error e => pure (.error e)
  | .ok bp => do
    let G₁ ← HM2.on1 (HM.generator FF)
    let H₁ ← HM2.on1 (HM.newBaseScale FF 13)
    let fieldGroupParams : GroupParamsH Int := { I := FF, F := some FF.P, N := some FF.N, G := G₁, H := H₁ }
    let G₂ ← HM2.on2 (HM.generator curveGroup)
    let curveGroupParams : GroupParamsH E₂ :=
      { I := curveGroup, F := some FF.P, N := some curveGroup.N, G := G₂, H := bp.H }
    match vpSetupH 16 224 (UInt16.ofNat (bitLen curveGroup.N)) 101 2000 fieldGroupParams curveGroupParams with
    | .error e => pure (.error e)
    | .ok rp =>
      pure (.ok { FFGroupParams := fieldGroupParams, ECGroupParams := curveGroupParams, EGPK := fieldGroupParams.H,
                  candidateMin := 101, candidateMax := 2000, GP := curveGroup, BPParams := bp, RPParams := rp })

/-- main.go:131-172: what is done with the result of `setup` -/
def runSetupH {E₂ : Type} (sha : Bytes → Bytes) (rnds : List CastRand) :
    Option (Except String (PublicParamsH Int E₂) × (HS Int × HS E₂)) → Outcome (Report × (HS Int × HS E₂))
  | none => .panic
  | some (.error e, h1) => .done (.skipped e, h1)
  | some (.ok pp, h1) =>
    match benchLoopH sha pp rnds true h1 with
    | .running => .running
    | .panic => .panic
    | .done (success, h2) => .done (.formed success, h2)

/-- main.go:124-172: the body of the loop over the groups -/
def runGroupH {E₂ : Type} (sha : Bytes → Bytes) (nan64 : BitVec 64) (g : Grp E₂) (rnds : List CastRand)
    (h : HS Int × HS E₂) : Outcome (Report × (HS Int × HS E₂)) :=
  runSetupH sha rnds (HM2.setup nan64 g h)

/-- voteproof/voteproof.go:133-157: how often `Prove` prints "Aborted" -/
def sigmaAbortsH {E₁ E₂ : Type} (sha : Bytes → Bytes) (params : ProofParamsH E₁ E₂) (secret rp rq1 rq2 : Int) :
    List SigmaSample → HS E₁ × HS E₂ → Nat
  | [], _ => 0
  | s :: tape, h =>
    match HM2.sigmaAttempt sha params secret rp rq1 rq2 s h with
    | some (none, h') => sigmaAbortsH sha params secret rp rq1 rq2 tape h' + 1
    | _ => 0

/-- voter.go:19-33: how often `castVote` prints "Aborted" -/
def castAbortsH {E₁ E₂ : Type} (sha : Bytes → Bytes) (pp : PublicParamsH E₁ E₂) (rnd : CastRand) (h : HS E₁ × HS E₂) : Nat :=
  match HM2.castHead sha pp rnd h with
  | none => 0
  | some (((choice, _), rp, rq1, rq2inv), h1) =>
    sigmaAbortsH sha pp.RPParams (choice.toNat : Int) rp rq1 rq2inv rnd.tape h1

/-- main.go:142-152: how often the loop over the votes prints "Aborted" -/
def benchAbortsH {E₁ E₂ : Type} (sha : Bytes → Bytes) (pp : PublicParamsH E₁ E₂) : List CastRand → HS E₁ × HS E₂ → Nat
  | [], _ => 0
  | rnd :: rnds, h =>
    castAbortsH sha pp rnd h +
      match castVoteH sha pp rnd h with
      | .done (vote, h1) =>
        match HM2.verifyVote sha vote pp.RPParams h1 with
        | none => 0
        | some (out, h2) =>
          match out.times[0]?, out.times[1]? with
          | some _, some _ => benchAbortsH sha pp rnds h2
          | _, _ => 0
      | _ => 0

/-- main.go:131-152: the same after the result of `setup` -/
def setupAbortsH {E₂ : Type} (sha : Bytes → Bytes) (rnds : List CastRand) :
    Option (Except String (PublicParamsH Int E₂) × (HS Int × HS E₂)) → Nat
  | some (.ok pp, h1) => benchAbortsH sha pp rnds h1
  | _ => 0

/-- main.go:124-172: how often "Aborted" is printed in a group's section -/
def groupAbortsH {E₂ : Type} (sha : Bytes → Bytes) (nan64 : BitVec 64) (g : Grp E₂) (rnds : List CastRand)
    (h : HS Int × HS E₂) : Nat :=
  setupAbortsH sha rnds (HM2.setup nan64 g h)

/-- a group with the memory its elements live in; the elements of the ElGamal group are shared by all groups -/
structure GroupRunH where
  run : GroupRun
  heap : HS run.E

/-- main.go:131-172: what a group's section adds to the lines printed, and what the later groups add to it -/
def printGroupH {E₂ : Type} (first : Bool) (name : String) (d : Durations) (aborts : Nat)
    (rest : HS Int → List String × Status) : Outcome (Report × (HS Int × HS E₂)) → List String × Status
  | .running => (header first name ++ List.replicate aborts "Aborted", .running)
  | .panic => (header first name ++ List.replicate aborts "Aborted", .panicked)
  | .done (rep, h') =>
    (header first name ++ List.replicate aborts "Aborted" ++ footer name d rep ++ (rest h'.1).1, (rest h'.1).2)

/-- main.go:125-173: the loop over the groups; the lines printed so far and how the run ends -/
def groupsLoopH (sha : Bytes → Bytes) (nan64 : BitVec 64) : Bool → List GroupRunH → HS Int → List String × Status
  | _, [], _ => ([], .finished)
  | first, r :: rs, h =>
    printGroupH first r.run.g.name r.run.dur (groupAbortsH sha nan64 r.run.g r.run.tapes (h, r.heap))
      (groupsLoopH sha nan64 false rs)
      (runGroupH sha nan64 r.run.g r.run.tapes (h, r.heap))

/-- main.go:114-174 `main`, from any state of the memory -/
def mainRunH (sha : Bytes → Bytes) (nan64 : BitVec 64) (rs : List GroupRunH) (h : HS Int) : List String × Status :=
  groupsLoopH sha nan64 true rs h

end MscPoc
