import Verif.Model.Vote

/-!
# Randomness as the program reads it: bytes from `crypto/rand.Reader`

The other model files take the drawn numbers as arguments.  Here the same code runs on the byte stream.
The stream is given as a finite prefix; `Outcome.running` means that the prefix is used up.  Simplification: a failing
`rand.Reader` (an operating-system failure) is not modelled.
-/

set_option autoImplicit false

namespace MscPoc

/-- A computation that reads bytes: it returns its result and the bytes it has not read. -/
def Draw (α : Type) : Type := Bytes → Outcome (α × Bytes)

def Draw.bind {α β : Type} (x : Draw α) (f : α → Draw β) : Draw β := fun tape =>
  match x tape with
  | .running => .running
  | .panic => .panic
  | .done (a, rest) => f a rest

instance : Monad Draw where
  pure a := fun tape => .done (a, tape)
  bind := Draw.bind

/-- a step without randomness that may panic -/
def Draw.lift {α : Type} : Option α → Draw α
  | none => fun _ => .panic
  | some a => fun tape => .done (a, tape)

/-- crypto/rand/util.go `Int`: `bytes[0] &= uint8(int(1<<b) - 1)` -/
def maskTop (b : Nat) : Bytes → Bytes
  | [] => []
  | x :: xs => (x &&& UInt8.ofNat (2 ^ b - 1)) :: xs

/-- crypto/rand/util.go `Int`: the loop.  One iteration reads `k` bytes; the first argument counts the whole blocks
left on the tape. -/
def randIntLoop (max : Int) (k b : Nat) : Nat → Bytes → Outcome (Int × Bytes)
  | 0, _ => .running
  | n + 1, tape =>
    let v : Int := setBytes (maskTop b (tape.take k))
    if v < max then .done (v, tape.drop k)
    else randIntLoop max k b n (tape.drop k)

/-- `rand.Int(rand.Reader, max)`, crypto/rand/util.go of the Go standard library (rejection sampling). -/
def randInt (max : Int) : Draw Int := fun tape =>
  if max ≤ 0 then .panic
  else
    let bl := bitLen (max - 1)
    if bl = 0 then .done (0, tape)
    else
      let k := (bl + 7) / 8
      let b := if bl % 8 = 0 then 8 else bl % 8
      randIntLoop max k b (tape.length / k) tape

/-- bulletproofs/bp.go:337-343 `sampleRandomVector(N, GP)` -/
def sampleRandomVector (mod : Int) : Nat → Draw (List Int)
  | 0 => pure []
  | n + 1 => do
    let x ← randInt mod
    let xs ← sampleRandomVector mod n
    pure (x :: xs)

/-- The draws of bulletproofs/bp.go:104-243 `Prove` in order (lines 114, 120, 124-126, 139-140). -/
def drawBP {E : Type} (params : BPParams E) : Draw BPRand := do
  let gamma ← randInt params.GP.N
  let alpha ← randInt params.GP.N
  let sL ← sampleRandomVector params.GP.N params.N
  let sR ← sampleRandomVector params.GP.N params.N
  let rho ← randInt params.GP.N
  let tau1 ← randInt params.GP.N
  let tau2 ← randInt params.GP.N
  pure { gamma := gamma, alpha := alpha, sL := sL, sR := sR, rho := rho, tau1 := tau1, tau2 := tau2 }

/-- voter.go:28-31 drop the error of `Prove`; the nil results are dereferenced later (panic). -/
def bpResult {α : Type} : Option (Except String α) → Option α
  | none => none
  | some (.error _) => none
  | some (.ok r) => some r

/-- bulletproofs/bp.go:104-243 `Prove`.  Simplification: all draws happen first; the computations between them do not
read bytes.  Errors do not occur (see `bpProve`). -/
def bpProveB {E : Type} (sha : Bytes → Bytes) (params : BPParams E) (secret : Int) : Draw (BulletProof E × Int) := do
  let rnd ← drawBP params
  Draw.lift (bpResult (bpProve sha params rnd secret))

/-- elgamal.go:14-28 `encryptVote` -/
def encryptVoteB {E : Type} (FFG : Grp E) (egPK : E) (choice : UInt16) : Draw (Ciphertext E × Int) := do
  let r ← randInt (FFG.N - 1)
  Draw.lift (encryptVote FFG egPK choice r)

/-- voteproof/voteproof.go:136-142: the draws of one iteration; `Mod` by a nil `GFF.N` panics (line 137), as does
`rand.Int` with a nil bound. -/
def drawSigma {E₁ E₂ : Type} (params : ProofParams E₁ E₂) : Draw SigmaSample := do
  let k ← randInt params.zUpperBound
  let NF ← Draw.lift params.GFF.N
  let tp ← randInt NF
  let NE ← Draw.lift params.GEC.N
  let tq1 ← randInt NE
  let tq2 ← randInt NE
  pure { k := k, tp := tp, tq1 := tq1, tq2 := tq2 }

/-- voteproof/voteproof.go:126-177 `Prove`: at most `n` iterations of the abort loop. -/
def sigmaProveB {E₁ E₂ : Type} (sha : Bytes → Bytes) (params : ProofParams E₁ E₂) (secret rp rq1 rq2 : Int) :
    Nat → Draw (SigmaProof E₁ E₂)
  | 0 => fun _ => .running
  | n + 1 => do
    let s ← drawSigma params
    let r ← Draw.lift (sigmaAttempt sha params secret rp rq1 rq2 s)
    match r with
    | none => sigmaProveB sha params secret rp rq1 rq2 n
    | some p => pure p

/-- voter.go:19-45 `castVote(pp)` on the byte stream; at most `n` iterations of the abort loop. -/
def castVoteB {E₁ E₂ : Type} (sha : Bytes → Bytes) (pp : PublicParams E₁ E₂) (n : Nat) : Draw (BallotData E₁ E₂) := do
  let rBig ← randInt ((pp.candidateMax - pp.candidateMin).toNat : Int)
  let choice := UInt16.ofNat rBig.toNat + pp.candidateMin
  let (ciphertext, rp) ← encryptVoteB pp.FFGroupParams.I pp.EGPK choice
  let (bp1, rq1) ← bpProveB sha pp.BPParams ((choice - pp.candidateMin).toNat : Int)
  let (bp2, rq2) ← bpProveB sha pp.BPParams ((pp.candidateMax - choice).toNat : Int)
  let N ← Draw.lift pp.ECGroupParams.N
  let rangeProof ← sigmaProveB sha pp.RPParams (choice.toNat : Int) rp rq1 (N - rq2) n
  pure { Ballot := ciphertext, BpLower := bp1, BpUpper := bp2, VoteProof := rangeProof }

/-- group/modsafeprime.go:63-68 `ModPGroup.Random()` and group/p256k1.go:51-56 `p256k1Group.Random()`. -/
def randomElement {E : Type} (GP : Grp E) : Draw E := do
  let r ← randInt GP.N
  pure (GP.baseScale GP.identity r)

end MscPoc
