import Verif.Model.Bp
import Verif.Model.VoteProof
import Verif.Model.ModP

/-!
# elgamal.go, voter.go, server.go, main.go
-/

set_option autoImplicit false

namespace MscPoc

/-- elgamal.go:9-12 `ElGamalCiphertext` -/
structure Ciphertext (E : Type) where
  U : E
  V : E

/-- elgamal.go:14-28 `encryptVote(choice, egPK, FFG)`.  `r` is the value of
`rand.Int(rand.Reader, GroupOrder-1)`, which panics when the bound is not positive. -/
def encryptVote {E : Type} (FFG : Grp E) (egPK : E) (choice : UInt16) (r : Int) :
    Option (Ciphertext E × Int) :=
  if FFG.N - 1 ≤ 0 then none
  else
    let rnd := r + 1
    let cBig : Int := choice.toNat
    let liftedMessage := FFG.mulGen cBig
    let mask := FFG.mul egPK rnd
    some ({ U := FFG.mulGen rnd, V := FFG.add liftedMessage mask }, rnd)

/-- voter.go:12-17 `BallotData` -/
structure BallotData (E₁ E₂ : Type) where
  Ballot : Ciphertext E₁
  BpLower : BulletProof E₂
  BpUpper : BulletProof E₂
  VoteProof : SigmaProof E₁ E₂

/-- main.go:13-28 `PublicParameters` -/
structure PublicParams (E₁ E₂ : Type) where
  FFGroupParams : GroupParams E₁
  ECGroupParams : GroupParams E₂
  EGPK : E₁
  candidateMin : UInt16
  candidateMax : UInt16
  BPParams : BPParams E₂
  RPParams : ProofParams E₁ E₂

/-- All randomness of one `castVote` call. -/
structure CastRand where
  /-- voter.go:20 -/
  rChoice : Int
  /-- elgamal.go:17 -/
  rEnc : Int
  /-- bulletproofs.Prove for the lower bound (voter.go:28) -/
  bp1 : BPRand
  /-- bulletproofs.Prove for the upper bound (voter.go:30) -/
  bp2 : BPRand
  /-- voteproof.Prove (voter.go:33) -/
  tape : List SigmaSample

/-- voter.go:23-44: the ballot construction for a given `choice`; the subtractions are on uint16.
Errors of `bulletproofs.Prove` are dropped by the code and cannot occur (see `bpProve`). -/
def castChoice {E₁ E₂ : Type} (sha : Bytes → Bytes) (pp : PublicParams E₁ E₂) (choice : UInt16)
    (rnd : CastRand) : Outcome (BallotData E₁ E₂) :=
  match encryptVote pp.FFGroupParams.I pp.EGPK choice rnd.rEnc with
  | none => .panic
  | some (ciphertext, rp) =>
    match bpProve sha pp.BPParams rnd.bp1 ((choice - pp.candidateMin).toNat : Int) with
    | none => .panic
    | some (.error _) => .panic
    | some (.ok (bp1, rq1)) =>
      match bpProve sha pp.BPParams rnd.bp2 ((pp.candidateMax - choice).toNat : Int) with
      | none => .panic
      | some (.error _) => .panic
      | some (.ok (bp2, rq2)) =>
        match pp.ECGroupParams.N with
        | none => .panic
        | some N =>
          let rq2inv := N - rq2
          match sigmaProve sha pp.RPParams (choice.toNat : Int) rp rq1 rq2inv rnd.tape with
          | .running => .running
          | .panic => .panic
          | .done rangeProof =>
            .done { Ballot := ciphertext, BpLower := bp1, BpUpper := bp2, VoteProof := rangeProof }

/-- voter.go:20-22: the random choice.  `none`: `rand.Int` panics on bound 0. -/
def drawChoice {E₁ E₂ : Type} (pp : PublicParams E₁ E₂) (rChoice : Int) : Option UInt16 :=
  if (pp.candidateMax - pp.candidateMin).toNat = 0 then none
  else some (UInt16.ofNat rChoice.toNat + pp.candidateMin)

/-- voter.go:19-45 `castVote(pp)` -/
def castVote {E₁ E₂ : Type} (sha : Bytes → Bytes) (pp : PublicParams E₁ E₂) (rnd : CastRand) :
    Outcome (BallotData E₁ E₂) :=
  match drawChoice pp rnd.rChoice with
  | none => .panic
  | some choice => castChoice sha pp choice rnd

/-- server.go:25-40: the commitments that the sigma proof is verified against. -/
def voteCommitments {E₁ E₂ : Type} (proofs : BallotData E₁ E₂) (rp : ProofParams E₁ E₂) :
    VerCommitments E₁ E₂ :=
  let I := rp.GEC.I
  let loShift := I.mulGen (rp.RangeLo.toNat : Int)
  let Xq1 := I.add loShift proofs.BpLower.V
  let upShift := I.mulGen (rp.RangeHi.toNat : Int)
  let inv := I.mul proofs.BpUpper.V (-1)
  let Xq2 := I.add upShift inv
  { Y := proofs.Ballot.U, Xp := proofs.Ballot.V, Xq1 := Xq1, Xq2 := Xq2 }

/-- Return value of `verifyVote`: the verdict and the slice of measured durations (`[]` for nil;
the measured values themselves are abstracted to 0). -/
structure VerifyOut where
  result : Bool
  times : List Nat
deriving DecidableEq, Repr

/-- server.go:9-56 `verifyVote(proofs, rpParams)` -/
def verifyVote {E₁ E₂ : Type} (sha : Bytes → Bytes) (proofs : BallotData E₁ E₂) (rpParams : ProofParams E₁ E₂) :
    Option VerifyOut := do
  let ok1 ← proofs.BpLower.verify sha
  if !ok1 then some { result := false, times := [] }
  else
    let ok2 ← proofs.BpUpper.verify sha
    if !ok2 then some { result := false, times := [] }
    else
      let result ← proofs.VoteProof.verify sha (voteCommitments proofs rpParams)
      some { result := result, times := [0, 0] }

/-- main.go:142-152: the benchmark loop over the already cast votes of one curve; `times[0]`, `times[1]`
are indexed unconditionally. -/
def mainLoop {E₁ E₂ : Type} (sha : Bytes → Bytes) (rp : ProofParams E₁ E₂) :
    List (BallotData E₁ E₂) → Bool → Option Bool
  | [], success => some success
  | vote :: votes, success => do
    let out ← verifyVote sha vote rp
    let _t0 ← out.times[0]?
    let _t1 ← out.times[1]?
    mainLoop sha rp votes (success && out.result)

/-- main.go:52-68: the 3072-bit MODP group of RFC 3526. -/
def rfc3526Hex : String :=
  "FFFFFFFF FFFFFFFF C90FDAA2 2168C234 C4C6628B 80DC1CD1
		29024E08 8A67CC74 020BBEA6 3B139B22 514A0879 8E3404DD
		EF9519B3 CD3A431B 302B0A6D F25F1437 4FE1356D 6D51C245
		E485B576 625E7EC6 F44C42E9 A637ED6B 0BFF5CB6 F406B7ED
		EE386BFB 5A899FA5 AE9F2411 7C4B1FE6 49286651 ECE45B3D
		C2007CB8 A163BF05 98DA4836 1C55D39A 69163FA8 FD24CF5F
		83655D23 DCA3AD96 1C62F356 208552BB 9ED52907 7096966D
		670C354E 4ABC9804 F1746C08 CA18217C 32905E46 2E36CE3B
		E39E772C 180E8603 9B2783A2 EC07A28F B5C55DF0 6F4C52C9
		DE2BCBF6 95581718 3995497C EA956AE5 15D22618 98FA0510
		15728E5A 8AAAC42D AD33170D 04507A33 A85521AB DF1CBA64
		ECFB8504 58DBEF0A 8AEA7157 5D060C7D B3970F85 A6E1E4C7
		ABF5AE8C DB0933D7 1E8C94E0 4A25619D CEE3D226 1AD2EE6B
		F12FFA06 D98A0864 D8760273 3EC86A64 521F2B18 177B200C
		BBE11757 7A615D6C 770988C0 BAD946E2 08E24FA0 74E5AB31
		43DB5BFC E0FD108E 4B82D120 A93AD2CA FFFFFFFF FFFFFFFF
		"

/-- `x.BitLen()` for `x ≥ 0` -/
def bitLen (x : Int) : Nat := if x = 0 then 0 else Nat.log2 x.natAbs + 1

/-- main.go:30-112 `setup(curveGroup)`.  Outer `none`: panic.  Line 87 stores the ElGamal field size in the
curve's `F`. -/
def setup {E₂ : Type} (nan64 : BitVec 64) (curveGroup : Grp E₂) :
    Option (Except String (PublicParams Int E₂)) := do
  let choiceLength : UInt8 := 16
  let challengeLength : UInt16 := 224
  let candidateStart : UInt16 := 101
  let candidateEnd : UInt16 := 2000
  let modp ← newModPGroup "RFC3526ModPGroup3072" rfc3526Hex "2"
  let FF := modPGrp modp
  let elGamalPrivateKey : Int := 13
  let bpParams ← bpSetup nan64 65536 curveGroup
  match bpParams with
  | .error e => some (.error e)
  | .ok bpParams =>
    let fieldGroupParams : GroupParams Int :=
      { I := FF, F := some FF.P, N := some FF.N, G := FF.generator, H := FF.mulGen elGamalPrivateKey }
    let curveGroupParams : GroupParams E₂ :=
      { I := curveGroup, F := some FF.P, N := some curveGroup.N, G := curveGroup.generator, H := bpParams.H }
    match vpSetup choiceLength challengeLength (UInt16.ofNat (bitLen curveGroup.N)) candidateStart candidateEnd
        { GFF := fieldGroupParams, GEC := curveGroupParams } with
    | .error e => some (.error e)
    | .ok rpParams =>
      some (.ok { FFGroupParams := fieldGroupParams, ECGroupParams := curveGroupParams,
                  EGPK := fieldGroupParams.H, candidateMin := candidateStart, candidateMax := candidateEnd,
                  BPParams := bpParams, RPParams := rpParams })

end MscPoc
