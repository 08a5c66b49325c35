import Verif.Model.Marshal

/-!
# Decoded proofs with nil elements

`ipParamsFromRawMessage` and `ipProofFromRawMessage` (bulletproofs/marshal.go:39-78) allocate `Hh` and `R` with the lengths of
their own JSON arrays, but fill them in a loop over `Gg` and `L`.  When the second array is longer, its last entries stay nil
interfaces.  Here an entry of `Hh` and `R` is an `Option E`, `none` being the nil interface; the functions that read these
two slices are modelled again on such lists (`decPairs` of `Model/Marshal.lean` drops the tail).

A method call on a nil interface, and passing one to `Scale` (whose `check` asserts the dynamic type, e.g. group/p256.go:67-73),
is a panic.
-/

set_option autoImplicit false

namespace MscPoc

/-- bulletproofs/bip.go:37-42 as decoded -/
structure NIPParams (E : Type) where
  Gg : List E
  Hh : List (Option E)
  Uu : E
  GP : Grp E

/-- bulletproofs/bip.go:47-55 as decoded -/
structure NIPProof (E : Type) where
  P : E
  Cc : Option Int
  A : Option Int
  B : Option Int
  L : List E
  R : List (Option E)
  Params : NIPParams E

/-- bulletproofs/bp.go:56-67 as decoded -/
structure NBulletProof (E : Type) where
  V : E
  A : E
  S : E
  T1 : E
  T2 : E
  Taux : Option Int
  Mu : Option Int
  Tprime : Option Int
  InnerProductProof : NIPProof E
  Params : BPParams E

/-- voter.go:12-17 as decoded -/
structure NBallotData (E₁ E₂ : Type) where
  Ballot : Ciphertext E₁
  BpLower : NBulletProof E₂
  BpUpper : NBulletProof E₂
  VoteProof : SigmaProof E₁ E₂

/-! ## Decoding -/

/-- bulletproofs/marshal.go:48-53 / 69-74: the loop runs over the first array and indexes the second; what it does not reach
stays nil. -/
def decPairsN {E : Type} (GP : Grp E) (C : Codec E) :
    List Json → List Json → Option (List E × List (Option E))
  | [], ys => some ([], ys.map fun _ => none)
  | _ :: _, [] => none
  | x :: xs, y :: ys => do
    let a ← C.decode GP.elt (some x)
    let b ← C.decode GP.elt (some y)
    let (as, bs) ← decPairsN GP C xs ys
    some (a :: as, some b :: bs)

/-- bulletproofs/marshal.go:39-56 -/
def decIPParamsN {E : Type} (GP : Grp E) (C : Codec E) (j : IPParamsRaw) : Option (NIPParams E) := do
  let uu ← C.decode GP.elt j.Uu
  let (gg, hh) ← decPairsN GP C j.Gg j.Hh
  some { Gg := gg, Hh := hh, Uu := uu, GP := GP }

/-- bulletproofs/marshal.go:58-78 -/
def decIPProofN {E : Type} (GP : Grp E) (C : Codec E) (j : IPProofRaw) : Option (NIPProof E) := do
  let params ← decIPParamsN GP C j.Params
  let (l, r) ← decPairsN GP C j.L j.R
  let p ← C.decode GP.elt j.P
  some { P := p, Cc := j.Cc, A := j.A, B := j.B, L := l, R := r, Params := params }

/-- bulletproofs/marshal.go:87-106 -/
def decBPRawN {E : Type} (C : Codec E) (params : BPParams E) (j : BPRaw) : Option (NBulletProof E) := do
  let GP := params.GP
  let ip ← decIPProofN GP C j.IP
  let v ← C.decode GP.elt j.V
  let a ← C.decode GP.elt j.A
  let s ← C.decode GP.elt j.S
  let t1 ← C.decode GP.elt j.T1
  let t2 ← C.decode GP.elt j.T2
  some { V := v, A := a, S := s, T1 := t1, T2 := t2, Taux := j.Taux, Mu := j.Mu, Tprime := j.Tprime,
         InnerProductProof := ip, Params := params }

/-- bulletproofs/marshal.go:80-107 `BulletProofUnmarshalJSON(b, params)` -/
def decBPN {E : Type} (C : Codec E) (params : BPParams E) (r : Raw) : Option (Except String (NBulletProof E)) :=
  match rawBP r with
  | .error e => some (.error e)
  | .ok j => (decBPRawN C params j).map .ok

/-- marshal.go:39-72 `BallotDataUnmarshalJSON(b, pp)` -/
def decBallotN {E₁ E₂ : Type} (C₁ : Codec E₁) (C₂ : Codec E₂) (pp : PublicParams E₁ E₂) (r : Raw) :
    Option (Except String (NBallotData E₁ E₂)) :=
  let kvs := match asObj r with
    | .ok kvs => kvs
    | .error _ => []
  let f := lookupField ballotFields kvs
  bindEnc (decCiphertext pp.RPParams.GFF.I C₁ (f "ballot")) fun ballot =>
  bindEnc (decBPN C₂ pp.BPParams (f "lbProof")) fun lo =>
  bindEnc (decBPN C₂ pp.BPParams (f "ubProof")) fun hi =>
  bindEnc (decSigma C₁ C₂ pp.RPParams.GFF.I pp.RPParams.GEC.I (f "voteProof")) fun vp =>
  some (.ok { Ballot := ballot, BpLower := lo, BpUpper := hi, VoteProof := vp })

/-! ## Verification -/

/-- bulletproofs/bip.go:275-278 -/
def hashIPLoopN {E : Type} (GP : Grp E) : List E → List (Option E) → Option Bytes
  | [], _ => some []
  | _ :: _, [] => none
  | g :: gs, h :: hs => do
    let h ← h
    let rest ← hashIPLoopN GP gs hs
    some (GP.str g ++ GP.str h ++ rest)

/-- bulletproofs/bip.go:271-286 -/
def hashIPN {E : Type} (sha : Bytes → Bytes) (GP : Grp E) (g : List E) (h : List (Option E)) (P : E) (c : Int) : Option Int := do
  let mid ← hashIPLoopN GP g h
  some (fromByteArray (sha (GP.str P ++ mid ++ bigDec c)))

/-- bulletproofs/bip.go:300-307 `vectorScalarExp` -/
def vectorScalarExpN {E : Type} (GP : Grp E) : List (Option E) → Option Int → Option (List E)
  | [], _ => some []
  | a :: as, b => do
    let a ← a
    let s ← b
    let rest ← vectorScalarExpN GP as b
    some (GP.mul a s :: rest)

/-- bulletproofs/bip.go:233-243 -/
def foldGensN {E : Type} (GP : Grp E) (g : List E) (h : List (Option E)) (x : Int) (nprime : Nat) :
    Option (List E × List E) := do
  let xinv := modInverse x GP.N
  let gprime ← vectorScalarExp GP (← sliceTo g nprime) xinv
  let gprime2 ← vectorScalarExp GP (← sliceFrom g nprime) (some x)
  let g' := vectorECAdd GP gprime gprime2
  let hprime ← vectorScalarExpN GP (← sliceTo h nprime) (some x)
  let hprime2 ← vectorScalarExpN GP (← sliceFrom h nprime) xinv
  let h' := vectorECAdd GP hprime hprime2
  some (g', h')

/-- bulletproofs/bip.go:232-249; the folded `hprime` has no nil entries -/
def ipVerifyLoopN {E : Type} (sha : Bytes → Bytes) (GP : Grp E) :
    List E → List (Option E) → List E → List (Option E) → E → Nat → Option (List E × List (Option E) × E)
  | [], _, g, h, P, _ => some (g, h, P)
  | _ :: _, [], _, _, _, _ => none
  | L :: Ls, R :: Rs, g, h, P, nprime => do
    let R ← R
    let nprime := nprime / 2
    let x := (hashBP sha GP L R).1
    let (g', h') ← foldGensN GP g h x nprime
    let x2 := x * x % GP.N
    let x2inv := modInverse x2 GP.N
    let P := GP.add P (GP.mul L x2)
    let P := GP.add P (GP.mul R (← x2inv))
    ipVerifyLoopN sha GP Ls Rs g' (h'.map some) P nprime

/-- bulletproofs/bip.go:92-97 `computePP` -/
def computePPN {E : Type} (P : E) (c x : Int) (params : NIPParams E) : E × E :=
  let ux := params.GP.mul params.Uu x
  let uxc := params.GP.mul ux c
  (params.GP.add P uxc, ux)

/-- bulletproofs/bip.go:215-266 `InnerProductProof.Verify` -/
def NIPProof.verify {E : Type} (sha : Bytes → Bytes) (proof : NIPProof E) : Option Bool := do
  let GP := proof.Params.GP
  let g := proof.Params.Gg
  let h := proof.Params.Hh
  let Cc ← proof.Cc
  let x ← hashIPN sha GP g h proof.P Cc
  let (Pprime, ux) := computePPN proof.P Cc x proof.Params
  let (g', h', P') ← ipVerifyLoopN sha GP proof.L proof.R g h Pprime g.length
  let A ← proof.A
  let B ← proof.B
  let ab := A * B % GP.N
  let rhs := GP.mul (← g'[0]?) A
  let h0 ← h'[0]?
  let hb := GP.mul (← h0) B
  let rhs := GP.add rhs hb
  let rhs := GP.add rhs (GP.mul ux ab)
  let nP := GP.neg GP.elt P'
  let nP := GP.add nP rhs
  some (GP.isIdentity nP)

/-- bulletproofs/bp.go:248-332 `BulletProof.Verify` -/
def NBulletProof.verify {E : Type} (sha : Bytes → Bytes) (proof : NBulletProof E) : Option Bool := do
  let params := proof.Params
  let GP := params.GP
  let mod := GP.N
  let x := (hashBP sha GP proof.T1 proof.T2).1
  let y := (hashBP sha GP proof.A proof.S).1
  let z := (hashBP sha GP proof.A proof.S).2
  let zSquared := z * z % mod
  let xSquared := x * x % mod
  let hp ← updateGenerators GP params.Hh y params.N
  -- Condition (65)
  let Tprime ← proof.Tprime
  let Taux ← proof.Taux
  let lhs := pedersenCommit GP Tprime Taux params.H
  let rhs := GP.mul proof.V zSquared
  let dlt ← delta params.N mod y z
  let gDelta := GP.mulGen dlt
  let rhs := GP.add rhs gDelta
  let T1x := GP.mul proof.T1 x
  let T2x2 := GP.mul proof.T2 xSquared
  let rhs := GP.add rhs T1x
  let rhs := GP.add rhs T2x2
  let c65 := GP.isEqual rhs lhs
  -- Conditions (66), (67)
  let Sx := GP.mul proof.S x
  let ASx := GP.add proof.A Sx
  let mz := mod - z
  let vmz := vectorCopy mz params.N
  let gpmz ← vectorExp GP params.Gg vmz
  let vz := vectorCopy z params.N
  let vy := powerOf y params.N mod
  let zyn := vectorMul vy vz mod
  let p2n := powerOf 2 params.N mod
  let z22n := vectorScalarMul p2n zSquared mod
  let zynz22n := vectorAdd zyn z22n mod
  let lP := GP.add ASx gpmz
  let hpExp ← vectorExp GP hp zynz22n
  let lP := GP.add lP hpExp
  let Mu ← proof.Mu
  let rP := GP.mul params.H Mu
  let rP := GP.add rP proof.InnerProductProof.P
  let rP := GP.sub rP lP
  let c67 := GP.isIdentity rP
  let ok ← proof.InnerProductProof.verify sha
  some (c65 && c67 && ok)

/-- server.go:25-40: the commitments that the sigma proof is verified against -/
def voteCommitmentsN {E₁ E₂ : Type} (proofs : NBallotData E₁ E₂) (rp : ProofParams E₁ E₂) : VerCommitments E₁ E₂ :=
  let I := rp.GEC.I
  let loShift := I.mulGen (rp.RangeLo.toNat : Int)
  let Xq1 := I.add loShift proofs.BpLower.V
  let upShift := I.mulGen (rp.RangeHi.toNat : Int)
  let inv := I.mul proofs.BpUpper.V (-1)
  let Xq2 := I.add upShift inv
  { Y := proofs.Ballot.U, Xp := proofs.Ballot.V, Xq1 := Xq1, Xq2 := Xq2 }

/-- server.go:9-56 `verifyVote(proofs, rpParams)` -/
def verifyVoteN {E₁ E₂ : Type} (sha : Bytes → Bytes) (proofs : NBallotData E₁ E₂) (rpParams : ProofParams E₁ E₂) :
    Option VerifyOut := do
  let ok1 ← proofs.BpLower.verify sha
  if !ok1 then some { result := false, times := [] }
  else
    let ok2 ← proofs.BpUpper.verify sha
    if !ok2 then some { result := false, times := [] }
    else
      let result ← proofs.VoteProof.verify sha (voteCommitmentsN proofs rpParams)
      some { result := result, times := [0, 0] }

end MscPoc
