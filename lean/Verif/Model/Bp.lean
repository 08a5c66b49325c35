import Verif.Model.Bip
import Verif.Model.Util

/-!
# bulletproofs/bp.go
-/

set_option autoImplicit false

namespace MscPoc

/-- bulletproofs/bp.go:35-50 `BulletProofSetupParams`.  `N` is an int64 in Go; it is the bit length of the
range, a natural number for every value `Setup` returns. -/
structure BPParams (E : Type) where
  N : Nat
  G : E
  H : E
  Gg : List E
  Hh : List E
  GP : Grp E

/-- bulletproofs/bp.go:56-67 `BulletProof`; scalars are nil-able pointers. -/
structure BulletProof (E : Type) where
  V : E
  A : E
  S : E
  T1 : E
  T2 : E
  Taux : Option Int
  Mu : Option Int
  Tprime : Option Int
  InnerProductProof : IPProof E
  Params : BPParams E

/-- `int64(math.Log2(float64(b)))` for `b` passing `IsPowerOfTwo` (bp.go:83).  For a positive power of two
the float computation is exact (Go's `Log2` uses `Frexp`).  The only other value passing the test is the most
negative int64, for which `Log2` is NaN and the conversion is implementation-defined: `nan64`. -/
def log2Int64 (nan64 : BitVec 64) (b : BitVec 64) : BitVec 64 :=
  if 0 < b.toInt then BitVec.ofNat 64 (Nat.log2 b.toNat) else nan64

/-- bulletproofs/bp.go:74-97 `Setup(b, SP)`.  Outer `none`: panic (`MapToGroup` not implemented, or
`make` with a negative length). -/
def bpSetup {E : Type} (nan64 : BitVec 64) (b : BitVec 64) (SP : Grp E) :
    Option (Except String (BPParams E)) :=
  if !isPowerOfTwo b then some (.error "range end is not a power of 2")
  else do
    let G := SP.mulGen 1
    let H ← SP.mapToGroup SEEDH
    let N := log2Int64 nan64 b
    if !isPowerOfTwo N then
      some (.error "range end is a power of 2, but it's exponent should also be.")
    else if 32 < N.toInt then some (.error "range end can not be greater than 2**32")
    else if N.toInt < 0 then none
    else do
      let Gg ← mapSeeds SP seedG N.toNat
      let Hh ← mapSeeds SP seedHh N.toNat
      some (.ok { N := N.toNat, G, H, Gg, Hh, GP := SP })

/-- bulletproofs/bp.go:352-367 `updateGenerators`, loop `i ≥ 1`: `yExp` is multiplied by `yInv` without
reduction; entries of `Hh` are indexed (panic if too short). -/
def updateGeneratorsGo {E : Type} (GP : Grp E) (yInv : Int) : List E → Int → Nat → Option (List E)
  | _, _, 0 => some []
  | [], _, _ + 1 => none
  | h :: hs, yExp, n + 1 => do
    let rest ← updateGeneratorsGo GP yInv hs (yExp * yInv) n
    some (GP.mul h yExp :: rest)

/-- bulletproofs/bp.go:352-367 `updateGenerators(Hh, y, N, GP)`: index 0 panics for `N = 0`;
a nil inverse is dereferenced as soon as `N ≥ 2`. -/
def updateGenerators {E : Type} (GP : Grp E) (Hh : List E) (y : Int) (N : Nat) : Option (List E) :=
  match Hh, N with
  | _, 0 => none
  | [], _ + 1 => none
  | h0 :: _, 1 => some [h0]
  | h0 :: hs, n + 1 => do
    let yInv ← modInverse y GP.N
    let rest ← updateGeneratorsGo GP yInv hs yInv n
    some (h0 :: rest)

/-- bulletproofs/bp.go:372-384 `computeAR` with its error value. -/
def computeARE : List Int → Except String (List Int)
  | [] => .ok []
  | x :: xs =>
    if x = 0 then do
      let r ← computeARE xs
      .ok (-1 :: r)
    else if x = 1 then do
      let r ← computeARE xs
      .ok (0 :: r)
    else .error "input contains non-binary element"

/-- `aR, _ := computeAR(aL)` -/
def computeAR (x : List Int) : List Int := dropErr (computeARE x)

/-- bulletproofs/bp.go:386-395 `commitVectorBig` and 400-411 `commitVector` (the latter converts the
int64 entries with `big.NewInt`, which is the identity on the model's integers): loop body. -/
def commitVectorGo {E : Type} (GP : Grp E) : Nat → List Int → List Int → List E → List E → E → Option E
  | 0, _, _, _, _, R => some R
  | n + 1, aL :: aLs, aR :: aRs, g :: gs, h :: hs, R =>
    commitVectorGo GP n aLs aRs gs hs (GP.add (GP.add R (GP.mul g aL)) (GP.mul h aR))
  | _ + 1, _, _, _, _, _ => none

/-- bulletproofs/bp.go:386-411: `h^alpha . g^aL . h^aR`. -/
def commitVector {E : Type} (GP : Grp E) (aL aR : List Int) (alpha : Int) (H : E) (g h : List E) (n : Nat) :
    Option E :=
  commitVectorGo GP n aL aR g h (GP.mul H alpha)

/-- bulletproofs/bp.go:414-441 `delta(y, z)`. -/
def delta (N : Nat) (mod y z : Int) : Option Int := do
  let onePow := vectorCopy 1 N
  let twoPow := powerOf 2 N mod
  let yPow := powerOf y N mod
  let zSquared := z * z % mod
  let zCubed := zSquared * z % mod
  let t1 := (z - zSquared) % mod
  let t2 ← scalarProduct onePow yPow mod
  let sp12 ← scalarProduct onePow twoPow mod
  let t3 := zCubed * sp12 % mod
  let result := t2 * t1 % mod
  some ((result - t3) % mod)

/-- The random values drawn by `Prove` (bulletproofs/bp.go:114, 120, 124-126, 139-140), each from
`rand.Int(rand.Reader, mod)`. -/
structure BPRand where
  gamma : Int
  alpha : Int
  sL : List Int
  sR : List Int
  rho : Int
  tau1 : Int
  tau2 : Int

/-- bulletproofs/bp.go:121-242: `Prove` from the point where the bit vectors `aL`, `aR` and the commitment
`V` are available.  Split off so that theorems can also talk about provers that use other vectors.
Outer `none`: panic; `.error`: the error of `setupInnerProduct`. -/
def proveFrom {E : Type} (sha : Bytes → Bytes) (params : BPParams E) (rnd : BPRand)
    (V : E) (aL aR : List Int) : Option (Except String (BulletProof E)) := do
  let GP := params.GP
  let mod := GP.N
  -- (44)
  let A ← commitVector GP aL aR rnd.alpha params.H params.Gg params.Hh params.N
  -- (47)
  let S ← commitVector GP rnd.sL rnd.sR rnd.rho params.H params.Gg params.Hh params.N
  -- (49) & (50)
  let y := (hashBP sha GP A S).1
  let z := (hashBP sha GP A S).2
  -- Second phase
  let yPow := powerOf y params.N mod
  let powersOf2 := powerOf 2 params.N mod
  let zSquared := z * z
  let powersOf2TimesZSquared := vectorScalarMul powersOf2 zSquared mod
  let aLb ← vectorConvertToBig aL params.N
  let aRb ← vectorConvertToBig aR params.N
  let l0 := vectorAddConst aLb (-z) mod
  let l1 := rnd.sL
  let vecZ := vectorCopy z params.N
  let aRzn := vectorAdd vecZ aRb mod
  let r0 := vectorMul yPow aRzn mod
  let r0 := vectorAdd r0 powersOf2TimesZSquared mod
  let r1 := vectorMul yPow rnd.sR mod
  let t1left ← vectorInnerProduct l1 r0 mod
  let t1right ← vectorInnerProduct l0 r1 mod
  let t1 := (t1left + t1right) % mod
  let t2 ← vectorInnerProduct l1 r1 mod
  let T1 := pedersenCommit GP t1 rnd.tau1 params.H
  let T2 := pedersenCommit GP t2 rnd.tau2 params.H
  -- (55) & (56)
  let x := (hashBP sha GP T1 T2).1
  -- Third phase
  let sLx := vectorScalarMul rnd.sL x mod
  let bl := vectorAdd l0 sLx mod
  let sRx := vectorScalarMul rnd.sR x mod
  let tmp := vectorAdd aRzn sRx mod
  let tmp := vectorMul yPow tmp mod
  let br := vectorAdd tmp powersOf2TimesZSquared mod
  let th ← scalarProduct bl br mod
  let tauX := rnd.tau2 * (x * x)
  let tauX := tauX + rnd.tau1 * x
  let tauX := tauX + zSquared * rnd.gamma
  let tauX := tauX % mod
  let mu := (rnd.rho * x + rnd.alpha) % mod
  -- Logarithmic phase
  let hp ← updateGenerators GP params.Hh y params.N
  let ipp ← setupInnerProduct GP (some params.Gg) (some hp) params.N
  match ipp with
  | .error e => some (.error e)
  | .ok ipp =>
    let commit ← commitInnerProduct GP params.Gg hp bl br
    let ipProof ← proveInnerProduct sha bl br commit th ipp
    match ipProof with
    | .error _ => none -- error dropped: a zero proof whose use panics; unreachable since |bl| = |br|
    | .ok ipProof =>
      some (.ok { V := V, A := A, S := S, T1 := T1, T2 := T2, Taux := some tauX, Mu := some mu,
                  Tprime := some th, InnerProductProof := ipProof, Params := params })

/-- bulletproofs/bp.go:104-243 `Prove(secret, params)`; returns the proof and `gamma`. -/
def bpProve {E : Type} (sha : Bytes → Bytes) (params : BPParams E) (rnd : BPRand) (secret : Int) :
    Option (Except String (BulletProof E × Int)) := do
  let V := pedersenCommit params.GP secret rnd.gamma params.H
  let aL := decompose secret 2 params.N
  let aR := computeAR aL
  let r ← proveFrom sha params rnd V aL aR
  match r with
  | .error e => some (.error e)
  | .ok proof => some (.ok (proof, rnd.gamma))

/-- bulletproofs/bp.go:248-332 `BulletProof.Verify`. -/
def BulletProof.verify {E : Type} (sha : Bytes → Bytes) (proof : BulletProof E) : Option Bool := do
  let params := proof.Params
  let GP := params.GP
  let mod := GP.N
  let x := (hashBP sha GP proof.T1 proof.T2).1
  let y := (hashBP sha GP proof.A proof.S).1
  let z := (hashBP sha GP proof.A proof.S).2
  let zSquared := z * z % mod
  let xSquared := x * x % mod
  let hp ← updateGenerators GP params.Hh y params.N
  -- Condition (65)
  let Tprime ← proof.Tprime
  let Taux ← proof.Taux
  let lhs := pedersenCommit GP Tprime Taux params.H
  let rhs := GP.mul proof.V zSquared
  let dlt ← delta params.N mod y z
  let gDelta := GP.mulGen dlt
  let rhs := GP.add rhs gDelta
  let T1x := GP.mul proof.T1 x
  let T2x2 := GP.mul proof.T2 xSquared
  let rhs := GP.add rhs T1x
  let rhs := GP.add rhs T2x2
  let c65 := GP.isEqual rhs lhs
  -- Conditions (66), (67)
  let Sx := GP.mul proof.S x
  let ASx := GP.add proof.A Sx
  let mz := mod - z
  let vmz := vectorCopy mz params.N
  let gpmz ← vectorExp GP params.Gg vmz
  let vz := vectorCopy z params.N
  let vy := powerOf y params.N mod
  let zyn := vectorMul vy vz mod
  let p2n := powerOf 2 params.N mod
  let z22n := vectorScalarMul p2n zSquared mod
  let zynz22n := vectorAdd zyn z22n mod
  let lP := GP.add ASx gpmz
  let hpExp ← vectorExp GP hp zynz22n
  let lP := GP.add lP hpExp
  let Mu ← proof.Mu
  let rP := GP.mul params.H Mu
  let rP := GP.add rP proof.InnerProductProof.P
  let rP := GP.sub rP lP
  let c67 := GP.isIdentity rP
  let ok ← proof.InnerProductProof.verify sha
  some (c65 && c67 && ok)

end MscPoc
