import Verif.Model.Marshal
import Verif.Model.MultiBp
import Verif.Model.Points
import Verif.Model.Curve
import Verif.Model.ModP
import Verif.Model.RistrettoEnc

/-!
# The repository's own tests  (group/group_test.go, bulletproofs/*_test.go)

A test is a function of what it draws at random.  `none`: the test panics; `some false`: it reports a failure
(`t.Error`, `t.Fatal`, a failed assertion); `some true`: it passes.  The elements a test draws with `g.Random()` are arguments.
main_test.go assigns the two results of `castVote` and of `verifyVote` to one variable and does not compile.
-/

set_option autoImplicit false

namespace MscPoc

/-- `MarshalBinary`/`UnmarshalBinary` of a group's elements: encoding (none of them fails), and the error flag and the new value
of the receiver after decoding. -/
structure BinCodec (E : Type) where
  enc : E → Bytes
  dec : E → Bytes → Bool × E

/-- group/modsafeprime.go:156-163 -/
def modPBin : BinCodec Int := ⟨fun e => bigBytes e, fun _ b => (false, setBytes b)⟩

/-- group/p256.go:149-156, group/p384.go:149-156 -/
def wBin (c : WCurve) : BinCodec WPoint := ⟨fun e => e.marshalBinary c, fun recv b => WPoint.unmarshalBinary c recv b⟩

/-- group/ristretto255.go:149-156 with the decoding of RFC 9496 -/
def r255Bin : BinCodec WPoint where
  enc := R255.encode
  dec := fun recv b => match R255.decode b with
    | none => (true, recv)
    | some Q => (false, Q)

/-- group/ristretto255.go:158-207 -/
def r255Json : Codec WPoint where
  marshal := fun e => marshalPoint 32 (R255.encode e)
  unmarshal := fun recv data =>
    match unmarshalPoint 32 data with
    | none => none
    | some .error => some (true, recv)
    | some (.bytes b) => some (r255Bin.dec recv b)

section
variable {E : Type} (g : Grp E)

/-- group_test.go:60-72 `testNeg`; `Q.Set(P); Q.Subtract(Q, P)` -/
def testNeg (xs : List E) : Bool := xs.all fun P => g.isIdentity (g.sub P P)

/-- group_test.go:74-88 `testOrder`, where `Q` keeps its value from one iteration to the next -/
def testOrderGo : E → List E → Bool
  | _, [] => true
  | Q, P :: xs =>
    let Q := g.add (g.scale Q P (-1)) P
    g.isEqual Q g.identity && testOrderGo Q xs

def testOrder (xs : List E) : Bool := testOrderGo g g.elt xs

/-- group_test.go:90-97 `testSet` -/
def testSet (x : E) : Bool := g.isEqual x x

/-- group_test.go:112-124: the loop of `testMarshalBinary`; the error of `UnmarshalBinary` is overwritten -/
def testBinaryGo (B : BinCodec E) : E → List E → Bool
  | _, [] => true
  | gotEl, x :: xs =>
    let gotEl := (B.dec gotEl (B.enc x)).2
    g.isEqual x gotEl && testBinaryGo B gotEl xs

/-- group_test.go:99-125 `testMarshalBinary` -/
def testMarshalBinary (B : BinCodec E) (xs : List E) : Bool :=
  let r := B.dec g.elt (B.enc g.identity)
  !r.1 && g.isEqual g.identity r.2 && testBinaryGo g B g.elt xs

/-- what `UnmarshalJSON` is given when `MarshalJSON` returned this: after an error, the empty text, which is not JSON -/
def sent : Except String Json → Raw
  | .ok j => some j
  | .error _ => none

def isOk {α : Type} : Except String α → Bool
  | .ok _ => true
  | .error _ => false

/-- group_test.go:141-158: the loop of `testMarshalJSON` -/
def testJSONGo (C : Codec E) : E → List E → Option Bool
  | _, [] => some true
  | gotEl, x :: xs => do
    let enc ← C.marshal x
    let (err, gotEl) ← C.unmarshal gotEl (sent enc)
    let rest ← testJSONGo C gotEl xs
    some (isOk enc && !err && g.isEqual x gotEl && rest)

/-- group_test.go:127-159 `testMarshalJSON` -/
def testMarshalJSON (C : Codec E) (xs : List E) : Option Bool := do
  let got ← C.marshal g.identity
  let (err, II) ← C.unmarshal g.elt (sent got)
  let rest ← testJSONGo g C g.elt xs
  some (isOk got && !err && g.isEqual g.identity II && rest)

/-- what the five subtests of `TestGroup` draw -/
structure GroupDraws (E : Type) where
  neg : List E
  order : List E
  set : E
  binary : List E
  json : List E

/-- group_test.go:45-56: the body of the loop of `TestGroup` -/
def groupSubtests (B : BinCodec E) (C : Codec E) (d : GroupDraws E) : Option Bool := do
  let j ← testMarshalJSON g C d.json
  some (testNeg g d.neg && testOrder g d.order && testSet g d.set && testMarshalBinary g B d.binary && j)

/-- group_test.go:182-208 `TestMath` (on secp256k1); draws `r1`, `r2` -/
def testMath (r1 r2 : E) : Bool :=
  let a := g.mulGen 2
  let b := g.add g.generator g.generator
  let ok1 := g.isEqual a b
  let a := g.add a g.generator
  let b := g.mulGen 3
  let ok2 := g.isEqual a b
  let e := g.sub (g.add r1 r2) r2
  ok1 && ok2 && g.isEqual e r1

end

/-- group_test.go:42-58 `TestGroup`: the safe-prime group, P-256, P-384 and Ristretto255.  `C256` and `C384` are the curves
with the library's hash to the curve. -/
def testGroup (C256 C384 : CirclCurve) (L : R255Lib) (G : ModPGroup) (d₁ : GroupDraws Int) (d₂ d₃ d₄ : GroupDraws WPoint) :
    Option Bool := do
  let a ← groupSubtests (modPGrp G) modPBin modPCodec d₁
  let b ← groupSubtests (circlGrp C256) (wBin C256.c) (wCodec C256.c) d₂
  let c ← groupSubtests (circlGrp C384) (wBin C384.c) (wCodec C384.c) d₃
  let d ← groupSubtests (r255Grp L) r255Bin r255Json d₄
  some (a && b && c && d)

section
variable {E : Type} (sha : Bytes → Bytes) (nan64 : BitVec 64)

/-- bp_test.go:88-92 `proveAndVerifyRange`.  After an error `Prove` returns an incomplete proof, on which `Verify` panics
(nil receiver). -/
def proveAndVerifyRange (params : BPParams E) (rnd : BPRand) (x : Int) : Option Bool := do
  match ← bpProve sha params rnd x with
  | .error _ => none
  | .ok (proof, _) => proof.verify sha

/-- bp_test.go:29-86: `TestXEqualsRangeStart` (`x = 0`), `TestXWithinRange` (3) with `want = true`, `TestXLowerThanRangeStart`
(-1), `TestXHigherThanRangeEnd` (2³²+1) and `TestXEqualToRangeEnd` (2³²) with `want = false`; all with `rangeEnd = 2³²`. -/
def testRange (GP : Grp E) (rnd : BPRand) (x : Int) (want : Bool) : Option Bool := do
  match ← bpSetup nan64 (2 ^ 32) GP with
  | .error _ => some false -- t.FailNow
  | .ok params =>
    let got ← proveAndVerifyRange sha params rnd x
    some (got == want)

/-- bp_test.go:94-116 `TestJsonEncodeDecode` (on P-256, secret 18).  Errors of `Setup` and `Prove` are dropped; `Prove` and
`json.Marshal` panic on what is returned with an error. -/
def testJsonEncodeDecode (GP : Grp E) (C : Codec E) (rnd : BPRand) : Option Bool := do
  match ← bpSetup nan64 (2 ^ 32) GP with
  | .error _ => none
  | .ok params =>
    match ← bpProve sha params rnd 18 with
    | .error _ => none
    | .ok (proof, _) =>
      match ← encBP C proof with
      | .error _ => some false
      | .ok j =>
        match ← decBP C params (some j) with
        | .error _ => some false
        | .ok decoded => decoded.verify sha

/-- bip_test.go:29-54 `TestInnerProduct` (on Ristretto255) -/
def testInnerProduct (GP : Grp E) : Option Bool := do
  let a := [2, -1, 10, 6]
  let b := [1, 2, 10, 7]
  match ← setupInnerProduct GP none none 4 with
  | .error _ => none
  | .ok params =>
    let commitment ← commitInnerProduct params.GP params.Gg params.Hh a b
    match ← proveInnerProduct sha a b commitment 142 params with
    | .error _ => none
    | .ok proof => proof.verify sha

/-- multibp_test.go:9-26 `TestXYWithinRange` (on Ristretto255) -/
def testXYWithinRange (GP : Grp E) (rnd : MultiRand) : Option Bool := do
  match ← bpSetup nan64 (2 ^ 32) GP with
  | .error _ => some false
  | .ok params =>
    match ← multiProve sha params rnd [3, 15] with
    | .error _ => none
    | .ok (proof, _) => proof.verify sha

end

/-- util_test.go:31-40 `TestPowerOf`, for the order `N` of secp256k1 -/
def testPowerOf (N : Int) : Bool :=
  let r := powerOf 3 3 N
  r[0]? == some 1 && r[1]? == some 3 && r[2]? == some 9

/-- util_test.go:80-99 `TestScalarProduct` -/
def testScalarProduct (N : Int) : Bool := scalarProduct [7, 7, 7] [3, 3, 3] N == some 63

/-- util_test.go:101-107 `TestIsPowerOfTwo` -/
def testIsPowerOfTwo : Bool := isPowerOfTwo (2 ^ 16) && !isPowerOfTwo (2 ^ 16 + 1)

/-- vector_test.go:31-42 `TestVectorCopy` -/
def testVectorCopy : Bool := vectorCopy 1 3 == [1, 1, 1]

/-- vector_test.go:47-63 `TestVectorConvertToBig` -/
def testVectorConvertToBig : Bool := vectorConvertToBig [3, 4, 5] 3 == some [3, 4, 5]

/-- vector_test.go:68-89 `TestVectorAdd` -/
def testVectorAdd (N : Int) : Bool := vectorAdd [7, 8, 9] [3, 30, 40] N == [10, 38, 49]

/-- vector_test.go:94-115 `TestVectorSub` -/
def testVectorSub (N : Int) : Bool := vectorSub [7, 8, 9] [3, 30, 40] N ==
  [4, 115792089237316195423570985008687907852837564279074904382605163141518161494315,
    115792089237316195423570985008687907852837564279074904382605163141518161494306]

/-- vector_test.go:120-142 `TestVectorMul` -/
def testVectorMul (N : Int) : Bool := vectorMul [7, 8, 9] [3, 30, 40] N == [21, 240, 360]

end MscPoc
