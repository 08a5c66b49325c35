import Verif.Model.Json
import Verif.Model.ModP

/-!
# Element codecs: group/p256.go, p384.go, p256k1.go, ristretto255.go, modsafeprime.go

The curve arithmetic itself (`circl`, `ing-bank/zkrp`) is third-party code; what is modelled here is
the encoding and decoding, including the byte-level behaviour of circl's `MarshalBinary`/`UnmarshalBinary`
that the repository relies on.
-/

set_option autoImplicit false

namespace MscPoc

/-- An affine point of a circl short Weierstrass group; `(0, 0)` is the identity (circl's convention). -/
structure WPoint where
  x : Nat
  y : Nat
deriving DecidableEq, Repr

/-- Constants of a short Weierstrass curve `y² = x³ - 3x + b` over `p`. `decompress` stands for circl's decoding of
compressed points (square root modulo `p`), which the JSON path never reaches. -/
structure WCurve where
  p : Nat
  b : Nat
  byteLen : Nat
  decompress : Bytes → Option WPoint

/-- curve equation, as `elliptic.IsOnCurve` -/
def WCurve.onCurve (c : WCurve) (pt : WPoint) : Bool :=
  ((pt.y : Int) * pt.y - ((pt.x : Int) * pt.x * pt.x - 3 * pt.x + c.b)) % c.p == 0

/-- `x.FillBytes(buf)` with `len(buf) = len`, for `x < 256^len`. -/
def fillBytes (len n : Nat) : Bytes :=
  List.replicate (len - (natBytes n).length) 0 ++ natBytes n

namespace WPoint

/-- circl `wElt.MarshalBinary` (called at group/p256.go:150, 159): one zero byte for the identity, else
`4 ‖ x ‖ y`. -/
def marshalBinary (c : WCurve) (e : WPoint) : Bytes :=
  if e = ⟨0, 0⟩ then [0] else 4 :: (fillBytes c.byteLen e.x ++ fillBytes c.byteLen e.y)

/-- circl `wElt.UnmarshalBinary` (called at group/p256.go:154, 191, 205): `(error returned, receiver)`. -/
def unmarshalBinary (c : WCurve) (recv : WPoint) (data : Bytes) : Bool × WPoint :=
  match data with
  | [] => (true, recv)
  | tag :: rest =>
    if rest = [] ∧ tag = 0 then (false, ⟨0, 0⟩)
    else if rest.length = c.byteLen ∧ (tag = 2 ∨ tag = 3) then
      match c.decompress data with
      | some pt => (false, pt)
      | none => (true, recv)
    else if rest.length = 2 * c.byteLen ∧ tag = 4 then
      let pt : WPoint := ⟨setBytes (rest.take c.byteLen), setBytes (rest.drop c.byteLen)⟩
      if pt.x < c.p ∧ pt.y < c.p ∧ c.onCurve pt then (false, pt) else (true, recv)
    else (true, recv)

end WPoint

/-- group/types.go:6-9 `ECPoint` as JSON. -/
def ecPointJson (x y : Int) : Json := .obj [("x", .num x), ("y", .num y)]

/-- The shared body of `MarshalJSON` (group/p256.go:158-180, p384.go:158-180, ristretto255.go:158-180) on the
binary encoding `tmp`. -/
def marshalPoint (byteLen : Nat) (tmp : Bytes) : Option (Except String Json) := do
  let t0 ← tmp[0]?
  if t0 ≠ 0 then
    let pre ← sliceTo tmp (byteLen + 1)
    let xBytes ← sliceFrom pre 1
    let yBytes ← sliceFrom tmp (1 + byteLen)
    if xBytes.length ≠ byteLen ∨ xBytes.length ≠ yBytes.length then
      some (.error "error in underlying binary marshalling")
    else
      some (.ok (ecPointJson (setBytes xBytes) (setBytes yBytes)))
  else some (.ok (ecPointJson 0 0))

/-- `copy(buf[len(buf)-len(src):], src)`: overwrite the end of `buf`; panics when the slice index is
negative. -/
def overwriteEnd (buf src : Bytes) : Option Bytes :=
  if src.length ≤ buf.length then some (buf.take (buf.length - src.length) ++ src) else none

/-- Outcome of the common first part of `UnmarshalJSON`. -/
inductive PointBytes where
  /-- `json.Unmarshal` into `ECPoint` failed -/
  | error
  /-- the bytes handed to `UnmarshalBinary` -/
  | bytes (b : Bytes)

/-- The shared body of `UnmarshalJSON` (group/p256.go:182-207, p384.go:182-207, ristretto255.go:182-207).
`none`: panic (nil coordinate, or negative slice index). -/
def unmarshalPoint (byteLen : Nat) (data : Raw) : Option PointBytes :=
  match asObj data with
  | .error _ => some .error
  | .ok kvs =>
    match asBig (fieldVals ["x", "y"] kvs "x"), asBig (fieldVals ["x", "y"] kvs "y") with
    | .error _, _ => some .error
    | .ok _, .error _ => some .error
    | .ok X, .ok Y => do
      let X ← X
      let Y ← Y
      if X = 0 ∧ Y = 0 then some (.bytes [0])
      else
        let lo ← overwriteEnd (4 :: List.replicate byteLen 0) (bigBytes X)
        let tmp ← overwriteEnd (lo ++ List.replicate byteLen 0) (bigBytes Y)
        some (.bytes tmp)

/-- group/p256.go:158-207 and group/p384.go:158-207. -/
def wCodec (c : WCurve) : Codec WPoint where
  marshal := fun e => marshalPoint c.byteLen (e.marshalBinary c)
  unmarshal := fun recv data =>
    match unmarshalPoint c.byteLen data with
    | none => none
    | some .error => some (true, recv)
    | some (.bytes b) => some (WPoint.unmarshalBinary c recv b)

/-- The curve constants of P-256 (group/p256.go:209-218; `b` is circl's). -/
def p256Curve (decompress : Bytes → Option WPoint) : WCurve where
  p := 0xffffffff00000001000000000000000000000000ffffffffffffffffffffffff
  b := 0x5ac635d8aa3a93e7b3ebbd55769886bc651d06b0cc53b0f63bce3c3e27d2604b
  byteLen := 32
  decompress := decompress

/-- The curve constants of P-384 (group/p384.go:209-218; `b` is circl's). -/
def p384Curve (decompress : Bytes → Option WPoint) : WCurve where
  p := 0xfffffffffffffffffffffffffffffffffffffffffffffffffffffffffffffffeffffffff0000000000000000ffffffff
  b := 0xb3312fa7e23ee7e4988e056be3f82d19181d9c6efe8141120314088f5013875ac656398d8a2ed19d2a85c8edd3ec2aef
  byteLen := 48
  decompress := decompress

/-- Group orders, group/p256.go:211. -/
def p256N : Nat := 0xffffffff00000000ffffffffffffffffbce6faada7179e84f3b9cac2fc632551
/-- group/p384.go:211 -/
def p384N : Nat :=
  0xffffffffffffffffffffffffffffffffffffffffffffffffc7634d81f4372ddf581a0db248b0a77aecec196accc52973
/-- group/p256k1.go:201 -/
def k1N : Nat := 0xfffffffffffffffffffffffffffffffebaaedce6af48a03bbfd25e8cd0364141
/-- group/ristretto255.go:211 -/
def r255N : Nat := 0x1000000000000000000000000000000014def9dea2f79cd65812631a5cf5d3ed
/-- group/p256k1.go:200 -/
def k1P : Nat := 0xfffffffffffffffffffffffffffffffffffffffffffffffffffffffefffffc2f
/-- group/ristretto255.go:210 -/
def r255P : Nat := 0x7fffffffffffffffffffffffffffffffffffffffffffffffffffffffffffffed

/-- group/p256k1.go:16-19 with `p256.P256`: two nil-able coordinates. -/
structure K1Point where
  X : Option Int
  Y : Option Int
deriving DecidableEq, Repr

namespace K1Point

/-- nil or zero (group/p256k1.go:100-114) -/
def nilOrZero (o : Option Int) : Bool :=
  match o with
  | none => true
  | some v => v == 0

/-- group/p256k1.go:97-106 for one coordinate -/
def coordEq (a b : Option Int) : Bool :=
  if nilOrZero a then nilOrZero b
  else if nilOrZero b then nilOrZero a
  else match a, b with
    | some x, some y => x == y
    | _, _ => false

/-- group/p256k1.go:93-117 `IsEqual` -/
def isEqual (e b : K1Point) : Bool := coordEq e.X b.X && coordEq e.Y b.Y

/-- group/p256k1.go:165-170 `IsIdentity`; `none`: nil dereference when exactly one coordinate is nil and it
is reached. -/
def isIdentity (e : K1Point) : Option Bool :=
  match e.X, e.Y with
  | none, none => some true
  | none, some _ => none
  | some x, Y => if x ≠ 0 then some false else Y.map (fun y => y == 0)

/-- group/p256k1.go:172-184 `MarshalBinary` -/
def marshalBinary (e : K1Point) : Bytes :=
  (match e.X with | some x => bigBytes x | none => List.replicate 32 0) ++
  (match e.Y with | some y => bigBytes y | none => List.replicate 32 0)

/-- group/p256k1.go:125-132 `SetBytes`; panics on input shorter than 32 bytes, at `b[32:]` even when `b[:32]` is within the
capacity of `b`. -/
def setBytes (b : Bytes) : Option K1Point := do
  let xBytes ← sliceTo b 32
  let yBytes ← sliceFrom b 32
  some ⟨some (MscPoc.setBytes xBytes), some (MscPoc.setBytes yBytes)⟩

/-- group/p256k1.go:186-189 `UnmarshalBinary` -/
def unmarshalBinary (_recv : K1Point) (data : Bytes) : Option K1Point := setBytes data

/-- group/p256k1.go:153-159 `MapToGroup` on the point returned by `p256.MapToGroup`. -/
def mapToGroupOf (tmp : K1Point) : Option K1Point := do
  let x ← tmp.X
  let y ← tmp.Y
  setBytes (bigBytes x ++ bigBytes y)

end K1Point

/-- group/p256k1.go:191-197. -/
def k1Codec : Codec K1Point where
  marshal := fun e => some (.ok (.obj [("X", bigJson e.X), ("Y", bigJson e.Y)]))
  unmarshal := fun recv _ => some (false, recv)

/-- Ristretto element: its 32-byte canonical encoding (circl's `MarshalBinary`). `valid` says which 32-byte
strings circl accepts. -/
structure R255Point where
  enc : Bytes
deriving DecidableEq, Repr

/-- circl/go-ristretto `UnmarshalBinary`: exactly 32 bytes and a canonical encoding. -/
def R255Point.unmarshalBinary (valid : Bytes → Bool) (recv : R255Point) (data : Bytes) : Bool × R255Point :=
  if data.length = 32 ∧ valid data then (false, ⟨data⟩) else (true, recv)

/-- group/ristretto255.go:158-207. -/
def r255Codec (valid : Bytes → Bool) : Codec R255Point where
  marshal := fun e => marshalPoint 32 e.enc
  unmarshal := fun recv data =>
    match unmarshalPoint 32 data with
    | none => none
    | some .error => some (true, recv)
    | some (.bytes b) => some (R255Point.unmarshalBinary valid recv b)

/-- group/modsafeprime.go:165-172 on the raw value.  `big.Int.UnmarshalJSON`: `null` is a no-op; a failed scan
leaves what has been read so far (0 if nothing); empty input leaves the receiver. -/
def modPCodec : Codec Int where
  marshal := fun v => some (.ok (.num v))
  unmarshal := fun recv data =>
    match data with
    | none => some (true, recv)
    | some .null => some (false, recv)
    | some (.num n) => some (false, n)
    | some .negZero => some (false, 0)
    | some (.frac pre) => some (true, pre)
    | some _ => some (true, 0)

end MscPoc
