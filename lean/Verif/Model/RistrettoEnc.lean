import Verif.Model.HashToCurve
import Verif.Model.Ristretto

/-!
# The 32-byte encodings of Ristretto255, and its map from bytes

`MarshalBinary`, `UnmarshalBinary` and `HashToElement` of circl's Ristretto255 (called at group/ristretto255.go:108, 136, 141, 150,
154) are arbitrary functions in the rest of the model.  These are the real ones: RFC 9496, 4.3.1, 4.3.2 and 4.3.4, for points in
affine coordinates.

Simplifications: `z = 1`, so the encoding gets `t = x y`; selections in constant time are `if`.  Which 32-byte
strings `HashToElement` derives from a string is left open: go-ristretto maps one half of a SHA-512 digest (`Derive`) or both
(`DeriveDalek`, as in RFC 9496), and circl feeds it the output of `expand_message_xmd`.
-/

set_option autoImplicit false

namespace MscPoc
namespace R255

/-- `SQRT_M1` -/
def sqrtM1 : Nat := 19681161376707505956807079304988542015446066515923890162744021073123829784752

/-- `SQRT_AD_MINUS_ONE` -/
def sqrtADm1 : Nat := 25063068953384623474111414158702152701244531502492656460079210482610430750235

/-- `INVSQRT_A_MINUS_D` -/
def invsqrtAmD : Nat := 54469307008909316920995813868745141605393597292927456921205312896311721017578

/-- product modulo `p` -/
def mul (a b : Nat) : Nat := a * b % r255P

/-- sum modulo `p` -/
def add (a b : Nat) : Nat := (a + b) % r255P

/-- difference modulo `p` -/
def sub (a b : Nat) : Nat := (a + (r255P - b % r255P)) % r255P

/-- negative modulo `p` -/
def neg (a : Nat) : Nat := sub 0 a

/-- RFC 9496, 4.1: a field element is negative if its least residue is odd -/
def isNeg (a : Nat) : Bool := a % 2 == 1

/-- `CT_ABS` -/
def abs (a : Nat) : Nat := if isNeg a then neg a else a

/-- `x ^ k` modulo `p` -/
def pow (x k : Nat) : Nat := H2CSuite.powMod r255P x k

/-- `SQRT_RATIO_M1(u, v)` (RFC 9496, 4.2) -/
def sqrtRatio (u v : Nat) : Bool × Nat :=
  let v3 := mul (mul v v) v
  let v7 := mul (mul v3 v3) v
  let r := mul (mul u v3) (pow (mul u v7) ((r255P - 5) / 8))
  let check := mul v (mul r r)
  let correct := check == u
  let flipped := check == neg u
  let flippedI := check == mul (neg u) sqrtM1
  let r := if flipped || flippedI then mul sqrtM1 r else r
  (correct || flipped, abs r)

/-- RFC 9496, 4.3.2: the field element `s` that encodes a point -/
def encodeS (P : WPoint) : Nat :=
  let t := mul P.x P.y
  let u1 := mul (add 1 P.y) (sub 1 P.y)
  let u2 := mul P.x P.y
  let invsqrt := (sqrtRatio 1 (mul u1 (mul u2 u2))).2
  let den1 := mul invsqrt u1
  let den2 := mul invsqrt u2
  let zInv := mul (mul den1 den2) t
  let rotate := isNeg (mul t zInv)
  let x := if rotate then mul P.y sqrtM1 else P.x
  let y := if rotate then mul P.x sqrtM1 else P.y
  let denInv := if rotate then mul den1 invsqrtAmD else den2
  let y := if isNeg (mul x zInv) then neg y else y
  abs (mul denInv (sub 1 y))

/-- little-endian bytes, 32 of them -/
def toBytes (s : Nat) : Bytes := (fillBytes 32 s).reverse

/-- value of little-endian bytes -/
def ofBytes (b : Bytes) : Nat := setBytes b.reverse

/-- `MarshalBinary()` -/
def encode (P : WPoint) : Bytes := toBytes (encodeS P)

/-- RFC 9496, 4.3.1: the point encoded by the field element `s` -/
def decodeS (s : Nat) : Option WPoint :=
  let ss := mul s s
  let u1 := sub 1 ss
  let u2 := add 1 ss
  let u2sqr := mul u2 u2
  let v := sub (neg (mul r255D (mul u1 u1))) u2sqr
  let r := sqrtRatio 1 (mul v u2sqr)
  let denX := mul r.2 u2
  let denY := mul (mul r.2 denX) v
  let x := abs (mul (mul 2 s) denX)
  let y := mul u1 denY
  let t := mul x y
  if !r.1 || isNeg t || y == 0 then none else some ⟨x, y⟩

/-- `UnmarshalBinary(data)` as the decoded point; `none`: error -/
def decode (b : Bytes) : Option WPoint :=
  if b.length = 32 then
    let s := ofBytes b
    if s < r255P && !isNeg s then decodeS s else none
  else none

/-- RFC 9496, 4.3.4 `MAP(t)`.  The result `(w0 w3 : w2 w1 : w1 w3)` in projective coordinates is divided out. -/
def map (t : Nat) : WPoint :=
  let r := mul sqrtM1 (mul t t)
  let u := mul (add r 1) (sub 1 (mul r255D r255D))
  let v := mul (sub (neg 1) (mul r r255D)) (add r r255D)
  let sq := sqrtRatio u v
  let s := if sq.1 then sq.2 else neg (abs (mul sq.2 t))
  let c := if sq.1 then neg 1 else r
  let N := sub (mul (mul c (sub r 1)) (mul (sub r255D 1) (sub r255D 1))) v
  let w0 := mul (mul 2 s) v
  let w1 := mul N sqrtADm1
  let w2 := sub 1 (mul s s)
  let w3 := add 1 (mul s s)
  ⟨(divMod r255P (w0 * w3 : Nat) (w1 * w3 : Nat)).toNat, (divMod r255P (w2 * w1 : Nat) (w1 * w3 : Nat)).toNat⟩

/-- the point of one string of bytes; the top bit of the field element is ignored -/
def mapBytes (b : Bytes) : WPoint := map (ofBytes b % 2 ^ 255 % r255P)

/-- the sum of the points of some strings -/
def fromPieces : List Bytes → WPoint
  | [] => edZero
  | [b] => mapBytes b
  | b :: bs => edAdd (mapBytes b) (fromPieces bs)

/-- RFC 9496, 4.3.4: the element derived from 64 bytes -/
def fromUniform (b : Bytes) : WPoint := fromPieces [b.take 32, b.drop 32]

end R255

/-- circl's Ristretto255 with a given derivation of the mapped strings from the hashed one -/
def r255Real (pieces : Bytes → List Bytes) : R255Lib where
  hash := fun s => R255.fromPieces (pieces s)
  enc := R255.encode

end MscPoc
