import Verif.Model.HashToCurve

/-!
# Compressed points, and the setters of group/p256.go and group/p384.go

`UnmarshalBinary` of circl's P-256 and P-384 (called at group/p256.go:108, 154 and group/p384.go:108, 154) also takes
compressed points; the rest of the model has an arbitrary function for that case.  This is the real one: SEC 1, 2.3.4, as in
`elliptic.UnmarshalCompressed`.
-/

set_option autoImplicit false

namespace MscPoc

/-- `elliptic.UnmarshalCompressed`: the first byte is 2 or 3 and gives the parity of `y`, the others are `x`.  `none`: `x` is not
reduced, or not the abscissa of a point. -/
def wDecompress (p b : Nat) (data : Bytes) : Option WPoint :=
  let x := setBytes (data.drop 1)
  if x < p then
    let v : Int := ((x : Int) * x * x - 3 * x + b) % p
    let y := H2CSuite.powMod p v.toNat ((p + 1) / 4)
    if y * y % p = v.toNat then
      some ⟨x, if y % 2 = (data.headD 0).toNat % 2 then y else (-(y : Int) % p).toNat⟩
    else none
  else none

/-- P-256 with all three formats of points -/
def p256Std : WCurve := p256Curve (wDecompress (p256Curve fun _ => none).p (p256Curve fun _ => none).b)

/-- P-384 with all three formats of points -/
def p384Std : WCurve := p384Curve (wDecompress (p384Curve fun _ => none).p (p384Curve fun _ => none).b)

/-- group/p256.go:106-110 and group/p384.go:106-110 `e.SetBytes(b)`: a new element (the identity), into which `b` is decoded;
the error is dropped -/
def WPoint.setBytes (c : WCurve) (b : Bytes) : WPoint := (WPoint.unmarshalBinary c ⟨0, 0⟩ b).2

end MscPoc
