import Verif.Model.Curve

/-!
# The wrapper group of group/ristretto255.go

The repository's own code (a fresh library element, a call, a store in `e.val`) is modelled line by line.  The library
behind it, circl's `group.Ristretto255` over go-ristretto, is third-party code that is not part of the repository.  It is
modelled by affine arithmetic on the twisted Edwards curve `-x² + y² = 1 + d x² y²` that it documents: an element is a
point of the curve, several points stand for the same element, and `IsEqual` compares elements.  `HashToElement` and the
32-byte encoding are arbitrary functions.

Simplification: go-ristretto keeps points in extended homogeneous coordinates; here they are affine.
-/

set_option autoImplicit false

namespace MscPoc

/-- the curve constant `-121665 / 121666` -/
def r255D : Nat := 0x52036cee2b6ffe738cc740797779e89800700a4d4141d8ab75eb4dca135978a3

/-- the identity `(0, 1)` -/
def edZero : WPoint := ⟨0, 1⟩

/-- addition on `-x² + y² = 1 + d x² y²` modulo `p` -/
def edAdd (P Q : WPoint) : WPoint :=
  let D : Int := (r255D : Int) * P.x * Q.x * P.y * Q.y
  ⟨(divMod r255P ((P.x : Int) * Q.y + (P.y : Int) * Q.x) (1 + D)).toNat,
    (divMod r255P ((P.y : Int) * Q.y + (P.x : Int) * Q.x) (1 - D)).toNat⟩

/-- negative of a point -/
def edNeg (P : WPoint) : WPoint := ⟨(-(P.x : Int) % r255P).toNat, P.y⟩

/-- `k`-th multiple by repeated doubling, `k < 2 ^ fuel` -/
def edMulGo : Nat → Nat → WPoint → WPoint
  | 0, _, _ => edZero
  | fuel + 1, k, P =>
    if k = 0 then edZero
    else
      let h := edMulGo fuel (k / 2) P
      let d := edAdd h h
      if k % 2 = 1 then edAdd d P else d

/-- circl `Mul(x, scalar.SetBigInt(s))` (called at group/ristretto255.go:115); `SetBigInt` reduces modulo the order -/
def edMul (P : WPoint) (s : Int) : WPoint :=
  let k := (s % r255N).toNat
  edMulGo (k.log2 + 1) k P

/-- circl `IsEqual` (called at group/ristretto255.go:97): `x₁ y₂ = y₁ x₂` or `x₁ x₂ = y₁ y₂` modulo `p` -/
def edEqual (P Q : WPoint) : Bool :=
  P.x * Q.y % r255P == P.y * Q.x % r255P || P.x * Q.x % r255P == P.y * Q.y % r255P

/-- the base point of circl's `Generator()` (called at group/ristretto255.go:42), that of Ed25519 -/
def edBase : WPoint :=
  ⟨0x216936d3cd6e53fec0a4e231fdd6dc5c692cc7609525a7b2c9562d608f25d51a,
    0x6666666666666666666666666666666666666666666666666666666666666658⟩

/-- What is left open about circl's Ristretto255. -/
structure R255Lib where
  /-- `HashToElement(bs, be)` with the empty `be` of group/ristretto255.go:134-136 -/
  hash : Bytes → WPoint
  /-- `MarshalBinary()` (called at group/ristretto255.go:141) -/
  enc : WPoint → Bytes

/-- group/ristretto255.go:23-147, 209-218.  No method reads the old value of its receiver.  `Element()` is circl's
`NewElement()`, the identity.  `MapToGroup` returns its receiver (group/ristretto255.go:133-138); the callers pass a fresh
one, see C58. -/
def r255Grp (L : R255Lib) : Grp WPoint where
  name := "ristretto255"
  P := r255P
  N := r255N
  elt := edZero
  generator := edBase
  identity := edZero
  add := fun a b => edAdd a b
  neg := fun _ a => edNeg a
  scale := fun _ a s => edMul a s
  baseScale := fun _ s => edMul edBase s
  isEqual := fun a b => edEqual a b
  isIdentity := fun a => edEqual a edZero
  str := L.enc
  mapToGroup := fun s => some (L.hash s)

end MscPoc
