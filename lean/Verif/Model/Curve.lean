import Verif.Model.Points

/-!
# The wrapper groups of group/p256.go, group/p384.go and group/p256k1.go

The repository's own code (allocation of a fresh library element, call, store in `e.val`) is modelled line by line.
The library behind it, circl's `group.P256` / `group.P384`, is third-party code that is not part of the repository; it
is modelled by the textbook affine arithmetic on coordinates that it documents: the identity is `(0, 0)`, `Add` is the
chord-and-tangent law, `Neg` negates `y` modulo `p`, `SetBigInt` reduces modulo the order, `Mul` is repeated doubling.
`HashToElement` is an arbitrary function.

The library behind group/p256k1.go, ing-bank's `p256` (over go-ethereum's `secp256k1`), is modelled in the same way.  Its
points have nil-able coordinates and two forms of the identity, `(nil, nil)` and `(0, 0)`.  Which form the curve operations
return is left open.
-/

set_option autoImplicit false

namespace MscPoc

/-- What circl provides for one curve, on top of the encoding constants of `WCurve`. -/
structure CirclCurve where
  c : WCurve
  /-- base point -/
  gx : Nat
  gy : Nat
  /-- order used by circl's scalars, and `curveOrder` of the wrapper (group/p256.go:211-215) -/
  n : Nat
  /-- group/p256.go:216 -/
  name : String
  /-- `HashToElement(msg, dst)` with the empty `dst` of group/p256.go:134-136 -/
  hash : Bytes → WPoint

/-- quotient modulo `p` -/
def divMod (p : Nat) (num den : Int) : Int := num * (modInverse den p).getD 0 % p

/-- negative of a point of a short Weierstrass curve modulo `p` in affine coordinates; `(0, 0)` is the identity -/
def affNeg (p : Nat) (P : WPoint) : WPoint := ⟨P.x, (-(P.y : Int) % p).toNat⟩

/-- chord-and-tangent addition on `y² = x³ + a x + b` modulo `p` -/
def affAdd (p : Nat) (a : Int) (P Q : WPoint) : WPoint :=
  if P = ⟨0, 0⟩ then Q
  else if Q = ⟨0, 0⟩ then P
  else if P.x = Q.x ∧ (P.y + Q.y) % p = 0 then ⟨0, 0⟩
  else
    let l : Int :=
      if P.x = Q.x then divMod p (3 * P.x * P.x + a) (2 * P.y)
      else divMod p ((P.y : Int) - Q.y) ((P.x : Int) - Q.x)
    let x : Int := (l * l - P.x - Q.x) % p
    let y : Int := (l * (P.x - x) - P.y) % p
    ⟨x.toNat, y.toNat⟩

/-- `k`-th multiple by repeated doubling, `k < 2 ^ fuel` -/
def affMulGo (p : Nat) (a : Int) : Nat → Nat → WPoint → WPoint
  | 0, _, _ => ⟨0, 0⟩
  | fuel + 1, k, P =>
    if k = 0 then ⟨0, 0⟩
    else
      let h := affMulGo p a fuel (k / 2) P
      let d := affAdd p a h h
      if k % 2 = 1 then affAdd p a d P else d

/-- circl `Neg` (called at group/p256.go:90) -/
def wNeg (c : WCurve) (P : WPoint) : WPoint := affNeg c.p P

/-- circl `Add` (called at group/p256.go:78); `a = -3` on both curves -/
def wAdd (c : WCurve) (P Q : WPoint) : WPoint := affAdd c.p (-3) P Q

/-- multiples of a point on P-256 or P-384 -/
def wMulGo (c : WCurve) (fuel k : Nat) (P : WPoint) : WPoint := affMulGo c.p (-3) fuel k P

/-- circl `Mul(x, scalar.SetBigInt(s))` (called at group/p256.go:115) -/
def wMul (C : CirclCurve) (P : WPoint) (s : Int) : WPoint :=
  let k := (s % C.n).toNat
  wMulGo C.c (k.log2 + 1) k P

/-- group/p256.go:43-160, 209-218 and the same lines of group/p384.go.  No method reads the old value of its receiver;
`Element()` is circl's `NewElement()`, the identity. -/
def circlGrp (C : CirclCurve) : Grp WPoint where
  name := C.name
  P := C.c.p
  N := C.n
  elt := ⟨0, 0⟩
  generator := ⟨C.gx, C.gy⟩
  identity := ⟨0, 0⟩
  add := fun a b => wAdd C.c a b
  neg := fun _ a => wNeg C.c a
  scale := fun _ a s => wMul C a s
  baseScale := fun _ s => wMul C ⟨C.gx, C.gy⟩ s
  isEqual := fun a b => a.x == b.x && a.y == b.y
  isIdentity := fun a => a.x == 0 && a.y == 0
  str := fun a => a.marshalBinary C.c
  mapToGroup := fun s => some (C.hash s)

/-- `group.P256()` (group/p256.go:209-218); the base point is circl's (FIPS 186-4). -/
def p256Circl (dec : Bytes → Option WPoint) (hash : Bytes → WPoint) : CirclCurve where
  c := p256Curve dec
  gx := 0x6b17d1f2e12c4247f8bce6e563a440f277037d812deb33a0f4a13945d898c296
  gy := 0x4fe342e2fe1a7f9b8ee7eb4a7c0f9e162bce33576b315ececbb6406837bf51f5
  n := p256N
  name := "P-256"
  hash := hash

/-- `group.P384()` (group/p384.go:209-218); the base point is circl's (FIPS 186-4). -/
def p384Circl (dec : Bytes → Option WPoint) (hash : Bytes → WPoint) : CirclCurve where
  c := p384Curve dec
  gx := 0xaa87ca22be8b05378eb1c71ef320ad746e1d3b628ba79b9859f741e082542a385502f25dbf55296c3a545e3872760ab7
  gy := 0x3617de4a96262c6f5d9e98bf9292dc29f8f41dbd289a147ce9da3113b5f0b8c00a60b1ce1d7e819d7a431d7c90ea0e5f
  n := p384N
  name := "P-384"
  hash := hash

/-! ## group/p256k1.go -/

/-- What is left open about ing-bank's `p256` package. -/
structure K1Lib where
  /-- the value returned by `CURVE.Add` for opposite points, `(0, 0)` or `(nil, nil)` -/
  infAdd : K1Point
  /-- the value returned by `CURVE.ScalarMult` for a multiple of the order, `(0, 0)` or `(nil, nil)` -/
  infMul : K1Point
  /-- `p256.MapToGroup(s)` (called at group/p256k1.go:154) -/
  hash : Bytes → K1Point
  /-- `String()` (called at group/p256k1.go:162) -/
  str : K1Point → Bytes

namespace K1Point

/-- `SetInfinity()`, also the zero value of `p256.P256` -/
def nilPt : K1Point := ⟨none, none⟩

/-- `(*P256).IsZero`: a nil coordinate, or both zero -/
def isZero (e : K1Point) : Bool :=
  match e.X, e.Y with
  | some x, some y => x == 0 && y == 0
  | _, _ => true

/-- the coordinates of a point that is not `IsZero` -/
def coords (e : K1Point) : WPoint := ⟨(e.X.getD 0).toNat, (e.Y.getD 0).toNat⟩

/-- the result of a curve operation, the identity in the form `inf` -/
def ofCoords (inf : K1Point) (P : WPoint) : K1Point := if P = ⟨0, 0⟩ then inf else ⟨some P.x, some P.y⟩

end K1Point

/-- `(*P256).Multiply(a, b)`, the addition of points (called at group/p256k1.go:76) -/
def k1Add (L : K1Lib) (a b : K1Point) : K1Point :=
  if a.isZero then b
  else if b.isZero then a
  else K1Point.ofCoords L.infAdd (affAdd k1P 0 a.coords b.coords)

/-- `(*P256).ScalarMult(a, s)` (called at group/p256k1.go:89, 136); `s` is reduced modulo the order -/
def k1Mul (L : K1Lib) (a : K1Point) (s : Int) : K1Point :=
  if a.isZero then K1Point.nilPt
  else if s = 0 then K1Point.nilPt
  else
    let k := (s % k1N).toNat
    K1Point.ofCoords L.infMul (affMulGo k1P 0 (k.log2 + 1) k a.coords)

/-- the base point of secp256k1 (SEC 2) -/
def k1Base : K1Point :=
  ⟨some 0x79be667ef9dcbbac55a06295ce870b07029bfcdb2dce28d959f2815b16f81798,
    some 0x483ada7726a3c4655da4fbfc0e1108a8fd17b448a68554199c47d08ffb10d4b8⟩

/-- `(*P256).ScalarBaseMult(s)` (called at group/p256k1.go:40, 141) -/
def k1BaseMul (L : K1Lib) (s : Int) : K1Point := k1Mul L k1Base s

/-- group/p256k1.go:21-170, 199-208.  `Negate` is multiplication by -1 (group/p256k1.go:87-91).  `IsIdentity` panics on a
point with exactly one nil coordinate; no operation returns one, and that case is `false` here. -/
def k1Grp (L : K1Lib) : Grp K1Point where
  name := "secp256k1"
  P := k1P
  N := k1N
  elt := K1Point.nilPt
  generator := k1BaseMul L 1
  identity := K1Point.nilPt
  add := fun a b => k1Add L a b
  neg := fun _ a => k1Mul L a (-1)
  scale := fun _ a s => k1Mul L a s
  baseScale := fun _ s => k1BaseMul L s
  isEqual := fun a b => a.isEqual b
  isIdentity := fun a => a.isIdentity.getD false
  str := L.str
  mapToGroup := fun s => (L.hash s).mapToGroupOf

end MscPoc
