import Verif.Model.HashToCurve

/-!
# `p256.MapToGroup` of ing-bank

group/p256k1.go:153-159 maps a string to secp256k1 with `p256.MapToGroup(s)` of ing-bank's zkrp: for `i` from 0 to 255 the
digest of `i` in decimal followed by `s` is read as a number and reduced; the first that is the abscissa of a point is
taken.  The rest of the model takes an arbitrary function; this is the real one, for any digest function.
-/

set_option autoImplicit false

namespace MscPoc

/-- the `i`-th abscissa tried: `HashToInt` (with `byteconversion.FromByteArray`), then `bn.Mod` -/
def k1Cand (dig : Bytes → Bytes) (m : Bytes) (i : Nat) : Nat := (fromByteArray (dig (natDec i ++ m)) % k1P).toNat

/-- `v.ModSqrt(v, p)` for the `p` of secp256k1, which is 3 modulo 4; `none` is the nil returned when the Jacobi symbol is -1 -/
def k1Sqrt (v : Nat) : Option Nat :=
  if H2CSuite.powMod k1P v ((k1P - 1) / 2) = k1P - 1 then none
  else some (H2CSuite.powMod k1P v ((k1P + 1) / 4))

/-- the loop, `n` rounds starting with `i`; the nil returned with the error "Failed to Hash-to-point." is `(nil, nil)` here, as
both make the caller panic (the error is dropped at group/p256k1.go:154) -/
def k1HashGo (dig : Bytes → Bytes) (m : Bytes) : Nat → Nat → K1Point
  | 0, _ => K1Point.nilPt
  | n + 1, i =>
    let x := k1Cand dig m i
    let fx := (x * x * x + 7) % k1P
    match k1Sqrt fx with
    | none => k1HashGo dig m n (i + 1)
    | some y => if y * y % k1P = fx then ⟨some x, some y⟩ else k1HashGo dig m n (i + 1)

/-- `p256.MapToGroup(m)` -/
def k1Hash (dig : Bytes → Bytes) (m : Bytes) : K1Point := k1HashGo dig m 256 0

/-- ing-bank's package with its hash to the curve -/
def K1Lib.real (L : K1Lib) : K1Lib := { L with hash := k1Hash sha256 }

end MscPoc
