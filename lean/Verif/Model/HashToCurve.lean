import Verif.Model.Curve
import Verif.Model.Sha2

/-!
# `HashToElement` of circl's P-256 and P-384

group/p256.go:133-138 and group/p384.go:133-138 map a string to the curve with circl's `HashToElement(bs, be)`, `be` being
empty.  That is `hash_to_curve` of RFC 9380 with the suites P256_XMD:SHA-256_SSWU_RO_ and P384_XMD:SHA-384_SSWU_RO_ and
an empty domain separation tag.  The rest of the model takes an arbitrary function; this is the real one.

Simplification: circl evaluates the map without inversions, in constant time; here the fractions are as in the RFC.
-/

set_option autoImplicit false

namespace MscPoc

/-- what a suite fixes -/
structure H2CSuite where
  /-- the constants of the curve -/
  c : WCurve
  /-- the constant `Z` of the map -/
  Z : Int
  /-- the hash function -/
  H : Sha2
  /-- bytes per field element -/
  L : Nat

namespace H2CSuite
variable (S : H2CSuite)

/-- bytewise exclusive or -/
def xorBytes (a b : Bytes) : Bytes := List.zipWith (· ^^^ ·) a b

/-- RFC 9380, 5.3.1: the blocks `b_i, b_{i+1}, …`, `n` of them, with the tag `dst'` -/
def xmdBlocks (b0 dst' : Bytes) : Nat → Nat → Bytes → List Bytes
  | 0, _, _ => []
  | n + 1, i, prev =>
    let b := S.H.digest (xorBytes b0 prev ++ UInt8.ofNat i :: dst')
    b :: xmdBlocks b0 dst' n (i + 1) b

/-- RFC 9380, 5.3.1 `expand_message_xmd(msg, dst, len)` -/
def expandXmd (msg dst : Bytes) (len : Nat) : Bytes :=
  let dst' := dst ++ [UInt8.ofNat dst.length]
  let ell := (len + S.H.out - 1) / S.H.out
  let b0 := S.H.digest (List.replicate (2 * S.H.w) 0 ++ msg ++ Sha2.beBytes 2 len ++ 0 :: dst')
  let b1 := S.H.digest (b0 ++ 1 :: dst')
  ((b1 :: S.xmdBlocks b0 dst' (ell - 1) 2 b1).flatten).take len

/-- power modulo `m` by repeated squaring, `k < 2 ^ fuel` -/
def powModGo (m : Nat) : Nat → Nat → Nat → Nat
  | 0, _, _ => 1 % m
  | fuel + 1, k, x =>
    if k = 0 then 1 % m
    else
      let h := powModGo m fuel (k / 2) x
      let s := h * h % m
      if k % 2 = 1 then s * x % m else s

/-- `x ^ k` modulo `m` -/
def powMod (m x k : Nat) : Nat := powModGo m (k.log2 + 1) k x

/-- right-hand side of the curve equation -/
def g (x : Int) : Int := (x * x * x - 3 * x + S.c.b) % S.c.p

/-- RFC 9380, 4: `is_square`, by Euler's criterion -/
def isSquare (v : Int) : Bool := powMod S.c.p v.toNat ((S.c.p - 1) / 2) ≤ 1

/-- RFC 9380, I.1: square root for `p` congruent to 3 modulo 4 -/
def sqrt (v : Int) : Int := powMod S.c.p v.toNat ((S.c.p + 1) / 4)

/-- RFC 9380, 6.6.2 `map_to_curve_simple_swu` with `A = -3`; `0` is inverted to `0` -/
def sswu (u : Nat) : WPoint :=
  let p := S.c.p
  let tv1 : Int := (S.Z * S.Z * u * u * u * u + S.Z * u * u) % p
  let x1 : Int := if tv1 = 0 then divMod p S.c.b (S.Z * (-3))
    else divMod p (-(S.c.b : Int)) (-3) * (1 + divMod p 1 tv1) % p
  let x2 : Int := S.Z * u * u * x1 % p
  let x : Int := if S.isSquare (S.g x1) then x1 else x2
  let y : Int := S.sqrt (S.g x)
  let y : Int := if u % 2 = y.toNat % 2 then y else -y % p
  ⟨x.toNat, y.toNat⟩

/-- RFC 9380, 3 `hash_to_curve(msg)`; the cofactor is 1 -/
def hashToCurve (dst msg : Bytes) : WPoint :=
  let ub := S.expandXmd msg dst (2 * S.L)
  let u0 := setBytes (ub.take S.L) % S.c.p
  let u1 := setBytes (ub.drop S.L) % S.c.p
  wAdd S.c (S.sswu u0) (S.sswu u1)

end H2CSuite

/-- P256_XMD:SHA-256_SSWU_RO_ -/
def p256Suite (dec : Bytes → Option WPoint) : H2CSuite := { c := p256Curve dec, Z := -10, H := sha256C, L := 48 }

/-- P384_XMD:SHA-384_SSWU_RO_ -/
def p384Suite (dec : Bytes → Option WPoint) : H2CSuite := { c := p384Curve dec, Z := -12, H := sha384C, L := 72 }

/-- group/p256.go: P-256 with circl's `HashToElement` -/
def p256Real (dec : Bytes → Option WPoint) : CirclCurve := p256Circl dec ((p256Suite dec).hashToCurve [])

/-- group/p384.go: P-384 with circl's `HashToElement` -/
def p384Real (dec : Bytes → Option WPoint) : CirclCurve := p384Circl dec ((p384Suite dec).hashToCurve [])

end MscPoc
