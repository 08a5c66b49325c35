import Mathlib.Data.Int.GCD
import Mathlib.Data.Nat.Digits.Defs

/-!
# Go runtime and `math/big` primitives used by the model

These are the semantics of the Go standard library that the repository relies on.
`none : Option α` is a Go runtime panic.
-/

set_option autoImplicit false

namespace MscPoc

/-- A Go `[]byte` / `string` seen as bytes. -/
abbrev Bytes := List UInt8

/-- `s[:k]`; panics when `k` exceeds the length.
Simplification: Go allows `k` up to the capacity; every slice that the repository re-slices was
allocated with capacity = length. -/
def sliceTo {α : Type} (s : List α) (k : Nat) : Option (List α) :=
  if k ≤ s.length then some (s.take k) else none

/-- `s[k:]`; panics when `k` exceeds the length. -/
def sliceFrom {α : Type} (s : List α) (k : Nat) : Option (List α) :=
  if k ≤ s.length then some (s.drop k) else none

/-- `new(big.Int).ModInverse(g, n)` for `n > 0`: `none` is the nil pointer returned when `g` and `n`
are not coprime, otherwise the inverse in `[0, n)`. -/
def modInverse (g n : Int) : Option Int :=
  if Int.gcd g n = 1 then some (Int.gcdA (g % n) n % n) else none

/-- `z.Exp(x, y, m)` for `m > 0` (called at group/modsafeprime.go:127, 132).  For `y < 0` Go inverts `x` modulo `m` first; when
that is impossible the receiver is left unchanged (`recv`).  After a negative odd power of a negative `x` Go negates the result
once more, although the inverse already carries the sign. -/
def bigExp (recv x y m : Int) : Int :=
  if 0 ≤ y then x ^ y.toNat % m
  else match modInverse x m with
    | some xi => if x < 0 ∧ (-y).toNat % 2 = 1 then -(xi ^ (-y).toNat) % m else xi ^ (-y).toNat % m
    | none => recv

/-- `z.SetBytes(b)`: big-endian unsigned. -/
def setBytes (b : Bytes) : Nat := b.foldl (fun acc d => acc * 256 + d.toNat) 0

/-- ing-bank `byteconversion.FromByteArray`: the number with this big-endian two's complement, negative when the top bit is
set.  (Empty input is an error there; a digest is never empty.) -/
def fromByteArray (b : Bytes) : Int :=
  if 128 ≤ (b.headD 0).toNat then (setBytes b : Int) - 256 ^ b.length else setBytes b

/-- `x.Bytes()`: big-endian bytes of `|x|` without leading zeros. -/
def natBytes (n : Nat) : Bytes := ((Nat.digits 256 n).reverse).map UInt8.ofNat

/-- `x.Bytes()` on a signed integer. -/
def bigBytes (x : Int) : Bytes := natBytes x.natAbs

/-- decimal digits, most significant first, "0" for zero: `strconv`/`big.Int.String` on naturals. -/
def natDec (n : Nat) : Bytes :=
  if n = 0 then [48] else ((Nat.digits 10 n).reverse).map (fun d => UInt8.ofNat (d + 48))

/-- `x.String()` for `*big.Int` (also `fmt.Sprint` of an integer). -/
def bigDec (x : Int) : Bytes :=
  if x < 0 then 45 :: natDec x.natAbs else natDec x.natAbs

/-- ASCII bytes of a string literal. -/
def ascii (s : String) : Bytes := s.toList.map (fun c => UInt8.ofNat c.toNat)

end MscPoc
