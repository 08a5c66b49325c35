import Verif.Model.JsonText

/-!
# Text as bytes

`json.Unmarshal` gets bytes (marshal.go:24, 41).  The scanner looks at single bytes; the characters of a string literal are decoded by
`unquoteBytes` with `utf8.DecodeRune`, which replaces a byte that begins no character by U+FFFD.  A byte from 128 on is allowed inside a
string literal only, as is U+FFFD; so the input may be decoded as a whole before it is scanned.
-/

set_option autoImplicit false

namespace MscPoc
namespace Utf8

/-- `unicode/utf8`, table `first` with `acceptRanges`: number of bytes of a character that begins with `b` (0: none does), and the range of
its second byte -/
def first (b : Nat) : Nat × Nat × Nat :=
  if b < 0x80 then (1, 0, 0)
  else if b < 0xc2 then (0, 0, 0)
  else if b < 0xe0 then (2, 0x80, 0xbf)
  else if b = 0xe0 then (3, 0xa0, 0xbf)
  else if b = 0xed then (3, 0x80, 0x9f)
  else if b < 0xf0 then (3, 0x80, 0xbf)
  else if b = 0xf0 then (4, 0x90, 0xbf)
  else if b < 0xf4 then (4, 0x80, 0xbf)
  else if b = 0xf4 then (4, 0x80, 0x8f)
  else (0, 0, 0)

/-- a byte in `lo..hi` -/
def within (b : UInt8) (lo hi : Nat) : Bool := lo ≤ b.toNat && b.toNat ≤ hi

/-- U+FFFD -/
def runeError : Char := Char.ofNat 0xfffd

/-- `utf8.DecodeRune`: the character and what follows -/
def decodeRune (p0 : UInt8) (r : Bytes) : Char × Bytes :=
  let sz := (first p0.toNat).1
  let lo := (first p0.toNat).2.1
  let hi := (first p0.toNat).2.2
  if sz = 1 then (Char.ofNat p0.toNat, r)
  else if sz = 2 then
    match r with
    | b1 :: r' => if within b1 lo hi then (Char.ofNat (p0.toNat % 32 * 64 + b1.toNat % 64), r') else (runeError, r)
    | _ => (runeError, r)
  else if sz = 3 then
    match r with
    | b1 :: b2 :: r' =>
      if within b1 lo hi && within b2 0x80 0xbf then
        (Char.ofNat (p0.toNat % 16 * 4096 + b1.toNat % 64 * 64 + b2.toNat % 64), r')
      else (runeError, r)
    | _ => (runeError, r)
  else if sz = 4 then
    match r with
    | b1 :: b2 :: b3 :: r' =>
      if within b1 lo hi && within b2 0x80 0xbf && within b3 0x80 0xbf then
        (Char.ofNat (p0.toNat % 8 * 262144 + b1.toNat % 64 * 4096 + b2.toNat % 64 * 64 + b3.toNat % 64), r')
      else (runeError, r)
    | _ => (runeError, r)
  else (runeError, r)

/-- decode at most `fuel` characters -/
def decodeN : Nat → Bytes → Text
  | 0, _ => []
  | _ + 1, [] => []
  | n + 1, b :: r => (decodeRune b r).1 :: decodeN n (decodeRune b r).2

/-- the characters of a byte string -/
def decode (b : Bytes) : Text := decodeN b.length b

/-- the bytes of a text -/
def encode (t : Text) : Bytes := t.flatMap String.utf8EncodeChar

end Utf8

/-- marshal.go:39-71 `BallotDataUnmarshalJSON` on bytes -/
def decBallotBytes {E₁ E₂ : Type} (C₁ : Codec E₁) (C₂ : Codec E₂) (pp : PublicParams E₁ E₂) (b : Bytes) :
    Option (Except String (BallotData E₁ E₂)) := decBallotText C₁ C₂ pp (Utf8.decode b)

end MscPoc
