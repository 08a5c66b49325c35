import Verif.Model.GoBase

/-!
# `encoding/json` as used by the repository

JSON documents are modelled as syntax trees; texts are in `Model/JsonText.lean` (text that does not
scan gives an error at the outermost `json.Unmarshal`, before any repository code runs).

A key may occur more than once.  `encoding/json` then decodes into the same field again: a raw message, a `*big.Int` or a
slice is replaced, an integer is replaced except by `null`, a struct is decoded on top of what is there (so the members of all
occurrences count, in order), and a type error in any occurrence is an error of the whole call.
-/

set_option autoImplicit false

namespace MscPoc

/-- A JSON document. `num` is a number literal without fraction and exponent; `frac n` is one with
fraction or exponent, `n` being its leading integer part (what `big.Int`'s scanner has read when it fails);
`negZero` is the literal `-0`, zero for `*big.Int` and `int`, but an error for unsigned integers (`strconv.ParseUint`). -/
inductive Json where
  | null
  | bool (b : Bool)
  | num (n : Int)
  | frac (pre : Int)
  | negZero
  | str (s : String)
  | arr (l : List Json)
  | obj (kvs : List (String × Json))

/-- `json.RawMessage`: `none` is the nil message of an absent key. -/
abbrev Raw := Option Json

/-- one character of encoding/json's `foldName`: ASCII lower case, and the two characters outside ASCII whose simple case
folding is an ASCII letter (the Kelvin sign and the long s).  Field names are ASCII, so no other folding can matter. -/
def foldChar (c : Char) : Char :=
  if c = Char.ofNat 0x212a then 'k' else if c = Char.ofNat 0x17f then 's' else c.toLower

/-- encoding/json `foldName` -/
def foldKey (s : String) : List Char := s.toList.map foldChar

/-- encoding/json key resolution: an exact match first, otherwise the first field equal up to case. -/
def fieldOf (fields : List String) (k : String) : Option String :=
  if k ∈ fields then some k else fields.find? (fun f => foldKey f == foldKey k)

/-- The value that a raw-message field receives: the last key resolving to it. -/
def lookupField (fields : List String) (kvs : List (String × Json)) (f : String) : Raw :=
  (kvs.reverse.find? (fun kv => fieldOf fields kv.1 == some f)).map (·.2)

/-- All values that a struct field receives, in the order of the document. -/
def fieldVals (fields : List String) (kvs : List (String × Json)) (f : String) : List Json :=
  (kvs.filter (fun kv => fieldOf fields kv.1 == some f)).map (·.2)

/-- `json.Unmarshal` of a raw message into a struct: its key-value list.
nil message: "unexpected end of JSON input"; `null` leaves the struct zero; anything else but an object is
a type error. -/
def asObj : Raw → Except String (List (String × Json))
  | none => .error "unexpected end of JSON input"
  | some .null => .ok []
  | some (.obj kvs) => .ok kvs
  | some _ => .error "cannot unmarshal into Go value of struct type"

/-- A nested struct field: the members of all its occurrences, in order. -/
def asObjs : List Json → Except String (List (String × Json))
  | [] => .ok []
  | j :: js => do
    let kvs ← asObj (some j)
    let kvs' ← asObjs js
    pure (kvs ++ kvs')

/-- A field decoded from each of its values in turn. -/
def decodeSeq {α : Type} (step : α → Json → Except String α) : α → List Json → Except String α
  | a, [] => .ok a
  | a, j :: js => do
    let a ← step a j
    decodeSeq step a js

/-- One value of a `*big.Int` field. -/
def bigStep (_old : Option Int) : Json → Except String (Option Int)
  | .null => .ok none
  | .num n => .ok (some n)
  | .negZero => .ok (some 0)
  | _ => .error "math/big: cannot unmarshal into a *big.Int"

/-- A `*big.Int` field. -/
def asBig (js : List Json) : Except String (Option Int) := decodeSeq bigStep none js

/-- One value of a `[]json.RawMessage` field. -/
def rawListStep (_old : List Json) : Json → Except String (List Json)
  | .null => .ok []
  | .arr l => .ok l
  | _ => .error "cannot unmarshal into Go value of type []json.RawMessage"

/-- A `[]json.RawMessage` field; the elements are raw messages. -/
def asRawList (js : List Json) : Except String (List Json) := decodeSeq rawListStep [] js

/-- One value of an unsigned integer field of `bits` bits; `null` leaves it as it is. -/
def uintStep (bits : Nat) (old : Nat) : Json → Except String Nat
  | .null => .ok old
  | .num n => if 0 ≤ n ∧ n < 2 ^ bits then .ok n.toNat else .error "number out of range"
  | _ => .error "cannot unmarshal into Go value of integer type"

/-- An unsigned integer field of `bits` bits (absent: zero). -/
def asUInt (bits : Nat) (js : List Json) : Except String Nat := decodeSeq (uintStep bits) 0 js

/-- One value of an `int` field (64 bits); `null` leaves it as it is. -/
def int64Step (old : Int) : Json → Except String Int
  | .null => .ok old
  | .num n => if -(2 ^ 63) ≤ n ∧ n < 2 ^ 63 then .ok n else .error "number out of range"
  | .negZero => .ok 0
  | _ => .error "cannot unmarshal into Go value of type int"

/-- An `int` field (64 bits; absent: zero). -/
def asInt64 (js : List Json) : Except String Int := decodeSeq int64Step 0 js

/-- `json.Marshal` of a `*big.Int`. -/
def bigJson : Option Int → Json
  | none => .null
  | some n => .num n

/-- The JSON side of `group.Element`.  `marshal` returns `none` on panic, `some (error …)` on error.
`unmarshal recv data` returns `none` on panic, otherwise whether an error was returned and the receiver
afterwards. -/
structure Codec (E : Type) where
  marshal : E → Option (Except String Json)
  unmarshal : E → Raw → Option (Bool × E)

/-- `_ = e.UnmarshalJSON(data)`: the error is dropped, the receiver keeps what it has. -/
def Codec.decode {E : Type} (C : Codec E) (recv : E) (data : Raw) : Option E :=
  (C.unmarshal recv data).map (·.2)

end MscPoc
