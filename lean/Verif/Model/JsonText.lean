import Verif.Model.Marshal

/-!
# JSON text

`encoding/json` between text and the syntax trees of `Model/Json.lean`: the scanner that `json.Unmarshal` runs over the
whole input first (marshal.go:24, 41, bulletproofs/marshal.go:82, voteproof/marshal.go:48, group/p256.go:184), and the
printer of `json.Marshal` (main_test.go:44).

Text is a list of characters here; bytes are decoded in `Model/Utf8.lean`.
-/

set_option autoImplicit false

namespace MscPoc

/-- JSON text -/
abbrev Text := List Char

namespace JText

/-- white space of JSON -/
def isWs (c : Char) : Bool := c == ' ' || c == '\t' || c == '\n' || c == '\r'

/-- drop white space -/
def skipWs : Text → Text
  | [] => []
  | c :: cs => if isWs c then skipWs cs else c :: cs

/-- decimal digit -/
def isDig (c : Char) : Bool := 48 ≤ c.toNat && c.toNat ≤ 57

/-- value of a hexadecimal digit -/
def hexVal (c : Char) : Option Nat :=
  if 48 ≤ c.toNat ∧ c.toNat ≤ 57 then some (c.toNat - 48)
  else if 97 ≤ c.toNat ∧ c.toNat ≤ 102 then some (c.toNat - 87)
  else if 65 ≤ c.toNat ∧ c.toNat ≤ 70 then some (c.toNat - 55)
  else none

/-- four hexadecimal digits -/
def hex4 : Text → Option (Nat × Text)
  | a :: b :: c :: d :: r =>
    match hexVal a, hexVal b, hexVal c, hexVal d with
    | some a, some b, some c, some d => some (((a * 16 + b) * 16 + c) * 16 + d, r)
    | _, _, _, _ => none
  | _ => none

/-- `\uXXXX` at the front -/
def uEsc : Text → Option (Nat × Text)
  | '\\' :: 'u' :: r => hex4 r
  | _ => none

/-- the one-letter escapes -/
def simpleEsc (c : Char) : Option Char :=
  if c = '"' then some '"' else if c = '\\' then some '\\' else if c = '/' then some '/'
  else if c = 'b' then some (Char.ofNat 8) else if c = 'f' then some (Char.ofNat 12)
  else if c = 'n' then some '\n' else if c = 'r' then some '\r' else if c = 't' then some '\t' else none

/-- a high (first) surrogate -/
def isHi (v : Nat) : Bool := 0xd800 ≤ v && v < 0xdc00
/-- a low (second) surrogate -/
def isLo (v : Nat) : Bool := 0xdc00 ≤ v && v < 0xe000

/-- a decoded `\uXXXX` with value `v` followed by `r` (encoding/json `unquoteBytes`): two surrogates make one character,
a surrogate that is not part of a pair is replaced -/
def uChar (v : Nat) (r : Text) : Char × Text :=
  if isHi v then
    match uEsc r with
    | some (v', r') =>
      if isLo v' then (Char.ofNat (0x10000 + (v - 0xd800) * 0x400 + (v' - 0xdc00)), r') else (Char.ofNat 0xfffd, r)
    | none => (Char.ofNat 0xfffd, r)
  else if isLo v then (Char.ofNat 0xfffd, r)
  else (Char.ofNat v, r)

/-- the rest of a string literal after the opening quote: its characters and what follows the closing quote.
`fuel`: at most that many characters. -/
def pString : Nat → Text → Option (Text × Text)
  | 0, _ => none
  | _ + 1, [] => none
  | n + 1, c :: r =>
    if c = '"' then some ([], r)
    else if c = '\\' then
      match r with
      | [] => none
      | e :: r' =>
        if e = 'u' then
          match hex4 r' with
          | none => none
          | some (v, r'') =>
            match pString n (uChar v r'').2 with
            | none => none
            | some (s, t) => some ((uChar v r'').1 :: s, t)
        else
          match simpleEsc e with
          | none => none
          | some d =>
            match pString n r' with
            | none => none
            | some (s, t) => some (d :: s, t)
    else if c.toNat < 32 then none
    else
      match pString n r with
      | none => none
      | some (s, t) => some (c :: s, t)

/-- the digits at the front and what follows -/
def spanDig : Text → Text × Text
  | [] => ([], [])
  | c :: r => if isDig c then (c :: (spanDig r).1, (spanDig r).2) else ([], c :: r)

/-- value of decimal digits -/
def decVal (ds : Text) : Nat := ds.foldl (fun acc c => acc * 10 + (c.toNat - 48)) 0

/-- integer part of a number: `0`, or digits not starting with `0` -/
def pInt (t : Text) : Option (Nat × Text) :=
  match t with
  | [] => none
  | c :: r =>
    if c = '0' then some (0, r)
    else if isDig c then some (decVal (spanDig t).1, (spanDig t).2)
    else none

/-- optional fraction: whether there was one, and what follows -/
def pFrac (t : Text) : Option (Bool × Text) :=
  match t with
  | '.' :: r => if (spanDig r).1 = [] then none else some (true, (spanDig r).2)
  | _ => some (false, t)

/-- drop an optional sign -/
def dropSign : Text → Text
  | '+' :: r => r
  | '-' :: r => r
  | r => r

/-- digits of an exponent, after an optional sign -/
def pExpDigits (r : Text) : Option (Bool × Text) :=
  if (spanDig (dropSign r)).1 = [] then none else some (true, (spanDig (dropSign r)).2)

/-- optional exponent -/
def pExp (t : Text) : Option (Bool × Text) :=
  match t with
  | 'e' :: r => pExpDigits r
  | 'E' :: r => pExpDigits r
  | _ => some (false, t)

/-- a number without its sign: integer part, whether it has a fraction or an exponent, what follows -/
def pNum (t : Text) : Option (Nat × Bool × Text) := do
  let (n, t) ← pInt t
  let (f, t) ← pFrac t
  let (e, t) ← pExp t
  some (n, f || e, t)

/-- a number -/
def pNumber (t : Text) : Option (Json × Text) :=
  match t with
  | '-' :: r => (pNum r).map fun (n, q, t) => (if q then .frac (-(n : Int)) else if n = 0 then .negZero else .num (-(n : Int)), t)
  | _ => (pNum t).map fun (n, q, t) => (if q then .frac n else .num n, t)

/-- the text `pre` at the front -/
def pLit (pre t : Text) : Option Text := if t.take pre.length = pre then some (t.drop pre.length) else none

mutual
/-- a value at the front of the text (no leading white space) and what follows; `d`: nesting still allowed (the scanner
allows 10000), `fuel`: at least the length of the text -/
def pValue : Nat → Nat → Text → Option (Json × Text)
  | 0, _, _ => none
  | _ + 1, _, [] => none
  | n + 1, d, c :: r =>
    if c = '{' then
      if d = 0 then none
      else match skipWs r with
        | '}' :: r' => some (.obj [], r')
        | r' => match pMembers n (d - 1) r' with
          | none => none
          | some (kvs, t) => some (.obj kvs, t)
    else if c = '[' then
      if d = 0 then none
      else match skipWs r with
        | ']' :: r' => some (.arr [], r')
        | r' => match pElems n (d - 1) r' with
          | none => none
          | some (l, t) => some (.arr l, t)
    else if c = '"' then
      match pString (r.length + 1) r with
      | none => none
      | some (s, t) => some (.str (String.ofList s), t)
    else if c = 't' then (pLit ['r', 'u', 'e'] r).map fun t => (.bool true, t)
    else if c = 'f' then (pLit ['a', 'l', 's', 'e'] r).map fun t => (.bool false, t)
    else if c = 'n' then (pLit ['u', 'l', 'l'] r).map fun t => (.null, t)
    else pNumber (c :: r)

/-- `value , value … ]` (no leading white space) -/
def pElems : Nat → Nat → Text → Option (List Json × Text)
  | 0, _, _ => none
  | n + 1, d, t =>
    match pValue n d t with
    | none => none
    | some (v, t) =>
      match skipWs t with
      | ',' :: t => match pElems n d (skipWs t) with
        | none => none
        | some (vs, t) => some (v :: vs, t)
      | ']' :: t => some ([v], t)
      | _ => none

/-- `"key" : value , "key" : value … }` (no leading white space) -/
def pMembers : Nat → Nat → Text → Option (List (String × Json) × Text)
  | 0, _, _ => none
  | n + 1, d, t =>
    match t with
    | '"' :: r => match pString (r.length + 1) r with
      | none => none
      | some (k, t) => match skipWs t with
        | ':' :: t => match pValue n d (skipWs t) with
          | none => none
          | some (v, t) => match skipWs t with
            | ',' :: t => match pMembers n d (skipWs t) with
              | none => none
              | some (kvs, t) => some ((String.ofList k, v) :: kvs, t)
            | '}' :: t => some ([(String.ofList k, v)], t)
            | _ => none
        | _ => none
    | _ => none
end

/-- the whole input is one value, white space around it allowed; `none`: `json.Unmarshal` returns a syntax error -/
def parse (t : Text) : Raw :=
  match pValue (2 * t.length + 2) 10000 (skipWs t) with
  | none => none
  | some (v, r) => if skipWs r = [] then some v else none

/-! ## Printing -/

/-- decimal text of an integer -/
def decText (n : Int) : Text := (bigDec n).map fun b => Char.ofNat b.toNat

/-- hexadecimal digit -/
def hexDig (n : Nat) : Char := Char.ofNat (if n < 10 then 48 + n else 87 + n)

/-- `\u00XX`, ` ` … -/
def uText (n : Nat) : Text :=
  ['\\', 'u', hexDig (n / 4096), hexDig (n / 256 % 16), hexDig (n / 16 % 16), hexDig (n % 16)]

/-- one character of a string, as `json.Marshal` prints it (with its escapes for HTML) -/
def charText (c : Char) : Text :=
  if c = '"' then ['\\', '"'] else if c = '\\' then ['\\', '\\']
  else if c = Char.ofNat 8 then ['\\', 'b'] else if c = Char.ofNat 12 then ['\\', 'f']
  else if c = '\n' then ['\\', 'n'] else if c = '\r' then ['\\', 'r'] else if c = '\t' then ['\\', 't']
  else if c.toNat < 32 ∨ c = '<' ∨ c = '>' ∨ c = '&' ∨ c.toNat = 0x2028 ∨ c.toNat = 0x2029 then uText c.toNat
  else [c]

/-- a string literal -/
def strText (s : String) : Text := '"' :: (s.toList.flatMap charText ++ ['"'])

mutual
/-- `json.Marshal`: no white space.  `frac` is never printed by the repository; it stands for several texts. -/
def print : Json → Text
  | .null => ['n', 'u', 'l', 'l']
  | .bool true => ['t', 'r', 'u', 'e']
  | .bool false => ['f', 'a', 'l', 's', 'e']
  | .num n => decText n
  | .frac n => decText n ++ ['.', '0']
  | .negZero => ['-', '0']
  | .str s => strText s
  | .arr l => '[' :: (printList l ++ [']'])
  | .obj kvs => '{' :: (printMembers kvs ++ ['}'])

/-- the elements of an array, separated by commas -/
def printList : List Json → Text
  | [] => []
  | [v] => print v
  | v :: w :: vs => print v ++ ',' :: printList (w :: vs)

/-- the members of an object, separated by commas -/
def printMembers : List (String × Json) → Text
  | [] => []
  | [(k, v)] => strText k ++ ':' :: print v
  | (k, v) :: w :: kvs => strText k ++ ':' :: (print v ++ ',' :: printMembers (w :: kvs))
end

end JText

/-- `BallotDataUnmarshalJSON` on text (marshal.go:39-72): text that does not scan leaves all raw messages nil -/
def decBallotText {E₁ E₂ : Type} (C₁ : Codec E₁) (C₂ : Codec E₂) (pp : PublicParams E₁ E₂) (t : Text) :
    Option (Except String (BallotData E₁ E₂)) := decBallot C₁ C₂ pp (JText.parse t)

/-- `json.Marshal(ballot)` as text (main_test.go:44) -/
def encBallotText {E₁ E₂ : Type} (C₁ : Codec E₁) (C₂ : Codec E₂) (b : BallotData E₁ E₂) : Option (Except String Text) :=
  bindEnc (encBallot C₁ C₂ b) fun j => some (.ok (JText.print j))

end MscPoc
