import Verif.Model.JsonText

/-!
# The JSON grammar (RFC 8259), as a relation between texts and documents

Independent of the scanner: no left-to-right reading, no fuel, no "longest match".
-/

set_option autoImplicit false

namespace MscPoc
namespace JSpec

/-- `ws` -/
def Ws (s : Text) : Prop := ∀ c ∈ s, c = ' ' ∨ c = '\t' ∨ c = '\n' ∨ c = '\r'

/-- the value of a hexadecimal digit -/
inductive Hex : Char → ℕ → Prop
  | dec (n : ℕ) : n < 10 → Hex (Char.ofNat (48 + n)) n
  | lower (n : ℕ) : n < 6 → Hex (Char.ofNat (97 + n)) (10 + n)
  | upper (n : ℕ) : n < 6 → Hex (Char.ofNat (65 + n)) (10 + n)

/-- `\uXXXX` and its value -/
inductive UEsc : Text → ℕ → Prop
  | mk (a b c d : Char) (i j k l : ℕ) : Hex a i → Hex b j → Hex c k → Hex d l →
      UEsc ['\\', 'u', a, b, c, d] (4096 * i + 256 * j + 16 * k + l)

/-- first half of a surrogate pair -/
def Hi (v : ℕ) : Prop := 0xd800 ≤ v ∧ v ≤ 0xdbff
/-- second half of a surrogate pair -/
def Lo (v : ℕ) : Prop := 0xdc00 ≤ v ∧ v ≤ 0xdfff

/-- the escapes of one letter and what they stand for -/
def escapes : List (Char × Char) :=
  [('"', '"'), ('\\', '\\'), ('/', '/'), ('b', Char.ofNat 8), ('f', Char.ofNat 12), ('n', Char.ofNat 10), ('r', Char.ofNat 13),
   ('t', Char.ofNat 9)]

/-- the text between two quotation marks, and the characters it stands for; halves of surrogate pairs standing alone stand
for U+FFFD -/
inductive StrBody : Text → Text → Prop
  | nil : StrBody [] []
  | plain (c : Char) (s t : Text) : c ≠ '"' → c ≠ '\\' → 32 ≤ c.toNat → StrBody s t → StrBody (c :: s) (c :: t)
  | esc (e c : Char) (s t : Text) : (e, c) ∈ escapes → StrBody s t → StrBody ('\\' :: e :: s) (c :: t)
  | uni (u s t : Text) (v : ℕ) : UEsc u v → ¬Hi v → ¬Lo v → StrBody s t → StrBody (u ++ s) (Char.ofNat v :: t)
  | pair (u u' s t : Text) (v w : ℕ) : UEsc u v → Hi v → UEsc u' w → Lo w → StrBody s t →
      StrBody (u ++ u' ++ s) (Char.ofNat (0x10000 + (v - 0xd800) * 1024 + (w - 0xdc00)) :: t)
  | aloneHi (u s t : Text) (v : ℕ) : UEsc u v → Hi v → (∀ u' s' w, s = u' ++ s' → UEsc u' w → ¬Lo w) → StrBody s t →
      StrBody (u ++ s) (Char.ofNat 0xfffd :: t)
  | aloneLo (u s t : Text) (v : ℕ) : UEsc u v → Lo v → StrBody s t → StrBody (u ++ s) (Char.ofNat 0xfffd :: t)

/-- a non-empty sequence of decimal digits and its value -/
inductive Digits : Text → ℕ → Prop
  | one (n : ℕ) : n < 10 → Digits [Char.ofNat (48 + n)] n
  | snoc (s : Text) (m n : ℕ) : Digits s m → n < 10 → Digits (s ++ [Char.ofNat (48 + n)]) (10 * m + n)

/-- `int` without the sign: digits without superfluous leading zero -/
def IntPart (s : Text) (n : ℕ) : Prop := Digits s n ∧ (s = ['0'] ∨ s.head? ≠ some '0')

/-- `[ frac ]`, and whether there is one -/
inductive Frac : Text → Bool → Prop
  | none : Frac [] false
  | some (s : Text) (m : ℕ) : Digits s m → Frac ('.' :: s) true

/-- `[ exp ]`, and whether there is one -/
inductive Exp : Text → Bool → Prop
  | none : Exp [] false
  | some (e : Char) (sign s : Text) (m : ℕ) : e = 'e' ∨ e = 'E' → sign = [] ∨ sign = ['+'] ∨ sign = ['-'] → Digits s m →
      Exp (e :: (sign ++ s)) true

/-- a number literal: the signed integer part, and whether there is a fraction or an exponent -/
inductive Num : Text → Int → Bool → Prop
  | pos (i f e : Text) (n : ℕ) (hf he : Bool) : IntPart i n → Frac f hf → Exp e he → Num (i ++ f ++ e) n (hf || he)
  | neg (i f e : Text) (n : ℕ) (hf he : Bool) : IntPart i n → Frac f hf → Exp e he → Num ('-' :: (i ++ f ++ e)) (-n) (hf || he)

mutual
/-- a value without white space around it, nested at most `d` deep -/
inductive Val : ℕ → Text → Json → Prop
  | null (d : ℕ) : Val d "null".toList .null
  | true (d : ℕ) : Val d "true".toList (.bool true)
  | false (d : ℕ) : Val d "false".toList (.bool false)
  | num (d : ℕ) (s : Text) (n : Int) : Num s n Bool.false → s ≠ ['-', '0'] → Val d s (.num n)
  | negZero (d : ℕ) : Val d ['-', '0'] .negZero
  | frac (d : ℕ) (s : Text) (n : Int) : Num s n Bool.true → Val d s (.frac n)
  | str (d : ℕ) (s t : Text) : StrBody s t → Val d ('"' :: (s ++ ['"'])) (.str (String.ofList t))
  | arrNil (d : ℕ) (w : Text) : Ws w → Val (d + 1) ('[' :: (w ++ [']'])) (.arr [])
  | arr (d : ℕ) (s : Text) (l : List Json) : Elems d s l → Val (d + 1) ('[' :: (s ++ [']'])) (.arr l)
  | objNil (d : ℕ) (w : Text) : Ws w → Val (d + 1) ('{' :: (w ++ ['}'])) (.obj [])
  | obj (d : ℕ) (s : Text) (l : List (String × Json)) : Members d s l → Val (d + 1) ('{' :: (s ++ ['}'])) (.obj l)

/-- `ws value ws *( , ws value ws )` -/
inductive Elems : ℕ → Text → List Json → Prop
  | one (d : ℕ) (w s w' : Text) (v : Json) : Ws w → Val d s v → Ws w' → Elems d (w ++ s ++ w') [v]
  | cons (d : ℕ) (w s w' t : Text) (v : Json) (l : List Json) : Ws w → Val d s v → Ws w' → Elems d t l →
      Elems d (w ++ s ++ w' ++ ',' :: t) (v :: l)

/-- `ws string ws : ws value ws *( , … )` -/
inductive Members : ℕ → Text → List (String × Json) → Prop
  | one (d : ℕ) (w k w₁ w₂ s w' : Text) (key : Text) (v : Json) : Ws w → StrBody k key → Ws w₁ → Ws w₂ → Val d s v → Ws w' →
      Members d (w ++ '"' :: (k ++ '"' :: (w₁ ++ ':' :: (w₂ ++ s ++ w')))) [(String.ofList key, v)]
  | cons (d : ℕ) (w k w₁ w₂ s w' t : Text) (key : Text) (v : Json) (l : List (String × Json)) : Ws w → StrBody k key → Ws w₁ →
      Ws w₂ → Val d s v → Ws w' → Members d t l →
      Members d (w ++ '"' :: (k ++ '"' :: (w₁ ++ ':' :: (w₂ ++ s ++ w' ++ ',' :: t)))) ((String.ofList key, v) :: l)
end

/-- a JSON text for the document `v`, nested at most `d` deep -/
def IsText (d : ℕ) (t : Text) (v : Json) : Prop := ∃ w s w', Ws w ∧ Val d s v ∧ Ws w' ∧ t = w ++ s ++ w'

/-- arrays and objects nested at most `d` deep -/
inductive Nested : ℕ → Json → Prop
  | null (d : ℕ) : Nested d .null
  | bool (d : ℕ) (b : Bool) : Nested d (.bool b)
  | num (d : ℕ) (n : Int) : Nested d (.num n)
  | frac (d : ℕ) (n : Int) : Nested d (.frac n)
  | negZero (d : ℕ) : Nested d .negZero
  | str (d : ℕ) (s : String) : Nested d (.str s)
  | arr (d : ℕ) (l : List Json) : (∀ v ∈ l, Nested d v) → Nested (d + 1) (.arr l)
  | obj (d : ℕ) (l : List (String × Json)) : (∀ kv ∈ l, Nested d kv.2) → Nested (d + 1) (.obj l)

/-- nested at most `d` deep, all numbers integers, zero without a sign -/
inductive Plain : ℕ → Json → Prop
  | null (d : ℕ) : Plain d .null
  | bool (d : ℕ) (b : Bool) : Plain d (.bool b)
  | num (d : ℕ) (n : Int) : Plain d (.num n)
  | str (d : ℕ) (s : String) : Plain d (.str s)
  | arr (d : ℕ) (l : List Json) : (∀ v ∈ l, Plain d v) → Plain (d + 1) (.arr l)
  | obj (d : ℕ) (l : List (String × Json)) : (∀ kv ∈ l, Plain d kv.2) → Plain (d + 1) (.obj l)

end JSpec
end MscPoc
