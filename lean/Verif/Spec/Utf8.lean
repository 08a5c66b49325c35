import Verif.Model.GoBase

/-!
# What a byte string says, character by character

`String.utf8EncodeChar` of the Lean library is the UTF-8 form of one character.
-/

set_option autoImplicit false

namespace MscPoc
namespace Utf8Spec

/-- a byte string and its characters: encoded characters one after the other; a byte at which no encoded character begins stands for
U+FFFD -/
inductive Decodes : Bytes → List Char → Prop
  | nil : Decodes [] []
  | char (c : Char) (r : Bytes) (t : List Char) : Decodes r t → Decodes (String.utf8EncodeChar c ++ r) (c :: t)
  | bad (b : UInt8) (r : Bytes) (t : List Char) : (∀ c s, b :: r ≠ String.utf8EncodeChar c ++ s) → Decodes r t →
      Decodes (b :: r) (Char.ofNat 0xfffd :: t)

end Utf8Spec
end MscPoc
