import Mathlib.Data.List.Forall2

/-!
# Keys that name a field

`encoding/json` prefers an exact match and otherwise takes a field equal to the key up to case folding (decode.go `foldName`).
-/

set_option autoImplicit false

namespace MscPoc

/-- what may stand in a key where the name of the field has the character `f`: the same, the letter in the other case, the Kelvin sign for
K, the long s for S -/
def SameLetter (f k : Char) : Prop :=
  f = k ∨
  (∃ n, n < 26 ∧ (f = Char.ofNat (65 + n) ∧ k = Char.ofNat (97 + n) ∨ f = Char.ofNat (97 + n) ∧ k = Char.ofNat (65 + n))) ∨
  ((f = 'k' ∨ f = 'K') ∧ k = Char.ofNat 0x212a) ∨ ((f = 's' ∨ f = 'S') ∧ k = Char.ofNat 0x17f)

/-- the key `k` names the field `f` -/
def SameKey (f k : String) : Prop := List.Forall₂ SameLetter f.toList k.toList

end MscPoc
