import Verif.Model.GoBase
import Verif.Model.Group
import Mathlib.Algebra.Field.Defs

/-!
# Specification side of the inner-product argument
-/

set_option autoImplicit false

namespace MscPoc

/-- Round challenge: the SHA-256 digest of the two printed elements, read big-endian. -/
def roundChallenge {E : Type} (sha : Bytes → Bytes) (GP : Grp E) (L R : E) : Int :=
  (setBytes (sha (GP.str L ++ GP.str R)) : Nat)

/-- a byte string as a signed number: from `-2 ^ (8 len - 1)` on -/
def signedVal (b : Bytes) : Int :=
  if 2 ^ (8 * b.length) ≤ 2 * setBytes b then (setBytes b : Int) - 2 ^ (8 * b.length) else setBytes b

/-- digest of `P`, all generators and `c` -/
def ippDigest {E : Type} (sha : Bytes → Bytes) (GP : Grp E) (g h : List E) (P : E) (c : Int) : Bytes :=
  sha (GP.str P ++ (List.zipWith (fun a b => GP.str a ++ GP.str b) g h).flatten ++ bigDec c)

/-- First challenge of the inner-product argument: that digest as a signed number. -/
def ippChallenge {E : Type} (sha : Bytes → Bytes) (GP : Grp E) (g h : List E) (P : E) (c : Int) : Int :=
  signedVal (ippDigest sha GP g h P c)

/-- `s_i = ∏ⱼ xⱼ^{±1}`: `+` where the bit of `i` for round `j` (most significant bit = first round) is set. -/
def sCoeff {F : Type} [Field F] : List F → ℕ → F
  | [], _ => 1
  | x :: xs, i => (if i.testBit xs.length then x else x⁻¹) * sCoeff xs i

end MscPoc
