import Verif.Model.K1Hash
import Verif.Model.Bip
import Verif.Spec.K1Values

/-!
# The generators on secp256k1, computed by the kernel
-/

set_option autoImplicit false

namespace MscPoc

theorem k1_H : k1Hash sha256 SEEDH = k1ValH := by decide +kernel
theorem k1_U : k1Hash sha256 SEEDU = k1ValU := by decide +kernel
theorem k1_G : (List.range 16).map (fun i => k1Hash sha256 (seedG i)) = k1ValGg := by decide +kernel
theorem k1_Hh : (List.range 16).map (fun i => k1Hash sha256 (seedHh i)) = k1ValHh := by decide +kernel

/-- what the deployment needs of a hashed point, as a check -/
def k1Good (e : K1Point) : Bool :=
  match e with
  | ⟨some (.ofNat x), some (.ofNat y)⟩ => 256 ^ 31 ≤ x && x < k1P && y < k1P && y * y % k1P == (x * x * x + 7) % k1P
  | _ => false

theorem k1Vals_good : (k1ValH :: k1ValU :: (k1ValGg ++ k1ValHh)).all k1Good = true := by decide +kernel

end MscPoc
