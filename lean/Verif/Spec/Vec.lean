import Mathlib.Algebra.Module.Basic
import Mathlib.Algebra.BigOperators.Group.List.Basic

/-!
# Inner products and multi-scalar products (specification)
-/

set_option autoImplicit false

namespace MscPoc

/-- inner product of two vectors -/
def dot {F : Type} [Semiring F] (a b : List F) : F := (List.zipWith (· * ·) a b).sum

/-- multi-scalar product `∑ aᵢ • gᵢ` -/
def msm {F M : Type} [Semiring F] [AddCommMonoid M] [Module F M] (g : List M) (a : List F) : M :=
  (List.zipWith (fun g a => a • g) g a).sum

end MscPoc
