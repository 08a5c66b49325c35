import Verif.Model.Group

/-!
# util/util.go
-/

set_option autoImplicit false

namespace MscPoc

/-- util/util.go:29-38 `Decompose(x, u, l)`: digit loop with Euclidean `Mod` and `Div`
(`u = 0` would panic with division by zero; every caller passes `u = 2`). -/
def decompose (x : Int) (u : Int) : Nat → List Int
  | 0 => []
  | l + 1 => x % u :: decompose (x / u) u l

/-- util/util.go:41-46 `PedersenCommit(x, r, h, GP)`. -/
def pedersenCommit {E : Type} (GP : Grp E) (x r : Int) (h : E) : E :=
  let C := GP.mulGen x
  let Hr := GP.mul h r
  GP.add C Hr

end MscPoc
