import Verif.Model.GoBase

/-!
# The `group.Group` / `group.Element` interfaces  (group/group.go)
-/

set_option autoImplicit false

namespace MscPoc

/-- group/group.go:10-52 (`Element`) and 56-79 (`Group`) as one record of operations over a carrier `E`.

An `Element` method with receiver `e` becomes a function returning the new value of `e`.  Where some
implementation can leave the receiver unchanged (`ModInverse`/`Exp` on non-invertible input) the old
value of the receiver is the first argument (`recv`).  The run-time type check `check(a)` is Lean's typing;
the additional check of the ModP group is modelled in `Model/ModP.lean`. -/
structure Grp (E : Type) where
  /-- `Name()` -/
  name : String
  /-- `P()` field order -/
  P : Int
  /-- `N()` group order -/
  N : Int
  /-- `Element()`: a freshly allocated element (its initial value is implementation specific). -/
  elt : E
  /-- `Generator()` -/
  generator : E
  /-- `Identity()` -/
  identity : E
  /-- `e.Add(a, b)` -/
  add : E → E → E
  /-- `e.Negate(a)`, first argument: old value of `e` -/
  neg : E → E → E
  /-- `e.Scale(a, s)`, first argument: old value of `e` -/
  scale : E → E → Int → E
  /-- `e.BaseScale(s)`, first argument: old value of `e` -/
  baseScale : E → Int → E
  /-- `e.IsEqual(b)` -/
  isEqual : E → E → Bool
  /-- `e.IsIdentity()` -/
  isIdentity : E → Bool
  /-- `e.String()` as bytes -/
  str : E → Bytes
  /-- `e.MapToGroup(s)`; `none` = panic (`ModPElement.MapToGroup`, group/modsafeprime.go:152-154) -/
  mapToGroup : Bytes → Option E

namespace Grp
variable {E : Type} (GP : Grp E)

/-- `GP.Element().Scale(x, s)` -/
def mul (x : E) (s : Int) : E := GP.scale GP.elt x s

/-- `GP.Element().BaseScale(s)` -/
def mulGen (s : Int) : E := GP.baseScale GP.elt s

/-- `e.Subtract(a, b)`: the same code in all five implementations
(group/p256.go:81-86, p384.go:81-86, p256k1.go:80-85, ristretto255.go:82-87, modsafeprime.go:96-101):
`tmp := Identity(); tmp.Negate(b); e.Add(a, tmp)`. -/
def sub (a b : E) : E := GP.add a (GP.neg GP.identity b)

end Grp
end MscPoc
