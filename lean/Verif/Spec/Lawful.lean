import Verif.Model.Group
import Mathlib.Algebra.Module.Basic
import Mathlib.Data.ZMod.Basic

/-!
# What it means for a `Grp` to implement a group of order `q`

`M` is the mathematical group, written additively, as a module over `ZMod q`.  `V` says which values of the carrier
are legal elements and `den` interprets them.  Nothing is required of illegal values.
-/

set_option autoImplicit false

namespace MscPoc

/-- `GP` implements the `ZMod q`-module `M`. -/
structure Lawful {E : Type} (GP : Grp E) (q : ℕ) (M : Type) [AddCommGroup M] [Module (ZMod q) M] where
  /-- legal elements -/
  V : E → Prop
  /-- meaning of a legal element -/
  den : E → M
  N_eq : GP.N = q
  V_gen : V GP.generator
  V_ident : V GP.identity
  den_ident : den GP.identity = 0
  V_add : ∀ {a b}, V a → V b → V (GP.add a b)
  den_add : ∀ {a b}, V a → V b → den (GP.add a b) = den a + den b
  V_neg : ∀ {recv a}, V a → V (GP.neg recv a)
  den_neg : ∀ {recv a}, V a → den (GP.neg recv a) = -den a
  V_scale : ∀ {recv a} {s : Int}, V a → V (GP.scale recv a s)
  den_scale : ∀ {recv a} {s : Int}, V a → den (GP.scale recv a s) = (s : ZMod q) • den a
  V_baseScale : ∀ {recv} {s : Int}, V (GP.baseScale recv s)
  den_baseScale : ∀ {recv} {s : Int}, den (GP.baseScale recv s) = (s : ZMod q) • den GP.generator
  isEqual_iff : ∀ {a b}, V a → V b → (GP.isEqual a b = true ↔ den a = den b)
  isIdentity_iff : ∀ {a}, V a → (GP.isIdentity a = true ↔ den a = 0)

namespace Lawful
variable {E : Type} {GP : Grp E} {q : ℕ} {M : Type} [AddCommGroup M] [Module (ZMod q) M]

/-- the generator's meaning -/
def g (L : Lawful GP q M) : M := L.den GP.generator

end Lawful
end MscPoc
