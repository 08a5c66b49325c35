import Verif.Model.MultiOut
import Verif.Spec.Robust

/-!
# Specification: what an aggregated proof must have for `Verify` to reach its lines of output
-/

set_option autoImplicit false

namespace MscPoc

/-- what the first check needs: a commitment, generators, two numbers, and an inverse of the challenge of `A`, `S` -/
structure MultiBulletProof.Reaches65 {E : Type} (sha : Bytes → Bytes) (pf : MultiBulletProof E) : Prop where
  values : pf.Vs ≠ []
  numbers : pf.Tprime ≠ none ∧ pf.Taux ≠ none
  gens : 0 < pf.Params.N ∧ pf.Params.N ≤ pf.Params.Hh.length
  /-- not used for one bit -/
  inverse : 2 ≤ pf.Params.N → Int.gcd (roundChallenge sha pf.Params.GP pf.A pf.S) pf.Params.GP.N = 1

/-- what the second check needs on top -/
structure MultiBulletProof.Reaches67 {E : Type} (pf : MultiBulletProof E) : Prop where
  gens : pf.Params.Gg.length = pf.Params.N
  number : pf.Mu ≠ none

end MscPoc
