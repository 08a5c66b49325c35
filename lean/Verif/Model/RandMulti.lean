import Verif.Model.MultiBp
import Verif.Model.Rand

/-!
# `MultiProve` on the byte stream
-/

set_option autoImplicit false

namespace MscPoc

/-- The draws of bulletproofs/multibp.go:51-222 `MultiProve` in order: one number per secret (line 70), then lines 85, 89-91 and
104-105. -/
def drawMulti {E : Type} (params : BPParams E) (m : Nat) : Draw MultiRand := do
  let gammas ← sampleRandomVector params.GP.N m
  let alpha ← randInt params.GP.N
  let sL ← sampleRandomVector params.GP.N params.N
  let sR ← sampleRandomVector params.GP.N params.N
  let rho ← randInt params.GP.N
  let tau1 ← randInt params.GP.N
  let tau2 ← randInt params.GP.N
  pure { gammas := gammas, alpha := alpha, sL := sL, sR := sR, rho := rho, tau1 := tau1, tau2 := tau2 }

/-- bulletproofs/multibp.go:51-222 `MultiProve(secrets, params)`.  Without secrets line 57 divides by zero before anything is drawn.
Simplification: otherwise all draws happen first; the computations between them do not read bytes. -/
def multiProveB {E : Type} (sha : Bytes → Bytes) (params : BPParams E) (secrets : List Int) :
    Draw (Except String (MultiBulletProof E × List Int)) :=
  if secrets.length = 0 then Draw.lift none
  else do
    let rnd ← drawMulti params secrets.length
    Draw.lift (multiProve sha params rnd secrets)

end MscPoc
