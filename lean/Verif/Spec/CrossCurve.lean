import Verif.Spec.Robust

/-!
# Specification: ballots that reach the server of another curve
-/

set_option autoImplicit false

namespace MscPoc

/-- the bytes that are hashed for the challenge of a vote proof -/
def SigmaProof.hashed {E₁ E₂ : Type} (pf : SigmaProof E₁ E₂) : Bytes :=
  pf.Params.GFF.I.str pf.W ++ pf.Params.GFF.I.str pf.Kp ++ pf.Params.GEC.I.str pf.Kq1 ++ pf.Params.GEC.I.str pf.Kq2

/-- two different messages whose digests start with the same `n` bytes -/
def Collide (sha : Bytes → Bytes) (n : ℕ) (m m' : Bytes) : Prop := m ≠ m' ∧ (sha m).take n = (sha m').take n

end MscPoc
