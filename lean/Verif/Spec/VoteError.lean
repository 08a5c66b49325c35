import Mathlib.Data.ZMod.Basic
import Verif.Model.VoteProof

/-!
# Vote proofs and provers of unlimited power

Which hash values leave a way to complete a given first move of a vote proof.
-/

set_option autoImplicit false

namespace MscPoc

/-- what a prover sends (and hashes) before the challenge: lines 145-148 of voteproof/voteproof.go -/
structure FirstMove (E₁ E₂ : Type) where
  W : E₁
  Kp : E₁
  Kq1 : E₂
  Kq2 : E₂

/-- a vote proof that starts with this move and has these parameters -/
def SigmaProof.Completes {E₁ E₂ : Type} (pf : SigmaProof E₁ E₂) (f : FirstMove E₁ E₂) (pp : ProofParams E₁ E₂) : Prop :=
  pf.W = f.W ∧ pf.Kp = f.Kp ∧ pf.Kq1 = f.Kq1 ∧ pf.Kq2 = f.Kq2 ∧ pf.Params = pp

/-- the 32-byte hash values under which the move can be completed to an accepted proof, by whatever means -/
def answerable {E₁ E₂ : Type} (pp : ProofParams E₁ E₂) (comm : VerCommitments E₁ E₂) (f : FirstMove E₁ E₂) : Set Bytes :=
  {d | d.length = 32 ∧ ∃ pf : SigmaProof E₁ E₂, pf.Completes f pp ∧ pf.verify (fun _ => d) comm = some true}

/-- a fraction modulo `q` with numerator below `a` (in absolute value) and denominator below `b` -/
def ShortFraction {q : ℕ} (a b : Int) (x : ZMod q) : Prop :=
  ∃ n d : Int, |n| < a ∧ 0 < d ∧ d < b ∧ (d : ZMod q) * x = (n : ZMod q)

end MscPoc
