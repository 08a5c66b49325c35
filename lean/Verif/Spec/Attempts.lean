import Verif.Model.Vote
import Mathlib.Data.Fintype.BigOperators
import Mathlib.SetTheory.Cardinal.Finite

/-!
# Specification: the masks on which a vote is still being proven

Each attempt of `Prove` (voteproof/voteproof.go:126-177) draws a mask below `2^(bits-1)` and three blinding factors.
-/

set_option autoImplicit false

namespace MscPoc

/-- the draws of `n` attempts: the masks `ks`, everything else as in `others` -/
def withMasks {U n : ℕ} (others : Fin n → SigmaSample) (ks : Fin n → Fin U) : List SigmaSample :=
  List.ofFn fun i => { others i with k := ((ks i : ℕ) : Int) }

/-- the number of sequences of `n` masks below `U` for which the prover has discarded all `n` attempts and draws again -/
noncomputable def stillRunning {E₁ E₂ : Type} (sha : Bytes → Bytes) (pp : PublicParams E₁ E₂) (rnd : CastRand) (U : ℕ) {n : ℕ}
    (others : Fin n → SigmaSample) : ℕ :=
  Nat.card { ks : Fin n → Fin U // castVote sha pp { rnd with tape := withMasks others ks } = .running }

end MscPoc
