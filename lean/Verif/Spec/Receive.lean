import Verif.Spec.Robust
import Verif.Spec.DecCrash

/-!
# Specification: byte strings on which receiving a ballot panics

`BallotCrash` (Spec/DecCrash) says when decoding panics.  Here: when verifying what was decoded does, in terms of the document and of
the challenges.
-/

set_option autoImplicit false

namespace MscPoc
variable {E : Type}

/-- What the document of a range proof needs for the verifier to finish, apart from challenges with inverses: all numbers, generators
that can be halved once per round, and no more `Hh` than `Gg` (unless there are no rounds). -/
structure BPRaw.Complete (j : BPRaw) : Prop where
  numbers : j.Taux ≠ none ∧ j.Mu ≠ none ∧ j.Tprime ≠ none ∧ j.IP.Cc ≠ none ∧ j.IP.A ≠ none ∧ j.IP.B ≠ none
  gens : j.IP.Params.Gg ≠ [] ∧ 2 ^ j.IP.L.length ∣ j.IP.Params.Gg.length
  pairs : j.IP.L ≠ [] → j.IP.Params.Hh.length ≤ j.IP.Params.Gg.length

/-- a challenge of the range proof that the group order divides -/
def ZeroChallenge (sha : Bytes → Bytes) (GP : Grp E) (p : BulletProof E) : Prop :=
  GP.N ∣ roundChallenge sha GP p.A p.S ∨
    ∃ x ∈ List.zip p.InnerProductProof.L p.InnerProductProof.R, GP.N ∣ roundChallenge sha GP x.1 x.2

/-- verifying a range proof that was decoded from `j` panics -/
def RangeStops (sha : Bytes → Bytes) (GP : Grp E) (j : BPRaw) (p : BulletProof E) : Prop :=
  ¬ j.Complete ∨ ZeroChallenge sha GP p

/-- the document of a vote proof has all its numbers, and its `Bc` is no longer than a digest -/
structure SigmaRaw.Complete (j : SigmaRaw) : Prop where
  numbers : j.Z ≠ none ∧ j.Challenge ≠ none ∧ j.Sp ≠ none ∧ j.Sq1 ≠ none ∧ j.Sq2 ≠ none
  length : j.Params.Bc < 264

/-- A check of the document alone that a server could make before anything else: decoding will not panic, and every proof that has the
types it should have is complete. -/
structure Checked (bad₁ bad₂ : Raw → Prop) (msg : String → Raw) : Prop where
  points : ¬ BallotCrash bad₁ bad₂ msg
  ranges : ∀ f ∈ ["lbProof", "ubProof"], ∀ j, rawBP (msg f) = .ok j → j.Complete
  vote : ∀ j, rawSigma (msg "voteProof") = .ok j → j.Complete

end MscPoc
