import Verif.Props.BallotSoundC
import Verif.Props.BallotSoundEx

/-!
# C81 — a forked ballot with its trees

The fork of `BallotSoundEx`: candidates 1 to 3, a vote for 2, two-bit range proofs.
-/

set_option autoImplicit false

namespace MscPoc

/-- the honest prover of the two range proofs, each for the number 1 -/
def fkHonest (t : Bool) : HonestC :=
  { params := fkElection.bp, rnd := fkR t, V := fkV t, aL := [1, 0], aR := [0, -1], cut := 8 }

theorem fkTreeC_accepted (t : Bool) : ((fkHonest t).tree 2053).Accepted fkElection.bp :=
  (fkHonest t).accepted 2053 (by revert t; decide +kernel)

theorem fkTreeC_distinct (t : Bool) : ((fkHonest t).tree 2053).Distinct := by
  refine ⟨by revert t; decide +kernel, by revert t; decide +kernel, by revert t; decide +kernel, by revert t; decide +kernel,
    by revert t; decide +kernel, by revert t; decide +kernel, by revert t; decide +kernel, fun j l i => ⟨?_, ?_⟩⟩
  · exact ⟨by decide, by decide, fun _ => trivial⟩
  · exact ⟨by decide, by decide, fun _ => trivial⟩

theorem fkTreeC_legal (t : Bool) : ((fkHonest t).tree 2053).Legal (params := fkElection.bp) (toyLawful 2053) := by
  have key : ∀ t j l i m,
      (∀ r ∈ ((fkHonest t).path 2053 j l i 6 m).rounds, (toyLawful 2053).V r.1 ∧ (toyLawful 2053).V r.2.1) ∧
      ∀ r ∈ ((fkHonest t).path 2053 j l i 11 m).rounds, (toyLawful 2053).V r.1 ∧ (toyLawful 2053).V r.2.1 := by
    unfold toyLawful; decide +kernel
  refine ⟨by unfold toyLawful; revert t; decide +kernel, by unfold toyLawful; revert t; decide +kernel,
    by unfold toyLawful; revert t; decide +kernel, by unfold toyLawful; revert t; decide +kernel,
    by unfold toyLawful; revert t; decide +kernel, fun j l i p hp => ?_⟩
  rcases hp with hp | hp
  · obtain ⟨m, rfl⟩ := (fkHonest t).ipt_mem 2053 j l i 6 p hp
    exact (key t j l i m).1
  · obtain ⟨m, rfl⟩ := (fkHonest t).ipt_mem 2053 j l i 11 p hp
    exact (key t j l i m).2

theorem fkTreeC_lower : openedTo 1 17 ((fkHonest true).tree 2053).extract = true := by decide +kernel
theorem fkTreeC_upper : openedTo 1 1900 ((fkHonest false).tree 2053).extract = true := by decide +kernel

/-- C81: all hypotheses of `C81_extract` hold, and the extractor finds the openings 1 and 1 and the plaintext 2. -/
example : ∃ b b', fkBallot 3 = some b ∧ fkBallot 200 = some b' ∧
    VoteFork (fkSha 3) (fkSha 200) b b' fkElection.rp ∧
    ForkLegal (D := fkElection) (toyLawful 2063) (toyLawful 2053) b ∧ b.VoteProof.Answers fkAns ∧ b'.VoteProof.Answers fkAns' ∧
    fkElection.OK (toyLawful 2063) (toyLawful 2053) 1 ∧ (fkElection.EC.mapToGroup SEEDU).isSome ∧
    ((fkHonest true).tree 2053).V = b.BpLower.V ∧ ((fkHonest false).tree 2053).V = b.BpUpper.V ∧ b.BpLower.V ≠ b.BpUpper.V ∧
    (∀ t, ((fkHonest t).tree 2053).Accepted fkElection.bp ∧ ((fkHonest t).tree 2053).Distinct ∧
      ((fkHonest t).tree 2053).Legal (params := fkElection.bp) (toyLawful 2053)) ∧
    (match (ballotExtractC 1 3 fkAns fkAns' ((fkHonest true).tree 2053) ((fkHonest false).tree 2053) :
        BallotExtracted (ZMod 2063) (ZMod 2053)) with
     | .plaintext v₁ r₁ v₂ r₂ x s => v₁ == 1 && r₁ == 17 && v₂ == 1 && r₂ == 1900 && x == 2 && s == 41
     | .relation _ => false) = true := by
  obtain ⟨b, b', h1, h2, h3, h4, h5, h6, h7, h8, h9⟩ := fkFork
  refine ⟨b, b', h1, h2, h3.vote, h4, h5, h6, fkElection_ok, by decide +kernel, h7, h8, h9,
    fun t => ⟨fkTreeC_accepted t, fkTreeC_distinct t, fkTreeC_legal t⟩, ?_⟩
  have h1 := fkTreeC_lower
  have h2 := fkTreeC_upper
  unfold ballotExtractC
  revert h1 h2
  cases ((fkHonest true).tree 2053).extract with
  | relation w => exact fun h => absurd h (by simp [openedTo])
  | opening v r α aL aR =>
  cases ((fkHonest false).tree 2053).extract with
  | relation w => exact fun _ h => absurd h (by simp [openedTo])
  | opening v' r' α' aL' aR' =>
  intro h1 h2
  simp only [openedTo, Bool.and_eq_true, beq_iff_eq] at h1 h2
  obtain ⟨rfl, rfl⟩ := h1
  obtain ⟨rfl, rfl⟩ := h2
  exact fkMerge

end MscPoc
