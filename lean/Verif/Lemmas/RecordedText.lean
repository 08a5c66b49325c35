import Verif.Lemmas.Recorded384
import Verif.Spec.RecordedText
import Verif.Spec.RecordedBallot
import Verif.Lemmas.Layout

/-!
# The lines of the recorded files are the layout of the recorded documents

The computed checks are imported so that they are not built at the same time, which needs much memory.
-/

set_option autoImplicit false

namespace MscPoc

open JText

/-- the beginning of a line with the key `k` -/
def keyLine (k : String) : Text := spaces 2 ++ (strText k ++ [':', ' '])

/-- the ciphertext of a recorded ballot -/
def RecBallot.ctJson (b : RecBallot) : Json := .obj [("u", .num b.u), ("v", .num b.v)]

theorem lay_doc (K : RecCurve) (b : RecBallot) : layLines 0 [] [] (b.json K) =
    ['{'] :: (layLines 2 (keyLine "ballot") [','] b.ctJson ++ (layLines 2 (keyLine "lbProof") [','] (b.lo.json K) ++
      (layLines 2 (keyLine "ubProof") [','] (b.hi.jsonCommit K) ++ layLines 2 (keyLine "voteProof") [] (b.voteJson K))) ++ [['}']]) := by
  rw [RecBallot.json, layLines, layMembers, layMembers, layMembers, layMembers]
  rfl

set_option maxRecDepth 100000 in
set_option maxHeartbeats 1000000 in
theorem layCt256 : (layLines 2 (keyLine "ballot") [','] recBallot256.ctJson).map String.ofList = recLinesCt256 := by rfl

set_option maxRecDepth 100000 in
set_option maxHeartbeats 1000000 in
theorem layLo256 : (layLines 2 (keyLine "lbProof") [','] (recLo256.json recCurve256)).map String.ofList = recLinesLo256 := by rfl

set_option maxRecDepth 100000 in
set_option maxHeartbeats 1000000 in
theorem layHi256 : (layLines 2 (keyLine "ubProof") [','] (recHi256.jsonCommit recCurve256)).map String.ofList = recLinesHi256 := by rfl

set_option maxRecDepth 100000 in
set_option maxHeartbeats 1000000 in
theorem layVote256 : (layLines 2 (keyLine "voteProof") [] (recBallot256.voteJson recCurve256)).map String.ofList = recLinesVote256 := by rfl

theorem lay_file256 : (layLines 0 [] [] (recBallot256.json recCurve256)).map String.ofList = recFile256 := by
  have e1 : recBallot256.lo = recLo256 := rfl
  have e2 : recBallot256.hi = recHi256 := rfl
  rw [lay_doc, e1, e2, List.map_cons, List.map_append, List.map_append, List.map_append, List.map_append, layCt256, layLo256, layHi256,
    layVote256, recFile256, List.append_assoc, List.append_assoc, List.append_assoc, List.append_assoc, List.append_assoc, List.append_assoc]
  rfl

set_option maxRecDepth 100000 in
set_option maxHeartbeats 1000000 in
theorem layCt384 : (layLines 2 (keyLine "ballot") [','] recBallot384.ctJson).map String.ofList = recLinesCt384 := by rfl

set_option maxRecDepth 100000 in
set_option maxHeartbeats 1000000 in
theorem layLo384 : (layLines 2 (keyLine "lbProof") [','] (recLo384.json recCurve384)).map String.ofList = recLinesLo384 := by rfl

set_option maxRecDepth 100000 in
set_option maxHeartbeats 1000000 in
theorem layHi384 : (layLines 2 (keyLine "ubProof") [','] (recHi384.jsonCommit recCurve384)).map String.ofList = recLinesHi384 := by rfl

set_option maxRecDepth 100000 in
set_option maxHeartbeats 1000000 in
theorem layVote384 : (layLines 2 (keyLine "voteProof") [] (recBallot384.voteJson recCurve384)).map String.ofList = recLinesVote384 := by rfl

theorem lay_file384 : (layLines 0 [] [] (recBallot384.json recCurve384)).map String.ofList = recFile384 := by
  have e1 : recBallot384.lo = recLo384 := rfl
  have e2 : recBallot384.hi = recHi384 := rfl
  rw [lay_doc, e1, e2, List.map_cons, List.map_append, List.map_append, List.map_append, List.map_append, layCt384, layLo384, layHi384,
    layVote384, recFile384, List.append_assoc, List.append_assoc, List.append_assoc, List.append_assoc, List.append_assoc, List.append_assoc]
  rfl

end MscPoc
