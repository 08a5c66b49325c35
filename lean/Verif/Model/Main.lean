import Verif.Model.Vote

/-!
# main.go: the benchmark driver
-/

set_option autoImplicit false

namespace MscPoc

/-- What the driver prints at the end of a group's section: main.go:132 "Skipping execution for … due to err" or
main.go:170 "Votes were correctly formed: success".  The measured durations are not modelled. -/
inductive Report where
  | skipped (err : String)
  | formed (success : Bool)
deriving DecidableEq, Repr

/-- main.go:142-152: cast and verify one vote per entry of the list of random tapes; `times[0]`, `times[1]` are
indexed whatever the verdict is. -/
def benchLoop {E₁ E₂ : Type} (sha : Bytes → Bytes) (pp : PublicParams E₁ E₂) : List CastRand → Bool → Outcome Bool
  | [], success => .done success
  | rnd :: rnds, success =>
    match castVote sha pp rnd with
    | .running => .running
    | .panic => .panic
    | .done vote =>
      match verifyVote sha vote pp.RPParams with
      | none => .panic
      | some out =>
        match out.times[0]?, out.times[1]? with
        | some _, some _ => benchLoop sha pp rnds (success && out.result)
        | _, _ => .panic

/-- main.go:131-172: what is done with the result of `setup`.  `iterCount` is the length of `rnds` (1000 in the code);
`err` of `setup` is printed and the group skipped. -/
def runSetup {E₂ : Type} (sha : Bytes → Bytes) (rnds : List CastRand) :
    Option (Except String (PublicParams Int E₂)) → Outcome Report
  | none => .panic
  | some (.error e) => .done (.skipped e)
  | some (.ok pp) =>
    match benchLoop sha pp rnds true with
    | .running => .running
    | .panic => .panic
    | .done success => .done (.formed success)

/-- main.go:124-172: the body of the loop over the groups. -/
def runGroup {E₂ : Type} (sha : Bytes → Bytes) (nan64 : BitVec 64) (g : Grp E₂) (rnds : List CastRand) : Outcome Report :=
  runSetup sha rnds (setup nan64 g)

end MscPoc
