import Verif.Model.MainOut

/-!
# What a successful run of the program prints
-/

set_option autoImplicit false

namespace MscPoc

/-- the section of one group, all votes correctly formed; the vote prover discarded `aborts` attempts -/
def okSection (name : String) (aborts : Nat) (cast bp rp total : String) : List String :=
  ["============================================================",
   "Generating public parameters for group: " ++ name] ++
  List.replicate aborts "Aborted" ++
  ["------------------------------------------------------------",
   "Vote casting",
   "Prove time: " ++ cast,
   "------------------------------------------------------------",
   "Vote verification",
   "Verify time BP: " ++ bp,
   "Verify time RP: " ++ rp,
   "Verify time total: " ++ total,
   "------------------------------------------------------------",
   "Votes were correctly formed: true",
   "============================================================"]

/-- the section of a group whose order is too short -/
def skippedSection (name : String) : List String :=
  ["============================================================",
   "Generating public parameters for group: " ++ name,
   "Skipping execution for " ++ name ++ " due to inconsistent parameter choice"]

/-- the attempts of one vote before the first mask at least `2^240` away from both ends of its range: no more are discarded -/
def mostAborts (bits : Nat) (rnd : CastRand) : Nat :=
  (rnd.tape.takeWhile fun s => !decide (2 ^ 240 ≤ s.k ∧ s.k < 2 ^ (bits - 1) - 2 ^ 240)).length

/-- the attempts of one vote before the first mask above `2^240 - 2^235`: these are discarded -/
def leastAborts (rnd : CastRand) : Nat :=
  (rnd.tape.takeWhile fun s => decide (s.k ≤ 2 ^ 240 - 2 ^ 235)).length

/-- sections with an empty line between them -/
def sections : List (List String) → List String
  | [] => []
  | [s] => s
  | s :: ss => s ++ [""] ++ sections ss

end MscPoc
