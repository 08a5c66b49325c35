import Verif.Model.Main

/-!
# main.go: what the program prints

`Model/Main.lean` gives the verdict for one group; this is `main` itself, with the lines it prints.  `voteproof.Prove` also
prints: one line "Aborted" for every attempt it discards.

Simplification: the clock is not modelled.  The four durations printed for a group are arbitrary strings, and the divisions of
durations by 1000 (main.go:157, 162, 163) are part of them.
-/

set_option autoImplicit false

namespace MscPoc

/-- the durations printed for one group, main.go:157, 165, 166, 167 -/
structure Durations where
  cast : String
  verBP : String
  verRP : String
  verTotal : String

/-- one entry of `groups` (main.go:120), the random values its votes read, and the durations measured -/
structure GroupRun where
  {E : Type}
  g : Grp E
  rnds : Nat → CastRand
  dur : Durations

/-- `strings.Repeat(c, 60)`, main.go:122 -/
def sep (c : Char) : String := String.ofList (List.replicate 60 c)

/-- `iterCount`, main.go:123 -/
def iterCount : Nat := 1000

/-- the values of the draws in the iterations of main.go:142 -/
def GroupRun.tapes (r : GroupRun) : List CastRand := (List.range iterCount).map r.rnds

/-- how a run ends; what is printed is kept beside it -/
inductive Status where
  | running
  | panicked
  | finished
deriving DecidableEq, Repr

/-- voteproof/voteproof.go:133-157: how often `Prove` prints "Aborted" (line 154) -/
def sigmaAborts {E₁ E₂ : Type} (sha : Bytes → Bytes) (params : ProofParams E₁ E₂) (secret rp rq1 rq2 : Int) :
    List SigmaSample → Nat
  | [] => 0
  | s :: tape =>
    match sigmaAttempt sha params secret rp rq1 rq2 s with
    | some none => sigmaAborts sha params secret rp rq1 rq2 tape + 1
    | _ => 0

/-- voter.go:19-33: how often `castVote` prints "Aborted" -/
def castAborts {E₁ E₂ : Type} (sha : Bytes → Bytes) (pp : PublicParams E₁ E₂) (rnd : CastRand) : Nat :=
  match drawChoice pp rnd.rChoice with
  | none => 0
  | some choice =>
    match encryptVote pp.FFGroupParams.I pp.EGPK choice rnd.rEnc,
        bpProve sha pp.BPParams rnd.bp1 ((choice - pp.candidateMin).toNat : Int),
        bpProve sha pp.BPParams rnd.bp2 ((pp.candidateMax - choice).toNat : Int), pp.ECGroupParams.N with
    | some (_, rp), some (.ok (_, rq1)), some (.ok (_, rq2)), some N =>
      sigmaAborts sha pp.RPParams (choice.toNat : Int) rp rq1 (N - rq2) rnd.tape
    | _, _, _, _ => 0

/-- main.go:142-152: how often the loop over the votes prints "Aborted" -/
def benchAborts {E₁ E₂ : Type} (sha : Bytes → Bytes) (pp : PublicParams E₁ E₂) : List CastRand → Nat
  | [] => 0
  | rnd :: rnds =>
    castAborts sha pp rnd +
      match castVote sha pp rnd with
      | .done vote =>
        match verifyVote sha vote pp.RPParams with
        | none => 0
        | some out =>
          match out.times[0]?, out.times[1]? with
          | some _, some _ => benchAborts sha pp rnds
          | _, _ => 0
      | _ => 0

/-- main.go:131-152: the same after the result of `setup` -/
def setupAborts {E₂ : Type} (sha : Bytes → Bytes) (rnds : List CastRand) :
    Option (Except String (PublicParams Int E₂)) → Nat
  | some (.ok pp) => benchAborts sha pp rnds
  | _ => 0

/-- main.go:124-172: how often "Aborted" is printed in a group's section -/
def groupAborts {E₂ : Type} (sha : Bytes → Bytes) (nan64 : BitVec 64) (g : Grp E₂) (rnds : List CastRand) : Nat :=
  setupAborts sha rnds (setup nan64 g)

/-- main.go:126-130: what is printed before `setup`; `fmt.Print("\n")` ends an empty line -/
def header (first : Bool) (name : String) : List String :=
  (if first then [] else [""]) ++ [sep '=', "Generating public parameters for group: " ++ name]

/-- main.go:132, main.go:154-171: what is printed after the votes, or instead of them -/
def footer (name : String) (d : Durations) : Report → List String
  | .skipped err => ["Skipping execution for " ++ name ++ " due to " ++ err]
  | .formed success =>
    [sep '-', "Vote casting", "Prove time: " ++ d.cast, sep '-', "Vote verification", "Verify time BP: " ++ d.verBP,
      "Verify time RP: " ++ d.verRP, "Verify time total: " ++ d.verTotal, sep '-',
      "Votes were correctly formed: " ++ (if success then "true" else "false"), sep '=']

/-- main.go:131-172: what a group's section adds to the lines printed, and what the later groups add to it -/
def printGroup (first : Bool) (name : String) (d : Durations) (aborts : Nat) (rest : List String × Status) :
    Outcome Report → List String × Status
  | .running => (header first name ++ List.replicate aborts "Aborted", .running)
  | .panic => (header first name ++ List.replicate aborts "Aborted", .panicked)
  | .done rep => (header first name ++ List.replicate aborts "Aborted" ++ footer name d rep ++ rest.1, rest.2)

/-- main.go:125-173: the loop over the groups; the lines printed so far and how the run ends -/
def groupsLoop (sha : Bytes → Bytes) (nan64 : BitVec 64) : Bool → List GroupRun → List String × Status
  | _, [] => ([], .finished)
  | first, r :: rs =>
    printGroup first r.g.name r.dur (groupAborts sha nan64 r.g r.tapes) (groupsLoop sha nan64 false rs)
      (runGroup sha nan64 r.g r.tapes)

/-- main.go:114-174 `main` on the groups it is given -/
def mainRun (sha : Bytes → Bytes) (nan64 : BitVec 64) (rs : List GroupRun) : List String × Status :=
  groupsLoop sha nan64 true rs

end MscPoc
