import Verif.Model.HeapMulti

/-!
# Many calls of the range proof code, one after the other (C94)

A program that uses the range proof code may make any number of proofs with the same parameters and verify any of them at any time.
The history of such a program is a list of requests.  It can be carried out on values, where nothing can be changed, and on shared
memory, where the proofs refer to the generators of the parameters.
-/

set_option autoImplicit false

namespace MscPoc

/-- what the program may ask for; proofs are kept in two lists and named by their position -/
inductive BpReq where
  | prove (rnd : BPRand) (secret : Int)
  | proveMany (rnd : MultiRand) (secrets : List Int)
  | verify (i : Nat)
  | verifyMany (i : Nat)

/-- what it is told -/
inductive BpReply where
  | made
  | failed (e : String)
  | verdict (b : Bool)
  | checks (c : MultiChecks)
  | unknown
deriving DecidableEq, Repr

section
variable {E : Type}

/-- one request, on values -/
def bpRequest (sha : Bytes → Bytes) (params : BPParams E) (ps : List (BulletProof E)) (ms : List (MultiBulletProof E)) :
    BpReq → Option (List (BulletProof E) × List (MultiBulletProof E) × BpReply)
  | .prove rnd s => do
    let r ← bpProve sha params rnd s
    match r with
    | .error e => some (ps, ms, .failed e)
    | .ok p => some (ps ++ [p.1], ms, .made)
  | .proveMany rnd s => do
    let r ← multiProve sha params rnd s
    match r with
    | .error e => some (ps, ms, .failed e)
    | .ok p => some (ps, ms ++ [p.1], .made)
  | .verify i =>
    match ps[i]? with
    | none => some (ps, ms, .unknown)
    | some p => do
      let b ← p.verify sha
      some (ps, ms, .verdict b)
  | .verifyMany i =>
    match ms[i]? with
    | none => some (ps, ms, .unknown)
    | some p => do
      let c ← p.checks sha
      some (ps, ms, .checks c)

/-- a history, on values -/
def bpHistory (sha : Bytes → Bytes) (params : BPParams E) : List BpReq → List (BulletProof E) → List (MultiBulletProof E) →
    Option (List (BulletProof E) × List (MultiBulletProof E) × List BpReply)
  | [], ps, ms => some (ps, ms, [])
  | r :: rs, ps, ms => do
    let a ← bpRequest sha params ps ms r
    let b ← bpHistory sha params rs a.1 a.2.1
    some (b.1, b.2.1, a.2.2 :: b.2.2)

/-- one request, on shared memory -/
def bpRequestH (GP : Grp E) (sha : Bytes → Bytes) (params : BPParamsH) (ps : List BulletProofH) (ms : List MultiProofH) :
    BpReq → HM E (List BulletProofH × List MultiProofH × BpReply)
  | .prove rnd s => do
    let r ← HM.bpProve GP sha params rnd s
    match r with
    | .error e => pure (ps, ms, .failed e)
    | .ok p => pure (ps ++ [p.1], ms, .made)
  | .proveMany rnd s => do
    let r ← HM.multiProve GP sha params rnd s
    match r with
    | .error e => pure (ps, ms, .failed e)
    | .ok p => pure (ps, ms ++ [p.1], .made)
  | .verify i =>
    match ps[i]? with
    | none => pure (ps, ms, .unknown)
    | some p => do
      let b ← p.verify GP sha
      pure (ps, ms, .verdict b)
  | .verifyMany i =>
    match ms[i]? with
    | none => pure (ps, ms, .unknown)
    | some p => do
      let c ← p.checks GP sha
      pure (ps, ms, .checks c)

/-- a history, on shared memory -/
def bpHistoryH (GP : Grp E) (sha : Bytes → Bytes) (params : BPParamsH) : List BpReq → List BulletProofH → List MultiProofH →
    HM E (List BulletProofH × List MultiProofH × List BpReply)
  | [], ps, ms => pure (ps, ms, [])
  | r :: rs, ps, ms => do
    let a ← bpRequestH GP sha params ps ms r
    let b ← bpHistoryH GP sha params rs a.1 a.2.1
    pure (b.1, b.2.1, a.2.2 :: b.2.2)

end

end MscPoc
