import Verif.Model.NilTail
import Verif.Model.Utf8

/-!
# A server that is sent bytes

`BallotDataUnmarshalJSON` followed by `verifyVote`, as `unmarshalAndVerify` composes them (main_test.go:24-36).  The nil entries of
arrays of unequal length are kept (`Model/NilTail.lean`).
-/

set_option autoImplicit false

namespace MscPoc

/-- marshal.go:39-71 `BallotDataUnmarshalJSON` on bytes; bytes that do not scan leave all raw messages nil -/
def decBallotBytesN {E₁ E₂ : Type} (C₁ : Codec E₁) (C₂ : Codec E₂) (pp : PublicParams E₁ E₂) (b : Bytes) :
    Option (Except String (NBallotData E₁ E₂)) := decBallotN C₁ C₂ pp (JText.parse (Utf8.decode b))

/-- main_test.go:24-36 `unmarshalAndVerify(b, pp)`.  `none`: it panics; `some none`: it returns nil; otherwise the error returned. -/
def unmarshalAndVerify {E₁ E₂ : Type} (sha : Bytes → Bytes) (C₁ : Codec E₁) (C₂ : Codec E₂) (pp : PublicParams E₁ E₂) (b : Bytes) :
    Option (Option String) :=
  match decBallotBytesN C₁ C₂ pp b with
  | none => none
  | some (.error e) => some (some e)
  | some (.ok dataset) =>
    match verifyVoteN sha dataset pp.RPParams with
    | none => none
    | some out => if !out.result then some (some "failed to verify data") else some none

end MscPoc
