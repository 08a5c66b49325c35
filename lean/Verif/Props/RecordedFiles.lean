import Verif.Lemmas.RecordedText
import Verif.Props.RecordedBallot
import Verif.Props.TextBytes

/-!
# C76 — the files under testdata, as they stand
-/

set_option autoImplicit false

namespace MscPoc

open JSpec

/-- C76: the two files are JSON texts of the recorded documents of C69. -/
theorem C76_documents : IsText 10000 (linesText recFile256) (recBallot256.json recCurve256) ∧
    IsText 10000 (linesText recFile384) (recBallot384.json recCurve384) :=
  ⟨JText.layLines_isText (rec_plain _ _) _ lay_file256, JText.layLines_isText (rec_plain _ _) _ lay_file384⟩

/-- the files with their curves -/
inductive FileRow : CirclCurve → List String → Prop
  | p256 (dec : Bytes → Option WPoint) : FileRow (p256Real dec) recFile256
  | p384 (dec : Bytes → Option WPoint) : FileRow (p384Real dec) recFile384

/-- **C76** `unmarshalAndVerify` (main_test.go:22-36) on the bytes of either file, with SHA-256 and circl's hash to the curve: the
bytes are decoded without an error or a panic; both range proofs verify; `verifyVote` says false under the parameters of `setup`, and
says true exactly for parameters over the curve with candidate range 101 … 1000. -/
theorem C76_files (nan64 : BitVec 64) {C : CirclCurve} {file : List String} (row : FileRow C file) :
    ∃ pp ballot, setup nan64 (circlGrp C) = some (.ok pp) ∧
      decBallotBytes modPCodec (wCodec C.c) pp (Utf8.encode (linesText file)) = some (.ok ballot) ∧
      ballot.BpLower.verify sha256 = some true ∧ ballot.BpUpper.verify sha256 = some true ∧
      verifyVote sha256 ballot pp.RPParams = some { result := false, times := [0, 0] } ∧
      ∀ rp : ProofParams Int WPoint, rp.GEC.I = circlGrp C →
        verifyVote sha256 ballot rp = some { result := decide (rp.RangeLo = 101 ∧ rp.RangeHi = 1000), times := [0, 0] } := by
  obtain ⟨bits, K, b, rec, ht⟩ : ∃ bits K b, RecRow C bits K b ∧ IsText 10000 (linesText file) (b.json K) := by
    cases row with
    | p256 dec => exact ⟨_, _, _, .p256 dec, C76_documents.1⟩
    | p384 dec => exact ⟨_, _, _, .p384 dec, C76_documents.2⟩
  obtain ⟨pp, hpp, hd⟩ := C69_decode rec nan64
  obtain ⟨pp', ballot, hpp', hd', hv, _⟩ := C69_test rec nan64 _ ht
  have e : pp' = pp := Except.ok.inj (Option.some.inj (hpp'.symm.trans hpp))
  subst e
  have eb : ballot = b.ballot C K := Except.ok.inj (Option.some.inj (hd'.symm.trans (hd _ ht)))
  refine ⟨pp', ballot, hpp, ?_, ?_, ?_, hv, ?_⟩
  · unfold decBallotBytes
    rw [Utf8.decode_encode]
    exact hd'
  · rw [eb]; exact (C69_range_proofs rec).1
  · rw [eb]; exact (C69_range_proofs rec).2
  · rw [eb]; exact C69_verdict rec

/-- both files; they have 761 lines -/
example (dec : Bytes → Option WPoint) : FileRow (p256Real dec) recFile256 ∧ FileRow (p384Real dec) recFile384 ∧
    recFile256.length = 761 ∧ recFile384.length = 761 := ⟨.p256 dec, .p384 dec, by decide +kernel, by decide +kernel⟩

/-- their sizes in characters (`ls -l testdata`) -/
example : (linesText recFile256).length = 45116 ∧ (linesText recFile384).length = 58664 := by
  have h : ∀ (l : List Text) (f : List String), l.map String.ofList = f → (linesText f).length = (l.map fun s => s.length + 1).sum := by
    rintro l _ rfl
    rw [linesText, List.flatMap_map, List.length_flatMap]
    simp
  rw [h _ _ lay_file256, h _ _ lay_file384]
  decide +kernel

end MscPoc
