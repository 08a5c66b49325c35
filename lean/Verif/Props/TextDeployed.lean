import Verif.Props.HashToCurve
import Verif.Props.JsonText

/-!
# C61 — the deployed system, through text
-/

set_option autoImplicit false

namespace MscPoc

open JSpec

/-- **C61** With SHA-256 and circl's hash to the curve (P-256, P-384): every ballot that `castVote` completes is marshalled to a
text; that text, and any other text of the same document, is decoded to the same ballot, which is accepted; every proper prefix of
it is refused. -/
theorem C61_deployed (nan64 : BitVec 64) {C : CirclCurve} {bits : ℕ} {H U : WPoint} {Gg Hh : List WPoint}
    (row : RealRow C bits H U Gg Hh) :
    ∃ pp, setup nan64 (circlGrp C) = some (.ok pp) ∧ ∀ (rnd : CastRand) (ballot : BallotData Int WPoint),
      (0 ≤ rnd.rChoice ∧ rnd.rChoice < 1899) →
      (rnd.bp1.sL.length = 16 ∧ rnd.bp1.sR.length = 16 ∧ rnd.bp2.sL.length = 16 ∧ rnd.bp2.sR.length = 16) →
      (∀ s ∈ rnd.tape, 0 ≤ s.k ∧ s.k < 2 ^ (bits - 1)) →
      castVote sha256 pp rnd = .done ballot →
      ∃ t v, encBallotText modPCodec (wCodec C.c) ballot = some (.ok t) ∧ IsText 10000 t v ∧
        (∀ t', IsText 10000 t' v → decBallotText modPCodec (wCodec C.c) pp t' = some (.ok ballot)) ∧
        verifyVote sha256 ballot pp.RPParams = some { result := true, times := [0, 0] } ∧
        ∀ x y, x ++ y = t → y ≠ [] → ∃ e, decBallotText modPCodec (wCodec C.c) pp x = some (.error e) := by
  obtain ⟨pp, hpp, h⟩ := C60_honest nan64 row
  refine ⟨pp, hpp, fun rnd ballot h1 h2 h3 h4 => ?_⟩
  obtain ⟨j, e1, e2, e3⟩ := h rnd ballot h1 h2 h3 h4
  have e : encBallotText modPCodec (wCodec C.c) ballot = some (.ok (JText.print j)) := by
    unfold encBallotText; rw [e1]; rfl
  obtain ⟨⟨l, _, e5, ht⟩, hcut, _⟩ :=
    C61_marshalled modPCodec (wCodec C.c) JText.modP_flat (JText.w_flat C.c) pp ballot _ e
  rw [e1] at e5
  simp only [Option.some.injEq, Except.ok.injEq] at e5
  subst e5
  refine ⟨_, _, e, ht, fun t' ht' => ?_, e3, fun x y hxy hy => ⟨_, hcut x y hxy hy⟩⟩
  rw [C61_same_document _ _ _ _ _ ht']
  exact e2

/-- both curves are rows of that kind -/
example (dec : Bytes → Option WPoint) : RealRow (p256Real dec) 256 recH256 recU256 recGg256 recHh256 ∧
    RealRow (p384Real dec) 384 recH384 recU384 recGg384 recHh384 := ⟨.p256 dec, .p384 dec⟩

end MscPoc
