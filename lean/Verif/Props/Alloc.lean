import Verif.Lemmas.Alloc
import Verif.Props.HeapSetup

/-!
# C86 — how many group elements the program creates

A group element is created by `Element()`, `Identity()` or `Generator()`; the model counts in `next` the calls made outside the
package `group`.  The counts are
the same whatever the voter chose, whatever was drawn and whatever the digests are, except that every discarded attempt of the
vote prover adds its own.
-/

set_option autoImplicit false

namespace MscPoc

/-- **C86** A successful `setup` creates 2 elements of the ElGamal group and 35 of the curve. -/
theorem C86_setup {E : Type} (nan64 : BitVec 64) (C : Grp E) (h h' : HS Int × HS E) (pp : PublicParamsH Int E)
    (e : HM2.setup nan64 C h = some (.ok pp, h')) : h'.1.next = h.1.next + 2 ∧ h'.2.next = h.2.next + 35 := by
  obtain ⟨d, d', e1, e2, k⟩ := Creates2.setup nan64 C h _ h' e
  obtain ⟨⟨k1, k2⟩, _⟩ := k pp rfl
  omega

theorem setupH_shape {E : Type} {nan64 : BitVec 64} {C : Grp E} {h h' : HS Int × HS E} {pp : PublicParamsH Int E}
    (e : HM2.setup nan64 C h = some (.ok pp, h')) : pp.BPParams.N = 2 ^ 4 ∧ pp.BPParams.Gg.length = 2 ^ 4 := by
  obtain ⟨d, d', e1, e2, k⟩ := Creates2.setup nan64 C h _ h' e
  exact (k pp rfl).2

/-- **C86** `castVote` with the parameters of `setup`, in any later state of the memory: 8 elements of the ElGamal group and 812 of
the curve, and 4 and 6 more for every time "Aborted" is printed.  Neither the choice nor any draw nor any digest occurs in
these numbers. -/
theorem C86_cast {E : Type} (sha : Bytes → Bytes) (nan64 : BitVec 64) (C : Grp E) (h₀ h₁ : HS Int × HS E)
    (pp : PublicParamsH Int E) (es : HM2.setup nan64 C h₀ = some (.ok pp, h₁))
    (rnd : CastRand) (h h' : HS Int × HS E) (b : BallotDataH Int E) (e : castVoteH sha pp rnd h = .done (b, h')) :
    h'.1.next = h.1.next + 8 + 4 * castAbortsH sha pp rnd h ∧ h'.2.next = h.2.next + 812 + 6 * castAbortsH sha pp rnd h := by
  obtain ⟨hN, hg⟩ := setupH_shape es
  obtain ⟨e1, e2, _⟩ := castVoteH_creates sha pp rnd 4 hN hg h b h' e
  exact ⟨by omega, by omega⟩

/-- **C86** `verifyVote` of a ballot cast with the parameters of `setup`, later, with any digest function and any proof parameters:
when it accepts, it has created 8 elements of the ElGamal group and 415 of the curve. -/
theorem C86_verify {E : Type} (sha sha' : Bytes → Bytes) (nan64 : BitVec 64) (C : Grp E) (h₀ h₁ : HS Int × HS E)
    (pp : PublicParamsH Int E) (es : HM2.setup nan64 C h₀ = some (.ok pp, h₁))
    (rnd : CastRand) (h₂ h₃ : HS Int × HS E) (b : BallotDataH Int E) (ec : castVoteH sha pp rnd h₂ = .done (b, h₃))
    (rp : ProofParamsH Int E) (h h' : HS Int × HS E) (out : VerifyOut)
    (e : HM2.verifyVote sha' b rp h = some (out, h')) (hr : out.result = true) :
    h'.1.next = h.1.next + 8 ∧ h'.2.next = h.2.next + 415 := by
  obtain ⟨hN, hg⟩ := setupH_shape es
  obtain ⟨_, _, s1, s2⟩ := castVoteH_creates sha pp rnd 4 hN hg h₂ b h₃ ec
  obtain ⟨d, d', e1, e2, k⟩ := Creates2.verifyVote_eq sha' b rp pp.BPParams 4 hN hg s1 s2 h out h' e
  obtain ⟨k1, k2⟩ := k hr
  omega

/-- **C86** `verifyVote` of any ballot at all, on any groups and parameters: at most 8 elements of the ElGamal group, and of the
curve at most a number that is linear in the length `N` and in the lengths of three of the arrays of its two range proofs. -/
theorem C86_any {E₁ E₂ : Type} (sha : Bytes → Bytes) (b : BallotDataH E₁ E₂) (rp : ProofParamsH E₁ E₂)
    (h h' : HS E₁ × HS E₂) (out : VerifyOut) (e : HM2.verifyVote sha b rp h = some (out, h')) :
    (h.1.next ≤ h'.1.next ∧ h'.1.next ≤ h.1.next + 8) ∧
    h.2.next ≤ h'.2.next ∧ h'.2.next ≤ h.2.next +
      (5 * b.BpLower.N + 3 * (b.BpLower.ip.Gg.length + b.BpLower.ip.Hh.length) + 2 * b.BpLower.ip.L.length) +
      (5 * b.BpUpper.N + 3 * (b.BpUpper.ip.Gg.length + b.BpUpper.ip.Hh.length) + 2 * b.BpUpper.ip.L.length) + 59 := by
  obtain ⟨d, d', e1, e2, k⟩ := Creates2.verifyVote_le sha b rp h out h' e
  omega

/-- **C86** The section of `main` for one group, when it reports that all votes were correctly formed: besides what `setup` creates,
16 elements of the ElGamal group and 1227 of the curve for every vote, and 4 and 6 for every "Aborted" printed. -/
theorem C86_main {E : Type} (sha : Bytes → Bytes) (nan64 : BitVec 64) (C : Grp E) (rnds : List CastRand) (h h' : HS Int × HS E)
    (e : runGroupH sha nan64 C rnds h = .done (.formed true, h')) :
    h'.1.next = h.1.next + 2 + 16 * rnds.length + 4 * groupAbortsH sha nan64 C rnds h ∧
    h'.2.next = h.2.next + 35 + 1227 * rnds.length + 6 * groupAbortsH sha nan64 C rnds h := by
  unfold runGroupH at e
  unfold groupAbortsH
  have hs := C86_setup nan64 C h
  have hp := fun pp h' => setupH_shape (nan64 := nan64) (C := C) (h := h) (h' := h') (pp := pp)
  generalize HM2.setup nan64 C h = o at *
  match o, e with
  | none, e => cases e
  | some (.error er, h1), e => simp [runSetupH] at e
  | some (.ok pp, h1), e =>
    obtain ⟨hN, hg⟩ := hp pp h1 rfl
    obtain ⟨s1, s2⟩ := hs h1 pp rfl
    have hb := benchLoopH_creates sha pp 4 hN hg rnds true h1
    unfold runSetupH at e
    unfold setupAbortsH
    dsimp only at e ⊢
    generalize benchLoopH sha pp rnds true h1 = r at *
    match r, e with
    | .done (success, h2), e =>
      obtain ⟨rfl, rfl⟩ : success = true ∧ h2 = h' := by simpa using e
      obtain ⟨e1, e2⟩ := hb h2 rfl
      norm_num at e2
      omega

/-! ## The hypotheses are met -/

/-- two votes; the first attempt of the second prover is discarded -/
def exCasts : List CastRand := [exCast, { exCast with rChoice := 1, tape := ⟨900, 4, 5, 6⟩ :: exCast.tape }]

/-- C86: on the toy election with 4-bit range proofs two votes are cast and verified, and one attempt is discarded for the second;
16 elements of the one group and 371 of the other are created per vote, and 4 and 6 more for the discarded attempt. -/
example : ∃ h', benchLoopH exSha3 exPPH exCasts true exHeaps = .done (true, h') ∧
    benchAbortsH exSha3 exPPH exCasts exHeaps = 1 ∧
    h'.1.next = 3 + 16 * 2 + 4 * 1 ∧ h'.2.next = 10 + 371 * 2 + 6 * 1 := by
  have hv : benchLoop exSha3 (exPPH.deref exHeaps) exCasts true = .done true := by
    have : (match benchLoop exSha3 (exPPH.deref exHeaps) exCasts true with
      | .done b => b | _ => false) = true := by decide +kernel
    generalize benchLoop exSha3 (exPPH.deref exHeaps) exCasts true = r at *
    match r, this with
    | .done b, this => exact congrArg _ this
  obtain ⟨h', e⟩ := ((C58_driver exSha3 exPPH _ true exHeaps exPPH_live).2.2 true).2 hv
  have hc := benchLoopH_creates exSha3 exPPH 2 (by decide) (by decide) _ true exHeaps h' e
  have ha : benchAbortsH exSha3 exPPH exCasts exHeaps = 1 := by
    rw [benchAbortsH_refines exSha3 exPPH _ _ exPPH_live]
    decide +kernel
  rw [ha] at hc
  exact ⟨h', e, ha, hc.1, hc.2⟩

end MscPoc
