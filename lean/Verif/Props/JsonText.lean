import Verif.Lemmas.JsonPrint
import Verif.Props.Json

/-!
# C61 — the text of ballots
-/

set_option autoImplicit false

namespace MscPoc

open JSpec

/-! ## Reading -/

/-- **C61** The scanner reads a text as `v` exactly when the JSON grammar says the text stands for `v`, nested at most 10000
deep. -/
theorem C61_scanner (t : Text) (v : Json) : JText.parse t = some v ↔ IsText 10000 t v := JText.parse_iff t v

/-- C61: no text stands for two documents. -/
theorem C61_unambiguous (t : Text) (v v' : Json) (h : IsText 10000 t v) (h' : IsText 10000 t v') : v = v' := by
  have e := (C61_scanner t v).mpr h
  rw [(C61_scanner t v').mpr h'] at e
  exact (Option.some.inj e).symm

/-- C61: nothing nested deeper than 10000 is read. -/
theorem C61_depth (t : Text) (v : Json) (h : JText.parse t = some v) : Nested 10000 v := by
  obtain ⟨_, _, _, _, hv, _, _⟩ := (C61_scanner t v).mp h
  exact JText.val_nested hv

/-- C61: what is printed is read back, for every document of integers, strings, arrays and objects nested at most 10000 deep. -/
theorem C61_print (v : Json) (h : Plain 10000 v) : JText.parse (JText.print v) = some v := JText.parse_print h

/-- a text with white space, escapes, a surrogate pair, numbers, nesting -/
example : (JText.parse " { \"b\\u0061llot\" : [ -12 , 3.5e+2,\t\"\\ud83d\\ude00\\/\" , {} ] , \"b\":null}\n".toList).map JText.print =
    some "{\"ballot\":[-12,3.0,\"😀/\",{}],\"b\":null}".toList := by
  decide +kernel

example : IsText 10000 ['-', '0', ' '] .negZero := (C61_scanner _ _).mp (by rfl)
example : IsText 10000 ['-', '0', '.', '5'] (.frac 0) := (C61_scanner _ _).mp (by rfl)
example : IsText 10000 "[ ]".toList (.arr []) := (C61_scanner _ _).mp (by rfl)

/-- not texts: leading zero, trailing comma, bare word, raw line feed in a string, two values, nothing -/
example : ["01", "[1,]", "nil", "\"\n\"", "1 2", "", "{\"a\" 1}", "+1", "1.", ".5", "{a:1}", "[1", "\"\\x\"", "\"\\u12\""].map
    (fun s => (JText.parse s.toList).isNone) = List.replicate 14 true := by decide +kernel

example : Plain 3 (.obj [("x", .arr [.num (-5), .str "<\n\"", .obj []]), ("y", .null)]) := by
  refine Plain.obj 2 _ ?_
  simp only [List.forall_mem_cons]
  refine ⟨Plain.arr 1 _ ?_, Plain.null _, by simp⟩
  simp only [List.forall_mem_cons]
  exact ⟨Plain.num _ _, Plain.str _ _, Plain.obj 0 _ (by simp), by simp⟩

example : JText.print (.obj [("x", .arr [.num (-5), .str "<\n\"", .obj []]), ("y", .null)]) =
    "{\"x\":[-5,\"\\u003c\\n\\\"\",{}],\"y\":null}".toList := by decide +kernel

/-! ## Ballots -/

section
variable {E₁ E₂ : Type}

/-- C61: all texts of one document are decoded alike — white space, escapes and the spelling of numbers make no difference. -/
theorem C61_same_document (C₁ : Codec E₁) (C₂ : Codec E₂) (pp : PublicParams E₁ E₂) (t : Text) (v : Json) (h : IsText 10000 t v) :
    decBallotText C₁ C₂ pp t = decBallot C₁ C₂ pp (some v) := by
  unfold decBallotText
  rw [(C61_scanner t v).mpr h]

/-- C61: what is not a JSON text is refused with an error, no panic. -/
theorem C61_not_json (C₁ : Codec E₁) (C₂ : Codec E₂) (pp : PublicParams E₁ E₂) (t : Text) (h : ∀ v, ¬IsText 10000 t v) :
    decBallotText C₁ C₂ pp t = some (.error "unexpected end of JSON input") := by
  unfold decBallotText
  cases hp : JText.parse t with
  | none => exact C45_not_object C₁ C₂ pp none (by simp)
  | some v => exact absurd ((C61_scanner t v).mp hp) (h v)

/-- C61: a decoded ballot came as a JSON text of an object with the four parts. -/
theorem C61_decoded (C₁ : Codec E₁) (C₂ : Codec E₂) (pp : PublicParams E₁ E₂) (t : Text) (b : BallotData E₁ E₂)
    (h : decBallotText C₁ C₂ pp t = some (.ok b)) :
    ∃ kvs, IsText 10000 t (.obj kvs) ∧ ∀ f ∈ ["ballot", "lbProof", "ubProof", "voteProof"],
      ∃ kv ∈ kvs, fieldOf ["ballot", "lbProof", "ubProof", "voteProof"] kv.1 = some f ∧ (kv.2 = .null ∨ ∃ o, kv.2 = .obj o) := by
  obtain ⟨kvs, e, hk⟩ := C45_parts C₁ C₂ pp (JText.parse t) b h
  exact ⟨kvs, (C61_scanner _ _).mp e, hk⟩

/-- C61: a text cut off anywhere before the end of its object is refused. -/
theorem C61_cut (C₁ : Codec E₁) (C₂ : Codec E₂) (pp : PublicParams E₁ E₂) (w s x y : Text) (l : List (String × Json)) (hw : Ws w)
    (h : Val 10000 s (.obj l)) (e : x ++ y = w ++ s) (hy : y ≠ []) :
    decBallotText C₁ C₂ pp x = some (.error "unexpected end of JSON input") := by
  unfold decBallotText
  rw [JText.parse_obj_cut hw h e hy]
  exact C45_not_object C₁ C₂ pp none (by simp)

/-- C61: a text with anything but white space after its object is refused. -/
theorem C61_trailing (C₁ : Codec E₁) (C₂ : Codec E₂) (pp : PublicParams E₁ E₂) (w s x : Text) (l : List (String × Json)) (hw : Ws w)
    (h : Val 10000 s (.obj l)) (hx : ¬Ws x) :
    decBallotText C₁ C₂ pp (w ++ s ++ x) = some (.error "unexpected end of JSON input") := by
  unfold decBallotText
  cases hp : JText.parse (w ++ s ++ x) with
  | none => exact C45_not_object C₁ C₂ pp none (by simp)
  | some v => exact absurd (JText.parse_obj_tail hw h hp) hx

/-- C61: the text `json.Marshal` gives for a ballot stands for the encoded document; it is an object, without white space around
it; cut short, or with anything appended but white space, it is refused. -/
theorem C61_marshalled (C₁ : Codec E₁) (C₂ : Codec E₂) (h₁ : C₁.Flat) (h₂ : C₂.Flat) (pp : PublicParams E₁ E₂)
    (b : BallotData E₁ E₂) (t : Text) (h : encBallotText C₁ C₂ b = some (.ok t)) :
    (∃ l, Val 6 t (.obj l) ∧ encBallot C₁ C₂ b = some (.ok (.obj l)) ∧ IsText 10000 t (.obj l)) ∧
    (∀ x y, x ++ y = t → y ≠ [] → decBallotText C₁ C₂ pp x = some (.error "unexpected end of JSON input")) ∧
    (∀ x, ¬Ws x → decBallotText C₁ C₂ pp (t ++ x) = some (.error "unexpected end of JSON input")) := by
  unfold encBallotText at h
  obtain ⟨j, e, h⟩ := JText.encInv h
  simp only [Option.some.injEq, Except.ok.injEq] at h
  subst h
  obtain ⟨hp, l, rfl⟩ := JText.encBallot_plain h₁ h₂ e
  have hv := JText.print_val (hp.mono (show 6 ≤ 10000 by omega))
  refine ⟨⟨l, JText.print_val hp, e, [], _, [], JText.ws_nil, hv, JText.ws_nil, by simp⟩, fun x y hxy hy => ?_, fun x hx => ?_⟩
  · exact C61_cut C₁ C₂ pp [] _ x y l JText.ws_nil hv (by simpa using hxy) hy
  · have := C61_trailing C₁ C₂ pp [] _ x l JText.ws_nil hv hx
    simpa using this

/-- C61: the codecs of the program are flat. -/
theorem C61_codecs (c : WCurve) (valid : Bytes → Bool) :
    modPCodec.Flat ∧ (wCodec c).Flat ∧ k1Codec.Flat ∧ (r255Codec valid).Flat :=
  ⟨JText.modP_flat, JText.w_flat c, JText.k1_flat, JText.r255_flat valid⟩

/-- C61: transport of a ballot as text, P-256 and P-384, whatever rewriting keeps the document (indentation, escapes). -/
theorem C61_transport (c : WCurve) (hc : StdCurve c) (pp : PublicParams Int WPoint) (b : BallotData Int WPoint)
    (hb : BallotOk (fun _ => True) (WPoint.Valid c) b) :
    ∃ t, encBallotText modPCodec (wCodec c) b = some (.ok t) ∧
      decBallotText modPCodec (wCodec c) pp t = some (.ok (received pp b)) ∧
      ∀ t' v, IsText 10000 t v → IsText 10000 t' v → decBallotText modPCodec (wCodec c) pp t' = some (.ok (received pp b)) := by
  obtain ⟨j, e1, e2⟩ := C44_transport c hc pp b hb
  have e : encBallotText modPCodec (wCodec c) b = some (.ok (JText.print j)) := by
    unfold encBallotText; rw [e1]; rfl
  obtain ⟨⟨l, _, e3, ht⟩, _⟩ := C61_marshalled modPCodec (wCodec c) JText.modP_flat (JText.w_flat c) pp b _ e
  rw [e1] at e3
  simp only [Option.some.injEq, Except.ok.injEq] at e3
  subst e3
  refine ⟨_, e, by rw [C61_same_document _ _ _ _ _ ht]; exact e2, fun t' v h h' => ?_⟩
  rw [C61_same_document _ _ _ _ _ h', C61_unambiguous _ _ _ h ht]
  exact e2

end

variable {E₁ E₂ : Type} {q₁ q₂ : ℕ} {M₁ M₂ : Type} [AddCommGroup M₁] [Module (ZMod q₁) M₁] [AddCommGroup M₂]
  [Module (ZMod q₂) M₂]

/-- C61, end to end: what `castVote` returns is marshalled to a text; every text of the same document is decoded to the same
ballot, and it is accepted. -/
theorem C61_end_to_end (sha : Bytes → Bytes) (D : Election E₁ E₂) (L₁ : Lawful D.FF q₁ M₁) (L₂ : Lawful D.EC q₂ M₂)
    (C₁ : Codec E₁) (C₂ : Codec E₂) (hC₁ : C₁.Good L₁.V) (hC₂ : C₂.Good L₂.V) (hf₁ : C₁.Flat) (hf₂ : C₂.Flat)
    (k : ℕ) (ok : D.OK L₁ L₂ k) (vG : L₂.V D.G) (hBb : -(2 ^ 63) ≤ D.Bb ∧ D.Bb < 2 ^ 63)
    (hlt : D.lo < D.hi) (hwidth : D.hi.toNat - D.lo.toNat < 2 ^ (2 ^ k)) (rnd : CastRand)
    (hr : 0 ≤ rnd.rChoice ∧ rnd.rChoice < (D.hi - D.lo).toNat)
    (l1 : rnd.bp1.sL.length = 2 ^ k) (l2 : rnd.bp1.sR.length = 2 ^ k) (l3 : rnd.bp2.sL.length = 2 ^ k)
    (l4 : rnd.bp2.sR.length = 2 ^ k) (hk : ∀ s ∈ rnd.tape, 0 ≤ s.k ∧ s.k < D.rp.zUpperBound)
    (ballot : BallotData E₁ E₂) (h : castVote sha D.pp rnd = .done ballot) :
    ∃ t v, encBallotText C₁ C₂ ballot = some (.ok t) ∧ IsText 10000 t v ∧ ∀ t', IsText 10000 t' v →
      ∃ b, decBallotText C₁ C₂ D.pp t' = some (.ok b) ∧ b = ballot ∧
        verifyVote sha b D.rp = some { result := true, times := [0, 0] } := by
  obtain ⟨j, e1, b, e2, e3, e4⟩ := C44_end_to_end sha D L₁ L₂ C₁ C₂ hC₁ hC₂ k ok vG hBb hlt hwidth rnd hr l1 l2 l3 l4 hk ballot h
  have e : encBallotText C₁ C₂ ballot = some (.ok (JText.print j)) := by
    unfold encBallotText; rw [e1]; rfl
  obtain ⟨⟨l, _, e5, ht⟩, _⟩ := C61_marshalled C₁ C₂ hf₁ hf₂ D.pp ballot _ e
  rw [e1] at e5
  simp only [Option.some.injEq, Except.ok.injEq] at e5
  subst e5
  refine ⟨_, _, e, ht, fun t' ht' => ⟨b, ?_, e3, e4⟩⟩
  rw [C61_same_document _ _ _ _ _ ht']
  exact e2

/-- C61 on the toy election: cast, print, append a line feed, read, verify; and without the last character, an error. -/
example : (match castVote exSha3 exElection.pp exCast with
    | .done b => (match encBallotText modPCodec modPCodec b with
      | some (.ok t) => (match decBallotText modPCodec modPCodec exElection.pp (t ++ ['\n']),
            decBallotText modPCodec modPCodec exElection.pp t.dropLast with
        | some (.ok b), some (.error e) => (verifyVote exSha3 b exElection.rp).map (·, e)
        | _, _ => none)
      | _ => none)
    | _ => none) = some (⟨true, [0, 0]⟩, "unexpected end of JSON input") := by decide +kernel

end MscPoc
