import Verif.Spec.Utf8
import Verif.Lemmas.Utf8
import Verif.Props.TextDeployed

/-!
# C75 — ballots as bytes

`BallotDataUnmarshalJSON` is given bytes.  The bytes are characters in UTF-8; a byte that begins no character is not an error but reads as
U+FFFD.
-/

set_option autoImplicit false

namespace MscPoc

open JSpec Utf8Spec

/-- **C75** Every byte string is decoded to the one text that the specification allows. -/
theorem C75_decode (b : Bytes) (t : Text) : Utf8.decode b = t ↔ Decodes b t := by
  have bad : ∀ {b : UInt8} {r : Bytes}, (∀ c s, b :: r ≠ String.utf8EncodeChar c ++ s) → Utf8.decodeRune b r = (Utf8.runeError, r) := by
    intro b r h
    rcases Utf8.decodeRune_cases b r with ⟨c, s, e, _⟩ | d
    · exact absurd e (h c s)
    · exact d
  constructor
  · rintro rfl
    obtain ⟨n, hn⟩ : ∃ n, b.length ≤ n := ⟨_, le_refl _⟩
    induction n generalizing b with
    | zero =>
      have : b = [] := List.length_eq_zero_iff.mp (by omega)
      subst this
      exact Decodes.nil
    | succ n ih =>
      match b with
      | [] => exact Decodes.nil
      | p0 :: r =>
        have hl := Utf8.decodeRune_shorter p0 r
        simp only [List.length_cons] at hn
        rw [Utf8.decode_cons]
        rcases Utf8.decodeRune_cases p0 r with ⟨c, s, e, d⟩ | d
        · rw [d] at hl ⊢
          rw [e]
          exact Decodes.char c s _ (ih s (by simp only at hl; omega))
        · rw [d]
          exact Decodes.bad p0 r _ (Utf8.decodeRune_bad p0 r d) (ih r (by omega))
  · intro h
    induction h with
    | nil => rfl
    | char c r t _ ih => rw [Utf8.decode_encodeChar, ih]
    | bad b r t hb _ ih => rw [Utf8.decode_cons, bad hb, ih]; rfl

/-- C75: no text is lost on the way to bytes and back; and bytes come back from their text exactly if they were a text in UTF-8. -/
theorem C75_roundtrip (t : Text) (b : Bytes) :
    Utf8.decode (Utf8.encode t) = t ∧ (Utf8.encode (Utf8.decode b) = b ↔ ∃ t', b = Utf8.encode t') :=
  ⟨Utf8.decode_encode t, fun h => ⟨_, h.symm⟩, fun ⟨t', e⟩ => by rw [e, Utf8.decode_encode]⟩

/-- C75: bytes below 128 — quotation marks, brackets, digits, white space — are read as they stand, and divide the input: what is before
and after one is decoded by itself, whatever it is.  So decoding the whole input and then scanning it is scanning it and then decoding the
string literals. -/
theorem C75_split (x y : Bytes) (b : UInt8) (h : b.toNat < 128) :
    Utf8.decode (x ++ b :: y) = Utf8.decode x ++ Char.ofNat b.toNat :: Utf8.decode y := Utf8.decode_split x y b h

/-- C75: no invalid byte sequence makes up or hides a character below 128. -/
theorem C75_ascii (b : Bytes) :
    (Utf8.decode b).filter (fun c => decide (c.toNat < 128)) =
      (b.filter (fun x => decide (x.toNat < 128))).map (fun x => Char.ofNat x.toNat) := Utf8.decode_ascii b

/-- C75: the document of a byte string. -/
theorem C75_document (b : Bytes) (v : Json) : JText.parse (Utf8.decode b) = some v ↔ ∃ t, Decodes b t ∧ IsText 10000 t v := by
  rw [C61_scanner]
  exact ⟨fun h => ⟨_, (C75_decode b _).mp rfl, h⟩, fun ⟨t, h, ht⟩ => by rwa [(C75_decode b t).mpr h]⟩

/-- `é` is two bytes, 😀 four; a lone first byte, an overlong form, an encoded surrogate half and 0xff are replaced byte by byte -/
example : Utf8.decode [0x61, 0xc3, 0xa9, 0xf0, 0x9f, 0x98, 0x80] = ['a', 'é', '😀'] ∧
    Utf8.decode [0xc3, 0x22, 0xc0, 0xaf, 0xed, 0xa0, 0x80, 0xff] =
      [Char.ofNat 0xfffd, '"', Char.ofNat 0xfffd, Char.ofNat 0xfffd, Char.ofNat 0xfffd, Char.ofNat 0xfffd, Char.ofNat 0xfffd,
        Char.ofNat 0xfffd] := by decide

section
variable {E₁ E₂ : Type}

/-- C75: a byte string is decoded as the document of its text, and refused with an error if it has none. -/
theorem C75_ballot (C₁ : Codec E₁) (C₂ : Codec E₂) (pp : PublicParams E₁ E₂) (b : Bytes) (t : Text) (h : Decodes b t) :
    (∀ v, IsText 10000 t v → decBallotBytes C₁ C₂ pp b = decBallot C₁ C₂ pp (some v)) ∧
    ((∀ v, ¬IsText 10000 t v) → decBallotBytes C₁ C₂ pp b = some (.error "unexpected end of JSON input")) := by
  unfold decBallotBytes
  rw [(C75_decode b t).mpr h]
  exact ⟨fun v hv => C61_same_document C₁ C₂ pp t v hv, fun hn => C61_not_json C₁ C₂ pp t hn⟩

/-- C75: two byte strings that differ only in how they fail to be UTF-8 are one ballot: any two with the same characters are decoded
alike. -/
theorem C75_same_text (C₁ : Codec E₁) (C₂ : Codec E₂) (pp : PublicParams E₁ E₂) (b b' : Bytes) (t : Text) (h : Decodes b t)
    (h' : Decodes b' t) : decBallotBytes C₁ C₂ pp b = decBallotBytes C₁ C₂ pp b' := by
  unfold decBallotBytes
  rw [(C75_decode b t).mpr h, (C75_decode b' t).mpr h']

/-- C75: the bytes of a marshalled ballot, cut off anywhere, or followed by anything but white space, are refused. -/
theorem C75_marshalled (C₁ : Codec E₁) (C₂ : Codec E₂) (h₁ : C₁.Flat) (h₂ : C₂.Flat) (pp : PublicParams E₁ E₂)
    (b : BallotData E₁ E₂) (t : Text) (h : encBallotText C₁ C₂ b = some (.ok t)) :
    (∀ x y, x ++ y = Utf8.encode t → y ≠ [] → decBallotBytes C₁ C₂ pp x = some (.error "unexpected end of JSON input")) ∧
    (∀ x : Bytes, (∃ a ∈ x, a ≠ 32 ∧ a ≠ 9 ∧ a ≠ 10 ∧ a ≠ 13) →
      decBallotBytes C₁ C₂ pp (Utf8.encode t ++ x) = some (.error "unexpected end of JSON input")) := by
  obtain ⟨⟨l, hv, _, _⟩, _, htail⟩ := C61_marshalled C₁ C₂ h₁ h₂ pp b t h
  have hv' : Val 10000 t (.obj l) := by
    unfold encBallotText at h
    obtain ⟨j, e, h⟩ := JText.encInv h
    simp only [Option.some.injEq, Except.ok.injEq] at h
    subst h
    obtain ⟨hp, l', rfl⟩ := JText.encBallot_plain h₁ h₂ e
    have hv' := JText.print_val (hp.mono (show 6 ≤ 10000 by omega))
    have h6 := JText.print_val hp
    obtain ⟨e', _⟩ := JText.obj_same (r := []) (r' := []) h6 hv rfl
    rw [e']
    exact hv'
  refine ⟨fun x y e hy => ?_, fun x ⟨a, ha, hne⟩ => ?_⟩
  · unfold decBallotBytes decBallotText
    rw [Utf8.parse_cut hv' e hy]
    exact C45_not_object C₁ C₂ pp none (by simp)
  · unfold decBallotBytes
    rw [Utf8.decode_encode_append]
    refine htail _ fun hws => ?_
    have hsm : ∀ c : Char, (c = ' ' ∨ c = '\t' ∨ c = '\n' ∨ c = '\r') → c.toNat < 0x80 := by
      rintro c (rfl | rfl | rfl | rfl) <;> decide
    have hf := Utf8.decode_ascii x
    have hall : (Utf8.decode x).filter (fun c => decide (c.toNat < 0x80)) = Utf8.decode x := by
      rw [List.filter_eq_self]
      intro c hc
      simpa using hsm c (hws c hc)
    by_cases hlt : a.toNat < 0x80
    · have hm : Char.ofNat a.toNat ∈ Utf8.decode x := by
        rw [← hall, hf, List.mem_map]
        exact ⟨a, List.mem_filter.mpr ⟨ha, by simpa using hlt⟩, rfl⟩
      have hb : ∀ n : ℕ, n < 0x80 → Char.ofNat a.toNat = Char.ofNat n → a.toNat = n := by
        intro n hn h
        have := congrArg Char.toNat h
        rwa [Utf8.toNat_char (by omega), Utf8.toNat_char (by omega)] at this
      have hu : ∀ k : UInt8, a.toNat = k.toNat → a = k := fun k h => UInt8.toNat_inj.mp h
      rcases hws _ hm with h | h | h | h
      · exact hne.1 (hu 32 (hb 32 (by omega) h))
      · exact hne.2.1 (hu 9 (hb 9 (by omega) h))
      · exact hne.2.2.1 (hu 10 (hb 10 (by omega) h))
      · exact hne.2.2.2 (hu 13 (hb 13 (by omega) h))
    · obtain ⟨p, q, rfl⟩ := List.append_of_mem ha
      rw [hall] at hf
      have hlen : ∀ b : Bytes, (∃ a ∈ b, ¬a.toNat < 0x80) → ∃ c ∈ Utf8.decode b, ¬c.toNat < 0x80 := by
        intro b
        obtain ⟨n, hn⟩ : ∃ n, b.length ≤ n := ⟨_, le_refl _⟩
        induction n generalizing b with
        | zero =>
          have : b = [] := List.length_eq_zero_iff.mp (by omega)
          subst this
          simp
        | succ n ih =>
          match b with
          | [] => simp
          | p0 :: r =>
            rintro ⟨a, ha, hlt⟩
            have hl := Utf8.decodeRune_shorter p0 r
            simp only [List.length_cons] at hn
            rw [Utf8.decode_cons]
            rcases Utf8.decodeRune_cases p0 r with ⟨c, s, e, d⟩ | d
            · rw [d] at hl ⊢
              by_cases hc : c.toNat < 0x80
              · rw [e, List.mem_append, Utf8.encodeChar_small c hc, List.mem_singleton] at ha
                rcases ha with rfl | ha
                · rw [Utf8.ofNat_toNat' (by omega)] at hlt
                  exact absurd hc hlt
                · obtain ⟨c', h1, h2⟩ := ih s (by simp only at hl; omega) ⟨a, ha, hlt⟩
                  exact ⟨c', List.mem_cons_of_mem _ h1, h2⟩
              · exact ⟨c, by simp, hc⟩
            · rw [d]
              exact ⟨Utf8.runeError, by simp, by decide⟩
      obtain ⟨c, hc, hn⟩ := hlen _ ⟨a, ha, hlt⟩
      exact hn (hsm c (hws c hc))

end

/-- **C75** With SHA-256 and circl's hash to the curve (P-256, P-384): every ballot that `castVote` completes is marshalled to bytes; those
bytes, and any byte string with the same document, are decoded to the same ballot, which is accepted; every proper prefix of them is
refused. -/
theorem C75_deployed (nan64 : BitVec 64) {C : CirclCurve} {bits : ℕ} {H U : WPoint} {Gg Hh : List WPoint}
    (row : RealRow C bits H U Gg Hh) :
    ∃ pp, setup nan64 (circlGrp C) = some (.ok pp) ∧ ∀ (rnd : CastRand) (ballot : BallotData Int WPoint),
      (0 ≤ rnd.rChoice ∧ rnd.rChoice < 1899) →
      (rnd.bp1.sL.length = 16 ∧ rnd.bp1.sR.length = 16 ∧ rnd.bp2.sL.length = 16 ∧ rnd.bp2.sR.length = 16) →
      (∀ s ∈ rnd.tape, 0 ≤ s.k ∧ s.k < 2 ^ (bits - 1)) →
      castVote sha256 pp rnd = .done ballot →
      ∃ t v, encBallotText modPCodec (wCodec C.c) ballot = some (.ok t) ∧ IsText 10000 t v ∧
        (∀ b t', Decodes b t' → IsText 10000 t' v → decBallotBytes modPCodec (wCodec C.c) pp b = some (.ok ballot)) ∧
        decBallotBytes modPCodec (wCodec C.c) pp (Utf8.encode t) = some (.ok ballot) ∧
        verifyVote sha256 ballot pp.RPParams = some { result := true, times := [0, 0] } ∧
        ∀ x y, x ++ y = Utf8.encode t → y ≠ [] → ∃ e, decBallotBytes modPCodec (wCodec C.c) pp x = some (.error e) := by
  obtain ⟨pp, hpp, h⟩ := C61_deployed nan64 row
  refine ⟨pp, hpp, fun rnd ballot h1 h2 h3 h4 => ?_⟩
  obtain ⟨t, v, e1, e2, e3, e4, _⟩ := h rnd ballot h1 h2 h3 h4
  refine ⟨t, v, e1, e2, fun b t' hb ht => ?_, ?_, e4, fun x y e hy => ⟨_, (C75_marshalled modPCodec (wCodec C.c) JText.modP_flat
    (JText.w_flat C.c) pp ballot t e1).1 x y e hy⟩⟩
  · unfold decBallotBytes
    rw [(C75_decode b t').mpr hb]
    exact e3 t' ht
  · unfold decBallotBytes
    rw [Utf8.decode_encode]
    exact e3 t e2

/-- evaluated in the toy election: an extra key of invalid bytes in front changes nothing; the same byte outside a string literal, and the
bytes cut after the first, are refused -/
example : (match castVote exSha3 exElection.pp exCast with
    | .done b => (match encBallotText modPCodec modPCodec b with
      | some (.ok t) =>
        let d := decBallotBytes modPCodec modPCodec exElection.pp
        let body := (Utf8.encode t).tail
        (match d ([123, 34, 0xff, 0xc3, 34, 58, 110, 117, 108, 108, 44] ++ body), d ([123, 0xff] ++ body), d (123 :: body).dropLast with
        | some (.ok b'), some (.error _), some (.error _) => (verifyVote exSha3 b' exElection.rp).map (·, decide (d (123 :: body) matches some (.ok _)))
        | _, _, _ => none)
      | _ => none)
    | _ => none) = some (⟨true, [0, 0]⟩, true) := by decide +kernel

/-- both curves are rows of that kind -/
example (dec : Bytes → Option WPoint) : RealRow (p256Real dec) 256 recH256 recU256 recGg256 recHh256 ∧
    RealRow (p384Real dec) 384 recH384 recU384 recGg384 recHh384 := ⟨.p256 dec, .p384 dec⟩

end MscPoc
