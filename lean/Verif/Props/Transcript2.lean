import Verif.Lemmas.Transcript2

/-!
# C79 — the hashed transcripts of range proofs and inner-product proofs

`HashBP` (bulletproofs/util.go:55-77) and `hashIP` (bulletproofs/bip.go:271-286) hash strings of elements one after the other, without
separators or lengths.  "The same under every hash function" says that the hashed strings are equal.
-/

set_option autoImplicit false

namespace MscPoc

section
variable (c : WCurve) (hc : StdCurve c) (G : Grp WPoint) (hstr : ∀ e, G.str e = e.marshalBinary c)
include hc hstr

/-- **C79** P-256 and P-384: the challenges of a range proof are the same under every hash function only for the same first move
(`A`, `S`), and likewise for (`T1`, `T2`) and for `L`, `R` of a round of the inner-product argument. -/
theorem C79_round (A S A' S' : WPoint) (vA : A.Valid c) (vS : S.Valid c) (vA' : A'.Valid c) (vS' : S'.Valid c) :
    (∀ sha, hashBP sha G A S = hashBP sha G A' S') ↔ A = A' ∧ S = S' := by
  rw [hashBP_all_iff, hstr, hstr, hstr, hstr]
  constructor
  · intro h
    obtain ⟨e1, e2⟩ := marshalBinary_prefix c hc _ _ vA vA' _ _ h
    refine ⟨e1, (marshalBinary_prefix c hc _ _ vS vS' [] [] ?_).1⟩
    rw [e2]
  · rintro ⟨rfl, rfl⟩; rfl

/-- **C79** P-256 and P-384: the first challenge of an inner-product proof is the same under every hash function only for the same
commitment, the same number of generators, the same generators and the same claim. -/
theorem C79_ipp (g h g' h' : List WPoint) (P P' : WPoint) (x x' : Int) (hl : g.length ≤ h.length) (hl' : g'.length ≤ h'.length)
    (vg : ∀ e ∈ g, e.Valid c) (vh : ∀ e ∈ h, e.Valid c) (vg' : ∀ e ∈ g', e.Valid c) (vh' : ∀ e ∈ h', e.Valid c)
    (vP : P.Valid c) (vP' : P'.Valid c) :
    (∀ sha, hashIP sha G g h P x = hashIP sha G g' h' P' x') ↔
      P = P' ∧ g = g' ∧ h.take g.length = h'.take g'.length ∧ x = x' := by
  have hz : ∀ (g h : List WPoint), (∀ e ∈ g, e.Valid c) → (∀ e ∈ h, e.Valid c) → ∀ p ∈ List.zip g h, p.1.Valid c ∧ p.2.Valid c :=
    fun g h vg vh p hp => ⟨vg _ (List.of_mem_zip hp).1, vh _ (List.of_mem_zip hp).2⟩
  have hfst : ∀ (g h : List WPoint), g.length ≤ h.length → (List.zip g h).map Prod.fst = g :=
    fun g h hl => List.map_fst_zip hl
  have hsnd : ∀ (g h : List WPoint), g.length ≤ h.length → (List.zip g h).map Prod.snd = h.take g.length := by
    intro g h hl
    rw [List.zip_eq_zip_take_min, List.map_snd_zip (by simp), min_eq_left hl]
  rw [hashIP_all_iff hl hl']
  constructor
  · intro e
    unfold ipText at e
    rw [hstr, hstr, List.append_assoc, List.append_assoc] at e
    obtain ⟨e1, e⟩ := marshalBinary_prefix c hc _ _ vP vP' _ _ e
    obtain ⟨e2, e3⟩ := pairs_inj c hc G hstr _ _ _ _ (hz g h vg vh) (hz g' h' vg' vh') (bigDec_ne_nil x) (bigDec_ne_nil x') e
    refine ⟨e1, ?_, ?_, bigDec_inj e3⟩
    · rw [← hfst g h hl, e2, hfst g' h' hl']
    · rw [← hsnd g h hl, e2, hsnd g' h' hl']
  · rintro ⟨rfl, rfl, e, rfl⟩
    unfold ipText
    rw [List.zip_eq_zip_take_min (l₁ := g) (l₂ := h), List.zip_eq_zip_take_min (l₁ := g) (l₂ := h'), min_eq_left hl, min_eq_left hl', e]

end

section ristretto
open R255
variable (pieces : Bytes → List Bytes)

attribute [local irreducible] R255.encode

/-- **C79** Ristretto255: the same, where elements that `IsEqual` calls equal are the same. -/
theorem C79_round_r255 (A S A' S' : WPoint) (vA : A.Even) (vS : S.Even) (vA' : A'.Even) (vS' : S'.Even) :
    (∀ sha, hashBP sha (r255Grp (r255Real pieces)) A S = hashBP sha (r255Grp (r255Real pieces)) A' S') ↔
      (r255Grp (r255Real pieces)).isEqual A A' = true ∧ (r255Grp (r255Real pieces)).isEqual S S' = true := by
  have he : ∀ P Q, (r255Grp (r255Real pieces)).isEqual P Q = edEqual P Q := fun _ _ => rfl
  rw [hashBP_all_iff, r255_str, he, he, ← C65_canonical _ _ vA vA', ← C65_canonical _ _ vS vS']
  constructor
  · intro h; exact List.append_inj h (by rw [encode_length, encode_length])
  · rintro ⟨h1, h2⟩; rw [h1, h2]

/-- **C79** Ristretto255, inner-product proofs with equally many generators. -/
theorem C79_ipp_r255 (g h g' h' : List WPoint) (P P' : WPoint) (x x' : Int) (hl : g.length = h.length) (hl' : g'.length = h'.length)
    (hn : g.length = g'.length)
    (vg : ∀ e ∈ g, e.Even) (vh : ∀ e ∈ h, e.Even) (vg' : ∀ e ∈ g', e.Even) (vh' : ∀ e ∈ h', e.Even)
    (vP : P.Even) (vP' : P'.Even) :
    (∀ sha, hashIP sha (r255Grp (r255Real pieces)) g h P x = hashIP sha (r255Grp (r255Real pieces)) g' h' P' x') ↔
      edEqual P P' = true ∧ List.Forall₂ (fun a b => edEqual a b = true) g g' ∧
      List.Forall₂ (fun a b => edEqual a b = true) h h' ∧ x = x' := by
  rw [hashIP_all_iff hl.le hl'.le]
  unfold ipText
  rw [r255_str]
  have key : ∀ (g g' : List WPoint), (∀ e ∈ g, e.Even) → (∀ e ∈ g', e.Even) →
      (List.Forall₂ (fun a b => edEqual a b = true) g g' ↔ g.map encode = g'.map encode) := by
    intro g
    induction g with
    | nil => intro g' _ _; cases g' <;> simp
    | cons a g ih => intro g' h1 h2; cases g' with
      | nil => simp
      | cons b g' =>
        simp only [List.forall₂_cons, List.map_cons, List.cons.injEq]
        rw [ih g' (fun e he => h1 e (by simp [he])) (fun e he => h2 e (by simp [he])),
          ← C65_canonical a b (h1 a (by simp)) (h2 b (by simp))]
  rw [← C65_canonical P P' vP vP', key g g' vg vg', key h h' vh vh']
  have hfm : ∀ g h : List WPoint, ((List.zip g h).flatMap fun p => encode p.1 ++ encode p.2) =
      ((List.zip (g.map encode) (h.map encode)).flatMap fun p => p.1 ++ p.2) := by
    intro g h
    rw [List.zip_map, List.flatMap_map]
    rfl
  have hmap : ∀ (f : WPoint × WPoint → Bytes) (l l' : List (WPoint × WPoint)), List.Forall₂ (fun p p' => f p = f p') l l' →
      l.map f = l'.map f := by
    intro f l l' hf
    induction hf with
    | nil => rfl
    | cons a _ ih => rw [List.map_cons, List.map_cons, a, ih]
  constructor
  · intro e
    rw [List.append_assoc, List.append_assoc] at e
    obtain ⟨e1, e⟩ := List.append_inj e (by rw [encode_length, encode_length])
    obtain ⟨e2, e3⟩ := pairs_inj_r255 _ _ _ _ (by simp [List.length_zip]; omega) e
    refine ⟨e1, ?_, ?_, bigDec_inj e3⟩
    · have : (List.zip g h).map (fun p => encode p.1) = (List.zip g' h').map (fun p => encode p.1) := 
        hmap (fun p => encode p.1) _ _ (e2.imp fun _ _ a => a.1)
      rw [← List.map_fst_zip hl.le, ← List.map_fst_zip hl'.le, List.map_map, List.map_map]
      exact this
    · have : (List.zip g h).map (fun p => encode p.2) = (List.zip g' h').map (fun p => encode p.2) := 
        hmap (fun p => encode p.2) _ _ (e2.imp fun _ _ a => a.2)
      rw [← List.map_snd_zip hl.ge, ← List.map_snd_zip hl'.ge, List.map_map, List.map_map]
      exact this
  · rintro ⟨e1, e2, e3, rfl⟩
    rw [e1, hfm, hfm, e2, e3]

/-- two elements whose encodings are made of digits -/
def digitA : WPoint := ⟨35226135939019979215177859268727671531549815051032383945489631700286782048102,
  19317856855031814150083106381287748016283642087011698482065320651273994468870⟩
def digitB : WPoint := ⟨27021484539673892646427437661849757045144865637457128661868149534966917672356,
  7227052113189385653640780932173169900569822485972905340470050676497789265903⟩

theorem digit_text : encode digitA ++ encode digitB ++ bigDec 0 =
    bigDec 20000000000000000000000000000006400000000000000000000000000000010 := by decide +kernel

/-- **C79** Ristretto255: the number of generators is not determined by what is hashed. One pair of generators with the claim 0 and no
generators with a long claim get the same challenge under every hash function. -/
theorem C79_sizes_r255 (P : WPoint) : digitA.Even ∧ digitB.Even ∧
    ∀ sha, hashIP sha (r255Grp (r255Real pieces)) [digitA] [digitB] P 0 =
      hashIP sha (r255Grp (r255Real pieces)) [] [] P 20000000000000000000000000000006400000000000000000000000000000010 := by
  have hA : decode (ascii "20000000000000000000000000000006") = some digitA := by decide +kernel
  have hB : decode (ascii "40000000000000000000000000000001") = some digitB := by decide +kernel
  refine ⟨(C65_decode _ _ hA).1, (C65_decode _ _ hB).1, ?_⟩
  rw [hashIP_all_iff (by simp) (by simp)]
  unfold ipText
  rw [r255_str, List.zip_cons_cons, List.zip_nil_right, List.flatMap_cons, List.flatMap_nil, List.append_nil,
    List.append_nil, List.append_assoc (encode P), digit_text]

end ristretto

/-- **C79** In the group of integers modulo a prime, decimal strings run together: `HashBP` gives (1, 64) and (16, 4) the same
challenges, under every hash function. -/
theorem C79_ambiguous_modp (g : ModPGroup) (sha : Bytes → Bytes) : hashBP sha (modPGrp g) 1 64 = hashBP sha (modPGrp g) 16 4 := by
  refine (hashBP_all_iff (GP := modPGrp g) 1 64 16 4).mpr ?_ sha
  change bigDec 1 ++ bigDec 64 = bigDec 16 ++ bigDec 4
  decide +kernel

/-- C79: exchanging `A` and `S` changes the challenges under some hash function. -/
example (d : Bytes → Option WPoint) (G : Grp WPoint) (hstr : ∀ e, G.str e = e.marshalBinary (p256Curve d)) :
    ∃ sha, hashBP sha G p256Gen ⟨0, 0⟩ ≠ hashBP sha G ⟨0, 0⟩ p256Gen := by
  have v : p256Gen.Valid (p256Curve d) := Or.inr (by unfold p256Gen p256Curve; norm_num)
  by_contra h
  push Not at h
  exact absurd ((C79_round (p256Curve d) ⟨d, Or.inl rfl⟩ G hstr _ _ _ _ v (Or.inl rfl) (Or.inl rfl) v).mp h).1 (by decide)

/-- C79: so does moving a generator from one list to the other, or another claim. -/
example (d : Bytes → Option WPoint) (G : Grp WPoint) (hstr : ∀ e, G.str e = e.marshalBinary (p256Curve d)) :
    (∃ sha, hashIP sha G [p256Gen] [⟨0, 0⟩] p256Gen 7 ≠ hashIP sha G [⟨0, 0⟩] [p256Gen] p256Gen 7) ∧
    (∃ sha, hashIP sha G [p256Gen] [⟨0, 0⟩] p256Gen 7 ≠ hashIP sha G [p256Gen] [⟨0, 0⟩] p256Gen (-7)) := by
  have v : p256Gen.Valid (p256Curve d) := Or.inr (by unfold p256Gen p256Curve; norm_num)
  have v0 : (⟨0, 0⟩ : WPoint).Valid (p256Curve d) := Or.inl rfl
  have l : ∀ P : WPoint, P.Valid (p256Curve d) → ∀ e ∈ [P], e.Valid (p256Curve d) := by
    intro P hP e he
    rw [List.mem_singleton] at he
    rw [he]
    exact hP
  constructor
  · by_contra h
    push Not at h
    have := ((C79_ipp (p256Curve d) ⟨d, Or.inl rfl⟩ G hstr _ _ _ _ _ _ _ _ (by simp) (by simp) (l _ v) (l _ v0) (l _ v0) (l _ v)
      v v).mp h).2.1
    exact absurd this (by decide)
  · by_contra h
    push Not at h
    have := ((C79_ipp (p256Curve d) ⟨d, Or.inl rfl⟩ G hstr _ _ _ _ _ _ _ _ (by simp) (by simp) (l _ v) (l _ v0) (l _ v) (l _ v0)
      v v).mp h).2.2.2
    exact absurd this (by decide)

/-- C79: on Ristretto255 two elements that are not equal get different challenges. -/
example (pieces : Bytes → List Bytes) (h1 : digitA.Even) (h2 : digitB.Even) :
    ∃ sha, hashBP sha (r255Grp (r255Real pieces)) digitA digitB ≠ hashBP sha (r255Grp (r255Real pieces)) digitB digitA := by
  by_contra h
  push Not at h
  have : edEqual digitA digitB = true := ((C79_round_r255 pieces _ _ _ _ h1 h2 h2 h1).mp h).1
  exact absurd this (by decide +kernel)

end MscPoc
