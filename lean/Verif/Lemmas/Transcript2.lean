import Verif.Props.Transcript
import Verif.Props.RistrettoEnc
import Verif.Lemmas.Ipp2

/-! # Lemmas for C79: what is hashed, and how it can be read back -/

set_option autoImplicit false

namespace MscPoc

section
variable {E : Type} {GP : Grp E}

/-- a digest function that tells one message from all others -/
def onlyOn (m : Bytes) : Bytes → Bytes := fun b => if b = m then [1] else []

theorem onlyOn_inj {m m' : Bytes} (h : setBytes (onlyOn m m) = setBytes (onlyOn m m')) : m = m' := by
  unfold onlyOn at h
  rw [if_pos rfl] at h
  by_contra hne
  rw [if_neg (fun e => hne e.symm)] at h
  simp [setBytes] at h

/-- Which first moves get the same challenges: those whose concatenated strings are equal. -/
theorem hashBP_all_iff (A S A' S' : E) :
    (∀ sha, hashBP sha GP A S = hashBP sha GP A' S') ↔ GP.str A ++ GP.str S = GP.str A' ++ GP.str S' := by
  constructor
  · intro h
    have := congrArg Prod.fst (h (onlyOn (GP.str A ++ GP.str S)))
    exact onlyOn_inj (Int.natCast_inj.mp this)
  · intro h sha
    unfold hashBP
    rw [h]

/-- what `hashIP` hashes -/
def ipText (GP : Grp E) (g h : List E) (P : E) (c : Int) : Bytes :=
  GP.str P ++ ((List.zip g h).flatMap fun p => GP.str p.1 ++ GP.str p.2) ++ bigDec c

theorem hashIP_text (sha : Bytes → Bytes) {g h : List E} (hl : g.length ≤ h.length) (P : E) (c : Int) :
    hashIP sha GP g h P c = some (fromByteArray (sha (ipText GP g h P c))) := by
  unfold hashIP ipText
  rw [hashIPLoop_eq, if_pos hl]
  simp [List.flatMap, List.zip, List.map_zipWith]

theorem hashIP_all_iff {g h g' h' : List E} (hl : g.length ≤ h.length) (hl' : g'.length ≤ h'.length) (P P' : E) (c c' : Int) :
    (∀ sha, hashIP sha GP g h P c = hashIP sha GP g' h' P' c') ↔ ipText GP g h P c = ipText GP g' h' P' c' := by
  simp only [hashIP_text _ hl, hashIP_text _ hl', Option.some.injEq]
  constructor
  · intro e
    have := e (onlyOn (ipText GP g h P c))
    unfold onlyOn at this
    rw [if_pos rfl] at this
    by_contra hne
    rw [if_neg (fun e => hne e.symm)] at this
    simp [setBytes, fromByteArray] at this
  · intro e sha
    rw [e]

end

theorem bigDec_ne_nil (c : Int) : ∃ d r, bigDec c = d :: r ∧ isDec d = true := by
  have hn : natDec c.natAbs ≠ [] := by
    unfold natDec
    split
    · simp
    · rename_i h
      simp [Nat.digits_ne_nil_iff_ne_zero.mpr h]
  cases h : bigDec c with
  | nil =>
    unfold bigDec at h
    split at h
    · simp at h
    · exact absurd h hn
  | cons d r => exact ⟨d, r, rfl, bigDec_isDec c d (by rw [h]; simp)⟩

theorem bigDec_inj {c c' : Int} (h : bigDec c = bigDec c') : c = c' := by
  have h45 : ∀ n m : ℕ, natDec n ≠ 45 :: natDec m := by
    intro n m e
    have hmem : (45 : UInt8) ∈ natDec n := by rw [e]; simp
    unfold natDec at hmem
    split at hmem
    · simp at hmem
    · simp only [List.map_reverse, List.mem_reverse, List.mem_map] at hmem
      obtain ⟨d, hd, e⟩ := hmem
      have := Nat.digits_lt_base (by norm_num) hd
      interval_cases d <;> simp at e
  unfold bigDec at h
  split at h <;> split at h
  · have := natDec_inj (List.cons.inj h).2; omega
  · exact absurd h.symm (h45 _ _)
  · exact absurd h (h45 _ _)
  · have := natDec_inj h; omega

section
variable (c : WCurve) (hc : StdCurve c) (G : Grp WPoint) (hstr : ∀ e, G.str e = e.marshalBinary c)
include hc hstr

theorem pairs_inj (l l' : List (WPoint × WPoint)) (d d' : Bytes) (hv : ∀ p ∈ l, p.1.Valid c ∧ p.2.Valid c)
    (hv' : ∀ p ∈ l', p.1.Valid c ∧ p.2.Valid c) (hd : ∃ t r, d = t :: r ∧ isDec t = true) (hd' : ∃ t r, d' = t :: r ∧ isDec t = true)
    (h : (l.flatMap fun p => G.str p.1 ++ G.str p.2) ++ d = (l'.flatMap fun p => G.str p.1 ++ G.str p.2) ++ d') : l = l' ∧ d = d' := by
  have hno : ∀ (l : List (WPoint × WPoint)) (p : WPoint × WPoint) (d d' : Bytes), (∃ t r, d' = t :: r ∧ isDec t = true) →
      ((p :: l).flatMap fun p => G.str p.1 ++ G.str p.2) ++ d ≠ d' := by
    rintro l p d d' ⟨t, r, rfl, ht⟩ h
    obtain ⟨t', r', e, ht'⟩ := marshalBinary_tag c p.1
    rw [List.flatMap_cons, hstr, e] at h
    simp only [List.cons_append, List.cons.injEq] at h
    rw [h.1, ht] at ht'
    simp at ht'
  induction l generalizing l' with
  | nil => cases l' with
    | nil => exact ⟨rfl, h⟩
    | cons p l' => exact absurd h.symm (hno l' p d' d hd)
  | cons p l ih => cases l' with
    | nil => exact absurd h (hno l p d d' hd')
    | cons p' l' =>
      rw [List.flatMap_cons, List.flatMap_cons, hstr, hstr, hstr, hstr] at h
      simp only [List.append_assoc] at h
      have w := hv p (by simp)
      have w' := hv' p' (by simp)
      obtain ⟨e1, h⟩ := marshalBinary_prefix c hc _ _ w.1 w'.1 _ _ h
      obtain ⟨e2, h⟩ := marshalBinary_prefix c hc _ _ w.2 w'.2 _ _ h
      obtain ⟨e3, e4⟩ := ih l' (fun q hq => hv q (by simp [hq])) (fun q hq => hv' q (by simp [hq])) h
      exact ⟨by rw [Prod.ext e1 e2, e3], e4⟩

end

section
open R255
variable (pieces : Bytes → List Bytes)

attribute [local irreducible] R255.encode

theorem r255_str : (r255Grp (r255Real pieces)).str = encode := by
  unfold r255Grp r255Real
  with_reducible rfl

theorem encode_length (P : WPoint) : (encode P).length = 32 := by
  unfold encode
  exact toBytes_length (encodeS_lt P)

theorem pairs_inj_r255 (l l' : List (WPoint × WPoint)) (d d' : Bytes) (hl : l.length = l'.length)
    (h : (l.flatMap fun p => encode p.1 ++ encode p.2) ++ d = (l'.flatMap fun p => encode p.1 ++ encode p.2) ++ d') :
    List.Forall₂ (fun p p' : WPoint × WPoint => encode p.1 = encode p'.1 ∧ encode p.2 = encode p'.2) l l' ∧ d = d' := by
  induction l generalizing l' with
  | nil => cases l' with
    | nil => exact ⟨.nil, h⟩
    | cons => simp at hl
  | cons p l ih => cases l' with
    | nil => simp at hl
    | cons p' l' =>
      rw [List.flatMap_cons, List.flatMap_cons] at h
      simp only [List.append_assoc] at h
      obtain ⟨e1, h⟩ := List.append_inj h (by rw [encode_length, encode_length])
      obtain ⟨e2, h⟩ := List.append_inj h (by rw [encode_length, encode_length])
      obtain ⟨e3, e4⟩ := ih l' (by simpa using hl) h
      exact ⟨.cons ⟨e1, e2⟩ e3, e4⟩

end

end MscPoc
