import Verif.Lemmas.Decompress
import Verif.Props.Codec
import Verif.Props.Curve

/-!
# C63 — binary points of P-256 and P-384

`MarshalBinary`, `UnmarshalBinary` and `SetBytes` of the two curves, with the decoding of compressed points written out: what is
accepted is exactly what SEC 1 says, each sequence of bytes stands for at most one point, each point has exactly two sequences.
-/

set_option autoImplicit false

namespace MscPoc

/-- the curves -/
def StdBinary (c : WCurve) : Prop := c = p256Std ∨ c = p384Std

/-- the value of bytes in base 256, most significant first -/
def beValue : Bytes → ℕ
  | [] => 0
  | d :: r => d.toNat * 256 ^ r.length + beValue r

/-- the formats of SEC 1: one zero byte for the identity; 4 and both coordinates; 2 or 3 for an even or odd ordinate, and the
abscissa -/
inductive SecEncoding (c : WCurve) : WPoint → Bytes → Prop
  | infinity : SecEncoding c ⟨0, 0⟩ [0]
  | full (P : WPoint) (xs ys : Bytes) (hP : P.Valid c) (h0 : P ≠ ⟨0, 0⟩) (lx : xs.length = c.byteLen) (ly : ys.length = c.byteLen)
      (hx : beValue xs = P.x) (hy : beValue ys = P.y) : SecEncoding c P (4 :: (xs ++ ys))
  | even (P : WPoint) (xs : Bytes) (hP : P.Valid c) (h0 : P ≠ ⟨0, 0⟩) (lx : xs.length = c.byteLen) (hx : beValue xs = P.x)
      (hy : P.y % 2 = 0) : SecEncoding c P (2 :: xs)
  | odd (P : WPoint) (xs : Bytes) (hP : P.Valid c) (h0 : P ≠ ⟨0, 0⟩) (lx : xs.length = c.byteLen) (hx : beValue xs = P.x)
      (hy : P.y % 2 = 1) : SecEncoding c P (3 :: xs)

theorem beValue_eq (b : Bytes) : setBytes b = beValue b := by
  induction b with
  | nil => rfl
  | cons d r ih => rw [setBytes_cons, ih, beValue]

theorem StdBinary.std {c : WCurve} (h : StdBinary c) : StdCurve c := by
  rcases h with rfl | rfl
  · exact ⟨_, Or.inl rfl⟩
  · exact ⟨_, Or.inr rfl⟩

theorem StdBinary.decompress {c : WCurve} (h : StdBinary c) (tag : UInt8) (rest : Bytes) (P : WPoint) :
    c.decompress (tag :: rest) = some P ↔
      P.x = setBytes rest ∧ P.x < c.p ∧ P.y < c.p ∧ c.onCurve P = true ∧ P.y % 2 = tag.toNat % 2 := by
  rcases h with rfl | rfl
  · exact wDecompress_iff (p256Suite fun _ => none) (p256Suite_ok _) tag rest P
  · exact wDecompress_iff (p384Suite fun _ => none) (p384Suite_ok _) tag rest P

/-- `(0, 0)` is not on the curve -/
theorem StdBinary.origin {c : WCurve} (h : StdBinary c) : c.onCurve ⟨0, 0⟩ = false := by
  rcases h with rfl | rfl <;> decide +kernel

theorem valid_affine {c : WCurve} {P : WPoint} (hP : P.Valid c) (h0 : P ≠ ⟨0, 0⟩) :
    P.x < c.p ∧ P.y < c.p ∧ c.onCurve P = true := by
  obtain ⟨a, b, d⟩ := hP.resolve_left h0
  exact ⟨a, b, (onCurve_iff c P).mpr d⟩

/-- what is accepted is an encoding -/
theorem sec_of_decode (c : WCurve) (hc : StdBinary c) (recv e : WPoint) (data : Bytes)
    (h : WPoint.unmarshalBinary c recv data = (false, e)) : SecEncoding c e data := by
  have ho := hc.origin
  have ne0 : ∀ P : WPoint, c.onCurve P = true → P ≠ ⟨0, 0⟩ := by
    rintro P h rfl
    rw [ho] at h; simp at h
  unfold WPoint.unmarshalBinary at h
  cases data with
  | nil => simp at h
  | cons tag rest =>
    simp only at h
    split at h
    · rename_i h1
      obtain ⟨rfl, rfl⟩ := h1
      simp only [Prod.mk.injEq, true_and] at h
      subst h
      exact .infinity
    · split at h
      · rename_i h2
        obtain ⟨hlen, ht⟩ := h2
        split at h
        · rename_i P hd
          simp only [Prod.mk.injEq, true_and] at h
          subst h
          obtain ⟨hx, hxp, hyp, hon, hpar⟩ := (hc.decompress tag rest P).mp hd
          have hv : P.Valid c := Or.inr ⟨hxp, hyp, (onCurve_iff c P).mp hon⟩
          rcases ht with rfl | rfl
          · exact .even P rest hv (ne0 P hon) hlen (by rw [← beValue_eq, hx]) hpar
          · exact .odd P rest hv (ne0 P hon) hlen (by rw [← beValue_eq, hx]) hpar
        · simp at h
      · split at h
        · rename_i h3
          obtain ⟨hlen, rfl⟩ := h3
          split at h
          · rename_i h4
            simp only [Prod.mk.injEq, true_and] at h
            subst h
            have lt : (rest.take c.byteLen).length = c.byteLen := by rw [List.length_take]; omega
            have ld : (rest.drop c.byteLen).length = c.byteLen := by rw [List.length_drop]; omega
            have := SecEncoding.full (c := c) ⟨setBytes (rest.take c.byteLen), setBytes (rest.drop c.byteLen)⟩ _ _
              (Or.inr ⟨h4.1, h4.2.1, (onCurve_iff c _).mp h4.2.2⟩) (ne0 _ h4.2.2) lt ld (beValue_eq _).symm (beValue_eq _).symm
            rwa [List.take_append_drop] at this
          · simp at h
        · simp at h

/-- every encoding is accepted -/
theorem decode_of_sec (c : WCurve) (hc : StdBinary c) (recv e : WPoint) (data : Bytes) (h : SecEncoding c e data) :
    WPoint.unmarshalBinary c recv data = (false, e) := by
  obtain ⟨_, hl⟩ := hc.std.size
  cases h with
  | infinity => rfl
  | full _ xs ys hP h0 lx ly hx hy =>
    obtain ⟨a, b, on⟩ := valid_affine hP h0
    have t : (xs ++ ys).take c.byteLen = xs := by rw [← lx, List.take_left]
    have d : (xs ++ ys).drop c.byteLen = ys := by rw [← lx, List.drop_left]
    unfold WPoint.unmarshalBinary
    simp only
    rw [if_neg (by simp), if_neg (by simp), if_pos ⟨by rw [List.length_append, lx, ly]; omega, trivial⟩, t, d, beValue_eq, beValue_eq,
      hx, hy, if_pos ⟨a, b, on⟩]
  | even _ xs hP h0 lx hx hy =>
    obtain ⟨a, b, on⟩ := valid_affine hP h0
    unfold WPoint.unmarshalBinary
    simp only
    rw [if_neg (by simp), if_pos ⟨lx, by simp⟩, (hc.decompress 2 xs e).mpr ⟨by rw [beValue_eq, hx], a, b, on, hy⟩]
  | odd _ xs hP h0 lx hx hy =>
    obtain ⟨a, b, on⟩ := valid_affine hP h0
    unfold WPoint.unmarshalBinary
    simp only
    rw [if_neg (by simp), if_pos ⟨lx, by simp⟩, (hc.decompress 3 xs e).mpr ⟨by rw [beValue_eq, hx], a, b, on, hy⟩]

/-! ## C63 -/

/-- C63: `UnmarshalBinary` succeeds with the point `e` exactly on the sequences of bytes that SEC 1 gives to `e`: on the three
formats, for points of the curve only. -/
theorem C63_decode (c : WCurve) (hc : StdBinary c) (recv e : WPoint) (data : Bytes) :
    WPoint.unmarshalBinary c recv data = (false, e) ↔ SecEncoding c e data :=
  ⟨sec_of_decode c hc recv e data, decode_of_sec c hc recv e data⟩

/-- C63: on everything else there is an error, and the receiver keeps its value. -/
theorem C63_reject (c : WCurve) (hc : StdBinary c) (recv : WPoint) (data : Bytes) (h : ∀ e, ¬ SecEncoding c e data) :
    WPoint.unmarshalBinary c recv data = (true, recv) := by
  have h' := fun e => mt (C63_decode c hc recv e data).mp (h e)
  unfold WPoint.unmarshalBinary at h' ⊢
  cases data with
  | nil => rfl
  | cons tag rest =>
    simp only at h' ⊢
    repeat' split
    all_goals first | rfl | simp_all

/-- C63: bytes stand for at most one point. -/
theorem C63_unique (c : WCurve) (hc : StdBinary c) (e e' : WPoint) (data : Bytes) (h : SecEncoding c e data)
    (h' : SecEncoding c e' data) : e = e' := by
  have a := decode_of_sec c hc ⟨0, 0⟩ e data h
  have b := decode_of_sec c hc ⟨0, 0⟩ e' data h'
  rw [a] at b
  simpa using b

/-- C63: `MarshalBinary` writes the uncompressed format. -/
theorem C63_encode (c : WCurve) (hc : StdBinary c) (e : WPoint) (he : e.Valid c) :
    SecEncoding c e (e.marshalBinary c) ∧
    (e ≠ ⟨0, 0⟩ → (e.marshalBinary c).length = 2 * c.byteLen + 1) := by
  obtain ⟨hp, hl⟩ := hc.std.size
  refine ⟨(C63_decode c hc ⟨0, 0⟩ e _).mp (C06_binary_roundtrip c hc.std e he _), fun h0 => ?_⟩
  obtain ⟨a, b, _⟩ := valid_affine he h0
  unfold WPoint.marshalBinary
  rw [if_neg h0, List.length_cons, List.length_append, fillBytes_length (by omega), fillBytes_length (by omega)]
  omega

/-- C63: the encoding is not unique — a point other than the identity has exactly two, the one that `MarshalBinary` writes and the
compressed one — so equal points may arrive as different bytes, and the bytes must not be compared instead of the points. -/
theorem C63_two_encodings (c : WCurve) (hc : StdBinary c) (e : WPoint) (he : e.Valid c) (h0 : e ≠ ⟨0, 0⟩) :
    ∃ d, d.length = c.byteLen + 1 ∧ ∀ data, SecEncoding c e data ↔ data = e.marshalBinary c ∨ data = d := by
  obtain ⟨hp, hl⟩ := hc.std.size
  obtain ⟨a, b, on⟩ := valid_affine he h0
  have lx : (fillBytes c.byteLen e.x).length = c.byteLen := fillBytes_length (by omega)
  have ly : (fillBytes c.byteLen e.y).length = c.byteLen := fillBytes_length (by omega)
  have vx : beValue (fillBytes c.byteLen e.x) = e.x := by rw [← beValue_eq, setBytes_fillBytes]
  have inj : ∀ {l : Bytes} {n : ℕ}, l.length = c.byteLen → (fillBytes c.byteLen n).length = c.byteLen → beValue l = n →
      l = fillBytes c.byteLen n := by
    intro l n h h' hv
    exact setBytes_inj (h.trans h'.symm) (by rw [setBytes_fillBytes, beValue_eq, hv])
  refine ⟨(if e.y % 2 = 0 then 2 else 3) :: fillBytes c.byteLen e.x, by rw [List.length_cons, lx], fun data => ?_⟩
  constructor
  · intro h
    cases h with
    | infinity => exact absurd rfl h0
    | full _ xs ys _ _ lx' ly' hx hy =>
      left
      unfold WPoint.marshalBinary
      rw [if_neg h0, inj lx' lx hx, inj ly' ly hy]
    | even _ xs _ _ lx' hx hy => right; rw [if_pos hy, inj lx' lx hx]
    | odd _ xs _ _ lx' hx hy => right; rw [if_neg (by omega), inj lx' lx hx]
  · rintro (rfl | rfl)
    · exact (C63_encode c hc e he).1
    · split
      · exact .even e _ he h0 lx vx ‹_›
      · exact .odd e _ he h0 lx vx (by omega)

/-- C63: `SetBytes` never fails: it gives the point, or — for bytes that are no point — silently the identity. -/
theorem C63_setBytes (c : WCurve) (hc : StdBinary c) (b : Bytes) :
    (∀ e, SecEncoding c e b → WPoint.setBytes c b = e) ∧ ((∀ e, ¬ SecEncoding c e b) → WPoint.setBytes c b = ⟨0, 0⟩) ∧
    (WPoint.setBytes c b).Valid c := by
  unfold WPoint.setBytes
  have h1 : ∀ e, SecEncoding c e b → (WPoint.unmarshalBinary c ⟨0, 0⟩ b).2 = e := fun e h => by
    rw [decode_of_sec c hc _ e b h]
  have h2 : (∀ e, ¬ SecEncoding c e b) → (WPoint.unmarshalBinary c ⟨0, 0⟩ b).2 = ⟨0, 0⟩ := fun h => by
    rw [C63_reject c hc _ b h]
  refine ⟨h1, h2, ?_⟩
  by_cases h : ∃ e, SecEncoding c e b
  · obtain ⟨e, h⟩ := h
    rw [h1 e h]
    cases h with
    | infinity => exact Or.inl rfl
    | full _ xs ys hP => exact hP
    | even _ xs hP => exact hP
    | odd _ xs hP => exact hP
  · rw [h2 fun e he => h ⟨e, he⟩]
    exact Or.inl rfl

/-- the base points come back from their compressed forms (both ordinates are odd); with the other parity another point comes back;
no point of P-384 has the abscissa 1; garbage gives the identity -/
example : StdBinary p256Std ∧ StdBinary p384Std ∧
    WPoint.unmarshalBinary p256Std ⟨0, 0⟩ (3 :: fillBytes 32 p256Gen.x) = (false, p256Gen) ∧
    WPoint.setBytes p384Std (2 :: fillBytes 48 p384Gen.x) ≠ p384Gen ∧
    WPoint.setBytes p384Std (2 :: fillBytes 48 p384Gen.x) ≠ ⟨0, 0⟩ ∧
    WPoint.setBytes p384Std (3 :: fillBytes 48 p384Gen.x) = p384Gen ∧
    WPoint.unmarshalBinary p384Std p384Gen (2 :: fillBytes 48 1) = (true, p384Gen) ∧
    WPoint.setBytes p256Std [5, 7] = ⟨0, 0⟩ := by
  refine ⟨Or.inl rfl, Or.inr rfl, ?_, ?_, ?_, ?_, ?_, ?_⟩ <;> decide +kernel

end MscPoc
