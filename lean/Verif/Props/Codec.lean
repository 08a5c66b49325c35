import Verif.Lemmas.Codec

/-!
# C06–C09 — transport of curve points
-/

set_option autoImplicit false

namespace MscPoc

/-- the two curves with the shared short Weierstrass codec -/
def StdCurve (c : WCurve) : Prop := ∃ d, c = p256Curve d ∨ c = p384Curve d

/-- the points a correct program can hold: infinity, or an affine point of the curve -/
def WPoint.Valid (c : WCurve) (e : WPoint) : Prop :=
  e = ⟨0, 0⟩ ∨ (e.x < c.p ∧ e.y < c.p ∧ ((e.y : Int) ^ 2 - (e.x ^ 3 - 3 * e.x + c.b)) % c.p = 0)

theorem onCurve_iff (c : WCurve) (e : WPoint) :
    c.onCurve e = true ↔ ((e.y : Int) ^ 2 - (e.x ^ 3 - 3 * e.x + c.b)) % c.p = 0 := by
  unfold WCurve.onCurve
  rw [beq_iff_eq]
  have : (e.y : Int) * e.y - (e.x * e.x * e.x - 3 * e.x + c.b) = (e.y : Int) ^ 2 - (e.x ^ 3 - 3 * e.x + c.b) := by ring
  rw [this]

theorem StdCurve.size {c : WCurve} (h : StdCurve c) : c.p < 256 ^ c.byteLen ∧ 0 < c.byteLen := by
  obtain ⟨d, rfl | rfl⟩ := h
  · exact ⟨by unfold p256Curve; norm_num, by unfold p256Curve; norm_num⟩
  · exact ⟨by unfold p384Curve; norm_num, by unfold p384Curve; norm_num⟩

/-- decoding of a full-length uncompressed buffer -/
theorem unmarshalBinary_fit (c : WCurve) (recv : WPoint) (x y : ℕ) (hx : x < 256 ^ c.byteLen)
    (hy : y < 256 ^ c.byteLen) :
    WPoint.unmarshalBinary c recv (4 :: (fillBytes c.byteLen x ++ fillBytes c.byteLen y)) =
      if x < c.p ∧ y < c.p ∧ c.onCurve ⟨x, y⟩ then (false, ⟨x, y⟩) else (true, recv) := by
  have lx := fillBytes_length hx
  have ly := fillBytes_length hy
  have t := List.take_left (l₁ := fillBytes c.byteLen x) (l₂ := fillBytes c.byteLen y)
  have d := List.drop_left (l₁ := fillBytes c.byteLen x) (l₂ := fillBytes c.byteLen y)
  rw [lx] at t d
  unfold WPoint.unmarshalBinary
  dsimp only
  rw [if_neg (by rintro ⟨_, h⟩; exact absurd h (by decide)), if_neg (by rintro ⟨_, h⟩; exact absurd h (by decide)),
    if_pos ⟨by simp [lx, ly]; omega, rfl⟩, t, d, setBytes_fillBytes, setBytes_fillBytes]

/-! ## C06 -/

/-- **C06** JSON transport of every point, into every receiver. -/
theorem C06_json_roundtrip (c : WCurve) (hc : StdCurve c) (e : WPoint) (he : e.Valid c) :
    ∃ j, (wCodec c).marshal e = some (.ok j) ∧ ∀ recv, (wCodec c).unmarshal recv (some j) = some (false, e) := by
  obtain ⟨hp, hl⟩ := hc.size
  by_cases h0 : e = ⟨0, 0⟩
  · subst h0
    refine ⟨ecPointJson 0 0, rfl, fun recv => ?_⟩
    rfl
  · obtain ⟨hx, hy, hon⟩ := he.resolve_left h0
    rw [← onCurve_iff] at hon
    refine ⟨ecPointJson e.x e.y, ?_, fun recv => ?_⟩
    · change marshalPoint c.byteLen (e.marshalBinary c) = _
      unfold WPoint.marshalBinary
      rw [if_neg h0]
      exact marshalPoint_fit _ _ _ (by omega) (by omega)
    · change (match unmarshalPoint c.byteLen (ptDoc (some (e.x : Int)) (some (e.y : Int))) with
        | none => none
        | some .error => some (true, recv)
        | some (.bytes b) => some (WPoint.unmarshalBinary c recv b)) = _
      rw [unmarshalPoint_fit _ _ _ (by omega) (by omega) (by rintro ⟨h1, h2⟩; exact h0 (by cases e; simp_all))]
      dsimp only
      rw [unmarshalBinary_fit c recv _ _ (by omega) (by omega), if_pos ⟨hx, hy, hon⟩]

/-- C06: binary transport. -/
theorem C06_binary_roundtrip (c : WCurve) (hc : StdCurve c) (e : WPoint) (he : e.Valid c) (recv : WPoint) :
    WPoint.unmarshalBinary c recv (e.marshalBinary c) = (false, e) := by
  obtain ⟨hp, hl⟩ := hc.size
  unfold WPoint.marshalBinary
  by_cases h0 : e = ⟨0, 0⟩
  · rw [if_pos h0, h0]; rfl
  · obtain ⟨hx, hy, hon⟩ := he.resolve_left h0
    rw [← onCurve_iff] at hon
    rw [if_neg h0, unmarshalBinary_fit c recv _ _ (by omega) (by omega), if_pos ⟨hx, hy, hon⟩]

/-- C06: distinct points have distinct encodings, in both formats. -/
theorem C06_injective (c : WCurve) (hc : StdCurve c) (e e' : WPoint) (he : e.Valid c) (he' : e'.Valid c)
    (h : (wCodec c).marshal e = (wCodec c).marshal e' ∨ e.marshalBinary c = e'.marshalBinary c) : e = e' := by
  rcases h with h | h
  · obtain ⟨j, m, u⟩ := C06_json_roundtrip c hc e he
    obtain ⟨j', m', u'⟩ := C06_json_roundtrip c hc e' he'
    rw [m, m'] at h
    simp only [Option.some.injEq, Except.ok.injEq] at h
    subst h
    have := (u ⟨0, 0⟩).symm.trans (u' ⟨0, 0⟩)
    simpa using this
  · have a := C06_binary_roundtrip c hc e he ⟨0, 0⟩
    rw [h, C06_binary_roundtrip c hc e' he' ⟨0, 0⟩] at a
    exact (Prod.mk.inj a).2.symm

/-- the generator of P-256 -/
def p256Gen : WPoint :=
  ⟨0x6b17d1f2e12c4247f8bce6e563a440f277037d812deb33a0f4a13945d898c296,
    0x4fe342e2fe1a7f9b8ee7eb4a7c0f9e162bce33576b315ececbb6406837bf51f5⟩

/-- a P-256 point with a short `x` coordinate: x = 5 -/
def p256Five : WPoint := ⟨5, 31468013646237722594854082025316614106172411895747863909393730389177298123724⟩

/-- the generator of P-384 -/
def p384Gen : WPoint :=
  ⟨0xaa87ca22be8b05378eb1c71ef320ad746e1d3b628ba79b9859f741e082542a385502f25dbf55296c3a545e3872760ab7,
    0x3617de4a96262c6f5d9e98bf9292dc29f8f41dbd289a147ce9da3113b5f0b8c00a60b1ce1d7e819d7a431d7c90ea0e5f⟩

/-- C06: valid points of both curves. -/
example (d : Bytes → Option WPoint) : p256Gen.Valid (p256Curve d) ∧ p256Five.Valid (p256Curve d) ∧ p384Gen.Valid (p384Curve d) ∧
    StdCurve (p256Curve d) ∧ StdCurve (p384Curve d) := by
  refine ⟨Or.inr ?_, Or.inr ?_, Or.inr ?_, ⟨d, Or.inl rfl⟩, ⟨d, Or.inr rfl⟩⟩
  · unfold p256Gen p256Curve; norm_num
  · unfold p256Five p256Curve; norm_num
  · unfold p384Gen p384Curve; norm_num

/-! ## C07 -/

/-- The integer (or nil) that `json.Unmarshal` stores in a coordinate of `ECPoint`. -/
def Coord (kvs : List (String × Json)) (f : String) (X : Option Int) : Prop :=
  asBig (fieldVals ["x", "y"] kvs f) = .ok X

/-- **C07** On an object whose coordinates are integers, null or missing, the decoder panics exactly when a coordinate is
missing/null, or the pair is not (0,0) and `x` needs more than `len+1` or `y` more than `2 len+1` bytes. -/
theorem C07_panics_iff (c : WCurve) (recv : WPoint) (kvs : List (String × Json)) (X Y : Option Int)
    (hX : Coord kvs "x" X) (hY : Coord kvs "y" Y) :
    (wCodec c).unmarshal recv (some (.obj kvs)) = none ↔
      X = none ∨ Y = none ∨ ∃ x y, X = some x ∧ Y = some y ∧ ¬ (x = 0 ∧ y = 0) ∧
        (256 ^ (c.byteLen + 1) ≤ x.natAbs ∨ 256 ^ (2 * c.byteLen + 1) ≤ y.natAbs) := by
  have e := unmarshalPoint_obj c.byteLen kvs X Y hX hY
  change (match unmarshalPoint c.byteLen (some (.obj kvs)) with
        | none => none
        | some .error => some (true, recv)
        | some (.bytes b) => some (WPoint.unmarshalBinary c recv b)) = none ↔ _
  rw [e]
  cases X with
  | none => simp
  | some x =>
    cases Y with
    | none => simp
    | some y =>
      have hR : (some x = none ∨ some y = none ∨ ∃ x' y', some x = some x' ∧ some y = some y' ∧ ¬ (x' = 0 ∧ y' = 0) ∧
          (256 ^ (c.byteLen + 1) ≤ x'.natAbs ∨ 256 ^ (2 * c.byteLen + 1) ≤ y'.natAbs)) ↔
          ¬ (x = 0 ∧ y = 0) ∧ (256 ^ (c.byteLen + 1) ≤ x.natAbs ∨ 256 ^ (2 * c.byteLen + 1) ≤ y.natAbs) := by
        constructor
        · rintro (h | h | ⟨x', y', h1, h2, h3⟩)
          · cases h
          · cases h
          · cases h1; cases h2; exact h3
        · exact fun h => Or.inr (Or.inr ⟨x, y, rfl, rfl, h⟩)
      rw [hR]
      simp only [Option.bind_some]
      by_cases h0 : x = 0 ∧ y = 0
      · rw [if_pos h0]
        exact ⟨fun h => absurd h (by simp), fun h => absurd h0 h.1⟩
      · rw [if_neg h0, and_iff_right h0]
        cases h1 : overwriteEnd (4 :: List.replicate c.byteLen 0) (bigBytes x) with
        | none =>
          rw [overwriteEnd_none] at h1
          simp only [List.length_cons, List.length_replicate] at h1
          have := (bigBytes_length_le (x := x) (k := c.byteLen + 1)).not.mp (by omega)
          simp only [Option.bind_none, true_iff]
          left; omega
        | some lo =>
          have hlo := overwriteEnd_length h1
          obtain ⟨h1, -⟩ := overwriteEnd_some.mp h1
          simp only [List.length_cons, List.length_replicate] at h1 hlo
          have := (bigBytes_length_le (x := x) (k := c.byteLen + 1)).mp (by omega)
          simp only [Option.bind_some]
          cases h2 : overwriteEnd (lo ++ List.replicate c.byteLen 0) (bigBytes y) with
          | none =>
            rw [overwriteEnd_none] at h2
            simp only [List.length_append, List.length_replicate, hlo] at h2
            have := (bigBytes_length_le (x := y) (k := 2 * c.byteLen + 1)).not.mp (by omega)
            simp only [Option.bind_none, true_iff]
            right; omega
          | some tmp =>
            obtain ⟨h2, -⟩ := overwriteEnd_some.mp h2
            simp only [List.length_append, List.length_replicate, hlo] at h2
            have := (bigBytes_length_le (x := y) (k := 2 * c.byteLen + 1)).mp (by omega)
            simp only [Option.bind_some, reduceCtorEq, false_iff]
            omega

/-- C07: success means a point of the curve (or infinity), failure leaves the receiver alone — for every document at all. -/
theorem C07_sound (c : WCurve) (hc : StdCurve c) (recv : WPoint) (data : Raw) (err : Bool) (e : WPoint)
    (h : (wCodec c).unmarshal recv data = some (err, e)) : (err = false → e.Valid c) ∧ (err = true → e = recv) := by
  obtain ⟨_, hl⟩ := hc.size
  change (match unmarshalPoint c.byteLen data with
        | none => none
        | some .error => some (true, recv)
        | some (.bytes b) => some (WPoint.unmarshalBinary c recv b)) = _ at h
  cases hu : unmarshalPoint c.byteLen data with
  | none => rw [hu] at h; simp at h
  | some pb =>
    rw [hu] at h
    cases pb with
    | error =>
      simp only [Option.some.injEq, Prod.mk.injEq] at h
      obtain ⟨rfl, rfl⟩ := h
      simp
    | bytes b =>
      simp only [Option.some.injEq] at h
      rcases unmarshalPoint_length _ _ _ hu with rfl | hb
      · have : WPoint.unmarshalBinary c recv [0] = (false, ⟨0, 0⟩) := rfl
        rw [this, Prod.mk.injEq] at h
        obtain ⟨rfl, rfl⟩ := h
        exact ⟨fun _ => Or.inl rfl, by simp⟩
      · cases b with
        | nil => simp at hb
        | cons tag rest =>
          simp only [List.length_cons, add_left_inj] at hb
          unfold WPoint.unmarshalBinary at h
          dsimp only at h
          rw [if_neg (by rintro ⟨rfl, _⟩; simp at hb; omega), if_neg (by rintro ⟨h, _⟩; omega)] at h
          split at h
          · split at h
            · rename_i hv
              rw [Prod.mk.injEq] at h
              obtain ⟨rfl, rfl⟩ := h
              exact ⟨fun _ => Or.inr ⟨hv.1, hv.2.1, (onCurve_iff c _).mp hv.2.2⟩, by simp⟩
            · rw [Prod.mk.injEq] at h
              obtain ⟨rfl, rfl⟩ := h
              simp
          · rw [Prod.mk.injEq] at h
            obtain ⟨rfl, rfl⟩ := h
            simp

/-- C07: on coordinates that fit, success is exactly membership of the curve, with that point as the result. -/
theorem C07_accepts_iff (c : WCurve) (hc : StdCurve c) (recv : WPoint) (x y : ℕ) (hx : x < 256 ^ c.byteLen)
    (hy : y < 256 ^ c.byteLen) (h0 : ¬ (x = 0 ∧ y = 0)) :
    (wCodec c).unmarshal recv (ptDoc (some x) (some y)) =
      some (if x < c.p ∧ y < c.p ∧ c.onCurve ⟨x, y⟩ then (false, ⟨x, y⟩) else (true, recv)) := by
  obtain ⟨_, hl⟩ := hc.size
  change (match unmarshalPoint c.byteLen (ptDoc (some (x : Int)) (some (y : Int))) with
        | none => none
        | some .error => some (true, recv)
        | some (.bytes b) => some (WPoint.unmarshalBinary c recv b)) = _
  rw [unmarshalPoint_fit _ _ _ hx hy h0]
  dsimp only
  rw [unmarshalBinary_fit c recv _ _ hx hy]

/-- C07: the signs of the coordinates are ignored. -/
theorem C07_sign_ignored (c : WCurve) (recv : WPoint) (x y : Int) :
    (wCodec c).unmarshal recv (ptDoc (some (-x)) (some y)) = (wCodec c).unmarshal recv (ptDoc (some x) (some y)) ∧
    (wCodec c).unmarshal recv (ptDoc (some x) (some (-y))) = (wCodec c).unmarshal recv (ptDoc (some x) (some y)) := by
  have key : ∀ x' y' : Int, (x' = 0 ↔ x = 0) → (y' = 0 ↔ y = 0) → bigBytes x' = bigBytes x → bigBytes y' = bigBytes y →
      unmarshalPoint c.byteLen (ptDoc (some x') (some y')) = unmarshalPoint c.byteLen (ptDoc (some x) (some y)) := by
    intro x' y' a1 a2 a3 a4
    unfold ptDoc
    rw [unmarshalPoint_obj c.byteLen _ _ _ (ptDoc_x _ _) (ptDoc_y _ _),
      unmarshalPoint_obj c.byteLen _ _ _ (ptDoc_x _ _) (ptDoc_y _ _)]
    simp only [Option.bind_some, a1, a2, a3, a4]
  unfold wCodec
  dsimp only
  rw [key (-x) y (by simp) (by simp) (bigBytes_neg x) rfl, key x (-y) (by simp) (by simp) rfl (bigBytes_neg y)]
  exact ⟨rfl, rfl⟩

/-- C07: a further byte 4 in front of `x` (the value of the tag) is not noticed either. -/
theorem C07_extra_byte (c : WCurve) (recv : WPoint) (x y : ℕ) (hx : x < 256 ^ c.byteLen)
    (hy : y < 256 ^ c.byteLen) (h0 : ¬ (x = 0 ∧ y = 0)) :
    (wCodec c).unmarshal recv (ptDoc (some ((x + 4 * 256 ^ c.byteLen : ℕ) : Int)) (some y)) =
      (wCodec c).unmarshal recv (ptDoc (some x) (some y)) := by
  have key : unmarshalPoint c.byteLen (ptDoc (some ((x + 4 * 256 ^ c.byteLen : ℕ) : Int)) (some y)) =
      unmarshalPoint c.byteLen (ptDoc (some x) (some y)) := by
    rw [unmarshalPoint_fit _ _ _ hx hy h0]
    unfold ptDoc
    rw [unmarshalPoint_obj c.byteLen _ _ _ (ptDoc_x _ _) (ptDoc_y _ _)]
    simp only [Option.bind_some]
    have hpos : 0 < 256 ^ c.byteLen := pow_pos (by norm_num) _
    rw [if_neg (by rintro ⟨h, _⟩; have : x + 4 * 256 ^ c.byteLen = 0 := by exact_mod_cast h
                   omega)]
    have lx := fillBytes_length hx
    have hb : natBytes (x + 4 * 256 ^ c.byteLen) = 4 :: fillBytes c.byteLen x := by
      apply natBytes_eq
      · rw [setBytes_cons, lx, setBytes_fillBytes]
        change 4 * 256 ^ c.byteLen + x = _
        ring
      · intro d t h
        cases h
        decide
    rw [bigBytes_natCast, hb, overwriteEnd_full _ _ (by simp [lx]), Option.bind_some]
    have e2 : overwriteEnd ((4 :: fillBytes c.byteLen x) ++ List.replicate c.byteLen 0) (bigBytes y) =
        some ((4 :: fillBytes c.byteLen x) ++ fillBytes c.byteLen y) :=
      overwriteEnd_pad _ (natBytes y) c.byteLen (natBytes_length_le.mpr hy)
    rw [e2]
    rfl
  unfold wCodec
  dsimp only
  rw [key]

/-- C07: an oversized `y` overwrites `x` and the tag: with `y' = 4·256^(2 len) + x·256^len + y`, whatever `X` is sent (of at most
`len+1` bytes), the point `(x, y)` is decoded. -/
theorem C07_y_overwrites_x (c : WCurve) (hc : StdCurve c) (recv : WPoint) (e : WPoint) (he : e.Valid c) (h0 : e ≠ ⟨0, 0⟩)
    (X : Int) (hX : X.natAbs < 256 ^ (c.byteLen + 1)) :
    (wCodec c).unmarshal recv
      (ptDoc (some X) (some ((4 * 256 ^ (2 * c.byteLen) + e.x * 256 ^ c.byteLen + e.y : ℕ) : Int))) = some (false, e) := by
  obtain ⟨hp, hl⟩ := hc.size
  obtain ⟨hx, hy, hon⟩ := he.resolve_left h0
  rw [← onCurve_iff] at hon
  have lx := fillBytes_length (show e.x < 256 ^ c.byteLen by omega)
  have ly := fillBytes_length (show e.y < 256 ^ c.byteLen by omega)
  have hb : natBytes (4 * 256 ^ (2 * c.byteLen) + e.x * 256 ^ c.byteLen + e.y) =
      4 :: (fillBytes c.byteLen e.x ++ fillBytes c.byteLen e.y) := by
    apply natBytes_eq
    · rw [setBytes_cons, setBytes_append, setBytes_fillBytes, setBytes_fillBytes, List.length_append, lx, ly]
      change 4 * 256 ^ (c.byteLen + c.byteLen) + _ = _
      ring
    · intro d t h
      cases h
      decide
  have key : unmarshalPoint c.byteLen
      (ptDoc (some X) (some ((4 * 256 ^ (2 * c.byteLen) + e.x * 256 ^ c.byteLen + e.y : ℕ) : Int))) =
      some (.bytes (4 :: (fillBytes c.byteLen e.x ++ fillBytes c.byteLen e.y))) := by
    unfold ptDoc
    rw [unmarshalPoint_obj c.byteLen _ _ _ (ptDoc_x _ _) (ptDoc_y _ _)]
    simp only [Option.bind_some]
    have hpos : 0 < 256 ^ (2 * c.byteLen) := pow_pos (by norm_num) _
    rw [if_neg (by
      rintro ⟨_, h⟩
      have : 4 * 256 ^ (2 * c.byteLen) + e.x * 256 ^ c.byteLen + e.y = 0 := by exact_mod_cast h
      omega)]
    cases h1 : overwriteEnd (4 :: List.replicate c.byteLen 0) (bigBytes X) with
    | none =>
      rw [overwriteEnd_none] at h1
      have := (bigBytes_length_le (x := X)).mpr hX
      simp at h1
      omega
    | some lo =>
      have hlo := overwriteEnd_length h1
      simp only [List.length_cons, List.length_replicate] at hlo
      rw [Option.bind_some, bigBytes_natCast, hb, overwriteEnd_full _ _ (by simp [hlo, lx, ly]; omega)]
      rfl
  unfold wCodec
  dsimp only
  rw [key]
  dsimp only
  rw [unmarshalBinary_fit c recv _ _ (by omega) (by omega), if_pos ⟨hx, hy, hon⟩]

/-- C07: both outcomes occur — an off-curve pair is an error, a missing coordinate a panic, the point x = 5 decodes, and so does the
same document with the sign of `x` flipped or with `y` swallowing `x`. -/
example (d : Bytes → Option WPoint) :
    (wCodec (p256Curve d)).unmarshal p256Gen (ptDoc (some 5) (some 7)) = some (true, p256Gen) ∧
    (wCodec (p256Curve d)).unmarshal p256Gen (ptDoc (some 5) none) = none ∧
    (wCodec (p256Curve d)).unmarshal p256Gen (some .null) = none ∧
    (wCodec (p256Curve d)).unmarshal p256Gen (ptDoc (some (-5)) (some p256Five.y)) = some (false, p256Five) := by
  have hs : StdCurve (p256Curve d) := ⟨d, Or.inl rfl⟩
  refine ⟨?_, rfl, rfl, ?_⟩
  · refine (C07_accepts_iff (p256Curve d) hs p256Gen 5 7 (by unfold p256Curve; norm_num) (by unfold p256Curve; norm_num)
      (by norm_num)).trans ?_
    rw [if_neg (by rw [onCurve_iff]; unfold p256Curve; norm_num)]
  · rw [(C07_sign_ignored _ _ 5 _).1]
    refine (C07_accepts_iff (p256Curve d) hs p256Gen 5 p256Five.y (by unfold p256Curve; norm_num)
      (by unfold p256Curve p256Five; norm_num) (by norm_num)).trans ?_
    rw [if_pos (by rw [onCurve_iff]; unfold p256Curve p256Five; norm_num)]
    rfl

/-! ## C08 -/

theorem coordEq_nat (a b : ℕ) : K1Point.coordEq (some (a : Int)) (some (b : Int)) = true ↔ a = b := by
  unfold K1Point.coordEq K1Point.nilOrZero
  rcases Nat.eq_zero_or_pos a with rfl | ha <;> rcases Nat.eq_zero_or_pos b with rfl | hb
  · simp
  · simp; omega
  · simp
  · simp [ha.ne', hb.ne']

/-- two leading bytes decide how long the concatenation is -/
theorem k1_setBytes (x y : ℕ) :
    K1Point.setBytes (natBytes x ++ natBytes y) =
      if 32 ≤ (natBytes x).length + (natBytes y).length then
        some ⟨some (setBytes ((natBytes x ++ natBytes y).take 32) : ℕ), some (setBytes ((natBytes x ++ natBytes y).drop 32) : ℕ)⟩
      else none := by
  unfold K1Point.setBytes sliceTo sliceFrom
  simp only [List.length_append]
  split <;> rfl

/-- **C08** The secp256k1 binary round trip of a point with coordinates below 2^256 gives back the same point exactly when `x`
occupies all 32 bytes. -/
theorem C08_binary_iff (recv : K1Point) (x y : ℕ) (hx : x < 256 ^ 32) :
    (∃ e, K1Point.unmarshalBinary recv (K1Point.marshalBinary ⟨some x, some y⟩) = some e ∧
      K1Point.isEqual ⟨some x, some y⟩ e = true) ↔ 256 ^ 31 ≤ x := by
  change (∃ e, K1Point.setBytes (natBytes x ++ natBytes y) = some e ∧ _) ↔ _
  rw [k1_setBytes]
  have hlx := natBytes_length_le.mpr hx
  constructor
  · rintro ⟨e, he, heq⟩
    split at he
    · rename_i hlen
      simp only [Option.some.injEq] at he
      subst he
      -- the first coordinate read back is at least 256^31
      have hbig : 256 ^ 31 ≤ setBytes ((natBytes x ++ natBytes y).take 32) := by
        have hlt : ((natBytes x ++ natBytes y).take 32).length = 32 := by simp; omega
        obtain ⟨w, hw⟩ : ∃ w, (natBytes x ++ natBytes y) = w := ⟨_, rfl⟩
        have hd : ∀ d t, w = d :: t → d ≠ 0 := by
          intro d t ht
          cases hnx : natBytes x with
          | nil =>
            rw [hnx, List.nil_append] at hw
            exact (natBytes_head y d t (hw.trans ht)).2
          | cons d' t' =>
            rw [hnx, List.cons_append] at hw
            have := hw.trans ht
            simp only [List.cons.injEq] at this
            exact this.1 ▸ (natBytes_head x d' t' hnx).2
        rw [hw] at hlt ⊢
        cases w with
        | nil => simp at hlt
        | cons d t =>
          rw [List.take_succ_cons] at hlt ⊢
          simp only [List.length_cons] at hlt
          rw [setBytes_cons, show (List.take 31 t).length = 31 by omega]
          have hd0 := hd d t rfl
          have : 0 < d.toNat := by
            rcases Nat.eq_zero_or_pos d.toNat with h0 | h0
            · exact absurd (UInt8.toNat_inj.mp (by simpa using h0)) hd0
            · exact h0
          nlinarith [pow_pos (show 0 < 256 by norm_num) 31]
      unfold K1Point.isEqual at heq
      rw [Bool.and_eq_true] at heq
      have h1 := (coordEq_nat _ _).mp heq.1
      omega
    · simp at he
  · intro h
    have hl : (natBytes x).length = 32 := by
      apply le_antisymm hlx
      by_contra hc
      have : (natBytes x).length ≤ 31 := by omega
      rw [natBytes_length_le] at this
      omega
    rw [if_pos (by omega)]
    refine ⟨_, rfl, ?_⟩
    have t := List.take_left (l₁ := natBytes x) (l₂ := natBytes y)
    have d := List.drop_left (l₁ := natBytes x) (l₂ := natBytes y)
    rw [hl] at t d
    rw [t, d, setBytes_natBytes, setBytes_natBytes]
    unfold K1Point.isEqual
    rw [Bool.and_eq_true]
    exact ⟨(coordEq_nat _ _).mpr rfl, (coordEq_nat _ _).mpr rfl⟩

/-- C08: when `x` is short, the result is a panic (the two coordinates together have fewer than 32 bytes) or another pair. -/
theorem C08_binary_short (recv : K1Point) (x y : ℕ) (hx : x < 256 ^ 31) :
    (K1Point.unmarshalBinary recv (K1Point.marshalBinary ⟨some x, some y⟩) = none ↔
      (natBytes x).length + (natBytes y).length < 32) ∧
    ∀ e, K1Point.unmarshalBinary recv (K1Point.marshalBinary ⟨some x, some y⟩) = some e →
      K1Point.isEqual ⟨some x, some y⟩ e = false := by
  constructor
  · change K1Point.setBytes (natBytes x ++ natBytes y) = none ↔ _
    rw [k1_setBytes]
    split <;> simp <;> omega
  · intro e he
    rw [Bool.eq_false_iff]
    intro heq
    have := (C08_binary_iff recv x y (by omega)).mp ⟨e, he, heq⟩
    omega

/-- C08: the nil infinity survives (as the pair (0,0), which `IsEqual` identifies with it); the same pair (0,0) does not. -/
theorem C08_infinity (recv : K1Point) :
    K1Point.unmarshalBinary recv (K1Point.marshalBinary ⟨none, none⟩) = some ⟨some 0, some 0⟩ ∧
    K1Point.isEqual ⟨none, none⟩ ⟨some 0, some 0⟩ = true ∧
    K1Point.unmarshalBinary recv (K1Point.marshalBinary ⟨some 0, some 0⟩) = none := by
  refine ⟨?_, rfl, ?_⟩
  · change K1Point.setBytes (List.replicate 32 0 ++ List.replicate 32 0) = _
    decide +kernel
  change K1Point.setBytes (natBytes 0 ++ natBytes 0) = none
  rw [natBytes_zero]
  rfl

/-- C08: `UnmarshalJSON` never reads its input. -/
theorem C08_json_ignored (recv : K1Point) (data : Raw) : k1Codec.unmarshal recv data = some (false, recv) := rfl

/-- C08: hashing to the curve inherits the loss: `MapToGroup` returns the hashed point exactly when its `x` fills 32 bytes. -/
theorem C08_mapToGroup (x y : ℕ) (hx : x < 256 ^ 32) :
    (∃ e, K1Point.mapToGroupOf ⟨some x, some y⟩ = some e ∧ K1Point.isEqual ⟨some x, some y⟩ e = true) ↔ 256 ^ 31 ≤ x :=
  C08_binary_iff ⟨none, none⟩ x y hx

/-- C08: a short `x` with a long `y` comes back as another pair; two short coordinates panic; a full one survives. -/
example : K1Point.unmarshalBinary ⟨none, none⟩ (K1Point.marshalBinary ⟨some 5, some (256 ^ 31 + 7)⟩) =
      some ⟨some (5 * 256 ^ 31 + 256 ^ 30), some 7⟩ ∧
    K1Point.unmarshalBinary ⟨none, none⟩ (K1Point.marshalBinary ⟨some 5, some 7⟩) = none ∧
    K1Point.unmarshalBinary ⟨none, none⟩ (K1Point.marshalBinary ⟨some (256 ^ 31), some 7⟩) =
      some ⟨some (256 ^ 31), some 7⟩ := by
  decide +kernel

/-! ## C09 -/

/-- **C09** Ristretto255 `MarshalJSON`: a panic unless the first byte is zero; then the JSON of (0,0). -/
theorem C09_marshal (valid : Bytes → Bool) (e : R255Point) (h : e.enc.length = 32) :
    (r255Codec valid).marshal e = if e.enc[0]? = some 0 then some (.ok (ecPointJson 0 0)) else none := by
  change marshalPoint 32 e.enc = _
  unfold marshalPoint
  cases he : e.enc with
  | nil => rw [he] at h; simp at h
  | cons t rest =>
    simp only [List.getElem?_cons_zero, Option.bind_eq_bind, Option.bind_some, Option.some.injEq]
    by_cases ht : t = 0
    · rw [if_neg (by simpa using ht), if_pos ht]
    · rw [if_pos (by simpa using ht), if_neg ht]
      have : sliceTo (t :: rest) (32 + 1) = none := by
        unfold sliceTo
        rw [if_neg (by rw [he] at h; omega)]
      rw [this]
      rfl

/-- C09: two points that can be encoded at all have the same encoding. -/
theorem C09_collide (valid : Bytes → Bool) (e e' : R255Point) (h : e.enc.length = 32) (h' : e'.enc.length = 32)
    (j j' : Except String Json) (he : (r255Codec valid).marshal e = some j) (he' : (r255Codec valid).marshal e' = some j') :
    j = j' := by
  rw [C09_marshal valid e h] at he
  rw [C09_marshal valid e' h'] at he'
  split at he
  · split at he'
    · simp only [Option.some.injEq] at he he'
      rw [← he, ← he']
    · simp at he'
  · simp at he

/-- C09: and `UnmarshalJSON` never succeeds, on any document. -/
theorem C09_unmarshal_never (valid : Bytes → Bool) (recv e : R255Point) (err : Bool) (data : Raw)
    (h : (r255Codec valid).unmarshal recv data = some (err, e)) : err = true ∧ e = recv := by
  change (match unmarshalPoint 32 data with
        | none => none
        | some .error => some (true, recv)
        | some (.bytes b) => some (R255Point.unmarshalBinary valid recv b)) = _ at h
  cases hu : unmarshalPoint 32 data with
  | none => rw [hu] at h; simp at h
  | some pb =>
    rw [hu] at h
    cases pb with
    | error =>
      simp only [Option.some.injEq, Prod.mk.injEq] at h
      exact ⟨h.1.symm, h.2.symm⟩
    | bytes b =>
      have hb : b.length ≠ 32 := by
        rcases unmarshalPoint_length _ _ _ hu with rfl | hb
        · simp
        · omega
      simp only [Option.some.injEq] at h
      unfold R255Point.unmarshalBinary at h
      rw [if_neg (by rintro ⟨h, _⟩; exact hb h), Prod.mk.injEq] at h
      exact ⟨h.1.symm, h.2.symm⟩

/-- C09: the identity (32 zero bytes) is encoded and cannot be decoded; an encoding with non-zero first byte panics. -/
example (recv : R255Point) : (r255Codec fun _ => true).marshal ⟨List.replicate 32 0⟩ = some (.ok (ecPointJson 0 0)) ∧
    (r255Codec fun _ => true).unmarshal recv (some (ecPointJson 0 0)) = some (true, recv) ∧
    (r255Codec fun _ => true).marshal ⟨List.replicate 32 7⟩ = none := ⟨rfl, rfl, rfl⟩

end MscPoc
