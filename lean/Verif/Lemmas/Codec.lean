import Verif.Lemmas.Bytes

/-!
# The point codecs
-/

set_option autoImplicit false

namespace MscPoc

theorem overwriteEnd_some {buf src r : Bytes} :
    overwriteEnd buf src = some r ↔ src.length ≤ buf.length ∧ r = buf.take (buf.length - src.length) ++ src := by
  unfold overwriteEnd
  split
  · simp [*, eq_comm]
  · simp [*]

theorem overwriteEnd_none {buf src : Bytes} : overwriteEnd buf src = none ↔ buf.length < src.length := by
  unfold overwriteEnd
  split
  · simp; omega
  · simp; omega

theorem overwriteEnd_length {buf src r : Bytes} (h : overwriteEnd buf src = some r) : r.length = buf.length := by
  obtain ⟨h1, rfl⟩ := overwriteEnd_some.mp h
  simp; omega

/-- overwriting within the zero padding -/
theorem overwriteEnd_pad (pre src : Bytes) (len : ℕ) (h : src.length ≤ len) :
    overwriteEnd (pre ++ List.replicate len 0) src = some (pre ++ (List.replicate (len - src.length) 0 ++ src)) := by
  rw [overwriteEnd_some]
  constructor
  · simp; omega
  · have e : (pre ++ List.replicate len (0 : UInt8)).length - src.length = pre.length + (len - src.length) := by
      simp; omega
    rw [e, List.take_length_add_append, List.take_replicate, min_eq_left (by omega), List.append_assoc]

theorem overwriteEnd_full (buf src : Bytes) (h : src.length = buf.length) : overwriteEnd buf src = some src := by
  rw [overwriteEnd_some]; simp [h]

theorem bigBytes_natCast (n : ℕ) : bigBytes (n : Int) = natBytes n := rfl
theorem bigBytes_neg (x : Int) : bigBytes (-x) = bigBytes x := by unfold bigBytes; rw [Int.natAbs_neg]

theorem bigBytes_length_le {x : Int} {k : ℕ} : (bigBytes x).length ≤ k ↔ x.natAbs < 256 ^ k := natBytes_length_le

theorem natBytes_ne_nil {n : ℕ} (h : n ≠ 0) : natBytes n ≠ [] := by
  intro e
  have := setBytes_natBytes n
  rw [e] at this
  exact h this.symm

/-- the leading byte is not zero -/
theorem natBytes_head (n : ℕ) (d : UInt8) (t : Bytes) (h : natBytes n = d :: t) : 256 ^ t.length ≤ n ∧ d ≠ 0 := by
  have hl : (natBytes n).length = t.length + 1 := by rw [h]; rfl
  have h1 : ¬ (natBytes n).length ≤ t.length := by omega
  rw [natBytes_length_le] at h1
  refine ⟨by omega, ?_⟩
  rintro rfl
  have := setBytes_natBytes n
  rw [h, setBytes_cons] at this
  have h2 := setBytes_lt t
  simp at this
  omega

/-- bytes of a number given by its most significant part -/
theorem natBytes_eq {n : ℕ} {b : Bytes} (h : setBytes b = n) (hb : ∀ d t, b = d :: t → d ≠ 0) : natBytes n = b := by
  have hl : (natBytes n).length = b.length := by
    apply le_antisymm
    · rw [natBytes_length_le, ← h]; exact setBytes_lt b
    · cases b with
      | nil => simp
      | cons d t =>
        by_contra hc
        have : (natBytes n).length ≤ t.length := by simp at hc; omega
        rw [natBytes_length_le, ← h, setBytes_cons] at this
        have hd := hb d t rfl
        have : 0 < d.toNat := by
          rcases Nat.eq_zero_or_pos d.toNat with h0 | h0
          · exact absurd (UInt8.toNat_inj.mp (by simpa using h0)) hd
          · exact h0
        nlinarith [pow_pos (show 0 < 256 by norm_num) t.length]
  exact setBytes_inj hl (by rw [setBytes_natBytes, h])

/-! ## point bytes -/

/-- the buffer handed to `UnmarshalBinary` -/
theorem unmarshalPoint_obj (len : ℕ) (kvs : List (String × Json)) (X Y : Option Int)
    (hX : asBig (fieldVals ["x", "y"] kvs "x") = .ok X) (hY : asBig (fieldVals ["x", "y"] kvs "y") = .ok Y) :
    unmarshalPoint len (some (.obj kvs)) = X.bind fun x => Y.bind fun y =>
      if x = 0 ∧ y = 0 then some (.bytes [0])
      else (overwriteEnd (4 :: List.replicate len 0) (bigBytes x)).bind fun lo =>
        (overwriteEnd (lo ++ List.replicate len 0) (bigBytes y)).bind fun tmp => some (.bytes tmp) := by
  unfold unmarshalPoint asObj
  simp only [hX, hY]
  rfl

/-- document with the two coordinates; nil is `null` -/
def ptDoc (X Y : Option Int) : Raw := some (.obj [("x", bigJson X), ("y", bigJson Y)])

theorem ptDoc_x (X Y : Option Int) :
    asBig (fieldVals ["x", "y"] [("x", bigJson X), ("y", bigJson Y)] "x") = .ok X := by
  have : fieldVals ["x", "y"] [("x", bigJson X), ("y", bigJson Y)] "x" = [bigJson X] := rfl
  rw [this]; cases X <;> rfl

theorem ptDoc_y (X Y : Option Int) :
    asBig (fieldVals ["x", "y"] [("x", bigJson X), ("y", bigJson Y)] "y") = .ok Y := by
  have : fieldVals ["x", "y"] [("x", bigJson X), ("y", bigJson Y)] "y" = [bigJson Y] := rfl
  rw [this]; cases Y <;> rfl

/-- the ordinary case: coordinates that fit -/
theorem unmarshalPoint_fit (len : ℕ) (x y : ℕ) (hx : x < 256 ^ len) (hy : y < 256 ^ len) (h0 : ¬ (x = 0 ∧ y = 0)) :
    unmarshalPoint len (ptDoc (some x) (some y)) = some (.bytes (4 :: (fillBytes len x ++ fillBytes len y))) := by
  unfold ptDoc
  rw [unmarshalPoint_obj len _ _ _ (ptDoc_x _ _) (ptDoc_y _ _)]
  simp only [Option.bind_some]
  rw [if_neg (by exact_mod_cast h0)]
  have e1 : overwriteEnd (4 :: List.replicate len 0) (bigBytes x) = some ([4] ++ fillBytes len x) :=
    overwriteEnd_pad [4] (natBytes x) len (natBytes_length_le.mpr hx)
  have e2 : overwriteEnd (([4] ++ fillBytes len x) ++ List.replicate len 0) (bigBytes y) =
      some (([4] ++ fillBytes len x) ++ fillBytes len y) :=
    overwriteEnd_pad _ (natBytes y) len (natBytes_length_le.mpr hy)
  rw [e1, Option.bind_some, e2, Option.bind_some]
  simp

/-- every buffer is the one zero byte or has the full length -/
theorem unmarshalPoint_length (len : ℕ) (data : Raw) (b : Bytes) (h : unmarshalPoint len data = some (.bytes b)) :
    b = [0] ∨ b.length = 2 * len + 1 := by
  unfold unmarshalPoint at h
  split at h
  · simp at h
  split at h
  · simp at h
  · simp at h
  · rename_i X Y _ _
    cases X with
    | none => simp at h
    | some x =>
      cases Y with
      | none => simp at h
      | some y =>
        simp only [Option.bind_eq_bind, Option.bind_some] at h
        split at h
        · simp at h; exact Or.inl h.symm
        · obtain ⟨lo, e1, h⟩ := Option.bind_eq_some_iff.mp h
          obtain ⟨tmp, e2, h⟩ := Option.bind_eq_some_iff.mp h
          simp only [Option.some.injEq, PointBytes.bytes.injEq] at h
          subst h
          right
          rw [overwriteEnd_length e2, List.length_append, overwriteEnd_length e1]
          simp; omega

theorem marshalPoint_fit (len x y : ℕ) (hx : x < 256 ^ len) (hy : y < 256 ^ len) :
    marshalPoint len (4 :: (fillBytes len x ++ fillBytes len y)) = some (.ok (ecPointJson x y)) := by
  have lx := fillBytes_length hx
  have ly := fillBytes_length hy
  have e1 : sliceTo (4 :: (fillBytes len x ++ fillBytes len y)) (len + 1) = some (4 :: fillBytes len x) := by
    unfold sliceTo
    rw [if_pos (by simp [lx, ly]), List.take_succ_cons]
    have := List.take_left (l₁ := fillBytes len x) (l₂ := fillBytes len y)
    rw [lx] at this
    rw [this]
  have e2 : sliceFrom (4 :: fillBytes len x) 1 = some (fillBytes len x) := by
    unfold sliceFrom; rw [if_pos (by simp)]; rfl
  have e3 : sliceFrom (4 :: (fillBytes len x ++ fillBytes len y)) (1 + len) = some (fillBytes len y) := by
    unfold sliceFrom
    rw [if_pos (by simp [lx, ly]; omega), add_comm 1 len, List.drop_succ_cons]
    have := List.drop_left (l₁ := fillBytes len x) (l₂ := fillBytes len y)
    rw [lx] at this
    rw [this]
  unfold marshalPoint
  simp only [List.getElem?_cons_zero, Option.bind_eq_bind, Option.bind_some]
  rw [if_pos (by decide), e1, Option.bind_some, e2, Option.bind_some, e3, Option.bind_some, if_neg (by simp [lx, ly]),
    setBytes_fillBytes, setBytes_fillBytes]

end MscPoc
