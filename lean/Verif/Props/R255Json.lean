import Verif.Props.Tests

/-!
# C68 — no JSON document is a Ristretto element

The test of JSON for Ristretto255 cannot pass for another reason than the encoding of one element: the decoder accepts nothing.
-/

set_option autoImplicit false

namespace MscPoc

open R255

/-- what the point decoder hands to the curve has one byte or 65, never 32 -/
theorem unmarshalPoint_32_bytes (data : Raw) (b : Bytes) (h : unmarshalPoint 32 data = some (.bytes b)) : b.length ≠ 32 := by
  intro hb
  rcases unmarshalPoint_length _ _ _ h with rfl | h
  · simp at hb
  · omega

/-- **C68** Whatever the document and the receiver, `UnmarshalJSON` of a Ristretto255 element panics or returns an error, and the receiver keeps
its value. -/
theorem C68_ristretto_json (recv : WPoint) (data : Raw) : r255Json.unmarshal recv data = none ∨ r255Json.unmarshal recv data = some (true, recv) := by
  show (match unmarshalPoint 32 data with
    | none => none
    | some .error => some (true, recv)
    | some (.bytes b) => some (r255Bin.dec recv b)) = none ∨ (match unmarshalPoint 32 data with
    | none => none
    | some .error => some (true, recv)
    | some (.bytes b) => some (r255Bin.dec recv b)) = some (true, recv)
  cases h : unmarshalPoint 32 data with
  | none => exact .inl rfl
  | some p =>
    refine .inr ?_
    cases p with
    | error => rfl
    | bytes b =>
      have hd : decode b = none := by
        cases hb : decode b with
        | none => rfl
        | some Q =>
          have := congrArg List.length (C65_decode _ _ hb).2
          rw [show (encode Q).length = 32 from toBytes_length (encodeS_lt Q)] at this
          exact absurd this.symm (by simpa using unmarshalPoint_32_bytes data b h)
      show some (match decode b with
        | none => (true, recv)
        | some Q => (false, Q)) = _
      rw [hd]

/-- C68: both cases occur: a string is an error, an object without members a panic -/
example (recv : WPoint) : r255Json.unmarshal recv (some (.str "x")) = some (true, recv) ∧ r255Json.unmarshal recv (some (.obj [])) = none :=
  ⟨rfl, rfl⟩

end MscPoc
