import Verif.Props.Ristretto
import Verif.Lemmas.RistrettoEnc
import Verif.Spec.RistrettoEnc
import Verif.Model.Points

/-!
# C65 — the encodings of Ristretto255 elements, and hashing to the group
-/

set_option autoImplicit false

namespace MscPoc

open R255

theorem leVal_eq (b : Bytes) : leVal b = ofBytes b := by
  unfold ofBytes
  induction b with
  | nil => rfl
  | cons x b ih =>
    rw [List.reverse_cons, setBytes_append, setBytes_cons, setBytes_nil, leVal, ih, List.length_nil, List.length_singleton]
    ring

/-- **C65** The encoding of an element is the one of its description. -/
theorem C65_encode (P : WPoint) (hP : P.Even) : Encodes (encode P) P := by
  rw [even_iff] at hP
  obtain ⟨R, e1, r1⟩ := encode_rep hP
  have hv : leVal (encode P) = encodeS P := by rw [leVal_eq]; exact ofBytes_toBytes _
  have hQ := coords_legal R
  have hx : ((R255E.coords R).x : Fp) = R.x := congrArg EdPt.x (coords_pt R)
  have hy : ((R255E.coords R).y : Fp) = R.y := congrArg EdPt.y (coords_pt R)
  refine ⟨toBytes_length (encodeS_lt P), hv ▸ encodeS_lt P, ?_, R255E.coords R, hQ.1, hQ.2.1, ((edLegal_iff _).mp hQ).2.2, ?_, ?_, ?_, ?_,
    ?_⟩
  · rw [hv, ← nn_cast (encodeS_lt P)]; exact r1.ns
  · rw [edEqual_iff hP.1 hQ, coords_pt, e1]
  · rw [← nn_cast hQ.1, hx]; exact r1.nx
  · have := r1.nt
    rw [← hx, ← hy, ← Nat.cast_mul] at this
    change (((R255E.coords R).x * (R255E.coords R).y : ℕ) : Fp).val % 2 = 0 at this
    rwa [ZMod.val_natCast] at this
  · intro h0
    apply r1.ny
    rw [← hy, h0, Nat.cast_zero]
  · rw [hv]
    have := r1.rel
    rw [← hy] at this
    apply Int.emod_eq_zero_of_dvd
    rw [← ZMod.intCast_zmod_eq_zero_iff_dvd]
    push_cast
    linear_combination this

/-- **C65** Two points have the same encoding exactly when they stand for the same element, so `String()` and `IsEqual` agree. -/
theorem C65_canonical (P Q : WPoint) (hP : P.Even) (hQ : Q.Even) : encode P = encode Q ↔ edEqual P Q = true := by
  rw [even_iff] at hP hQ
  exact encode_canonical hP hQ

/-- **C65** What is decoded is an element, and its encoding are the bytes it came from: each element has one encoding. -/
theorem C65_decode (b : Bytes) (Q : WPoint) (h : decode b = some Q) : Q.Even ∧ encode Q = b := by
  rw [even_iff]
  exact decode_even h

/-- **C65** Elements survive transport in bytes. -/
theorem C65_roundtrip (P : WPoint) (hP : P.Even) : ∃ Q, decode (encode P) = some Q ∧ edEqual P Q = true := by
  rw [even_iff] at hP
  exact decode_encode hP

/-- **C65** Exactly as many byte sequences decode as the group has elements. -/
theorem C65_count : Nat.card {b : Bytes // (decode b).isSome = true} = r255N := decode_card

/-- **C65** Hashing: whatever 64 bytes are derived from a string, the result is an element of the group. -/
theorem C65_hash (b : Bytes) : (fromUniform b).Even := by
  rw [even_iff]
  exact fromUniform_even b

/-- **C65** The same for a sum of any number of mapped strings, whatever their lengths. -/
theorem C65_pieces (l : List Bytes) : (fromPieces l).Even := by
  rw [even_iff]
  exact fromPieces_even l

/-- **C65** The highest bit of each half of those 64 bytes does not count. -/
theorem C65_top_bit (b : Bytes) (c c' : UInt8) (h : b.length = 31) (e : c.toNat % 128 = c'.toNat % 128) :
    mapBytes (b ++ [c]) = mapBytes (b ++ [c']) := by
  have hl : ∀ (b : Bytes) (c : UInt8), leVal (b ++ [c]) = leVal b + 256 ^ b.length * c.toNat := by
    intro b c
    induction b with
    | nil => simp [leVal]
    | cons x b ih => simp only [List.cons_append, leVal, ih, List.length_cons]; ring
  have key : ∀ c : UInt8, (leVal b + 256 ^ 31 * c.toNat) % 2 ^ 255 = (leVal b + 256 ^ 31 * (c.toNat % 128)) % 2 ^ 255 := by
    intro c
    have : 256 ^ 31 * c.toNat = 256 ^ 31 * (c.toNat % 128) + 2 ^ 255 * (c.toNat / 128) := by
      conv_lhs => rw [← Nat.mod_add_div c.toNat 128]
      ring
    rw [this, ← Nat.add_assoc, Nat.add_mul_mod_self_left]
  unfold mapBytes
  rw [← leVal_eq, ← leVal_eq, hl, hl, h, key c, key c', e]

/-- **C65** `MarshalJSON` on the encodings: it panics exactly on the elements whose encoding does not begin with a zero byte; all
others become the point (0, 0). -/
theorem C65_json (valid : Bytes → Bool) (P : WPoint) :
    (r255Codec valid).marshal ⟨encode P⟩ = if (encode P)[0]? = some 0 then some (.ok (ecPointJson 0 0)) else none := by
  have h : (encode P).length = 32 := toBytes_length (encodeS_lt P)
  generalize encode P = b at h ⊢
  exact C09_marshal valid ⟨b⟩ h

/-- **C65** The deployed system on Ristretto255 with the real encoding and the real map, for any derivation of the mapped
strings: setup succeeds and every ballot `castVote` completes is accepted. -/
theorem C65_honest (sha : Bytes → Bytes) (nan64 : BitVec 64) (pieces : Bytes → List Bytes) :
    ∃ pp, setup nan64 (r255Grp (r255Real pieces)) = some (.ok pp) ∧ ∀ (rnd : CastRand) (ballot : BallotData Int WPoint),
      (0 ≤ rnd.rChoice ∧ rnd.rChoice < 1899) →
      (rnd.bp1.sL.length = 16 ∧ rnd.bp1.sR.length = 16 ∧ rnd.bp2.sL.length = 16 ∧ rnd.bp2.sR.length = 16) →
      (∀ s ∈ rnd.tape, 0 ≤ s.k ∧ s.k < 2 ^ 252) →
      castVote sha pp rnd = .done ballot →
      verifyVote sha ballot pp.RPParams = some { result := true, times := [0, 0] } :=
  C59_honest sha nan64 (r255Real pieces) fun s _ => C65_pieces (pieces s)

/-- **C65** Any choice, cast by an unmodified `castVote` of the choice: accepted exactly within the range. -/
theorem C65_any_choice (sha : Bytes → Bytes) (hsha : ∀ m, (sha m).length = 32) (nan64 : BitVec 64) (pieces : Bytes → List Bytes) :
    ∃ pp, setup nan64 (r255Grp (r255Real pieces)) = some (.ok pp) ∧
    ∀ (choice : UInt16) (rnd : CastRand) (ballot : BallotData Int WPoint),
      (rnd.bp1.sL.length = 16 ∧ rnd.bp1.sR.length = 16 ∧ rnd.bp2.sL.length = 16 ∧ rnd.bp2.sR.length = 16) →
      (∀ s ∈ rnd.tape, 0 ≤ s.k ∧ s.k < 2 ^ 252) →
      castChoice sha pp choice rnd = .done ballot →
      ∃ c b, ballot.VoteProof.Challenge = some c ∧
        verifyVote sha ballot pp.RPParams = some { result := b, times := [0, 0] } ∧
        (b = true ↔ (101 ≤ choice ∧ choice ≤ 2000) ∨ c = 0) :=
  C59_any_choice sha hsha nan64 (r255Real pieces) fun s _ => C65_pieces (pieces s)

/-- **C65** The driver on it, without assumptions on the group. -/
theorem C65_driver (sha : Bytes → Bytes) (hsha : ∀ m, (sha m).length = 32) (nan64 : BitVec 64) (pieces : Bytes → List Bytes)
    (rnds : List CastRand) (hs : RunsOK sha nan64 (r255Grp (r255Real pieces)) rnds) (hd : ∀ rnd ∈ rnds, CastDrawn 253 rnd) :
    runGroup sha nan64 (r255Grp (r255Real pieces)) rnds ≠ .panic ∧
    (∀ r, runGroup sha nan64 (r255Grp (r255Real pieces)) rnds = .done r → r = .formed true) ∧
    ((∀ rnd ∈ rnds, ∃ s ∈ rnd.tape, SafeMask 253 s.k) → runGroup sha nan64 (r255Grp (r255Real pieces)) rnds = .done (.formed true)) :=
  C59_driver sha hsha nan64 (r255Real pieces) (fun s _ => C65_pieces (pieces s)) rnds hs hd

/-! The multiples of the generator in RFC 9496, A.1, a wrong encoding of A.2, and the first vector of A.3. -/

example : encode edZero = List.replicate 32 0 := by decide +kernel

example : encode edBase =
    [0xe2, 0xf2, 0xae, 0x0a, 0x6a, 0xbc, 0x4e, 0x71, 0xa8, 0x84, 0xa9, 0x61, 0xc5, 0x00, 0x51, 0x5f,
     0x58, 0xe3, 0x0b, 0x6a, 0xa5, 0x82, 0xdd, 0x8d, 0xb6, 0xa6, 0x59, 0x45, 0xe0, 0x8d, 0x2d, 0x76] := by decide +kernel

example : encode (edMul edBase 2) =
    [0x6a, 0x49, 0x32, 0x10, 0xf7, 0x49, 0x9c, 0xd1, 0x7f, 0xec, 0xb5, 0x10, 0xae, 0x0c, 0xea, 0x23,
     0xa1, 0x10, 0xe8, 0xd5, 0xb9, 0x01, 0xf8, 0xac, 0xad, 0xd3, 0x09, 0x5c, 0x73, 0xa3, 0xb9, 0x19] := by decide +kernel

example : decode (1 :: List.replicate 31 0) = none := by decide +kernel

example : (decode (encode (edMul edBase 2))).map (edEqual (edMul edBase 2)) = some true := by decide +kernel

example : encode (fromUniform
    [0x5d, 0x1b, 0xe0, 0x9e, 0x3d, 0x0c, 0x82, 0xfc, 0x53, 0x81, 0x12, 0x49, 0x0e, 0x35, 0x70, 0x19,
     0x79, 0xd9, 0x9e, 0x06, 0xca, 0x3e, 0x2b, 0x5b, 0x54, 0xbf, 0xfe, 0x8b, 0x4d, 0xc7, 0x72, 0xc1,
     0x4d, 0x98, 0xb6, 0x96, 0xa1, 0xbb, 0xfb, 0x5c, 0xa3, 0x2c, 0x43, 0x6c, 0xc6, 0x1c, 0x16, 0x56,
     0x37, 0x90, 0x30, 0x6c, 0x79, 0xea, 0xca, 0x77, 0x05, 0x66, 0x8b, 0x47, 0xdf, 0xfe, 0x5b, 0xb6]) =
    [0x30, 0x66, 0xf8, 0x2a, 0x1a, 0x74, 0x7d, 0x45, 0x12, 0x0d, 0x17, 0x40, 0xf1, 0x43, 0x58, 0x53,
     0x1a, 0x8f, 0x04, 0xbb, 0xff, 0xe6, 0xa8, 0x19, 0xf8, 0x6d, 0xfe, 0x50, 0xf4, 0x4a, 0x0a, 0x46] := by decide +kernel

/-- the generator cannot be written as JSON -/
example (valid : Bytes → Bool) : (r255Codec valid).marshal ⟨encode edBase⟩ = none := by
  rw [C65_json, if_neg (by decide +kernel)]

end MscPoc
