import Verif.Lemmas.HashToCurve
import Verif.Lemmas.Sha2
import Verif.Lemmas.H2CValues
import Verif.Props.Curve

/-!
# C60 — hashing to P-256 and P-384, and the system with the hash functions it uses
-/

set_option autoImplicit false

namespace MscPoc

/-- the suites circl uses for its P-256 and P-384 -/
def StdSuite (S : H2CSuite) : Prop := ∃ dec, S = p256Suite dec ∨ S = p384Suite dec

theorem stdSuite_ok {S : H2CSuite} (h : StdSuite S) : S.OK := by
  obtain ⟨dec, rfl | rfl⟩ := h
  · exact p256Suite_ok dec
  · exact p384Suite_ok dec

/-- **C60** SHA-256 digests have 32 bytes, SHA-384 digests 48. -/
theorem C60_digest_lengths (m : Bytes) : (sha256 m).length = 32 ∧ (sha384 m).length = 48 :=
  ⟨sha256_length m, sha384_length m⟩

/-- C60: the vectors of FIPS 180-4 for "abc" -/
example : sha256 (ascii "abc") = [0xba, 0x78, 0x16, 0xbf, 0x8f, 0x01, 0xcf, 0xea, 0x41, 0x41, 0x40, 0xde, 0x5d, 0xae, 0x22,
      0x23, 0xb0, 0x03, 0x61, 0xa3, 0x96, 0x17, 0x7a, 0x9c, 0xb4, 0x10, 0xff, 0x61, 0xf2, 0x00, 0x15, 0xad] ∧
    sha384 (ascii "abc") = [0xcb, 0x00, 0x75, 0x3f, 0x45, 0xa3, 0x5e, 0x8b, 0xb5, 0xa0, 0x3d, 0x69, 0x9a, 0xc6, 0x50, 0x07,
      0x27, 0x2c, 0x32, 0xab, 0x0e, 0xde, 0xd1, 0x63, 0x1a, 0x8b, 0x60, 0x5a, 0x43, 0xff, 0x5b, 0xed, 0x80, 0x86, 0x07, 0x2b,
      0xa1, 0xe7, 0xcc, 0x23, 0x58, 0xba, 0xec, 0xa1, 0x34, 0xc8, 0x25, 0xa7] := by
  decide +kernel

/-- **C60** The map to the curve is the simplified SWU map of RFC 9380, for every field element, the exceptional ones
included. -/
theorem C60_sswu (S : H2CSuite) (hS : StdSuite S) (u : ℕ) : ∃ _ : Fact S.c.p.Prime,
    Sswu S.c.p (S.c.b : ZMod S.c.p) (S.Z : ZMod S.c.p) u (S.sswu u) :=
  ⟨(stdSuite_ok hS).fact, H2CSuite.sswu_spec (stdSuite_ok hS) u⟩

/-- **C60** At most one point is the image of `u`. -/
theorem C60_sswu_unique (S : H2CSuite) (hS : StdSuite S) [Fact S.c.p.Prime] (u : ℕ) (P : WPoint)
    (h : Sswu S.c.p (S.c.b : ZMod S.c.p) (S.Z : ZMod S.c.p) u P) : P = S.sswu u := by
  have ok := stdSuite_ok hS
  have h' := H2CSuite.sswu_spec ok u
  have hx : P.x = (S.sswu u).x := by
    refine affCast_inj h.x_lt h'.x_lt ?_
    obtain ⟨x1, a1, a2, a3, a4⟩ := h.x
    obtain ⟨x2, b1, b2, b3, b4⟩ := h'.x
    have e : x1 = x2 := by
      by_cases ht : (S.Z : ZMod S.c.p) ^ 2 * (u : ZMod S.c.p) ^ 4 + (S.Z : ZMod S.c.p) * (u : ZMod S.c.p) ^ 2 = 0
      · rw [a1 ht, b1 ht]
      · rw [a2 ht, b2 ht]
    subst e
    by_cases hq : IsSquare (x1 ^ 3 - 3 * x1 + (S.c.b : ZMod S.c.p))
    · rw [a3 hq, b3 hq]
    · rw [a4 hq, b4 hq]
  have hy : P.y = (S.sswu u).y := by
    have e := h.eq
    rw [hx, ← h'.eq, sq_eq_sq_iff_eq_or_eq_neg] at e
    rcases e with e | e
    · exact affCast_inj h.y_lt h'.y_lt e
    · exfalso
      have e0 : ((P.y + (S.sswu u).y : ℕ) : ZMod S.c.p) = 0 := by push_cast; rw [e]; ring
      rw [ZMod.natCast_eq_zero_iff] at e0
      have hy0 : P.y ≠ 0 := by
        intro h0
        have := h.eq
        rw [h0] at this
        apply ok.noroot (P.x : ZMod S.c.p)
        simp only [Nat.cast_zero] at this
        linear_combination -this
      have h1 := h.y_lt
      have h2 := h'.y_lt
      have h3 := h.sgn
      have h4 := h'.sgn
      have h5 := ok.p34
      obtain ⟨k, hk⟩ := e0
      have hk1 : k = 1 := by
        rcases k with _ | _ | k
        · omega
        · rfl
        · exfalso
          have : S.c.p * (k + 1 + 1) ≥ S.c.p * 2 := Nat.mul_le_mul_left _ (by omega)
          omega
      subst hk1
      omega
  cases P
  simp only at hx hy
  rw [hx, hy]

/-- **C60** `MapToGroup` on P-256 and P-384 returns a point of the curve for every string. -/
theorem C60_on_curve (S : H2CSuite) (hS : StdSuite S) (dst s : Bytes) : (S.hashToCurve dst s).Valid S.c :=
  (wLegal_iff _ _).mp (H2CSuite.hashToCurve_legal (stdSuite_ok hS) dst s)

/-- C60: the exceptional field element 0, and field elements of either kind -/
example : (p256Suite fun _ => none).sswu 0 = ⟨0xa528bd8696bdaf996c65b982d94959d3146fe6a020693090bdba13132375f224,
      0x0e5fb73d16791ce358fb5adb2d33668a3b24099fd8d401f6685e0e994fb4d756⟩ ∧
    (p256Suite fun _ => none).isSquare ((p256Suite fun _ => none).g ((p256Suite fun _ => none).sswu 1).x) = true ∧
    StdSuite (p256Suite fun _ => none) ∧ StdSuite (p384Suite fun _ => none) :=
  ⟨by decide +kernel, by decide +kernel, ⟨_, Or.inl rfl⟩, ⟨_, Or.inr rfl⟩⟩

/-! ## the generators -/

/-- a curve with circl's `HashToElement`, the bits of its order, and the generators the recorded run of the program wrote -/
inductive RealRow : CirclCurve → ℕ → WPoint → WPoint → List WPoint → List WPoint → Prop
  | p256 (dec : Bytes → Option WPoint) : RealRow (p256Real dec) 256 recH256 recU256 recGg256 recHh256
  | p384 (dec : Bytes → Option WPoint) : RealRow (p384Real dec) 384 recH384 recU384 recGg384 recHh384

section
variable {C : CirclCurve} {bits : ℕ} {H U : WPoint} {Gg Hh : List WPoint} (row : RealRow C bits H U Gg Hh)
include row

theorem RealRow.std : StdRow C bits := by
  cases row with
  | p256 dec => exact ⟨dec, _, Or.inl ⟨rfl, rfl⟩⟩
  | p384 dec => exact ⟨dec, _, Or.inr ⟨rfl, rfl⟩⟩

theorem RealRow.valid (s : Bytes) : (C.hash s).Valid C.c := by
  cases row with
  | p256 dec => exact C60_on_curve (p256Suite dec) ⟨dec, Or.inl rfl⟩ [] s
  | p384 dec => exact C60_on_curve (p384Suite dec) ⟨dec, Or.inr rfl⟩ [] s

theorem RealRow.vals : C.hash SEEDH = H ∧ C.hash SEEDU = U ∧ (List.range 16).map (fun i => C.hash (seedG i)) = Gg ∧
    (List.range 16).map (fun i => C.hash (seedHh i)) = Hh := by
  cases row with
  | p256 dec =>
    have e : (p256Real dec).hash = (p256Suite fun _ => none).hashToCurve [] := funext fun m => p256Suite_dec _ _ _ _
    rw [e]
    exact ⟨p256_H, p256_U, p256_G, p256_Hh⟩
  | p384 dec =>
    have e : (p384Real dec).hash = (p384Suite fun _ => none).hashToCurve [] := funext fun m => p384Suite_dec _ _ _ _
    rw [e]
    exact ⟨p384_H, p384_U, p384_G, p384_Hh⟩

theorem RealRow.distinct : ((⟨C.gx, C.gy⟩ : WPoint) :: H :: U :: (Gg ++ Hh)).Nodup ∧
    (⟨0, 0⟩ : WPoint) ∉ (⟨C.gx, C.gy⟩ : WPoint) :: H :: U :: (Gg ++ Hh) := by
  cases row with
  | p256 dec =>
    have e : (⟨(p256Real dec).gx, (p256Real dec).gy⟩ : WPoint) = p256Gen := rfl
    rw [e]
    decide +kernel
  | p384 dec =>
    have e : (⟨(p384Real dec).gx, (p384Real dec).gy⟩ : WPoint) = p384Gen := rfl
    rw [e]
    decide +kernel

end

/-- **C60** `setup` and the range prover work with exactly the generators that the recorded runs wrote to testdata. -/
theorem C60_generators (nan64 : BitVec 64) {C : CirclCurve} {bits : ℕ} {H U : WPoint} {Gg Hh : List WPoint}
    (row : RealRow C bits H U Gg Hh) :
    ∃ pp, setup nan64 (circlGrp C) = some (.ok pp) ∧
      pp.BPParams.G = ⟨C.gx, C.gy⟩ ∧ pp.BPParams.H = H ∧ pp.BPParams.Gg = Gg ∧ pp.BPParams.Hh = Hh ∧
      pp.RPParams.GEC.H = H ∧
      ∀ (g h : List WPoint) (N : Int), 0 < N → setupInnerProduct (circlGrp C) (some g) (some h) N =
        some (.ok { Gg := g, Hh := h, Uu := U, GP := circlGrp C }) := by
  obtain ⟨e1, e2, e3, e4⟩ := row.vals
  obtain ⟨Bb, hr, _⟩ := row.std.table
  have ok := stdCircl_ord row.std.circl
  obtain ⟨D, hD, dep, _⟩ := C47_curves nan64 (circlGrp C) (fun s _ => ⟨_, rfl⟩) C.n bits Bb hr rfl
  have hH : D.H = H := by
    have h := dep.H
    rw [← e1]
    exact (Option.some.inj h).symm
  have get : ∀ (seed : ℕ → Bytes) (l : List WPoint), l.length = 16 → (∀ i < 16, some (C.hash (seed i)) = l[i]?) →
      l = (List.range 16).map (fun i => C.hash (seed i)) := by
    intro seed l hl h
    refine List.ext_getElem? fun i => ?_
    by_cases hi : i < 16
    · rw [← h i hi]; simp [hi]
    · rw [List.getElem?_eq_none (by omega), List.getElem?_eq_none (by simp; omega)]
  refine ⟨D.pp, hD, ?_, hH, ?_, ?_, hH, ?_⟩
  · show D.G = _
    rw [dep.G]
    have hm : (circlGrp C).mulGen 1 = wMul C ⟨C.gx, C.gy⟩ 1 := rfl
    have := ok.fact'
    obtain ⟨l, d⟩ := ok.wMul_spec ok.gen_legal 1
    rw [hm]
    exact wDen_inj ok.noroot ok.two_ne l ok.gen_legal (by rw [d, one_zsmul])
  · show D.Gg = _
    rw [← e3]
    exact get seedG _ dep.lenG dep.Gg
  · show D.Hh = _
    rw [← e4]
    exact get seedHh _ dep.lenH dep.Hh
  · intro g h N hN
    have hu : (circlGrp C).mapToGroup SEEDU = some U := congrArg some e2
    unfold setupInnerProduct
    rw [if_neg (by omega), hu]
    rfl

/-- **C60** These 35 generators are pairwise different and none is the identity. -/
theorem C60_distinct {C : CirclCurve} {bits : ℕ} {H U : WPoint} {Gg Hh : List WPoint} (row : RealRow C bits H U Gg Hh) :
    ((⟨C.gx, C.gy⟩ : WPoint) :: H :: U :: (Gg ++ Hh)).Nodup ∧
    ((⟨C.gx, C.gy⟩ : WPoint) :: H :: U :: (Gg ++ Hh)).length = 35 ∧
    ∀ P ∈ (⟨C.gx, C.gy⟩ : WPoint) :: H :: U :: (Gg ++ Hh), P.Valid C.c ∧ P ≠ ⟨0, 0⟩ := by
  obtain ⟨e1, e2, e3, e4⟩ := row.vals
  refine ⟨row.distinct.1, ?_, ?_⟩
  · rw [← e3, ← e4]; simp
  · intro P hP
    refine ⟨?_, fun h => row.distinct.2 (h ▸ hP)⟩
    have hmap : ∀ (seed : ℕ → Bytes), P ∈ (List.range 16).map (fun i => C.hash (seed i)) → P.Valid C.c := by
      intro seed h
      obtain ⟨i, _, rfl⟩ := List.mem_map.mp h
      exact row.valid _
    rcases List.mem_cons.mp hP with rfl | hP
    · exact (wLegal_iff _ _).mp (stdCircl_ord row.std.circl).gen_legal
    rcases List.mem_cons.mp hP with rfl | hP
    · rw [← e1]; exact row.valid _
    rcases List.mem_cons.mp hP with rfl | hP
    · rw [← e2]; exact row.valid _
    rcases List.mem_append.mp hP with hP | hP
    · exact hmap seedG (e3 ▸ hP)
    · exact hmap seedHh (e4 ▸ hP)

/-- **C60** The deployed system on P-256 and P-384 with SHA-256 and circl's hash to the curve: what `castVote` completes
is serialised, parsed to the identical ballot and accepted. -/
theorem C60_honest (nan64 : BitVec 64) {C : CirclCurve} {bits : ℕ} {H U : WPoint}
    {Gg Hh : List WPoint} (row : RealRow C bits H U Gg Hh) :
    ∃ pp, setup nan64 (circlGrp C) = some (.ok pp) ∧ ∀ (rnd : CastRand) (ballot : BallotData Int WPoint),
      (0 ≤ rnd.rChoice ∧ rnd.rChoice < 1899) →
      (rnd.bp1.sL.length = 16 ∧ rnd.bp1.sR.length = 16 ∧ rnd.bp2.sL.length = 16 ∧ rnd.bp2.sR.length = 16) →
      (∀ s ∈ rnd.tape, 0 ≤ s.k ∧ s.k < 2 ^ (bits - 1)) →
      castVote sha256 pp rnd = .done ballot →
      ∃ j, encBallot modPCodec (wCodec C.c) ballot = some (.ok j) ∧
        decBallot modPCodec (wCodec C.c) pp (some j) = some (.ok ballot) ∧
        verifyVote sha256 ballot pp.RPParams = some { result := true, times := [0, 0] } :=
  C52_honest sha256 nan64 C bits row.std fun s _ => row.valid s

/-- **C60** With SHA-256 and circl's hash to the curve, a voter who casts any other number with the honest code is
rejected, unless the challenge is zero. -/
theorem C60_any_choice (nan64 : BitVec 64) {C : CirclCurve} {bits : ℕ} {H U : WPoint}
    {Gg Hh : List WPoint} (row : RealRow C bits H U Gg Hh) :
    ∃ pp, setup nan64 (circlGrp C) = some (.ok pp) ∧
    ∀ (choice : UInt16) (rnd : CastRand) (ballot : BallotData Int WPoint),
      (rnd.bp1.sL.length = 16 ∧ rnd.bp1.sR.length = 16 ∧ rnd.bp2.sL.length = 16 ∧ rnd.bp2.sR.length = 16) →
      (∀ s ∈ rnd.tape, 0 ≤ s.k ∧ s.k < 2 ^ (bits - 1)) →
      castChoice sha256 pp choice rnd = .done ballot →
      ∃ c b, ballot.VoteProof.Challenge = some c ∧
        verifyVote sha256 ballot pp.RPParams = some { result := b, times := [0, 0] } ∧
        (b = true ↔ (101 ≤ choice ∧ choice ≤ 2000) ∨ c = 0) :=
  C52_any_choice sha256 sha256_length nan64 C bits row.std fun s _ => row.valid s

/-- **C60** The commitments of the deployed system hide perfectly: any commitment opens to any value with exactly one
randomness in `[0, N)`. -/
theorem C60_hiding (nan64 : BitVec 64) {C : CirclCurve} {bits : ℕ} {H U : WPoint} {Gg Hh : List WPoint}
    (row : RealRow C bits H U Gg Hh) :
    ∃ pp, setup nan64 (circlGrp C) = some (.ok pp) ∧
    ∀ x r x' : Int, ∃! r' : Int, 0 ≤ r' ∧ r' < (circlGrp C).N ∧
      pedersenCommit (circlGrp C) x' r' pp.BPParams.H = pedersenCommit (circlGrp C) x r pp.BPParams.H := by
  obtain ⟨pp, hpp, _, hH, _⟩ := C60_generators nan64 row
  obtain ⟨hv, hne⟩ := (C60_distinct row).2.2 H (by simp)
  refine ⟨pp, hpp, ?_⟩
  rw [hH]
  exact (C52_hiding C row.std.circl H hv).mpr hne

end MscPoc
