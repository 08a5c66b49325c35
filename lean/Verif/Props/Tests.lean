import Verif.Lemmas.Tests
import Verif.Props.Binary
import Verif.Props.RistrettoEnc
import Verif.Props.K1Hash
import Verif.Props.HashToCurve

/-!
# C68: the repository's own tests, for every random draw
-/

set_option autoImplicit false

namespace MscPoc

open R255

/-! ## group/group_test.go -/

/-- `Random()` of the safe-prime group: a power of the generator -/
def ModPDrawn (x : Int) : Prop := ∃ r : Int, x = (modPGrp rfcGroup).baseScale (modPGrp rfcGroup).identity r

/-- **C68** `TestGroup` on the 3072-bit group passes, whatever is drawn. -/
theorem C68_group_modp (d : GroupDraws Int) (hd : d.All ModPDrawn) :
    groupSubtests (modPGrp rfcGroup) modPBin modPCodec d = some true := by
  let L := modPLawful rfcGroup_ok
  have hV : ∀ x, ModPDrawn x → L.V x := by
    rintro x ⟨r, rfl⟩
    exact L.V_baseScale
  refine subtests_pass L ?_ (fun e _ => modPCodec_good e trivial) d
    ⟨fun x h => hV x (hd.neg x h), fun x h => hV x (hd.order x h), hV _ hd.set, fun x h => hV x (hd.binary x h),
      fun x h => hV x (hd.json x h)⟩
  intro x hx r
  have h0 : 0 < x := hx.1
  have e : (setBytes (bigBytes x) : Int) = x := by
    rw [setBytes_bigBytes]
    omega
  refine ⟨rfl, ?_⟩
  show (modPGrp rfcGroup).isEqual x (setBytes (bigBytes x) : ℕ) = true
  rw [e]
  exact L.self x hx

/-- **C68** `TestGroup` on P-256 and P-384 passes, whatever points are drawn. -/
theorem C68_group_curves (C : CirclCurve) (hC : StdCircl C) (d : GroupDraws WPoint) (hd : d.All (WPoint.Valid C.c)) :
    groupSubtests (circlGrp C) (wBin C.c) (wCodec C.c) d = some true := by
  have ok := stdCircl_ord hC
  have := ok.fact'
  let := ok.module
  have hV : WPoint.Valid C.c = ok.lawful.V := funext fun P => propext (wLegal_iff C.c P).symm
  rw [hV] at hd
  refine subtests_pass ok.lawful ?_ (hV ▸ C06_json_roundtrip C.c (stdCircl_curve hC)) d hd
  intro x hx r
  have e := C06_binary_roundtrip C.c (stdCircl_curve hC) x (hV ▸ hx) r
  show (WPoint.unmarshalBinary C.c r (x.marshalBinary C.c)).1 = false ∧
    (circlGrp C).isEqual x (WPoint.unmarshalBinary C.c r (x.marshalBinary C.c)).2 = true
  rw [e]
  exact ⟨rfl, ok.lawful.self x hx⟩

theorem r255Bin_enc (x : WPoint) : r255Bin.enc x = encode x := by simp only [r255Bin]

theorem r255Bin_dec {b : Bytes} {Q : WPoint} (h : decode b = some Q) (r : WPoint) : r255Bin.dec r b = (false, Q) := by
  show (match decode b with
    | none => (true, r)
    | some Q => (false, Q)) = _
  rw [h]

theorem bin_good {E : Type} {g : Grp E} {B : BinCodec E} {V : E → Prop} (enc : E → Bytes) (dec : Bytes → Option E)
    (he : ∀ x, B.enc x = enc x) (hd : ∀ {b Q}, dec b = some Q → ∀ r, B.dec r b = (false, Q))
    (h : ∀ x, V x → ∃ Q, dec (enc x) = some Q ∧ g.isEqual x Q = true) : B.Good g V := by
  intro x hx r
  obtain ⟨Q, e1, e2⟩ := h x hx
  rw [he, hd e1]
  exact ⟨rfl, e2⟩

/-- the JSON of (0, 0) is refused, and the receiver kept -/
theorem r255Json_zero (r : WPoint) : r255Json.unmarshal r (some (ecPointJson 0 0)) = some (true, r) := by
  have h : unmarshalPoint 32 (some (ecPointJson 0 0)) = some (.bytes [0]) := rfl
  have hd : decode [0] = none := by
    cases h : decode [0] with
    | none => rfl
    | some Q =>
      have := congrArg List.length (C65_decode _ _ h).2
      rw [show (encode Q).length = 32 from toBytes_length (encodeS_lt Q)] at this
      simp at this
  show (match unmarshalPoint 32 (some (ecPointJson 0 0)) with
    | none => none
    | some .error => some (true, r)
    | some (.bytes b) => some (r255Bin.dec r b)) = _
  rw [h]
  show some (match decode [0] with
    | none => (true, r)
    | some Q => (false, Q)) = _
  rw [hd]

theorem r255Json_marshal (P : WPoint) :
    r255Json.marshal P = if (encode P)[0]? = some 0 then some (.ok (ecPointJson 0 0)) else none := by
  have h : (encode P).length = 32 := toBytes_length (encodeS_lt P)
  unfold r255Json
  dsimp only
  generalize encode P = b at h ⊢
  exact C09_marshal (fun _ => true) ⟨b⟩ h

/-- **C68** On Ristretto255 the subtests for negation, order, `Set` and `MarshalBinary` pass, and `MarshalJSON` never does: it
panics unless the encoding of every element drawn begins with a zero byte, and then it reports a failure. -/
theorem C68_group_ristretto (L : R255Lib) (d : GroupDraws WPoint) (hd : d.All WPoint.Even) :
    testNeg (r255Grp L) d.neg = true ∧ testOrder (r255Grp L) d.order = true ∧ testSet (r255Grp L) d.set = true ∧
    testMarshalBinary (r255Grp L) r255Bin d.binary = true ∧
    testMarshalJSON (r255Grp L) r255Json d.json =
      (if ∀ x ∈ d.json, (encode x)[0]? = some 0 then some false else none) ∧
    groupSubtests (r255Grp L) r255Bin r255Json d =
      (if ∀ x ∈ d.json, (encode x)[0]? = some 0 then some false else none) := by
  let := r255Module
  have hV : WPoint.Even = (r255Lawful L).V := funext fun P => propext (even_iff P)
  rw [hV] at hd
  have hB : r255Bin.Good (r255Grp L) (r255Lawful L).V :=
    bin_good encode decode r255Bin_enc r255Bin_dec fun x hx => C65_roundtrip x ((even_iff x).mpr hx)
  have h0 : (encode (r255Grp L).identity)[0]? = some 0 := by
    show (encode edZero)[0]? = some 0
    decide +kernel
  have hj := testMarshalJSON_broken (g := r255Grp L) r255Json_marshal r255Json_zero h0 d.json
  refine ⟨testNeg_pass (r255Lawful L) _ hd.neg, testOrder_pass (r255Lawful L) _ hd.order _, (r255Lawful L).self _ hd.set,
    testMarshalBinary_pass hB (r255Lawful L).V_ident _ hd.binary, hj, ?_⟩
  rw [subtests_split (r255Lawful L) hB r255Json d hd, hj]

/-- **C68** Hence `TestGroup` never passes, whatever is drawn, and everything in it passes except the last subtest. -/
theorem C68_testGroup (C256 C384 : CirclCurve) (h256 : ∃ dec hash, C256 = p256Circl dec hash)
    (h384 : ∃ dec hash, C384 = p384Circl dec hash) (L : R255Lib) (d₁ : GroupDraws Int) (d₂ d₃ d₄ : GroupDraws WPoint)
    (h₁ : d₁.All ModPDrawn) (h₂ : d₂.All (WPoint.Valid C256.c)) (h₃ : d₃.All (WPoint.Valid C384.c)) (h₄ : d₄.All WPoint.Even) :
    testGroup C256 C384 L rfcGroup d₁ d₂ d₃ d₄ =
      (if ∀ x ∈ d₄.json, (encode x)[0]? = some 0 then some false else none) := by
  obtain ⟨dec, hash, h⟩ := h256
  obtain ⟨dec', hash', h'⟩ := h384
  unfold testGroup
  rw [C68_group_modp d₁ h₁, C68_group_curves C256 ⟨dec, hash, Or.inl h⟩ d₂ h₂, C68_group_curves C384 ⟨dec', hash', Or.inr h'⟩ d₃ h₃,
    (C68_group_ristretto L d₄ h₄).2.2.2.2.2]
  split <;> rfl

/-- **C68** `TestMath` (secp256k1) passes, whatever two elements are drawn. -/
theorem C68_math (L : K1Lib) (hL : L.Identities) (r1 r2 : K1Point) (h1 : r1.Valid) (h2 : r2.Valid) :
    testMath (k1Grp L) r1 r2 = true := by
  let := k1Module
  exact testMath_pass (k1Lawful hL.ok) r1 r2 h1 h2

/-! ## bulletproofs/*_test.go -/

/-- **C68** The five range tests on Ristretto255 pass, whatever is drawn, unless a challenge of the run is a multiple of the
group order; the same test with any other value says whether that value is congruent to a number in the range. -/
theorem C68_range (sha : Bytes → Bytes) (nan64 : BitVec 64) (L : R255Lib) (hash : ∀ s, SetupSeed 32 s → (L.hash s).Even) :
    ∃ p, bpSetup nan64 (2 ^ 32) (r255Grp L) = some (.ok p) ∧ ∀ rnd : BPRand, rnd.sL.length = 32 → rnd.sR.length = 32 →
      (DigestsOK sha r255N → ∀ x, RangeRunOK sha p rnd x) ∧
      (∀ x want, RangeRunOK sha p rnd x → testRange sha nan64 (r255Grp L) rnd x want =
        some (decide ((r255N : Int) ∣ x - x % 2 ^ 32) == want)) ∧
      (∀ x ∈ [0, 3], RangeRunOK sha p rnd x → testRange sha nan64 (r255Grp L) rnd x true = some true) ∧
      (∀ x ∈ [-1, 2 ^ 32 + 1, 2 ^ 32], RangeRunOK sha p rnd x → testRange sha nan64 (r255Grp L) rnd x false = some true) := by
  let := r255Module
  obtain ⟨p, hp, h⟩ := testRange_verdict sha nan64 (r255Grp L) (r255Lawful L) r255Base_ne
    fun s hs => ⟨_, rfl, (even_iff _).mp (hash s hs)⟩
  refine ⟨p, hp, fun rnd l1 l2 => ⟨fun hd x => (h rnd x l1 l2).1 hd,
    fun x want hx => (h rnd x l1 l2).2 hx want, ?_, ?_⟩⟩
  · intro x hx hs
    rw [(h rnd x l1 l2).2 hs]
    have : ∀ x ∈ [(0 : Int), 3], decide ((r255N : Int) ∣ x - x % 2 ^ 32) = true := by decide +kernel
    exact congrArg some (by rw [this x hx]; rfl : (decide ((r255N : Int) ∣ x - x % 2 ^ 32) == true) = true)
  · intro x hx hs
    rw [(h rnd x l1 l2).2 hs]
    have : ∀ x ∈ [(-1 : Int), 2 ^ 32 + 1, 2 ^ 32], decide ((r255N : Int) ∣ x - x % 2 ^ 32) = false := by decide +kernel
    exact congrArg some (by rw [this x hx]; rfl : (decide ((r255N : Int) ∣ x - x % 2 ^ 32) == false) = true)

/-- **C68** `TestJsonEncodeDecode` passes on P-256 (and would on P-384), under the same condition. -/
theorem C68_json (sha : Bytes → Bytes) (nan64 : BitVec 64) (C : CirclCurve) (hC : StdCircl C)
    (hash : ∀ s, SetupSeed 32 s → (C.hash s).Valid C.c) :
    ∃ p, bpSetup nan64 (2 ^ 32) (circlGrp C) = some (.ok p) ∧ ∀ rnd : BPRand, rnd.sL.length = 32 → rnd.sR.length = 32 →
      (DigestsOK sha C.n → RangeRunOK sha p rnd 18) ∧
      (RangeRunOK sha p rnd 18 → testJsonEncodeDecode sha nan64 (circlGrp C) (wCodec C.c) rnd = some true) := by
  have ok := stdCircl_ord hC
  have := ok.fact'
  let := ok.module
  have hV : WPoint.Valid C.c = ok.lawful.V := funext fun P => propext (wLegal_iff C.c P).symm
  exact testJson_pass sha nan64 (circlGrp C) ok.lawful (wCodec C.c) (hV ▸ C06_json_roundtrip C.c (stdCircl_curve hC))
    fun s hs => ⟨_, rfl, hV ▸ hash s hs⟩

/-- **C68** `TestInnerProduct` does not fail, and panics only if some digest is a multiple of the group order. -/
theorem C68_inner_product (sha : Bytes → Bytes) (L : R255Lib) (hash : ∀ s, SetupSeed 32 s → (L.hash s).Even) :
    (testInnerProduct sha (r255Grp L) = none ∨ testInnerProduct sha (r255Grp L) = some true) ∧
    (DigestsOK sha r255N → testInnerProduct sha (r255Grp L) = some true) := by
  let := r255Module
  exact testInnerProduct_pass sha (r255Grp L) (r255Lawful L) fun s hs => ⟨_, rfl, (even_iff _).mp (hash s hs)⟩

/-- **C68** `TestXYWithinRange` panics or reports the verdict of the verifier, and it passes exactly if the 64 generators satisfy
the linear relation of C24 (which no honest choice of generators is known to satisfy). -/
theorem C68_multi (sha : Bytes → Bytes) (nan64 : BitVec 64) (L : R255Lib) (hash : ∀ s, SetupSeed 32 s → (L.hash s).Even) :
    let _ := r255Module
    ∃ p, bpSetup nan64 (2 ^ 32) (r255Grp L) = some (.ok p) ∧ ∀ rnd : MultiRand,
      rnd.gammas.length = 2 → rnd.sL.length = 32 → rnd.sR.length = 32 →
      (∀ pf gs, multiProve sha p rnd [3, 15] ≠ some (.ok (pf, gs))) ∧ testXYWithinRange sha nan64 (r255Grp L) rnd = none ∨
      ∃ pf gs, multiProve sha p rnd [3, 15] = some (.ok (pf, gs)) ∧
        testXYWithinRange sha nan64 (r255Grp L) rnd = pf.verify sha ∧
        ∀ y : ZMod r255N, y = (roundChallenge sha (r255Grp L) pf.A pf.S : Int) → y ≠ 0 →
        (testXYWithinRange sha nan64 (r255Grp L) rnd = some true ↔
          (p.Gg.map r255Den).sum = ∑ j ∈ Finset.range 2, ∑ i ∈ Finset.range 16,
            (2 ^ i + y ^ (j + 2) - 2 ^ i * y ^ (j + 2)) • y⁻¹ ^ (j * 16 + i) • (p.Hh.map r255Den).getD (j * 16 + i) 0) := by
  let := r255Module
  exact testMulti_verdict sha nan64 (r255Grp L) (r255Lawful L) fun s hs => ⟨_, rfl, (even_iff _).mp (hash s hs)⟩

/-- **C68** The tests without random choices pass; `N` is the order of secp256k1. -/
theorem C68_vectors (L : K1Lib) : testPowerOf (k1Grp L).N = true ∧ testScalarProduct (k1Grp L).N = true ∧
    testIsPowerOfTwo = true ∧ testVectorCopy = true ∧ testVectorConvertToBig = true ∧ testVectorAdd (k1Grp L).N = true ∧
    testVectorSub (k1Grp L).N = true ∧ testVectorMul (k1Grp L).N = true := by
  have e : (k1Grp L).N = (k1N : Int) := rfl
  rw [e]
  decide +kernel

/-- C68: draws as the tests make them.  This element of Ristretto255 has an encoding that does not begin with zero, so the last
subtest panics on it; on the identity it would report a failure. -/
example (L : R255Lib) : ∃ (d₁ : GroupDraws Int) (d₂ d₃ d₄ d₅ : GroupDraws WPoint),
    d₁.All ModPDrawn ∧ d₂.All (WPoint.Valid (p256Real fun _ => none).c) ∧ d₃.All (WPoint.Valid (p384Real fun _ => none).c) ∧ d₄.All WPoint.Even ∧
    d₅.All WPoint.Even ∧ testGroup (p256Real fun _ => none) (p384Real fun _ => none) L rfcGroup d₁ d₂ d₃ d₄ = none ∧
    testGroup (p256Real fun _ => none) (p384Real fun _ => none) L rfcGroup d₁ d₂ d₃ d₅ = some false := by
  have k : ∀ {E : Type} {V : E → Prop} (x : E), V x → (GroupDraws.mk [x] [x] x [x] [x]).All V := fun x h =>
    ⟨by simpa using h, by simpa using h, h, by simpa using h, by simpa using h⟩
  have h1 : ∃ x, ModPDrawn x := ⟨_, 5, rfl⟩
  obtain ⟨x, h1⟩ := h1
  have h2 : (⟨(p256Real fun _ => none).gx, (p256Real fun _ => none).gy⟩ : WPoint).Valid (p256Real fun _ => none).c :=
    Or.inr ⟨by decide +kernel, by decide +kernel, by decide +kernel⟩
  have h3 : (⟨(p384Real fun _ => none).gx, (p384Real fun _ => none).gy⟩ : WPoint).Valid (p384Real fun _ => none).c :=
    Or.inr ⟨by decide +kernel, by decide +kernel, by decide +kernel⟩
  have h4 : (edAdd edBase edBase).Even := by
    have h : edBase.OnEd := ⟨by decide +kernel, by decide +kernel, by decide +kernel⟩
    exact ⟨⟨by decide +kernel, by decide +kernel, by decide +kernel⟩, edBase, h, rfl⟩
  have h5 : edZero.Even := by
    have h : edZero.OnEd := ⟨by decide +kernel, by decide +kernel, by decide +kernel⟩
    exact ⟨h, edZero, h, by decide +kernel⟩
  have e : ¬ ∀ x ∈ [edAdd edBase edBase], (encode x)[0]? = some 0 := by decide +kernel
  have e' : ∀ x ∈ [edZero], (encode x)[0]? = some 0 := by decide +kernel
  refine ⟨_, _, _, _, _, k x h1, k _ h2, k _ h3, k _ h4, k _ h5, ?_, ?_⟩
  · exact (C68_testGroup (p256Real fun _ => none) (p384Real fun _ => none) ⟨_, _, rfl⟩ ⟨_, _, rfl⟩ L _ _ _ _ (k x h1) (k _ h2) (k _ h3) (k _ h4)).trans
      (if_neg e)
  · exact (C68_testGroup (p256Real fun _ => none) (p384Real fun _ => none) ⟨_, _, rfl⟩ ⟨_, _, rfl⟩ L _ _ _ _ (k x h1) (k _ h2) (k _ h3) (k _ h5)).trans
      (if_pos e')

/-- C68: the hypotheses on hashing to the groups hold for the maps of RFC 9496 and RFC 9380, the one on challenges for a constant
hash function -/
example (pieces : Bytes → List Bytes) (dec : Bytes → Option WPoint) (nan64 : BitVec 64) (rnd : BPRand) (l1 : rnd.sL.length = 32)
    (l2 : rnd.sR.length = 32) :
    let sha := fun _ : Bytes => List.replicate 31 (0 : UInt8) ++ [1]
    (∀ x ∈ [0, 3], testRange sha nan64 (r255Grp (r255Real pieces)) rnd x true = some true) ∧
    testRange sha nan64 (r255Grp (r255Real pieces)) rnd (2 ^ 32) false = some true ∧
    testInnerProduct sha (r255Grp (r255Real pieces)) = some true ∧
    testJsonEncodeDecode sha nan64 (circlGrp (p256Real dec)) (wCodec (p256Real dec).c) rnd = some true := by
  intro sha
  have hs : ∀ N : Int, DigestsOK sha N := fun N _ => by
    show Int.gcd (setBytes (List.replicate 31 0 ++ [1]) : ℕ) N = 1
    rw [show setBytes (List.replicate 31 0 ++ [1]) = 1 by decide +kernel]
    simp
  obtain ⟨p, _, h⟩ := C68_range sha nan64 (r255Real pieces) fun s _ => C65_pieces _
  obtain ⟨h1, _, h3, h4⟩ := h rnd l1 l2
  obtain ⟨p', _, h'⟩ := C68_json sha nan64 (p256Real dec) ⟨dec, _, Or.inl rfl⟩ fun s _ => (RealRow.p256 dec).valid s
  exact ⟨fun x hx => h3 x hx (h1 (hs _) x), h4 _ (by simp) (h1 (hs _) _),
    (C68_inner_product sha (r255Real pieces) fun s _ => C65_pieces _).2 (hs _), (h' rnd l1 l2).2 ((h' rnd l1 l2).1 (hs _))⟩

/-- C68: the tests of the repository on secp256k1, with the generator and its double drawn -/
example : exK1.Identities ∧ k1Base.Valid ∧ ((k1Grp exK1).mulGen 2).Valid ∧
    testMath (k1Grp exK1) k1Base ((k1Grp exK1).mulGen 2) = true := by
  have hL : exK1.Identities := ⟨Or.inr rfl, Or.inl rfl⟩
  have h : k1Base.Valid := k1Base_legal
  have h' : ((k1Grp exK1).mulGen 2).Valid := (k1Mul_spec hL.ok k1Base_legal 2).1
  exact ⟨hL, h, h', C68_math _ hL _ _ h h'⟩

end MscPoc
