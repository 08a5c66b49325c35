import Verif.Lemmas.CurveLawful
import Verif.Props.Codec
import Verif.Props.Setup
import Verif.Props.Json

/-!
# C51, C52 — the P-256 and P-384 groups, and the system deployed on them
-/

set_option autoImplicit false

namespace MscPoc

/-! ## C51 -/

/-- `group.P256()` or `group.P384()`, over any hash-to-curve function -/
def StdCircl (C : CirclCurve) : Prop := ∃ dec hash, C = p256Circl dec hash ∨ C = p384Circl dec hash

theorem stdCircl_ord {C : CirclCurve} (h : StdCircl C) : CurveOrd C := by
  obtain ⟨dec, hash, rfl | rfl⟩ := h
  · exact p256_ord dec hash
  · exact p384_ord dec hash

theorem stdCircl_curve {C : CirclCurve} (h : StdCircl C) : StdCurve C.c := by
  obtain ⟨dec, hash, rfl | rfl⟩ := h
  · exact ⟨dec, Or.inl rfl⟩
  · exact ⟨dec, Or.inr rfl⟩

theorem wLegal_iff (c : WCurve) (P : WPoint) : WLegal c P ↔ P.Valid c := by
  unfold WLegal WPoint.Valid
  rw [onCurve_iff]

/-- a group law on the values themselves, for scalars reduced modulo `N` -/
structure GroupLaws {E : Type} (GP : Grp E) (V : E → Prop) : Prop where
  generator : V GP.generator
  identity : V GP.identity
  add : ∀ {a b}, V a → V b → V (GP.add a b)
  neg : ∀ {r a}, V a → V (GP.neg r a)
  mul : ∀ {r a s}, V a → V (GP.scale r a s)
  add_comm : ∀ {a b}, V a → V b → GP.add a b = GP.add b a
  add_assoc : ∀ {a b d}, V a → V b → V d → GP.add (GP.add a b) d = GP.add a (GP.add b d)
  add_identity : ∀ {a}, V a → GP.add a GP.identity = a
  add_neg : ∀ {r a}, V a → GP.add a (GP.neg r a) = GP.identity
  sub_add : ∀ {a b}, V a → V b → GP.add (GP.sub a b) b = a
  scale_zero : ∀ {r a}, V a → GP.scale r a 0 = GP.identity
  scale_one : ∀ {r a}, V a → GP.scale r a 1 = a
  scale_add : ∀ {r a} {s t : Int}, V a → GP.scale r a (s + t) = GP.add (GP.scale r a s) (GP.scale r a t)
  scale_mul : ∀ {r a} {s t : Int}, V a → GP.scale r a (s * t) = GP.scale r (GP.scale r a s) t
  scale_dist : ∀ {r a b} {s : Int}, V a → V b → GP.scale r (GP.add a b) s = GP.add (GP.scale r a s) (GP.scale r b s)
  scale_order : ∀ {r a}, V a → GP.scale r a GP.N = GP.identity
  baseScale : ∀ {r} {s : Int}, GP.baseScale r s = GP.scale r GP.generator s
  isEqual : ∀ {a b}, V a → V b → (GP.isEqual a b = true ↔ a = b)
  isIdentity : ∀ {a}, V a → (GP.isIdentity a = true ↔ a = GP.identity)
  generator_ne : GP.generator ≠ GP.identity

/-- **C51** On the points of P-256 and P-384 the wrapper methods obey the laws of a group, as equalities of the values. -/
theorem C51_group_laws (C : CirclCurve) (hC : StdCircl C) : GroupLaws (circlGrp C) (WPoint.Valid C.c) := by
  have ok := stdCircl_ord hC
  have := ok.fact'
  have hV : WPoint.Valid C.c = WLegal C.c := funext fun P => propext (wLegal_iff C.c P).symm
  rw [hV]
  have hadd := fun {P Q : WPoint} (hP : WLegal C.c P) (hQ : WLegal C.c Q) => wAdd_spec ok.noroot ok.two_ne hP hQ
  have hneg := fun {P : WPoint} (hP : WLegal C.c P) => wNeg_spec ok.noroot ok.two_ne hP
  have hmul := fun {P : WPoint} (hP : WLegal C.c P) (s : Int) => ok.wMul_spec hP s
  have hinj := fun {P Q : WPoint} (hP : WLegal C.c P) (hQ : WLegal C.c Q) => wDen_inj ok.noroot ok.two_ne hP hQ
  have h0 : WLegal C.c ⟨0, 0⟩ := Or.inl rfl
  exact
    { generator := ok.gen_legal
      identity := h0
      add := fun ha hb => (hadd ha hb).1
      neg := fun ha => (hneg ha).1
      mul := fun ha => (hmul ha _).1
      add_comm := fun {a b} ha hb => hinj (hadd ha hb).1 (hadd hb ha).1 (by
        dsimp only [circlGrp]
        rw [(hadd ha hb).2, (hadd hb ha).2, _root_.add_comm])
      add_assoc := fun {a b d} ha hb hd => hinj (hadd (hadd ha hb).1 hd).1 (hadd ha (hadd hb hd).1).1 (by
        dsimp only [circlGrp]
        rw [(hadd (hadd ha hb).1 hd).2, (hadd ha hb).2, (hadd ha (hadd hb hd).1).2, (hadd hb hd).2, _root_.add_assoc])
      add_identity := fun {a} ha => hinj (hadd ha h0).1 ha (by dsimp only [circlGrp]; rw [(hadd ha h0).2, wDen_zero, add_zero])
      add_neg := fun {r a} ha => hinj (hadd ha (hneg ha).1).1 h0 (by
        dsimp only [circlGrp]
        rw [(hadd ha (hneg ha).1).2, (hneg ha).2, wDen_zero, add_neg_cancel])
      sub_add := fun {a b} ha hb => hinj (hadd (hadd ha (hneg hb).1).1 hb).1 ha (by
        show wDen C.c (wAdd C.c (wAdd C.c a (wNeg C.c b)) b) = wDen C.c a
        rw [(hadd (hadd ha (hneg hb).1).1 hb).2, (hadd ha (hneg hb).1).2, (hneg hb).2]; abel)
      scale_zero := fun {r a} ha => hinj (hmul ha 0).1 h0 (by dsimp only [circlGrp]; rw [(hmul ha 0).2, wDen_zero, zero_zsmul])
      scale_one := fun {r a} ha => hinj (hmul ha 1).1 ha (by dsimp only [circlGrp]; rw [(hmul ha 1).2, one_zsmul])
      scale_add := fun {r a s t} ha => hinj (hmul ha _).1 (hadd (hmul ha s).1 (hmul ha t).1).1 (by
        dsimp only [circlGrp]
        rw [(hmul ha _).2, (hadd (hmul ha s).1 (hmul ha t).1).2, (hmul ha s).2, (hmul ha t).2, add_zsmul])
      scale_mul := fun {r a s t} ha => hinj (hmul ha _).1 (hmul (hmul ha s).1 t).1 (by
        dsimp only [circlGrp]
        rw [(hmul ha _).2, (hmul (hmul ha s).1 t).2, (hmul ha s).2, mul_comm, mul_zsmul])
      scale_dist := fun {r a b s} ha hb => hinj (hmul (hadd ha hb).1 s).1 (hadd (hmul ha s).1 (hmul hb s).1).1 (by
        dsimp only [circlGrp]
        rw [(hmul (hadd ha hb).1 s).2, (hadd ha hb).2, (hadd (hmul ha s).1 (hmul hb s).1).2, (hmul ha s).2, (hmul hb s).2,
          zsmul_add])
      scale_order := fun {r a} ha => hinj (hmul ha _).1 h0 (by
        dsimp only [circlGrp]
        rw [(hmul ha _).2, wDen_zero]
        exact (natCast_zsmul _ _).trans (ok.nsmul_eq _))
      baseScale := rfl
      isEqual := fun {a b} _ _ => by
        simp only [circlGrp, Bool.and_eq_true, beq_iff_eq]
        cases a; cases b
        simp
      isIdentity := fun {a} _ => by
        simp only [circlGrp, Bool.and_eq_true, beq_iff_eq]
        cases a
        simp
      generator_ne := ok.gen_ne }

/-- the legal elements are the curve group -/
theorem wDen_surj {C : CirclCurve} (ok : CurveOrd C) : haveI := ok.fact'
    ∀ m : WGroup C.c, ∃ P, WLegal C.c P ∧ wDen C.c P = m := by
  have := ok.fact'
  intro m
  obtain ⟨k, _, rfl⟩ := sw_cyclic ok.n_prime ok.card _ ok.gen_den_ne m
  refine ⟨wMul C ⟨C.gx, C.gy⟩ k, (ok.wMul_spec ok.gen_legal k).1, ?_⟩
  rw [(ok.wMul_spec ok.gen_legal k).2, natCast_zsmul]

/-- **C51** The declared order (group/p256.go:211, p384.go:211) is the number of points; the generator generates them all:
every point is `BaseScale(k)` for exactly one `0 ≤ k < N`. -/
theorem C51_order (C : CirclCurve) (hC : StdCircl C) :
    Set.ncard {P : WPoint | P.Valid C.c} = C.n ∧ (circlGrp C).N = C.n ∧ C.n.Prime ∧
    ∀ P : WPoint, P.Valid C.c → ∃! k : Int, 0 ≤ k ∧ k < (circlGrp C).N ∧ (circlGrp C).mulGen k = P := by
  have ok := stdCircl_ord hC
  have := ok.fact'
  have hinj := fun {P Q : WPoint} (hP : WLegal C.c P) (hQ : WLegal C.c Q) => wDen_inj ok.noroot ok.two_ne hP hQ
  refine ⟨?_, rfl, ok.n_prime, ?_⟩
  · rw [← ok.card, ← Set.ncard_univ]
    refine Set.ncard_congr (fun P _ => wDen C.c P) (fun _ _ => Set.mem_univ _) ?_ ?_
    · intro P Q hP hQ h
      exact hinj ((wLegal_iff _ _).mpr hP) ((wLegal_iff _ _).mpr hQ) h
    · intro m _
      obtain ⟨P, hP, h⟩ := wDen_surj ok m
      exact ⟨P, (wLegal_iff _ _).mp hP, h⟩
  · intro P hP
    rw [← wLegal_iff] at hP
    obtain ⟨k, hk, e⟩ := sw_cyclic ok.n_prime ok.card _ ok.gen_den_ne (wDen C.c P)
    have hm : ∀ k : Int, (circlGrp C).mulGen k = wMul C ⟨C.gx, C.gy⟩ k := fun _ => rfl
    refine ⟨k, ⟨by positivity, ?_, ?_⟩, ?_⟩
    · show (k : Int) < C.n
      exact_mod_cast hk
    · rw [hm]
      refine hinj (ok.wMul_spec ok.gen_legal k).1 hP ?_
      rw [(ok.wMul_spec ok.gen_legal k).2, natCast_zsmul, e]
    · rintro k' ⟨h0, h1, h2⟩
      rw [hm] at h2
      have h1' : k' < C.n := h1
      have d := (ok.wMul_spec ok.gen_legal k').2
      rw [h2, e, ← natCast_zsmul] at d
      have hz : (((k : Int) - k') : Int) • wDen C.c ⟨C.gx, C.gy⟩ = 0 := by
        rw [sub_zsmul, d, add_neg_cancel]
      rw [← addOrderOf_dvd_iff_zsmul_eq_zero, addOrderOf_eq_prime ok.ann ok.gen_den_ne (hp := ⟨ok.n_prime⟩)] at hz
      have := Int.eq_zero_of_abs_lt_dvd hz (by rw [abs_lt]; omega)
      omega

/-- **C51** The order declared for secp256k1 (group/p256k1.go:201) is the number of solutions of `y² = x³ + 7` modulo the
declared field order, plus the point at infinity. -/
theorem C51_k1_order : Set.ncard {P : ZMod k1P × ZMod k1P | P.2 ^ 2 = P.1 ^ 3 + 7} + 1 = k1N := by
  have : Fact k1P.Prime := ⟨prime_115792089237316195423570985008687907853269984665640564039457584007908834671663⟩
  have hc := k1_card
  have hn : (swCurve (0 : ZMod k1P) (7 : ZMod k1P)).IsElliptic := by
    rw [WeierstrassCurve.isElliptic_iff, isUnit_iff_ne_zero]
    simp only [swCurve, WeierstrassCurve.Δ, WeierstrassCurve.b₂, WeierstrassCurve.b₄, WeierstrassCurve.b₆,
      WeierstrassCurve.b₈]
    intro h
    have h' : ((27 * 28 * 28 : ℕ) : ZMod k1P) = 0 := by push_cast; linear_combination -h
    rw [ZMod.natCast_eq_zero_iff] at h'
    exact absurd h' (by decide +kernel)
  have e := Nat.card_congr (WeierstrassCurve.Affine.pointEquiv (swCurve (0 : ZMod k1P) (7 : ZMod k1P)))
  rw [hc] at e
  have : Finite {xy : ZMod k1P × ZMod k1P // (swCurve (0 : ZMod k1P) (7 : ZMod k1P)).Equation xy.1 xy.2} := inferInstance
  have e2 : Nat.card (WithZero {xy : ZMod k1P × ZMod k1P // (swCurve (0 : ZMod k1P) (7 : ZMod k1P)).Equation xy.1 xy.2}) =
      Nat.card {xy : ZMod k1P × ZMod k1P // (swCurve (0 : ZMod k1P) (7 : ZMod k1P)).Equation xy.1 xy.2} + 1 :=
    Finite.card_option
  rw [e2] at e
  rw [e, ← Nat.card_coe_set_eq]
  congr 2
  simp only [sw_equation, zero_mul, add_zero]
  rfl

/-- C51: the identity, the generator and its double on P-256; `N • G` is the identity, and a non-point is not legal. -/
example : StdCircl (p256Circl (fun _ => none) fun _ => p256Gen) ∧ p256Gen.Valid (p256Curve fun _ => none) ∧
    ¬ (⟨1, 1⟩ : WPoint).Valid (p256Curve fun _ => none) ∧
    ((circlGrp (p256Circl (fun _ => none) fun _ => p256Gen)).mulGen 2).x =
      0x7cf27b188d034f7e8a52380304b51ac3c08969e277f21b35a60b48fc47669978 ∧
    (circlGrp (p256Circl (fun _ => none) fun _ => p256Gen)).mulGen p256N = ⟨0, 0⟩ ∧
    (circlGrp (p256Circl (fun _ => none) fun _ => p256Gen)).add p256Gen p256Gen ≠ p256Gen := by
  refine ⟨⟨_, _, Or.inl rfl⟩, ?_, ?_, ?_, ?_, ?_⟩
  · exact (wLegal_iff _ _).mp (p256_ord (fun _ => none) fun _ => p256Gen).gen_legal
  · unfold WPoint.Valid
    have : ((1 : ℕ) : Int) ^ 2 - (((1 : ℕ) : Int) ^ 3 - 3 * ((1 : ℕ) : Int) + (p256Curve fun _ => none).b) ≠ 0 := by
      decide +kernel
    rintro (h | ⟨_, _, h⟩)
    · simp at h
    · revert h; decide +kernel
  all_goals decide +kernel

/-! ## C52 -/

/-- one row of the table of deployed curves -/
def StdRow (C : CirclCurve) (bits : ℕ) : Prop :=
  ∃ dec hash, (C = p256Circl dec hash ∧ bits = 256) ∨ (C = p384Circl dec hash ∧ bits = 384)

theorem StdRow.circl {C : CirclCurve} {bits : ℕ} (h : StdRow C bits) : StdCircl C := by
  obtain ⟨dec, hash, h | h⟩ := h
  · exact ⟨dec, hash, Or.inl h.1⟩
  · exact ⟨dec, hash, Or.inr h.1⟩

theorem StdRow.table {C : CirclCurve} {bits : ℕ} (h : StdRow C bits) : ∃ Bb, (C.n, bits, Bb) ∈ curveTable ∧
    -(2 ^ 63) ≤ (bits : Int) - 241 ∧ (bits : Int) - 241 < 2 ^ 63 ∧ C.n ≠ 2 ∧ 2 ^ 224 < C.n := by
  obtain ⟨dec, hash, ⟨rfl, rfl⟩ | ⟨rfl, rfl⟩⟩ := h
  · exact ⟨15, by simp [curveTable, p256Circl], by norm_num, by norm_num, by show p256N ≠ 2; decide +kernel,
      by show 2 ^ 224 < p256N; decide +kernel⟩
  · exact ⟨143, by simp [curveTable, p384Circl], by norm_num, by norm_num, by show p384N ≠ 2; decide +kernel,
      by show 2 ^ 224 < p384N; decide +kernel⟩

/-- **C52** The deployed system on P-256 or P-384, with no assumption about the group beyond hash-to-curve returning
points: a ballot `castVote` completes is serialised, parsed to the identical ballot and accepted. -/
theorem C52_honest (sha : Bytes → Bytes) (nan64 : BitVec 64) (C : CirclCurve) (bits : ℕ)
    (hC : StdRow C bits) (hash : ∀ s, SetupSeed 16 s → (C.hash s).Valid C.c) :
    ∃ pp, setup nan64 (circlGrp C) = some (.ok pp) ∧ ∀ (rnd : CastRand) (ballot : BallotData Int WPoint),
      (0 ≤ rnd.rChoice ∧ rnd.rChoice < 1899) →
      (rnd.bp1.sL.length = 16 ∧ rnd.bp1.sR.length = 16 ∧ rnd.bp2.sL.length = 16 ∧ rnd.bp2.sR.length = 16) →
      (∀ s ∈ rnd.tape, 0 ≤ s.k ∧ s.k < 2 ^ (bits - 1)) →
      castVote sha pp rnd = .done ballot →
      ∃ j, encBallot modPCodec (wCodec C.c) ballot = some (.ok j) ∧
        decBallot modPCodec (wCodec C.c) pp (some j) = some (.ok ballot) ∧
        verifyVote sha ballot pp.RPParams = some { result := true, times := [0, 0] } := by
  have ok := stdCircl_ord hC.circl
  have := ok.fact'
  let := ok.module
  obtain ⟨Bb, hr, hb1, hb2, _⟩ := hC.table
  let L₂ := ok.lawful
  obtain ⟨D, hD, dep, _⟩ := C47_curves nan64 (circlGrp C) (fun s _ => ⟨_, rfl⟩) C.n bits Bb hr rfl
  obtain ⟨L₁, L, hok, hV, _⟩ := deployed_legal (circlGrp C) D C.n bits Bb hr L₂
    (fun s e hs he => by injection he with he; exact he ▸ (wLegal_iff _ _).mpr (hash s hs)) dep
  refine ⟨D.pp, hD, fun rnd ballot hc hl ht hcast => ?_⟩
  have good₁ : modPCodec.Good L₁.V := fun e _ => modPCodec_good e trivial
  have good₂ : (wCodec C.c).Good L.V := fun e he => by
    rw [hV] at he
    exact C06_json_roundtrip C.c (stdCircl_curve hC.circl) e ((wLegal_iff _ _).mp he)
  obtain ⟨j, e1, b, e2, rfl, e3⟩ := C44_end_to_end sha D L₁ L modPCodec (wCodec C.c) good₁ good₂ 4 hok
    (by rw [hV, dep.G]; exact L₂.V_mulGen 1) (by rw [dep.Bb]; exact ⟨hb1, hb2⟩)
    (by rw [dep.lo, dep.hi]; decide) (by rw [dep.lo, dep.hi]; decide) rnd (by rw [dep.lo, dep.hi]; exact hc)
    hl.1 hl.2.1 hl.2.2.1 hl.2.2.2 (by rw [dep.zUpper]; exact ht) ballot hcast
  exact ⟨j, e1, e2, e3⟩

/-- **C52** A voter who casts any other number with the honest code is rejected, unless the challenge is zero. -/
theorem C52_any_choice (sha : Bytes → Bytes) (hsha : ∀ m, (sha m).length = 32) (nan64 : BitVec 64)
    (C : CirclCurve) (bits : ℕ) (hC : StdRow C bits) (hash : ∀ s, SetupSeed 16 s → (C.hash s).Valid C.c) :
    ∃ pp, setup nan64 (circlGrp C) = some (.ok pp) ∧
    ∀ (choice : UInt16) (rnd : CastRand) (ballot : BallotData Int WPoint),
      (rnd.bp1.sL.length = 16 ∧ rnd.bp1.sR.length = 16 ∧ rnd.bp2.sL.length = 16 ∧ rnd.bp2.sR.length = 16) →
      (∀ s ∈ rnd.tape, 0 ≤ s.k ∧ s.k < 2 ^ (bits - 1)) →
      castChoice sha pp choice rnd = .done ballot →
      ∃ c b, ballot.VoteProof.Challenge = some c ∧
        verifyVote sha ballot pp.RPParams = some { result := b, times := [0, 0] } ∧
        (b = true ↔ (101 ≤ choice ∧ choice ≤ 2000) ∨ c = 0) := by
  have ok := stdCircl_ord hC.circl
  have := ok.fact'
  let := ok.module
  obtain ⟨Bb, hr, hb1, hb2, hn2, hn⟩ := hC.table
  let L₂ := ok.lawful
  obtain ⟨D, hD, dep, _⟩ := C47_curves nan64 (circlGrp C) (fun s _ => ⟨_, rfl⟩) C.n bits Bb hr rfl
  obtain ⟨L₁, L, hok, hV, hden⟩ := deployed_legal (circlGrp C) D C.n bits Bb hr L₂
    (fun s e hs he => by injection he with he; exact he ▸ (wLegal_iff _ _).mpr (hash s hs)) dep
  refine ⟨D.pp, hD, fun choice rnd ballot hl ht hcast => ?_⟩
  have : Fact C.n.Prime := ⟨ok.n_prime⟩
  have hfree : ∀ c : ZMod C.n, c • L.g = 0 → c = 0 := by
    intro c hc
    by_contra hne
    have h := smul_cancel hne hc
    rw [smul_zero] at h
    unfold Lawful.g at h
    rw [hden, dep.EC] at h
    exact ok.gen_den_ne h
  obtain ⟨c, b, h1, h2, h3⟩ := C42_any_choice sha D L₁ L hfree 4 (le_refl 4) hok choice rnd hl.1 hl.2.1 hl.2.2.1 hl.2.2.2
    (by rw [dep.zUpper]; exact ht) ballot hcast
  refine ⟨c, b, h1, h2, ?_⟩
  rw [dep.lo, dep.hi] at h3
  refine ⟨fun hb => ?_, fun h => h3.mpr (h.imp_right fun h => by rw [h]; simp)⟩
  rcases h3.mp hb with h | h
  · exact Or.inl h
  · right
    have hacc := (verifyVote_accept_iff.mp ⟨_, hb ▸ h2⟩).2.2
    obtain ⟨Z, c', _, _, _, _, hc', _, _, _, _, hch, _⟩ := (sigma_verify_iff _ _ _).mp hacc
    rw [h1] at hc'
    cases hc'
    obtain ⟨_, _, _, _, _, hP, _⟩ := castChoice_legal sha D L₁ L 4 hok (by rw [hV, dep.G]; exact L₂.V_mulGen 1)
      (by rw [dep.Bb]; exact ⟨hb1, hb2⟩) choice rnd hl.1 hl.2.1 hl.2.2.1 hl.2.2.2 ballot hcast
    obtain ⟨_, h0, _, hlt⟩ := (C28_challenge sha hsha _ _ _ _ _ _ _).2 c hch
    have hBc : ballot.VoteProof.Params.Bc = 224 := by rw [hP]; exact dep.Bc
    rw [hBc] at hlt
    have hlt' : c < C.n := lt_trans hlt (by
      have : (2 : Int) ^ (224 : UInt16).toNat = ((2 ^ 224 : ℕ) : Int) := by push_cast
      rw [this]; exact_mod_cast hn)
    exact (C42_rejected hn2 h0 hlt').mp h

/-- the hash-to-curve of the examples always returns the base point -/
theorem exP256_row : StdRow (p256Circl (fun _ => none) fun _ => p256Gen) 256 ∧
    ∀ s, ((p256Circl (fun _ => none) fun _ => p256Gen).hash s).Valid (p256Circl (fun _ => none) fun _ => p256Gen).c :=
  ⟨⟨_, _, Or.inl ⟨rfl, rfl⟩⟩, fun _ =>
    (wLegal_iff _ _).mp (p256_ord (fun _ => none) fun _ => p256Gen).gen_legal⟩

theorem wPedersen_spec {C : CirclCurve} (ok : CurveOrd C) {h : WPoint} (hh : WLegal C.c h) (x r : Int) :
    haveI := ok.fact'
    WLegal C.c (pedersenCommit (circlGrp C) x r h) ∧
      wDen C.c (pedersenCommit (circlGrp C) x r h) = x • wDen C.c ⟨C.gx, C.gy⟩ + r • wDen C.c h := by
  have := ok.fact'
  obtain ⟨l1, d1⟩ := ok.wMul_spec ok.gen_legal x
  obtain ⟨l2, d2⟩ := ok.wMul_spec hh r
  obtain ⟨l3, d3⟩ := wAdd_spec ok.noroot ok.two_ne l1 l2
  refine ⟨l3, ?_⟩
  rw [d1, d2] at d3
  exact d3

theorem wPedersen_eq {C : CirclCurve} (ok : CurveOrd C) {h : WPoint} (hh : WLegal C.c h) (x r x' r' : Int) :
    haveI := ok.fact'
    pedersenCommit (circlGrp C) x' r' h = pedersenCommit (circlGrp C) x r h ↔
      r' • wDen C.c h = (x - x') • wDen C.c ⟨C.gx, C.gy⟩ + r • wDen C.c h := by
  have := ok.fact'
  obtain ⟨l1, d1⟩ := wPedersen_spec ok hh x r
  obtain ⟨l2, d2⟩ := wPedersen_spec ok hh x' r'
  constructor
  · intro e
    rw [e, d1] at d2
    rw [sub_zsmul]
    have e' : r' • wDen C.c h = (x' • wDen C.c ⟨C.gx, C.gy⟩ + r' • wDen C.c h) - x' • wDen C.c ⟨C.gx, C.gy⟩ := by abel
    rw [e', ← d2]; abel
  · intro e
    refine wDen_inj ok.noroot ok.two_ne l2 l1 ?_
    rw [d1, d2, e, sub_zsmul]; abel

theorem zsmul_eq_zero_iff {C : CirclCurve} (ok : CurveOrd C) : haveI := ok.fact'
    ∀ {m : WGroup C.c}, m ≠ 0 → ∀ k : Int, k • m = 0 ↔ (C.n : Int) ∣ k := by
  have := ok.fact'
  intro m hm k
  rw [← addOrderOf_dvd_iff_zsmul_eq_zero, addOrderOf_eq_prime (ok.nsmul_eq m) hm (hp := ⟨ok.n_prime⟩)]

/-- **C52** Pedersen commitments on P-256 and P-384 hide perfectly exactly when `H` is not the identity: any commitment
opens to any value with exactly one randomness in `[0, N)`. -/
theorem C52_hiding (C : CirclCurve) (hC : StdCircl C) (h : WPoint) (hh : h.Valid C.c) :
    (∀ x r x' : Int, ∃! r' : Int, 0 ≤ r' ∧ r' < (circlGrp C).N ∧
      pedersenCommit (circlGrp C) x' r' h = pedersenCommit (circlGrp C) x r h) ↔ h ≠ ⟨0, 0⟩ := by
  have ok := stdCircl_ord hC
  have := ok.fact'
  rw [← wLegal_iff] at hh
  have hN : (circlGrp C).N = C.n := rfl
  constructor
  · rintro hall rfl
    obtain ⟨r', ⟨_, _, e⟩, _⟩ := hall 1 0 0
    rw [wPedersen_eq ok hh, wDen_zero, zsmul_zero, zsmul_zero, add_zero, sub_zero, one_zsmul] at e
    exact ok.gen_den_ne e.symm
  · intro hne x r x'
    have hd : wDen C.c h ≠ 0 := fun e => hne (wDen_inj ok.noroot ok.two_ne hh (Or.inl rfl) (e.trans wDen_zero.symm))
    obtain ⟨k, hk, e⟩ := sw_cyclic ok.n_prime ok.card _ hd ((x - x') • wDen C.c ⟨C.gx, C.gy⟩ + r • wDen C.c h)
    refine ⟨k, ⟨by positivity, by rw [hN]; exact_mod_cast hk, ?_⟩, ?_⟩
    · rw [wPedersen_eq ok hh, e, natCast_zsmul]
    · rintro r' ⟨h0, h1, h2⟩
      rw [wPedersen_eq ok hh, e, ← natCast_zsmul] at h2
      have hz : (r' - k) • wDen C.c h = 0 := by rw [sub_zsmul, h2, add_neg_cancel]
      rw [zsmul_eq_zero_iff ok hd] at hz
      have := Int.eq_zero_of_abs_lt_dvd hz (by rw [abs_lt]; omega)
      omega

/-- **C52** A double opening reveals the logarithm between `G` and `H`. -/
theorem C52_binding (C : CirclCurve) (hC : StdCircl C) (h : WPoint) (hh : h.Valid C.c) (x1 r1 x2 r2 : Int)
    (heq : pedersenCommit (circlGrp C) x1 r1 h = pedersenCommit (circlGrp C) x2 r2 h)
    (hne : ¬ x1 ≡ x2 [ZMOD (circlGrp C).N]) :
    ∃ k : Int, k * (x1 - x2) ≡ r2 - r1 [ZMOD (circlGrp C).N] ∧ (circlGrp C).mul h k = (circlGrp C).generator := by
  have ok := stdCircl_ord hC
  have := ok.fact'
  rw [← wLegal_iff] at hh
  have hN : (circlGrp C).N = C.n := rfl
  rw [hN] at hne ⊢
  have hnd : ¬ (C.n : Int) ∣ x1 - x2 := fun hd => hne (Int.modEq_iff_dvd.mpr (by rwa [← dvd_neg, neg_sub])) 
  have hcop : IsCoprime (C.n : Int) (x1 - x2) :=
    (Nat.prime_iff_prime_int.mp ok.n_prime).irreducible.coprime_iff_not_dvd.mpr hnd
  obtain ⟨v, u, huv⟩ := hcop
  rw [wPedersen_eq ok hh] at heq
  refine ⟨u * (r2 - r1), ?_, ?_⟩
  · rw [Int.modEq_iff_dvd]
    exact ⟨v * (r2 - r1), by linear_combination -(r2 - r1) * huv⟩
  · obtain ⟨l, d⟩ := ok.wMul_spec hh (u * (r2 - r1))
    refine wDen_inj ok.noroot ok.two_ne l ok.gen_legal (d.trans ?_)
    have e1 : (r2 - r1) • wDen C.c h = (x1 - x2) • wDen C.c ⟨C.gx, C.gy⟩ := by
      have e2 : (x1 - x2) • wDen C.c ⟨C.gx, C.gy⟩ = -((x2 - x1) • wDen C.c ⟨C.gx, C.gy⟩) := by rw [← neg_zsmul, neg_sub]
      have e3 : (x2 - x1) • wDen C.c ⟨C.gx, C.gy⟩ = r1 • wDen C.c h - r2 • wDen C.c h := by rw [heq]; abel
      rw [e2, e3, sub_zsmul]; abel
    rw [mul_zsmul, e1, ← mul_zsmul]
    have e4 : u * (x1 - x2) = 1 - C.n * v := by linear_combination huv
    rw [e4, sub_zsmul, one_zsmul, mul_zsmul, natCast_zsmul, ok.nsmul_eq, neg_zero, add_zero]
    rfl

/-- C52: concretely, with `H = 2 G` on P-256, the commitments to 3 with randomness 1 and to 1 with randomness 2 agree;
`H` is a legal non-identity point. -/
example : pedersenCommit (circlGrp (p256Circl (fun _ => none) fun _ => p256Gen)) 3 1
      ((circlGrp (p256Circl (fun _ => none) fun _ => p256Gen)).mulGen 2) =
    pedersenCommit (circlGrp (p256Circl (fun _ => none) fun _ => p256Gen)) 1 2
      ((circlGrp (p256Circl (fun _ => none) fun _ => p256Gen)).mulGen 2) ∧
    (circlGrp (p256Circl (fun _ => none) fun _ => p256Gen)).mulGen 2 ≠ ⟨0, 0⟩ ∧
    ((circlGrp (p256Circl (fun _ => none) fun _ => p256Gen)).mulGen 2).Valid (p256Curve fun _ => none) := by
  refine ⟨by decide +kernel, by decide +kernel, ?_⟩
  exact (wLegal_iff _ _).mp ((p256_ord (fun _ => none) fun _ => p256Gen).wMul_spec
    (p256_ord (fun _ => none) fun _ => p256Gen).gen_legal 2).1

end MscPoc
