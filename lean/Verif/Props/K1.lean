import Verif.Lemmas.K1
import Verif.Props.Curve
import Verif.Props.Driver

/-!
# C55 — the secp256k1 group, and the system deployed on it
-/

set_option autoImplicit false

namespace MscPoc

/-- legal secp256k1 values: either form of the identity, or reduced coordinates with `y² = x³ + 7` -/
def K1Point.Valid (e : K1Point) : Prop :=
  e = ⟨none, none⟩ ∨ e = ⟨some 0, some 0⟩ ∨
    ∃ x y : ℕ, e = ⟨some x, some y⟩ ∧ x < k1P ∧ y < k1P ∧ ((y : Int) ^ 2 - ((x : Int) ^ 3 + 7)) % k1P = 0

/-- the library returns one of the two forms of the identity where it has to return the identity -/
def K1Lib.Identities (L : K1Lib) : Prop :=
  (L.infAdd = ⟨none, none⟩ ∨ L.infAdd = ⟨some 0, some 0⟩) ∧ (L.infMul = ⟨none, none⟩ ∨ L.infMul = ⟨some 0, some 0⟩)

theorem K1Lib.Identities.ok {L : K1Lib} (h : L.Identities) : L.OK := ⟨h.1, h.2⟩

/-- group laws in which equality is `IsEqual` -/
structure GroupLawsUpTo {E : Type} (GP : Grp E) (V : E → Prop) : Prop where
  generator : V GP.generator
  identity : V GP.identity
  add : ∀ {a b}, V a → V b → V (GP.add a b)
  neg : ∀ {r a}, V a → V (GP.neg r a)
  mul : ∀ {r a s}, V a → V (GP.scale r a s)
  base : ∀ {r s}, V (GP.baseScale r s)
  refl : ∀ {a}, V a → GP.isEqual a a = true
  symm : ∀ {a b}, V a → V b → GP.isEqual a b = true → GP.isEqual b a = true
  trans : ∀ {a b d}, V a → V b → V d → GP.isEqual a b = true → GP.isEqual b d = true → GP.isEqual a d = true
  add_congr : ∀ {a a' b b'}, V a → V a' → V b → V b' → GP.isEqual a a' = true → GP.isEqual b b' = true →
    GP.isEqual (GP.add a b) (GP.add a' b') = true
  scale_congr : ∀ {r r' a a'} {s : Int}, V a → V a' → GP.isEqual a a' = true →
    GP.isEqual (GP.scale r a s) (GP.scale r' a' s) = true
  add_comm : ∀ {a b}, V a → V b → GP.isEqual (GP.add a b) (GP.add b a) = true
  add_assoc : ∀ {a b d}, V a → V b → V d → GP.isEqual (GP.add (GP.add a b) d) (GP.add a (GP.add b d)) = true
  add_identity : ∀ {a}, V a → GP.isEqual (GP.add a GP.identity) a = true
  add_neg : ∀ {r a}, V a → GP.isEqual (GP.add a (GP.neg r a)) GP.identity = true
  sub_add : ∀ {a b}, V a → V b → GP.isEqual (GP.add (GP.sub a b) b) a = true
  scale_zero : ∀ {r a}, V a → GP.isEqual (GP.scale r a 0) GP.identity = true
  scale_one : ∀ {r a}, V a → GP.isEqual (GP.scale r a 1) a = true
  scale_add : ∀ {r a} {s t : Int}, V a →
    GP.isEqual (GP.scale r a (s + t)) (GP.add (GP.scale r a s) (GP.scale r a t)) = true
  scale_mul : ∀ {r a} {s t : Int}, V a → GP.isEqual (GP.scale r a (s * t)) (GP.scale r (GP.scale r a s) t) = true
  scale_dist : ∀ {r a b} {s : Int}, V a → V b →
    GP.isEqual (GP.scale r (GP.add a b) s) (GP.add (GP.scale r a s) (GP.scale r b s)) = true
  scale_order : ∀ {r a}, V a → GP.isEqual (GP.scale r a GP.N) GP.identity = true
  baseScale : ∀ {r} {s : Int}, GP.isEqual (GP.baseScale r s) (GP.scale r GP.generator s) = true
  isIdentity : ∀ {a}, V a → (GP.isIdentity a = true ↔ GP.isEqual a GP.identity = true)

/-- Lawful groups obey the laws up to `IsEqual`. -/
theorem Lawful.upTo {E : Type} {GP : Grp E} {q : ℕ} {M : Type} [AddCommGroup M] [Module (ZMod q) M] (L : Lawful GP q M) :
    GroupLawsUpTo GP L.V where
  generator := L.V_gen
  identity := L.V_ident
  add := L.V_add
  neg := L.V_neg
  mul := L.V_scale
  base := L.V_baseScale
  refl := fun ha => (L.isEqual_iff ha ha).mpr rfl
  symm := fun ha hb h => (L.isEqual_iff hb ha).mpr ((L.isEqual_iff ha hb).mp h).symm
  trans := fun ha hb hd h h' => (L.isEqual_iff ha hd).mpr (((L.isEqual_iff ha hb).mp h).trans ((L.isEqual_iff hb hd).mp h'))
  add_congr := fun ha ha' hb hb' h h' => by
    rw [L.isEqual_iff (L.V_add ha hb) (L.V_add ha' hb'), L.den_add ha hb, L.den_add ha' hb', (L.isEqual_iff ha ha').mp h,
      (L.isEqual_iff hb hb').mp h']
  scale_congr := fun ha ha' h => by
    rw [L.isEqual_iff (L.V_scale ha) (L.V_scale ha'), L.den_scale ha, L.den_scale ha', (L.isEqual_iff ha ha').mp h]
  add_comm := fun ha hb => by
    rw [L.isEqual_iff (L.V_add ha hb) (L.V_add hb ha), L.den_add ha hb, L.den_add hb ha, _root_.add_comm]
  add_assoc := fun ha hb hd => by
    rw [L.isEqual_iff (L.V_add (L.V_add ha hb) hd) (L.V_add ha (L.V_add hb hd)), L.den_add (L.V_add ha hb) hd,
      L.den_add ha hb, L.den_add ha (L.V_add hb hd), L.den_add hb hd, _root_.add_assoc]
  add_identity := fun ha => by
    rw [L.isEqual_iff (L.V_add ha L.V_ident) ha, L.den_add ha L.V_ident, L.den_ident, add_zero]
  add_neg := fun ha => by
    rw [L.isEqual_iff (L.V_add ha (L.V_neg ha)) L.V_ident, L.den_add ha (L.V_neg ha), L.den_neg ha, L.den_ident,
      add_neg_cancel]
  sub_add := fun ha hb => by
    unfold Grp.sub
    rw [L.isEqual_iff (L.V_add (L.V_add ha (L.V_neg hb)) hb) ha, L.den_add (L.V_add ha (L.V_neg hb)) hb,
      L.den_add ha (L.V_neg hb), L.den_neg hb]
    abel
  scale_zero := fun ha => by
    rw [L.isEqual_iff (L.V_scale ha) L.V_ident, L.den_scale ha, L.den_ident, Int.cast_zero, zero_smul]
  scale_one := fun ha => by
    rw [L.isEqual_iff (L.V_scale ha) ha, L.den_scale ha, Int.cast_one, one_smul]
  scale_add := fun ha => by
    rw [L.isEqual_iff (L.V_scale ha) (L.V_add (L.V_scale ha) (L.V_scale ha)), L.den_scale ha,
      L.den_add (L.V_scale ha) (L.V_scale ha), L.den_scale ha, L.den_scale ha, Int.cast_add, add_smul]
  scale_mul := fun ha => by
    rw [L.isEqual_iff (L.V_scale ha) (L.V_scale (L.V_scale ha)), L.den_scale ha, L.den_scale (L.V_scale ha), L.den_scale ha,
      Int.cast_mul, mul_comm, mul_smul]
  scale_dist := fun ha hb => by
    rw [L.isEqual_iff (L.V_scale (L.V_add ha hb)) (L.V_add (L.V_scale ha) (L.V_scale hb)), L.den_scale (L.V_add ha hb),
      L.den_add ha hb, L.den_add (L.V_scale ha) (L.V_scale hb), L.den_scale ha, L.den_scale hb, smul_add]
  scale_order := fun ha => by
    rw [L.isEqual_iff (L.V_scale ha) L.V_ident, L.den_scale ha, L.den_ident, L.N_eq, Int.cast_natCast, ZMod.natCast_self,
      zero_smul]
  baseScale := by
    intro r s
    rw [L.isEqual_iff L.V_baseScale (L.V_scale L.V_gen), L.den_baseScale, L.den_scale L.V_gen]
  isIdentity := fun ha => by
    rw [L.isIdentity_iff ha, L.isEqual_iff ha L.V_ident, L.den_ident]

/-- **C55** On legal secp256k1 values the wrapper methods obey the laws of a group, with `IsEqual` as equality and two forms of the
identity; `IsIdentity` does not panic on them. -/
theorem C55_group_laws (L : K1Lib) (hL : L.Identities) :
    GroupLawsUpTo (k1Grp L) K1Point.Valid ∧ ∀ e : K1Point, e.Valid → e.isIdentity ≠ none := by
  let := k1Module
  refine ⟨(k1Lawful hL.ok).upTo, fun e he => ?_⟩
  obtain ⟨b, hb, _⟩ := k1_isIdentity (a := e) he
  rw [hb]
  simp

/-- **C55** The order of the group is the declared one: every legal value is `IsEqual` to `BaseScale(k)` for exactly one
`0 ≤ k < N`, and `N` is prime. -/
theorem C55_order (L : K1Lib) (hL : L.Identities) : (k1Grp L).N = k1N ∧ k1N.Prime ∧
    ∀ e : K1Point, e.Valid → ∃! k : Int, 0 ≤ k ∧ k < (k1Grp L).N ∧ (k1Grp L).isEqual ((k1Grp L).mulGen k) e = true := by
  have hp := C48_orders.1
  refine ⟨rfl, hp, fun e he => ?_⟩
  have he' : K1Legal e := he
  have hm : ∀ k : Int, ((k1Grp L).isEqual ((k1Grp L).mulGen k) e = true) ↔ k • k1Den k1Base = k1Den e := by
    intro k
    obtain ⟨l, d⟩ := k1Mul_spec hL.ok k1Base_legal k
    rw [← d]
    exact (k1_isEqual l he').trans (k1Den_inj l he').symm
  obtain ⟨k, hk, e1⟩ := sw_cyclic hp k1_card _ k1Base_ne (k1Den e)
  refine ⟨k, ⟨by positivity, ?_, ?_⟩, ?_⟩
  · show (k : Int) < k1N
    exact_mod_cast hk
  · rw [hm, natCast_zsmul, e1]
  · rintro k' ⟨h0, h1, h2⟩
    have h1' : k' < k1N := h1
    rw [hm, e1, ← natCast_zsmul] at h2
    have hz : (k' - (k : Int)) • k1Den k1Base = 0 := by rw [sub_zsmul, h2, add_neg_cancel]
    rw [← addOrderOf_dvd_iff_zsmul_eq_zero, addOrderOf_eq_prime (k1_nsmul _) k1Base_ne (hp := ⟨hp⟩)] at hz
    have hk' : (k : Int) < k1N := by exact_mod_cast hk
    have := Int.eq_zero_of_abs_lt_dvd hz (by rw [abs_lt]; omega)
    omega

/-- the condition on the library's hash: the seed is hashed to a curve point whose `x` fills 32 bytes -/
def K1HashOK (L : K1Lib) (s : Bytes) : Prop :=
  ∃ x y : ℕ, L.hash s = ⟨some x, some y⟩ ∧ 256 ^ 31 ≤ x ∧ x < k1P ∧ y < k1P ∧ ((y : Int) ^ 2 - ((x : Int) ^ 3 + 7)) % k1P = 0

theorem K1HashOK.map {L : K1Lib} {s : Bytes} (h : K1HashOK L s) :
    ∃ e, (k1Grp L).mapToGroup s = some e ∧ e.Valid ∧ e = L.hash s := by
  obtain ⟨x, y, eh, h1, h2, h3, h4⟩ := h
  have hx : x < 256 ^ 32 := h2.trans (by decide +kernel)
  refine ⟨L.hash s, ?_, Or.inr (Or.inr ⟨x, y, eh, h2, h3, h4⟩), rfl⟩
  show K1Point.mapToGroupOf (L.hash s) = _
  rw [eh]
  show K1Point.setBytes (natBytes x ++ natBytes y) = _
  have hl : (natBytes x).length = 32 := by
    apply le_antisymm (natBytes_length_le.mpr hx)
    by_contra hc
    have : (natBytes x).length ≤ 31 := by omega
    rw [natBytes_length_le] at this
    omega
  rw [k1_setBytes, if_pos (by omega)]
  have t := List.take_left (l₁ := natBytes x) (l₂ := natBytes y)
  have d := List.drop_left (l₁ := natBytes x) (l₂ := natBytes y)
  rw [hl] at t d
  rw [t, d, setBytes_natBytes, setBytes_natBytes]

theorem k1_row : (k1N, 256, (15 : Int)) ∈ curveTable := by simp [curveTable]

theorem K1HashOK.legal {L : K1Lib} (h : ∀ s, SetupSeed 16 s → K1HashOK L s) (s : Bytes) (hs : SetupSeed 16 s) :
    ∃ e, (k1Grp L).mapToGroup s = some e ∧ K1Legal e := by
  obtain ⟨e, h1, h2, _⟩ := (h s hs).map
  exact ⟨e, h1, h2⟩

/-- **C55** The deployed system on secp256k1: setup succeeds and every ballot `castVote` completes is accepted, when the
setup seeds hash to points whose `x` fills 32 bytes. -/
theorem C55_honest (sha : Bytes → Bytes) (nan64 : BitVec 64) (L : K1Lib) (hL : L.Identities)
    (hash : ∀ s, SetupSeed 16 s → K1HashOK L s) :
    ∃ pp, setup nan64 (k1Grp L) = some (.ok pp) ∧ ∀ (rnd : CastRand) (ballot : BallotData Int K1Point),
      (0 ≤ rnd.rChoice ∧ rnd.rChoice < 1899) →
      (rnd.bp1.sL.length = 16 ∧ rnd.bp1.sR.length = 16 ∧ rnd.bp2.sL.length = 16 ∧ rnd.bp2.sR.length = 16) →
      (∀ s ∈ rnd.tape, 0 ≤ s.k ∧ s.k < 2 ^ 255) →
      castVote sha pp rnd = .done ballot →
      verifyVote sha ballot pp.RPParams = some { result := true, times := [0, 0] } := by
  let := k1Module
  exact C47_deployment_accepts sha nan64 (k1Grp L) k1N 256 15 k1_row (k1Lawful hL.ok) (K1HashOK.legal hash)

/-- **C55** A voter who casts any other number with the honest code is rejected, unless the challenge is zero. -/
theorem C55_any_choice (sha : Bytes → Bytes) (hsha : ∀ m, (sha m).length = 32) (nan64 : BitVec 64)
    (L : K1Lib) (hL : L.Identities) (hash : ∀ s, SetupSeed 16 s → K1HashOK L s) :
    ∃ pp, setup nan64 (k1Grp L) = some (.ok pp) ∧
    ∀ (choice : UInt16) (rnd : CastRand) (ballot : BallotData Int K1Point),
      (rnd.bp1.sL.length = 16 ∧ rnd.bp1.sR.length = 16 ∧ rnd.bp2.sL.length = 16 ∧ rnd.bp2.sR.length = 16) →
      (∀ s ∈ rnd.tape, 0 ≤ s.k ∧ s.k < 2 ^ 255) →
      castChoice sha pp choice rnd = .done ballot →
      ∃ c b, ballot.VoteProof.Challenge = some c ∧
        verifyVote sha ballot pp.RPParams = some { result := b, times := [0, 0] } ∧
        (b = true ↔ (101 ≤ choice ∧ choice ≤ 2000) ∨ c = 0) := by
  let := k1Module
  let L₂ := k1Lawful hL.ok
  have hmap := K1HashOK.legal hash
  obtain ⟨D, hD, dep, _⟩ := C47_curves nan64 (k1Grp L) (fun s hs => (hmap s hs).imp fun _ h => h.1) k1N 256 15 k1_row rfl
  obtain ⟨L₁, LE, hok, hV, hden⟩ := deployed_legal (k1Grp L) D k1N 256 15 k1_row L₂ (seeds_legal hmap) dep
  refine ⟨D.pp, hD, fun choice rnd ballot hl ht hcast => ?_⟩
  have : Fact k1N.Prime := ⟨C48_orders.1⟩
  have hfree : ∀ c : ZMod k1N, c • LE.g = 0 → c = 0 := by
    intro c hc
    by_contra hne
    have h := smul_cancel hne hc
    rw [smul_zero] at h
    unfold Lawful.g at h
    rw [hden, dep.EC] at h
    obtain ⟨_, d⟩ := k1Mul_spec hL.ok k1Base_legal 1
    rw [one_zsmul] at d
    exact k1Base_ne (d.symm.trans h)
  obtain ⟨c, b, h1, h2, h3⟩ := C42_any_choice sha D L₁ LE hfree 4 (le_refl 4) hok choice rnd hl.1 hl.2.1 hl.2.2.1 hl.2.2.2
    (by rw [dep.zUpper]; exact ht) ballot hcast
  refine ⟨c, b, h1, h2, ?_⟩
  rw [dep.lo, dep.hi] at h3
  refine ⟨fun hb => ?_, fun h => h3.mpr (h.imp_right fun h => by rw [h]; simp)⟩
  rcases h3.mp hb with h | h
  · exact Or.inl h
  · right
    have hacc := (verifyVote_accept_iff.mp ⟨_, hb ▸ h2⟩).2.2
    obtain ⟨Z, c', _, _, _, _, hc', _, _, _, _, hch, _⟩ := (sigma_verify_iff _ _ _).mp hacc
    rw [h1] at hc'
    cases hc'
    obtain ⟨_, _, _, _, _, hP, _⟩ := castChoice_legal sha D L₁ LE 4 hok (by rw [hV, dep.G]; exact L₂.V_mulGen 1)
      (by rw [dep.Bb]; norm_num) choice rnd hl.1 hl.2.1 hl.2.2.1 hl.2.2.2 ballot hcast
    obtain ⟨_, h0, _, hlt⟩ := (C28_challenge sha hsha _ _ _ _ _ _ _).2 c hch
    have hBc : ballot.VoteProof.Params.Bc = 224 := by rw [hP]; exact dep.Bc
    rw [hBc] at hlt
    have hlt' : c < k1N := lt_trans hlt (by
      have : (2 : Int) ^ (224 : UInt16).toNat = ((2 ^ 224 : ℕ) : Int) := by push_cast
      rw [this]; decide +kernel)
    exact (C42_rejected (by decide +kernel) h0 hlt').mp h

/-- **C55** The driver on secp256k1 does not panic unless a challenge is a zero divisor, never reports malformed
votes, and reports success when every tape holds a safe mask. -/
theorem C55_driver (sha : Bytes → Bytes) (hsha : ∀ m, (sha m).length = 32) (nan64 : BitVec 64)
    (L : K1Lib) (hL : L.Identities) (hash : ∀ s, SetupSeed 16 s → K1HashOK L s)
    (rnds : List CastRand) (hs : RunsOK sha nan64 (k1Grp L) rnds) (hd : ∀ rnd ∈ rnds, CastDrawn 256 rnd) :
    runGroup sha nan64 (k1Grp L) rnds ≠ .panic ∧
    (∀ r, runGroup sha nan64 (k1Grp L) rnds = .done r → r = .formed true) ∧
    ((∀ rnd ∈ rnds, ∃ s ∈ rnd.tape, SafeMask 256 s.k) → runGroup sha nan64 (k1Grp L) rnds = .done (.formed true)) := by
  let := k1Module
  exact C54_driver sha hsha nan64 (k1Grp L) k1N 256 15 k1_row (k1Lawful hL.ok) (K1HashOK.legal hash) rnds hs hd

theorem mapM_none {α β : Type} {f : α → Option β} : ∀ {l : List α} {a : α}, a ∈ l → f a = none → l.mapM f = none := by
  intro l a ha h
  cases hl : l.mapM f with
  | none => rfl
  | some r =>
    exfalso
    have : ∀ {l : List α} {r : List β}, a ∈ l → l.mapM f = some r → False := by
      intro l
      induction l with
      | nil => intro r ha; simp at ha
      | cons b l ih =>
        intro r ha hr
        rw [List.mapM_cons] at hr
        rcases List.mem_cons.mp ha with rfl | ha
        · rw [h] at hr; simp at hr
        · cases hb : f b with
          | none => rw [hb] at hr; simp at hr
          | some v =>
            cases ht : l.mapM f with
            | none => rw [hb, ht] at hr; simp at hr
            | some w => exact ih ha ht
    exact this ha hl

/-- If `MapToGroup` panics on a seed of the generators, `setup` panics. -/
theorem setup_panics {E : Type} (nan64 : BitVec 64) (C : Grp E) (s : Bytes)
    (hs : s = SEEDH ∨ ∃ i < 16, s = seedG i ∨ s = seedHh i) (hm : C.mapToGroup s = none) : setup nan64 C = none := by
  have hbp : bpSetup nan64 65536 C = none := by
    obtain ⟨h1, h2⟩ := log2_run (nan64 := nan64) (b := 65536) 16 (by norm_num) (by decide)
    have h3 := (exp_pow2 16 (by norm_num)).mpr (by norm_num)
    have hti : (BitVec.ofNat 64 16).toInt = 16 := by decide
    have htn : (BitVec.ofNat 64 16).toNat = 16 := by decide
    unfold bpSetup
    simp only [h1, h2, h3, hti, htn, Bool.not_true, Bool.false_eq_true, if_false, Option.bind_eq_bind]
    cases hH : C.mapToGroup SEEDH with
    | none => rfl
    | some H =>
      rw [Option.bind_some, if_neg (by norm_num), if_neg (by norm_num)]
      rcases hs with rfl | ⟨i, hi, rfl | rfl⟩
      · rw [hH] at hm; simp at hm
      · have : mapSeeds C seedG 16 = none := mapM_none (List.mem_range.mpr hi) hm
        rw [this]; rfl
      · have : mapSeeds C seedHh 16 = none := mapM_none (List.mem_range.mpr hi) hm
        rw [this]
        cases mapSeeds C seedG 16 <;> rfl
  unfold setup
  rw [newModPGroup_rfc, hbp]
  rfl

/-- **C55** If a generator seed hashes to a point whose coordinates together have fewer than 32 bytes, `setup` and the driver
panic.  (A seed whose `x` alone is short gives a generator other than the hashed point, by C08.) -/
theorem C55_short_seed (sha : Bytes → Bytes) (nan64 : BitVec 64) (L : K1Lib) (s : Bytes)
    (hs : s = SEEDH ∨ ∃ i < 16, s = seedG i ∨ s = seedHh i) (x y : ℕ) (h : L.hash s = ⟨some x, some y⟩)
    (hl : (natBytes x).length + (natBytes y).length < 32) (rnds : List CastRand) :
    setup nan64 (k1Grp L) = none ∧ runGroup sha nan64 (k1Grp L) rnds = .panic := by
  have hm : (k1Grp L).mapToGroup s = none := by
    show K1Point.mapToGroupOf (L.hash s) = none
    rw [h]
    show K1Point.setBytes (natBytes x ++ natBytes y) = none
    rw [k1_setBytes, if_neg (by omega)]
  have hp := setup_panics nan64 (k1Grp L) s hs hm
  refine ⟨hp, ?_⟩
  rw [runGroup, hp, runSetup]

/-- A library whose hash is constant; both forms of the identity occur. -/
def exK1 : K1Lib where
  infAdd := ⟨some 0, some 0⟩
  infMul := ⟨none, none⟩
  hash := fun _ => k1Base
  str := K1Point.marshalBinary

/-- C55: the hypotheses are met; the order times the base point is `(nil, nil)`, the base point minus itself is `(0, 0)`,
doubling works through `Add`. -/
example : exK1.Identities ∧ (∀ s, K1HashOK exK1 s) ∧ k1Base.Valid ∧
    (k1Grp exK1).mulGen k1N = ⟨none, none⟩ ∧ (k1Grp exK1).sub k1Base k1Base = ⟨some 0, some 0⟩ ∧
    (k1Grp exK1).isEqual ((k1Grp exK1).sub k1Base k1Base) (k1Grp exK1).identity = true ∧
    (k1Grp exK1).add k1Base k1Base = (k1Grp exK1).mulGen 2 ∧ (k1Grp exK1).generator = k1Base := by
  refine ⟨⟨Or.inr rfl, Or.inl rfl⟩, fun s => ⟨_, _, rfl, ?_, ?_, ?_, ?_⟩, k1Base_legal, ?_, ?_, ?_, ?_, ?_⟩
  · exact show 256 ^ 31 ≤ 0x79be667ef9dcbbac55a06295ce870b07029bfcdb2dce28d959f2815b16f81798 by decide +kernel
  all_goals decide +kernel

end MscPoc
