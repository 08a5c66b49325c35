import Verif.Model.Tests
import Verif.Props.Driver
import Verif.Props.Ipp
import Verif.Props.MultiBp
import Verif.Lemmas.Legal

/-!
# Lemmas for the repository's tests
-/

set_option autoImplicit false

namespace MscPoc

variable {E : Type} {q : ℕ} {M : Type} [AddCommGroup M] [Module (ZMod q) M]

section
variable {g : Grp E} (L : Lawful g q M)
include L

theorem Lawful.self (x : E) (hx : L.V x) : g.isEqual x x = true := (L.isEqual_iff hx hx).mpr rfl

theorem Lawful.V_sub' {a b : E} (ha : L.V a) (hb : L.V b) : L.V (g.sub a b) := L.V_add ha (L.V_neg hb)

theorem Lawful.den_sub' {a b : E} (ha : L.V a) (hb : L.V b) : L.den (g.sub a b) = L.den a - L.den b := by
  rw [Grp.sub, L.den_add ha (L.V_neg hb), L.den_neg hb, sub_eq_add_neg]

theorem testNeg_pass (xs : List E) (h : ∀ x ∈ xs, L.V x) : testNeg g xs = true := by
  refine List.all_eq_true.mpr fun x hx => ?_
  rw [L.isIdentity_iff (L.V_sub' (h x hx) (h x hx)), L.den_sub' (h x hx) (h x hx), sub_self]

theorem testOrder_pass (xs : List E) (h : ∀ x ∈ xs, L.V x) (Q : E) : testOrderGo g Q xs = true := by
  induction xs generalizing Q with
  | nil => rfl
  | cons x xs ih =>
    have hx := h x (by simp)
    unfold testOrderGo
    rw [Bool.and_eq_true]
    refine ⟨?_, ih (fun y hy => h y (by simp [hy])) _⟩
    rw [L.isEqual_iff (L.V_add (L.V_scale hx) hx) L.V_ident, L.den_add (L.V_scale hx) hx, L.den_scale hx, L.den_ident]
    simp

theorem testMath_pass (r1 r2 : E) (h1 : L.V r1) (h2 : L.V r2) : testMath g r1 r2 = true := by
  have hg : L.V (g.add g.generator g.generator) := L.V_add L.V_gen L.V_gen
  have hs := L.V_add h1 h2
  unfold testMath
  simp only [Bool.and_eq_true]
  refine ⟨⟨?_, ?_⟩, ?_⟩
  · unfold Grp.mulGen
    rw [L.isEqual_iff L.V_baseScale hg, L.den_add L.V_gen L.V_gen, L.den_baseScale]
    push_cast
    rw [two_smul]
  · unfold Grp.mulGen
    rw [L.isEqual_iff (L.V_add L.V_baseScale L.V_gen) L.V_baseScale, L.den_add L.V_baseScale L.V_gen,
      L.den_baseScale, L.den_baseScale]
    push_cast
    rw [show (3 : ZMod q) = 2 + 1 by norm_num, add_smul, one_smul]
  · rw [L.isEqual_iff (L.V_sub' hs h2) h1, L.den_sub' hs h2, L.den_add h1 h2, add_sub_cancel_right]

end

/-- decoding inverts encoding, up to `IsEqual` and whatever the receiver -/
def BinCodec.Good (B : BinCodec E) (g : Grp E) (V : E → Prop) : Prop :=
  ∀ x, V x → ∀ r, (B.dec r (B.enc x)).1 = false ∧ g.isEqual x (B.dec r (B.enc x)).2 = true

theorem testMarshalBinary_pass {g : Grp E} {B : BinCodec E} {V : E → Prop} (hB : B.Good g V) (hI : V g.identity)
    (xs : List E) (h : ∀ x ∈ xs, V x) : testMarshalBinary g B xs = true := by
  have loop : ∀ (xs : List E) (_ : ∀ x ∈ xs, V x) (r : E), testBinaryGo g B r xs = true := by
    intro xs
    induction xs with
    | nil => exact fun _ _ => rfl
    | cons x xs ih =>
      intro h r
      unfold testBinaryGo
      rw [Bool.and_eq_true]
      exact ⟨(hB x (h x (by simp)) r).2, ih (fun y hy => h y (by simp [hy])) _⟩
  unfold testMarshalBinary
  obtain ⟨e1, e2⟩ := hB _ hI g.elt
  dsimp only
  rw [e1, e2, loop xs h]
  rfl

theorem testMarshalJSON_pass {g : Grp E} {C : Codec E} {V : E → Prop} (hC : C.Good V) (hI : V g.identity)
    (hself : ∀ x, V x → g.isEqual x x = true) (xs : List E) (h : ∀ x ∈ xs, V x) : testMarshalJSON g C xs = some true := by
  have loop : ∀ (xs : List E) (_ : ∀ x ∈ xs, V x) (r : E), testJSONGo g C r xs = some true := by
    intro xs
    induction xs with
    | nil => exact fun _ _ => rfl
    | cons x xs ih =>
      intro h r
      obtain ⟨j, e1, e2⟩ := hC x (h x (by simp))
      unfold testJSONGo
      rw [e1]
      show (Option.bind (C.unmarshal r (some j)) _) = _
      rw [e2 r]
      simp [ih (fun y hy => h y (by simp [hy])), hself x (h x (by simp)), isOk]
  obtain ⟨j, e1, e2⟩ := hC _ hI
  unfold testMarshalJSON
  rw [e1]
  show (Option.bind (C.unmarshal g.elt (some j)) _) = _
  rw [e2 g.elt]
  simp [loop xs h, hself _ hI, isOk]

/-- the test on a codec which has one text for the elements it marshals at all, and refuses that text -/
theorem testMarshalJSON_broken {g : Grp E} {C : Codec E} {Z : E → Prop} [DecidablePred Z] {j : Json}
    (hm : ∀ x, C.marshal x = if Z x then some (.ok j) else none) (hu : ∀ r, C.unmarshal r (some j) = some (true, r))
    (hI : Z g.identity) (xs : List E) :
    testMarshalJSON g C xs = if ∀ x ∈ xs, Z x then some false else none := by
  have loop : ∀ (xs : List E) (r : E), testJSONGo g C r xs = if ∀ x ∈ xs, Z x then some xs.isEmpty else none := by
    intro xs
    induction xs with
    | nil => intro r; simp [testJSONGo]
    | cons x xs ih =>
      intro r
      unfold testJSONGo
      rw [hm]
      by_cases hx : Z x
      · rw [if_pos hx]
        show (Option.bind (C.unmarshal r (some j)) _) = _
        rw [hu]
        show (Option.bind (testJSONGo g C r xs) _) = _
        rw [ih r]
        by_cases hr : ∀ y ∈ xs, Z y
        · rw [if_pos hr, if_pos (by simpa [hx] using hr)]
          simp
        · rw [if_neg hr, if_neg (fun h => hr fun y hy => h y (by simp [hy]))]
          rfl
      · rw [if_neg hx, if_neg (fun h => hx (h x (by simp)))]
        rfl
  unfold testMarshalJSON
  rw [hm, if_pos hI]
  show (Option.bind (C.unmarshal g.elt (some j)) _) = _
  rw [hu]
  show (Option.bind (testJSONGo g C g.elt xs) _) = _
  rw [loop]
  split <;> simp

/-- the draws are legal elements -/
structure GroupDraws.All (V : E → Prop) (d : GroupDraws E) : Prop where
  neg : ∀ x ∈ d.neg, V x
  order : ∀ x ∈ d.order, V x
  set : V d.set
  binary : ∀ x ∈ d.binary, V x
  json : ∀ x ∈ d.json, V x

theorem subtests_split {g : Grp E} (L : Lawful g q M) {B : BinCodec E} (hB : B.Good g L.V) (C : Codec E) (d : GroupDraws E)
    (hd : d.All L.V) : groupSubtests g B C d = testMarshalJSON g C d.json := by
  unfold groupSubtests
  rw [testNeg_pass L _ hd.neg, testOrder, testOrder_pass L _ hd.order, testSet, L.self _ hd.set,
    testMarshalBinary_pass hB L.V_ident _ hd.binary]
  cases testMarshalJSON g C d.json <;> simp

theorem subtests_pass {g : Grp E} (L : Lawful g q M) {B : BinCodec E} (hB : B.Good g L.V) {C : Codec E} (hC : C.Good L.V)
    (d : GroupDraws E) (hd : d.All L.V) : groupSubtests g B C d = some true := by
  rw [subtests_split L hB C d hd]
  exact testMarshalJSON_pass hC L.V_ident L.self _ hd.json

/-! ## range proofs -/

theorem bpSetup_legal (GP : Grp E) (L : Lawful GP q M)
    (hmap : ∀ s, SetupSeed 32 s → ∃ e, GP.mapToGroup s = some e ∧ L.V e) (nan64 : BitVec 64) :
    ∃ (p : BPParams E) (L' : Lawful p.GP q M), bpSetup nan64 (2 ^ 32) GP = some (.ok p) ∧ ParamsOK p L' 5 ∧ p.GP = GP ∧
      L'.V p.G ∧ L'.V = L.V ∧ L'.den = L.den ∧ L'.g = L.g := by
  obtain ⟨p, hp, hN, hG, hH⟩ := bpSetup_succeeds GP 32 (fun s hs => (hmap s hs).imp fun _ h => h.1) nan64 (2 ^ 32)
    (by norm_num) (by decide)
  obtain ⟨g1, g2, g3, g4, _⟩ := C15_generators GP nan64 _ p hp
  have hm : ∀ s e, SetupSeed 32 s → GP.mapToGroup s = some e → L.V e := by
    intro s e hs he
    obtain ⟨e', h1, h2⟩ := hmap s hs
    rw [he] at h1
    injection h1 with h1
    rw [h1]
    exact h2
  refine ⟨p, g3 ▸ L, hp, ?_⟩
  obtain ⟨N, G, H, Gg, Hh, GP'⟩ := p
  dsimp only at g1 g2 g3 g4 hN hG hH
  subst g3 hN
  refine ⟨⟨rfl, hm _ _ (Or.inl rfl) g2, ?_, ?_, hG, hH, fun _ h => hm _ _ (Or.inr (Or.inl rfl)) h⟩, rfl, ?_, rfl, rfl, rfl⟩
  · intro e he
    obtain ⟨i, hi, rfl⟩ := List.getElem_of_mem he
    have hi' : i < 32 := hG ▸ hi
    exact hm _ _ (Or.inr (Or.inr ⟨i, hi', Or.inl rfl⟩)) ((g4 i hi').1.trans (List.getElem?_eq_getElem hi))
  · intro e he
    obtain ⟨i, hi, rfl⟩ := List.getElem_of_mem he
    have hi' : i < 32 := hH ▸ hi
    exact hm _ _ (Or.inr (Or.inr ⟨i, hi', Or.inr rfl⟩)) ((g4 i hi').2.trans (List.getElem?_eq_getElem hi))
  · show L.V G
    rw [g1]
    exact L.V_baseScale

theorem testRange_eq (sha : Bytes → Bytes) (nan64 : BitVec 64) (GP : Grp E) (p : BPParams E)
    (hp : bpSetup nan64 (2 ^ 32) GP = some (.ok p)) (rnd : BPRand) (x g : Int) (pf : BulletProof E)
    (hx : bpProve sha p rnd x = some (.ok (pf, g))) (want : Bool) :
    testRange sha nan64 GP rnd x want = (pf.verify sha).map (· == want) := by
  unfold testRange
  rw [hp]
  show (Option.bind (proveAndVerifyRange sha p rnd x) _) = _
  unfold proveAndVerifyRange
  rw [hx]
  show (Option.bind (pf.verify sha) _) = _
  cases pf.verify sha <;> rfl

theorem run_challenge {sha : Bytes → Bytes} {params : BPParams E} (L : Lawful params.GP q M) [Fact q.Prime] {rnd : BPRand} {v : Int}
    (k : ℕ) (hO : ParamsOK params L k) (Uu : E) (eU : params.GP.mapToGroup SEEDU = some Uu)
    (lsL : rnd.sL.length = 2 ^ k) (lsR : rnd.sR.length = 2 ^ k)
    (hs : RangeRunOK sha params rnd v) : ∃ pf, bpProve sha params rnd v = some (.ok (pf, rnd.gamma)) ∧
      ¬ params.GP.N ∣ roundChallenge sha params.GP pf.A pf.S := by
  obtain ⟨pf, h, h'⟩ := C18_bp_prover_total params L k hO Uu eU sha rnd lsL lsR v
  have ok := hs _ _ h
  have hpf := h' ok
  refine ⟨pf, hpf, fun hd => ?_⟩
  have hP := (bpProve_exact params L k hO sha rnd lsL lsR v _ pf hpf).2.2.1
  have h1 := ok.1
  rw [hP] at h1
  have hq : (q : Int) ∣ (1 : ℕ) := by
    rw [← h1, ← L.N_eq]
    exact Int.dvd_coe_gcd hd (dvd_refl _)
  exact (Fact.out : q.Prime).one_lt.ne' (Nat.dvd_one.mp (by exact_mod_cast hq))

/-- The range tests on any prime-order group: the verdict says whether some number in the range is congruent to `x`. -/
theorem testRange_verdict [Fact q.Prime] (sha : Bytes → Bytes) (nan64 : BitVec 64) (GP : Grp E) (L : Lawful GP q M)
    (hg : L.g ≠ 0) (hmap : ∀ s, SetupSeed 32 s → ∃ e, GP.mapToGroup s = some e ∧ L.V e) :
    ∃ p, bpSetup nan64 (2 ^ 32) GP = some (.ok p) ∧ ∀ (rnd : BPRand) (x : Int), rnd.sL.length = 32 → rnd.sR.length = 32 →
      (DigestsOK sha GP.N → RangeRunOK sha p rnd x) ∧
      (RangeRunOK sha p rnd x →
        ∀ want, testRange sha nan64 GP rnd x want = some (decide (GP.N ∣ x - x % 2 ^ 32) == want)) := by
  obtain ⟨p, L', hp, hO, hGP, _, _, _, hg'⟩ := bpSetup_legal GP L hmap nan64
  refine ⟨p, hp, fun rnd x l1 l2 => ⟨fun hd => DigestsOK.range (hGP ▸ hd) L' 5 hO rnd l1 l2 x, fun hs want => ?_⟩⟩
  obtain ⟨Uu, eU, _⟩ := hmap SEEDU (Or.inr (Or.inl rfl))
  rw [← hGP] at eU
  obtain ⟨pf, hpf, hz⟩ := run_challenge L' 5 hO Uu eU l1 l2 hs
  have hfree : ∀ c : ZMod q, c • L'.g = 0 → c = 0 := fun c hc => (smul_eq_zero.mp hc).resolve_right (hg' ▸ hg)
  obtain ⟨b, hv, hb, _⟩ := C19_bp_out_of_range_prime p L' hfree 5 hO sha rnd l1 l2 x _ pf hpf hz
  rw [testRange_eq sha nan64 GP p hp rnd x _ pf hpf want, hv]
  rw [hGP] at hb
  have : b = decide (GP.N ∣ x - x % 2 ^ 32) := by
    rw [Bool.eq_iff_iff, hb, decide_eq_true_iff]
    norm_num
  rw [this]
  rfl

theorem testJson_pass (sha : Bytes → Bytes) (nan64 : BitVec 64) (GP : Grp E) (L : Lawful GP q M) (C : Codec E) (hC : C.Good L.V)
    (hmap : ∀ s, SetupSeed 32 s → ∃ e, GP.mapToGroup s = some e ∧ L.V e) :
    ∃ p, bpSetup nan64 (2 ^ 32) GP = some (.ok p) ∧ ∀ rnd : BPRand, rnd.sL.length = 32 → rnd.sR.length = 32 →
      (DigestsOK sha GP.N → RangeRunOK sha p rnd 18) ∧
      (RangeRunOK sha p rnd 18 → testJsonEncodeDecode sha nan64 GP C rnd = some true) := by
  obtain ⟨p, L', hp, hO, hGP, vG, hV, _, _⟩ := bpSetup_legal GP L hmap nan64
  refine ⟨p, hp, fun rnd l1 l2 => ⟨fun hd => DigestsOK.range (hGP ▸ hd) L' 5 hO rnd l1 l2 18, fun hs => ?_⟩⟩
  obtain ⟨Uu, eU, _⟩ := hmap SEEDU (Or.inr (Or.inl rfl))
  rw [← hGP] at eU
  obtain ⟨pf, hpf⟩ := bpProve_total p L' 5 hO Uu eU sha rnd l1 l2 18 hs
  obtain ⟨okp, e1, e2, _⟩ := bpProve_legal p L' 5 hO vG sha rnd l1 l2 18 _ pf hpf
  obtain ⟨acc, _⟩ := C18_bp_complete p L' 5 hO sha rnd l1 l2 18 _ (by norm_num) (by norm_num) pf hpf
  obtain ⟨j, h1, h2⟩ := bp_roundtrip (hV ▸ hC : C.Good L'.V) p pf okp
  have same : { pf with
      InnerProductProof := { pf.InnerProductProof with Params := { pf.InnerProductProof.Params with GP := p.GP } }
      Params := p } = pf := by
    rw [← e2, ← e1]
  rw [same] at h2
  unfold testJsonEncodeDecode
  runs hp
  runs hpf
  runs h1
  runs h2
  exact acc

/-- aggregated proofs: the test passes exactly when the generators satisfy the relation of `C24_in_range` -/
theorem testMulti_verdict [Fact q.Prime] (sha : Bytes → Bytes) (nan64 : BitVec 64) (GP : Grp E) (L : Lawful GP q M)
    (hmap : ∀ s, SetupSeed 32 s → ∃ e, GP.mapToGroup s = some e ∧ L.V e) :
    ∃ p, bpSetup nan64 (2 ^ 32) GP = some (.ok p) ∧ ∀ rnd : MultiRand,
      rnd.gammas.length = 2 → rnd.sL.length = 32 → rnd.sR.length = 32 →
      (∀ pf gs, multiProve sha p rnd [3, 15] ≠ some (.ok (pf, gs))) ∧ testXYWithinRange sha nan64 GP rnd = none ∨
      ∃ pf gs, multiProve sha p rnd [3, 15] = some (.ok (pf, gs)) ∧ testXYWithinRange sha nan64 GP rnd = pf.verify sha ∧
        ∀ y : ZMod q, y = (roundChallenge sha GP pf.A pf.S : Int) → y ≠ 0 →
        (testXYWithinRange sha nan64 GP rnd = some true ↔
          (p.Gg.map L.den).sum = ∑ j ∈ Finset.range 2, ∑ i ∈ Finset.range 16,
            (2 ^ i + y ^ (j + 2) - 2 ^ i * y ^ (j + 2)) • y⁻¹ ^ (j * 16 + i) • (p.Hh.map L.den).getD (j * 16 + i) 0) := by
  obtain ⟨p, L', hp, hO, hGP, _, _, hden, _⟩ := bpSetup_legal GP L hmap nan64
  refine ⟨p, hp, fun rnd l0 l1 l2 => ?_⟩
  cases hm : multiProve sha p rnd [3, 15] with
  | none =>
    refine Or.inl ⟨fun _ _ h => by simp at h, ?_⟩
    unfold testXYWithinRange
    runs hp
    dsimp only
    rw [hm]
    rfl
  | some r =>
    cases r with
    | error e =>
      refine Or.inl ⟨fun _ _ h => by simp at h, ?_⟩
      unfold testXYWithinRange
      runs hp
      dsimp only
      rw [hm]
      rfl
    | ok r =>
      obtain ⟨pf, gs⟩ := r
      have e : testXYWithinRange sha nan64 GP rnd = pf.verify sha := by
        unfold testXYWithinRange
        runs hp
        dsimp only
        rw [hm]
        rfl
      refine Or.inr ⟨pf, gs, rfl, e, fun y hy h0 => ?_⟩
      rw [e, ← hden]
      have hN : p.N = 32 := hO.1
      have := C24_in_range p L' 5 hO sha rnd [3, 15] pf gs l0 l1 l2 hm y y⁻¹ (by rw [hGP]; exact hy)
        (fun _ => mul_inv_cancel₀ h0) 16 (by rw [hN]; rfl) (by simp)
      exact this

theorem dot_test (q : ℕ) : ((142 : Int) : ZMod q) = dot (castV q [2, -1, 10, 6]) (castV q [1, 2, 10, 7]) := by
  simp [dot, castV]
  norm_num

theorem testInnerProduct_pass (sha : Bytes → Bytes) (GP : Grp E) (L : Lawful GP q M)
    (hmap : ∀ s, SetupSeed 32 s → ∃ e, GP.mapToGroup s = some e ∧ L.V e) :
    (testInnerProduct sha GP = none ∨ testInnerProduct sha GP = some true) ∧
    (DigestsOK sha GP.N → testInnerProduct sha GP = some true) := by
  have seed : ∀ (sd : ℕ → Bytes), (∀ i < 4, SetupSeed 32 (sd i)) →
      ∃ l, mapSeeds GP sd 4 = some l ∧ l.length = 4 ∧ ∀ e ∈ l, L.V e := by
    intro sd hsd
    obtain ⟨l, hl⟩ := mapSeeds_isSome sd 4 fun i hi => (hmap _ (hsd i hi)).imp fun _ h => h.1
    refine ⟨l, hl, mapSeeds_length hl, fun e he => ?_⟩
    have h := mapSeeds_iff.mp hl
    have : some e ∈ l.map some := List.mem_map_of_mem he
    rw [← h, List.mem_map] at this
    obtain ⟨i, hi, h1⟩ := this
    obtain ⟨e', h2, h3⟩ := hmap _ (hsd i (List.mem_range.mp hi))
    rw [h1] at h2
    injection h2 with h2
    rw [h2]
    exact h3
  obtain ⟨Gg, hGg, lG, vG⟩ := seed seedG fun i hi => Or.inr (Or.inr ⟨i, by omega, Or.inl rfl⟩)
  obtain ⟨Hh, hHh, lH, vH⟩ := seed seedHh fun i hi => Or.inr (Or.inr ⟨i, by omega, Or.inr rfl⟩)
  obtain ⟨Uu, hU, vU⟩ := hmap SEEDU (Or.inr (Or.inl rfl))
  have hset : setupInnerProduct GP none none 4 = some (.ok ⟨Gg, Hh, Uu, GP⟩) := by
    unfold setupInnerProduct
    rw [if_neg (by norm_num)]
    show (Option.bind (mapSeeds GP seedG 4) _) = _
    rw [hGg]
    show (Option.bind (mapSeeds GP seedHh 4) _) = _
    rw [hHh]
    show (Option.bind (GP.mapToGroup SEEDU) _) = _
    rw [hU]
    rfl
  obtain ⟨ga, ega⟩ : ∃ r, vectorExp GP Gg [2, -1, 10, 6] = some r := ⟨_, by unfold vectorExp; rw [if_neg (by simp [lG])]⟩
  obtain ⟨hb, ehb⟩ : ∃ r, vectorExp GP Hh [1, 2, 10, 7] = some r := ⟨_, by unfold vectorExp; rw [if_neg (by simp [lH])]⟩
  obtain ⟨_, va, da⟩ := L.vectorExp_spec vG ega
  obtain ⟨_, vb, db⟩ := L.vectorExp_spec vH ehb
  have hcom : commitInnerProduct GP Gg Hh [2, -1, 10, 6] [1, 2, 10, 7] = some (GP.add ga hb) := by
    unfold commitInnerProduct
    runs ega
    runs ehb
    rfl
  have key : ∀ pf, proveInnerProduct sha [2, -1, 10, 6] [1, 2, 10, 7] (GP.add ga hb) 142 ⟨Gg, Hh, Uu, GP⟩ = some (.ok pf) →
      testInnerProduct sha GP = some true := by
    intro pf hpf
    have := (C16_ipp_complete L sha 2 _ _ _ 142 ⟨Gg, Hh, Uu, GP⟩ pf rfl rfl rfl lG lH vG vH vU (L.V_add va vb)
      (by rw [L.den_add va vb, da, db]) (dot_test q) hpf).1
    unfold testInnerProduct
    runs hset
    runs hcom
    runs hpf
    exact this
  refine ⟨?_, ?_⟩
  · cases hp : proveInnerProduct sha [2, -1, 10, 6] [1, 2, 10, 7] (GP.add ga hb) 142 ⟨Gg, Hh, Uu, GP⟩ with
    | none =>
      left
      unfold testInnerProduct
      runs hset
      runs hcom
      rw [hp]
      rfl
    | some r =>
      cases r with
      | ok pf => exact Or.inr (key pf hp)
      | error e =>
        left
        unfold testInnerProduct
        runs hset
        runs hcom
        runs hp
        rfl
  · intro hd
    have hx := hashIP_eq (GP := GP) sha Gg Hh (GP.add ga hb) 142
    rw [if_pos (by rw [lG, lH])] at hx
    obtain ⟨⟨pa, pb, Ls, Rs⟩, hr⟩ := bip_isSome (GP := GP) sha (fun l r => hd _) 2 [2, -1, 10, 6] [1, 2, 10, 7] Gg Hh
      (computePP (GP.add ga hb) 142 (ippChallenge sha GP Gg Hh (GP.add ga hb) 142) ⟨Gg, Hh, Uu, GP⟩).2
      (computePP (GP.add ga hb) 142 (ippChallenge sha GP Gg Hh (GP.add ga hb) 142) ⟨Gg, Hh, Uu, GP⟩).1 [] [] rfl rfl lG lH
    refine key ⟨GP.add ga hb, some 142, some pa, some pb, Ls, Rs, ⟨Gg, Hh, Uu, GP⟩⟩ ?_
    unfold proveInnerProduct
    rw [if_neg (by simp)]
    runs hx
    runs hr
    rfl

end MscPoc
