import Verif.Lemmas.MultiRepair
import Verif.Props.MultiCrash
import Verif.Props.Tests

/-!
# C95 — two edits make aggregated range proofs complete, and either alone does not
-/

set_option autoImplicit false

namespace MscPoc

variable {E : Type}

/-- **C95** With the switches off these are the program's functions. -/
theorem C95_same (sha : Bytes → Bytes) (params : BPParams E) (rnd : MultiRand) (secrets : List Int) (pf : MultiBulletProof E) :
    multiProveR false sha params rnd secrets = multiProve sha params rnd secrets ∧
    pf.checksR false sha = pf.checks sha ∧ pf.verifyR false sha = pf.verify sha := by
  have hs : ∀ (GP : Grp E) (hp : List E) (p2 : List Int) (z : Int) (bits : ℕ) (js : List ℕ) (acc : E),
      multiSlidesR false GP hp p2 z bits js acc = multiSlides GP hp p2 z bits js acc := by
    intro GP hp p2 z bits js
    induction js with
    | nil => intro acc; rfl
    | cons j js ih =>
      intro acc
      unfold multiSlidesR multiSlides
      simp only [ih, Bool.false_eq_true, if_false]
  have hc : pf.checksR false sha = pf.checks sha := by
    unfold MultiBulletProof.checksR MultiBulletProof.checks
    simp only [hs]
  refine ⟨rfl, hc, ?_⟩
  unfold MultiBulletProof.verifyR MultiBulletProof.verify
  rw [hc]

/-- the edited prover, under a digest function with invertible values -/
theorem multiProveR_returns (fixA : Bool) (params : BPParams E) (k : ℕ) (hN : params.N = 2 ^ k)
    (lenG : params.Gg.length = 2 ^ k) (lenH : params.Hh.length = 2 ^ k) (Uu : E) (eU : params.GP.mapToGroup SEEDU = some Uu)
    (sha : Bytes → Bytes) (hgood : ∀ l r : E, Int.gcd (roundChallenge sha params.GP l r) params.GP.N = 1) (rnd : MultiRand)
    (secrets : List Int) (lsL : rnd.sL.length = 2 ^ k) (lsR : rnd.sR.length = 2 ^ k) (hm : secrets ≠ [])
    (hdv : secrets.length ∣ params.N) : ∃ pf, multiProveR fixA sha params rnd secrets = some (.ok (pf, rnd.gammas)) := by
  have hm : secrets.length ≠ 0 := by simpa using hm
  have hpos : 0 < 2 ^ k := Nat.two_pow_pos k
  have hNpos : ¬ ((params.N : Int) ≤ 0) := by omega
  have hmul : secrets.length * (params.N / secrets.length) = params.N := Nat.mul_div_cancel' hdv
  unfold multiProveR
  dsimp only
  rw [if_neg hm]
  obtain ⟨aL, haL⟩ : ∃ l, concatPad params.N (secrets.map fun s => decompose s 2 (params.N / secrets.length)) = l := ⟨_, rfl⟩
  obtain ⟨aR, haR⟩ : ∃ l, concatPad params.N ((secrets.map fun s => decompose s 2 (params.N / secrets.length)).map computeAR) = l :=
    ⟨_, rfl⟩
  have lL : aL.length = 2 ^ k := by
    rw [← haL, concatPad_full _ _ (by rw [digits_length, hmul]), digits_length, hmul, hN]
  have lR : aR.length = 2 ^ k := by
    have : (((secrets.map fun s => decompose s 2 (params.N / secrets.length)).map computeAR).flatten).length = params.N := by
      rw [digits_AR, List.length_map, digits_length, hmul]
    rw [← haR, concatPad_full _ _ this, this, hN]
  rw [haL, haR]
  obtain ⟨A, eA⟩ : ∃ A, commitVector params.GP (if fixA then aL else aR) aR rnd.alpha params.H params.Gg params.Hh params.N = some A :=
    commitVectorGo_isSome (GP := params.GP) params.N _ aR params.Gg params.Hh
      (params.GP.mul params.H rnd.alpha) (by cases fixA <;> simp <;> omega) (by omega) (by omega) (by omega)
  obtain ⟨S, eS⟩ : ∃ S, commitVector params.GP rnd.sL rnd.sR rnd.rho params.H params.Gg params.Hh params.N = some S :=
    commitVectorGo_isSome (GP := params.GP) params.N rnd.sL rnd.sR params.Gg params.Hh
      (params.GP.mul params.H rnd.rho) (by omega) (by omega) (by omega) (by omega)
  steps eA
  steps eS
  obtain ⟨y, hy⟩ : ∃ y, roundChallenge sha params.GP A S = y := ⟨_, rfl⟩
  simp only [hashBP_fst, hashBP_snd, hy]
  obtain ⟨z2v, ez, lz⟩ := zPowersTimesTwo_isSome y params.GP.N hmul
  rw [hN] at lz
  steps ez
  have c1 : vectorConvertToBig aL params.N = some aL := by
    unfold vectorConvertToBig sliceTo; rw [if_pos (by omega), List.take_of_length_le (by omega)]
  have c2 : vectorConvertToBig aR params.N = some aR := by
    unfold vectorConvertToBig sliceTo; rw [if_pos (by omega), List.take_of_length_le (by omega)]
  steps c1
  steps c2
  obtain ⟨l0, hl0⟩ : ∃ l, vectorAddConst aL (-y) params.GP.N = l := ⟨_, rfl⟩
  have ll0 : l0.length = 2 ^ k := hl0 ▸ vectorAddConst_len lL
  obtain ⟨aRzn, haRzn⟩ : ∃ l, vectorAdd (vectorCopy y params.N) aR params.GP.N = l := ⟨_, rfl⟩
  have laRzn : aRzn.length = 2 ^ k := haRzn ▸ vectorAdd_len (by simp [vectorCopy, hN]) lR
  obtain ⟨yP, hyP⟩ : ∃ l, powerOf y params.N params.GP.N = l := ⟨_, rfl⟩
  have lyP : yP.length = 2 ^ k := by rw [← hyP, powerOf_length, hN]
  simp only [hl0, haRzn, hyP]
  obtain ⟨r0, hr0⟩ : ∃ l, vectorAdd (vectorMul yP aRzn params.GP.N) z2v params.GP.N = l := ⟨_, rfl⟩
  have lr0 : r0.length = 2 ^ k := hr0 ▸ vectorAdd_len (vectorMul_len lyP laRzn) lz
  obtain ⟨r1, hr1⟩ : ∃ l, vectorMul yP rnd.sR params.GP.N = l := ⟨_, rfl⟩
  have lr1 : r1.length = 2 ^ k := hr1 ▸ vectorMul_len lyP lsR
  simp only [hr0, hr1]
  obtain ⟨t1l, et1l⟩ := vectorInnerProduct_isSome rnd.sL r0 params.GP.N (lsL.trans lr0.symm).le
  obtain ⟨t1r, et1r⟩ := vectorInnerProduct_isSome l0 r1 params.GP.N (ll0.trans lr1.symm).le
  obtain ⟨t2, et2⟩ := vectorInnerProduct_isSome rnd.sL r1 params.GP.N (lsL.trans lr1.symm).le
  steps et1l
  steps et1r
  steps et2
  obtain ⟨T1, hT1⟩ : ∃ e, pedersenCommit params.GP ((t1l + t1r) % params.GP.N) rnd.tau1 params.H = e := ⟨_, rfl⟩
  obtain ⟨T2, hT2⟩ : ∃ e, pedersenCommit params.GP t2 rnd.tau2 params.H = e := ⟨_, rfl⟩
  obtain ⟨x, hx⟩ : ∃ e, roundChallenge sha params.GP T1 T2 = e := ⟨_, rfl⟩
  simp only [hT1, hT2, hx]
  obtain ⟨bl, hbl⟩ : ∃ l, vectorAdd l0 (vectorScalarMul rnd.sL x params.GP.N) params.GP.N = l := ⟨_, rfl⟩
  have lbl : bl.length = 2 ^ k := hbl ▸ vectorAdd_len ll0 (vectorScalarMul_len lsL)
  obtain ⟨br, hbr⟩ : ∃ l, vectorAdd (vectorMul yP (vectorAdd aRzn (vectorScalarMul rnd.sR x params.GP.N) params.GP.N)
    params.GP.N) z2v params.GP.N = l := ⟨_, rfl⟩
  have lbr : br.length = 2 ^ k :=
    hbr ▸ vectorAdd_len (vectorMul_len lyP (vectorAdd_len laRzn (vectorScalarMul_len lsR))) lz
  simp only [hbl, hbr]
  obtain ⟨th, eth⟩ : ∃ t, scalarProduct bl br params.GP.N = some t :=
    ⟨scalarProductGo params.GP.N bl br 0, by unfold scalarProduct; rw [if_neg (not_not.mpr (lbl.trans lbr.symm))]⟩
  steps eth
  obtain ⟨hp, ehp⟩ := updateGenerators_isSome (GP := params.GP) (Hh := params.Hh) (y := y) (n := params.N) (hN ▸ hpos)
    (hN.trans lenH.symm).le (fun _ => hy ▸ hgood A S)
  have lhp : hp.length = 2 ^ k := (updateGenerators_len ehp).trans hN
  steps ehp
  have eipp : setupInnerProduct params.GP (some params.Gg) (some hp) params.N =
      some (.ok { Gg := params.Gg, Hh := hp, Uu := Uu, GP := params.GP }) := by
    unfold setupInnerProduct
    rw [if_neg hNpos]
    simp [eU]
  steps eipp
  obtain ⟨gcm, hgcm⟩ := Lawful.vectorExp_isSome (GP := params.GP) (gs := params.Gg) (as := bl) (lenG.trans lbl.symm)
  obtain ⟨hcm, hhcm⟩ := Lawful.vectorExp_isSome (GP := params.GP) (gs := hp) (as := br) (lhp.trans lbr.symm)
  obtain ⟨cm, ecm⟩ : ∃ c, commitInnerProduct params.GP params.Gg hp bl br = some c :=
    ⟨params.GP.add gcm hcm, by unfold commitInnerProduct; simp [hgcm, hhcm]⟩
  steps ecm
  obtain ⟨u, hu⟩ : ∃ c, ippChallenge sha params.GP params.Gg hp cm th = c := ⟨_, rfl⟩
  obtain ⟨pa, pb, Ls, Rs, h1, _, _, _⟩ := bip_agree (GP := params.GP) sha sha hgood k bl br params.Gg hp
    (params.GP.mul Uu u) (params.GP.add cm (params.GP.mul (params.GP.mul Uu u) th)) [] [] lbl lbr lenG lhp
  have pip : ∃ pr, proveInnerProduct sha bl br cm th { Gg := params.Gg, Hh := hp, Uu := Uu, GP := params.GP } = some (.ok pr) := by
    unfold proveInnerProduct
    rw [if_neg (not_not.mpr (lbl.trans lbr.symm))]
    have e1 : hashIP sha params.GP params.Gg hp cm th = some u := by
      rw [hashIP_eq, if_pos (lenG.trans lhp.symm).le, ← hu]
    rw [← lbl] at h1
    steps e1
    steps h1
    exact ⟨_, rfl⟩
  obtain ⟨pr, pip⟩ := pip
  steps pip
  exact ⟨_, rfl⟩

variable {q : ℕ} {M : Type} [AddCommGroup M] [Module (ZMod q) M]

/-- **C95** The three conditions on the edited prover's own proof under the edited verifier, for every setting of the two switches and
every list of secrets. -/
theorem C95_checks (fixA fixB : Bool) (params : BPParams E) (L : Lawful params.GP q M) (k : ℕ) (hO : ParamsOK params L k)
    (sha : Bytes → Bytes) (rnd : MultiRand) (secrets : List Int) (pf : MultiBulletProof E) (gs : List Int)
    (lg : rnd.gammas.length = secrets.length) (lsL : rnd.sL.length = 2 ^ k) (lsR : rnd.sR.length = 2 ^ k)
    (h : multiProveR fixA sha params rnd secrets = some (.ok (pf, gs)))
    (y : ZMod q) (hy : y = (roundChallenge sha params.GP pf.A pf.S : Int)) (bits : ℕ) (hbits : bits = params.N / secrets.length) :
    secrets.length * bits = params.N ∧
    ∃ (yinv : ZMod q) (c : MultiChecks), (2 ≤ params.N → y * yinv = 1) ∧ pf.checksR fixB sha = some c ∧
      pf.verifyR fixB sha = some (c.c65 && c.c67) ∧ c.c68 = true ∧
      (c.c65 = true ↔
        (∑ j : Fin secrets.length, ((secrets[j] - secrets[j] % 2 ^ bits : Int) : ZMod q) * y ^ (j + 2 : ℕ)) • L.g = 0) ∧
      (c.c67 = true ↔
        (if fixA then 0 else (params.Gg.map L.den).sum) =
          if fixB then 0 else ∑ j ∈ Finset.range secrets.length, ∑ i ∈ Finset.range bits,
            (2 ^ i + y ^ (j + 2) - 2 ^ i * y ^ (j + 2)) • yinv ^ (j * bits + i) •
              (params.Hh.map L.den).getD (j * bits + i) 0) := by
  obtain ⟨_, _, _, ⟨yinv, hyi⟩, hall⟩ := multiProveR_exact fixA fixB params L k hO sha rnd secrets pf gs lg lsL lsR h
  obtain ⟨hm, hd⟩ := multiProveR_divides fixA params sha rnd secrets _ ⟨q, L.N_eq⟩ h
  rw [← hy] at hyi
  obtain ⟨c, hc, h65, h67, h68⟩ := hall y yinv hy hyi
  rw [← hbits] at hd h65 h67
  refine ⟨hd, yinv, c, hyi, hc, ?_, h68, h65.trans ?_, h67.trans ?_⟩
  · unfold MultiBulletProof.verifyR
    runs hc
    rw [h68, Bool.and_true]
  · have := dot_fin (castV q (secrets.map (fun v => v - v % 2 ^ bits))) (fun j => y ^ (j + 2)) 0
    have hl : (castV q (secrets.map (fun v => v - v % 2 ^ bits))).length = secrets.length := by simp
    have e : (∑ i : Fin (castV q (secrets.map (fun v => v - v % 2 ^ bits))).length,
        (castV q (secrets.map (fun v => v - v % 2 ^ bits)))[i] * y ^ (0 + (i : ℕ) + 2)) =
        ∑ j : Fin secrets.length, ((secrets[j] - secrets[j] % 2 ^ bits : Int) : ZMod q) * y ^ (j + 2 : ℕ) := by
      apply Fintype.sum_equiv (finCongr hl)
      intro i
      simp
    rw [← e, ← this, hl]
    rfl
  · cases fixB
    · have hlen : (List.zipWith (fun c m => c • m) (pows yinv params.N) (L.denV params.Hh)).length =
          secrets.length * bits := by simp [pows_length, hO.lenH, hO.N, hd]
      simp only [blocksR, Bool.false_eq_true, if_false]
      rw [blocksMul_eq, blocksAdd_eq, msm_blocks _ _ _ _ _ hlen.ge, msm_blocks _ _ _ _ _ hlen.ge]
      have hH : (L.denV params.Hh).length = params.N := by simp [hO.lenH, hO.N]
      simp only [getD_scaled yinv params.N _ hH, Nat.zero_add, sub_smul, add_smul, Finset.sum_sub_distrib]
      rw [eq_sub_iff_add_eq]
      rfl
    · simp only [blocksR, if_true]
      rw [add_eq_right]
      rfl

theorem in_range_sum (secrets : List Int) (bits : ℕ) (y : ZMod q) (hr : ∀ v ∈ secrets, 0 ≤ v ∧ v < 2 ^ bits) :
    (∑ j : Fin secrets.length, ((secrets[j] - secrets[j] % 2 ^ bits : Int) : ZMod q) * y ^ (j + 2 : ℕ)) = 0 := by
  apply Finset.sum_eq_zero
  intro j _
  have := hr secrets[j] (List.getElem_mem _)
  rw [Int.emod_eq_of_lt this.1 this.2]
  simp

/-- **C95** With both edits the verdict on an honest proof depends on the secrets only: it is accepted exactly if the out-of-range parts
of the secrets cancel, so always if all secrets are in range. -/
theorem C95_both (params : BPParams E) (L : Lawful params.GP q M) (k : ℕ) (hO : ParamsOK params L k)
    (sha : Bytes → Bytes) (rnd : MultiRand) (secrets : List Int) (pf : MultiBulletProof E) (gs : List Int)
    (lg : rnd.gammas.length = secrets.length) (lsL : rnd.sL.length = 2 ^ k) (lsR : rnd.sR.length = 2 ^ k)
    (h : multiProveR true sha params rnd secrets = some (.ok (pf, gs)))
    (y : ZMod q) (hy : y = (roundChallenge sha params.GP pf.A pf.S : Int)) (bits : ℕ) (hbits : bits = params.N / secrets.length) :
    (∃ b, pf.verifyR true sha = some b ∧ (b = true ↔
      (∑ j : Fin secrets.length, ((secrets[j] - secrets[j] % 2 ^ bits : Int) : ZMod q) * y ^ (j + 2 : ℕ)) • L.g = 0)) ∧
    ((∀ v ∈ secrets, 0 ≤ v ∧ v < 2 ^ bits) → pf.verifyR true sha = some true) := by
  obtain ⟨_, _, c, _, _, hv, _, h65, h67⟩ := C95_checks true true params L k hO sha rnd secrets pf gs lg lsL lsR h y hy bits hbits
  have e : c.c67 = true := h67.mpr rfl
  rw [e, Bool.and_true] at hv
  refine ⟨⟨_, hv, h65⟩, fun hr => ?_⟩
  rw [hv, h65.mpr (by rw [in_range_sum secrets bits y hr, zero_smul])]

/-- **C95** One edit alone: with the prover's line changed an honest proof of values in range is accepted exactly if the generators `h`
satisfy a linear relation, and with the verifier's line changed exactly if the generators `g` add up to the neutral element. -/
theorem C95_one (params : BPParams E) (L : Lawful params.GP q M) (k : ℕ) (hO : ParamsOK params L k)
    (sha : Bytes → Bytes) (rnd : MultiRand) (secrets : List Int) (pf : MultiBulletProof E) (gs : List Int)
    (lg : rnd.gammas.length = secrets.length) (lsL : rnd.sL.length = 2 ^ k) (lsR : rnd.sR.length = 2 ^ k)
    (bits : ℕ) (hbits : bits = params.N / secrets.length) (hr : ∀ v ∈ secrets, 0 ≤ v ∧ v < 2 ^ bits) :
    (multiProveR true sha params rnd secrets = some (.ok (pf, gs)) →
      ∀ y : ZMod q, y = (roundChallenge sha params.GP pf.A pf.S : Int) →
      ∃ yinv : ZMod q, (2 ≤ params.N → y * yinv = 1) ∧
      (pf.verify sha = some true ↔ ∑ j ∈ Finset.range secrets.length, ∑ i ∈ Finset.range bits,
        (2 ^ i + y ^ (j + 2) - 2 ^ i * y ^ (j + 2)) • yinv ^ (j * bits + i) • (params.Hh.map L.den).getD (j * bits + i) 0 = 0)) ∧
    (multiProve sha params rnd secrets = some (.ok (pf, gs)) →
      (pf.verifyR true sha = some true ↔ (params.Gg.map L.den).sum = 0)) := by
  constructor
  · intro h y hy
    obtain ⟨_, yinv, c, hyi, _, hv, _, h65, h67⟩ :=
      C95_checks true false params L k hO sha rnd secrets pf gs lg lsL lsR h y hy bits hbits
    have e := h65.mpr (by rw [in_range_sum secrets bits y hr, zero_smul])
    refine ⟨yinv, hyi, ?_⟩
    rw [← (C95_same sha params rnd secrets pf).2.2, hv, e, Bool.true_and, Option.some.injEq, h67]
    exact eq_comm
  · intro h
    rw [← (C95_same sha params rnd secrets pf).1] at h
    obtain ⟨_, yinv, c, hyi, _, hv, _, h65, h67⟩ :=
      C95_checks false true params L k hO sha rnd secrets pf gs lg lsL lsR h _ rfl bits hbits
    have e := h65.mpr (by rw [in_range_sum secrets bits _ hr, zero_smul])
    rw [hv, e, Bool.true_and, Option.some.injEq, h67]
    rfl

/-- **C95** Completeness after both edits: under a digest function with invertible values every list of values in range, of a length that
divides the number of bits, has a proof, and it is accepted. -/
theorem C95_complete (params : BPParams E) (L : Lawful params.GP q M) (k : ℕ) (hO : ParamsOK params L k)
    (Uu : E) (eU : params.GP.mapToGroup SEEDU = some Uu)
    (sha : Bytes → Bytes) (hgood : ∀ l r : E, Int.gcd (roundChallenge sha params.GP l r) params.GP.N = 1)
    (rnd : MultiRand) (secrets : List Int) (lg : rnd.gammas.length = secrets.length) (lsL : rnd.sL.length = 2 ^ k)
    (lsR : rnd.sR.length = 2 ^ k) (hm : secrets ≠ []) (hdv : secrets.length ∣ params.N)
    (hr : ∀ v ∈ secrets, 0 ≤ v ∧ v < 2 ^ (params.N / secrets.length)) :
    ∃ pf, multiProveR true sha params rnd secrets = some (.ok (pf, rnd.gammas)) ∧ pf.verifyR true sha = some true := by
  obtain ⟨pf, hpf⟩ := multiProveR_returns true params k hO.N hO.lenG hO.lenH Uu eU sha hgood rnd secrets lsL lsR hm hdv
  exact ⟨pf, hpf, (C95_both params L k hO sha rnd secrets pf _ lg lsL lsR hpf _ rfl _ rfl).2 hr⟩

open R255 in
/-- **C95** `TestXYWithinRange` (multibp_test.go:9-26, values 3 and 15 on Ristretto255) with both edits: whenever the prover returns, the
proof is accepted; it returns if no digest is a multiple of the group order. -/
theorem C95_test (sha : Bytes → Bytes) (nan64 : BitVec 64) (L : R255Lib) (hash : ∀ s, SetupSeed 32 s → (L.hash s).Even) :
    ∃ p, bpSetup nan64 (2 ^ 32) (r255Grp L) = some (.ok p) ∧ ∀ rnd : MultiRand,
      rnd.gammas.length = 2 → rnd.sL.length = 32 → rnd.sR.length = 32 →
      (∀ pf gs, multiProveR true sha p rnd [3, 15] = some (.ok (pf, gs)) → pf.verifyR true sha = some true) ∧
      (DigestsOK sha r255N → ∃ pf gs, multiProveR true sha p rnd [3, 15] = some (.ok (pf, gs))) := by
  let := r255Module
  have hmap : ∀ s, SetupSeed 32 s → ∃ e, (r255Grp L).mapToGroup s = some e ∧ (r255Lawful L).V e :=
    fun s hs => ⟨_, rfl, (even_iff _).mp (hash s hs)⟩
  obtain ⟨p, L', hp, hO, hGP, _, _, _, _⟩ := bpSetup_legal (r255Grp L) (r255Lawful L) hmap nan64
  have hN : p.N = 32 := hO.1
  refine ⟨p, hp, fun rnd l0 l1 l2 => ⟨fun pf gs h => ?_, fun hd => ?_⟩⟩
  · exact (C95_both p L' 5 hO sha rnd [3, 15] pf gs l0 l1 l2 h _ rfl 16 (by rw [hN]; rfl)).2 (by simp)
  · obtain ⟨Uu, eU, _⟩ := hmap SEEDU (Or.inr (Or.inl rfl))
    rw [← hGP] at eU
    obtain ⟨pf, hpf⟩ := multiProveR_returns true p 5 hO.N hO.lenG hO.lenH Uu eU sha
      (fun l r => by rw [hGP]; exact hd _) rnd [3, 15] l1 l2 (by simp) (by rw [hN]; decide)
    exact ⟨pf, _, hpf⟩

/-- **C95** No edit stops the shift attack of C56: adding `d·G` to the `j`-th commitment and `z^(j+2)·d` to `Tprime` changes none of
the three conditions. -/
theorem C95_shift (fixB : Bool) (pf : MultiBulletProof E) (L : Lawful pf.Params.GP q M) (hV : ∀ v ∈ pf.Vs, L.V v) (vT1 : L.V pf.T1)
    (vT2 : L.V pf.T2) (vH : L.V pf.Params.H) (sha : Bytes → Bytes) (j : ℕ) (hj : j < pf.Vs.length) (d : Int) :
    MultiBulletProof.checksR fixB sha { pf with
      Vs := pf.Vs.set j (pf.Params.GP.add pf.Vs[j] (pf.Params.GP.mulGen d))
      Tprime := pf.Tprime.map (· + (hashBP sha pf.Params.GP pf.A pf.S).2 ^ (j + 2) * d) } = pf.checksR fixB sha := by
  unfold MultiBulletProof.checksR
  simp only [List.length_set]
  split
  · rfl
  rename_i hm
  simp only [hashBP_fst, hashBP_snd]
  cases h1 : updateGenerators pf.Params.GP pf.Params.Hh (roundChallenge sha pf.Params.GP pf.A pf.S) pf.Params.N with
  | none => rfl
  | some hp =>
  cases h2 : pf.Tprime with
  | none => rfl
  | some tp =>
  cases h3 : pf.Taux with
  | none => rfl
  | some tx =>
  simp only [Option.map_some, Option.bind_eq_bind, Option.bind_some]
  obtain ⟨dlt, hd⟩ := deltaMul_isSome pf.Params.N pf.Vs.length pf.Params.GP.N (roundChallenge sha pf.Params.GP pf.A pf.S)
    (roundChallenge sha pf.Params.GP pf.A pf.S) hm
  simp only [hd, Option.bind_some]
  obtain ⟨z, hz⟩ : ∃ z, roundChallenge sha pf.Params.GP pf.A pf.S = z := ⟨_, rfl⟩
  obtain ⟨x, hx⟩ : ∃ x, roundChallenge sha pf.Params.GP pf.T1 pf.T2 = x := ⟨_, rfl⟩
  simp only [hz, hx]
  have vd := L.V_mulGen d
  have vVj : L.V pf.Vs[j] := hV _ (List.getElem_mem _)
  have hV' : ∀ v ∈ pf.Vs.set j (pf.Params.GP.add pf.Vs[j] (pf.Params.GP.mulGen d)), L.V v := by
    intro v hv
    rcases List.mem_or_eq_of_mem_set hv with h | h
    · exact hV v h
    · exact h ▸ L.V_add vVj vd
  obtain ⟨va, da⟩ := L.multiRhs_spec (z * z % pf.Params.GP.N) _ (powerOf z pf.Vs.length pf.Params.GP.N)
    pf.Params.GP.identity hV' L.V_ident
  obtain ⟨vb, db⟩ := L.multiRhs_spec (z * z % pf.Params.GP.N) _ (powerOf z pf.Vs.length pf.Params.GP.N)
    pf.Params.GP.identity hV L.V_ident
  have hcs : ((castV q (powerOf z pf.Vs.length pf.Params.GP.N)).map (· * ((z * z % pf.Params.GP.N : Int) : ZMod q))) =
      zpows (z : ZMod q) 0 pf.Vs.length := by
    have hN := L.N_eq
    rw [zpows_eq_pows, L.cast_modN, hN, powerOf_cast]
    push_cast; rfl
  rw [hcs] at da db
  have hset : L.denV (pf.Vs.set j (pf.Params.GP.add pf.Vs[j] (pf.Params.GP.mulGen d))) =
      (L.denV pf.Vs).set j ((L.denV pf.Vs).getD j 0 + (d : ZMod q) • L.g) := by
    unfold Lawful.denV
    rw [List.map_set, L.den_add vVj vd, L.den_mulGen]
    congr 2
    rw [List.getD_eq_getElem?_getD, List.getElem?_eq_getElem (by simpa using hj)]
    simp
  have hcj : (zpows (z : ZMod q) 0 pf.Vs.length).getD j 0 = (z : ZMod q) ^ (j + 2) := by
    rw [List.getD_eq_getElem?_getD, List.getElem?_eq_getElem (by simpa using hj)]
    simp [zpows]
  rw [hset, msm_set _ _ _ _ (by simpa using hj), hcj] at da
  obtain ⟨ra, hra⟩ : ∃ r, (List.zip (pf.Vs.set j (pf.Params.GP.add pf.Vs[j] (pf.Params.GP.mulGen d)))
      (powerOf z pf.Vs.length pf.Params.GP.N)).foldl
      (fun rhs (vp : E × Int) => pf.Params.GP.add rhs (pf.Params.GP.mul vp.1 (z * z % pf.Params.GP.N * vp.2)))
      pf.Params.GP.identity = r := ⟨_, rfl⟩
  obtain ⟨rb, hrb⟩ : ∃ r, (List.zip pf.Vs (powerOf z pf.Vs.length pf.Params.GP.N)).foldl
      (fun rhs (vp : E × Int) => pf.Params.GP.add rhs (pf.Params.GP.mul vp.1 (z * z % pf.Params.GP.N * vp.2)))
      pf.Params.GP.identity = r := ⟨_, rfl⟩
  rw [hra] at va da ⊢
  rw [hrb] at vb db ⊢
  have key : pf.Params.GP.isEqual (pf.Params.GP.add (pf.Params.GP.add (pf.Params.GP.add ra
      (pf.Params.GP.mulGen dlt)) (pf.Params.GP.mul pf.T1 x)) (pf.Params.GP.mul pf.T2 (x * x % pf.Params.GP.N)))
      (pedersenCommit pf.Params.GP (tp + z ^ (j + 2) * d) tx pf.Params.H) =
     pf.Params.GP.isEqual (pf.Params.GP.add (pf.Params.GP.add (pf.Params.GP.add rb
      (pf.Params.GP.mulGen dlt)) (pf.Params.GP.mul pf.T1 x)) (pf.Params.GP.mul pf.T2 (x * x % pf.Params.GP.N)))
      (pedersenCommit pf.Params.GP tp tx pf.Params.H) := by
    have c1 := L.V_mulGen dlt
    have c2 := L.V_mul x vT1
    have c3 := L.V_mul (x * x % pf.Params.GP.N) vT2
    have a2 := L.V_add va c1
    have a3 := L.V_add a2 c2
    have a4 := L.V_add a3 c3
    have b2 := L.V_add vb c1
    have b3 := L.V_add b2 c2
    have b4 := L.V_add b3 c3
    rw [Bool.eq_iff_iff, L.isEqual_iff a4 (L.V_pedersen vH _ _), L.isEqual_iff b4 (L.V_pedersen vH _ _),
      L.den_pedersen vH, L.den_pedersen vH, L.den_add a3 c3, L.den_add a2 c2, L.den_add va c1,
      L.den_add b3 c3, L.den_add b2 c2, L.den_add vb c1, da, db]
    push_cast
    constructor
    · intro h; linear_combination (norm := module) h
    · intro h; linear_combination (norm := module) h
  rw [key]

/-- C95: two two-bit values over `Z/101`: the program, either edit, both edits; then both edits with a value out of range, and the proof of
both edits shifted to the values 2 and 1003. -/
example : ((([(false, false, [2, 3]), (true, false, [2, 3]), (false, true, [2, 3]), (true, true, [2, 3]), (true, true, [2, 7])] :
      List (Bool × Bool × List Int)).map
    fun p => match multiProveR p.1 exSha2 exBP exMRnd p.2.2 with
      | some (.ok (pf, _)) => (pf.checksR p.2.1 exSha2, pf.verifyR p.2.1 exSha2)
      | _ => (none, none)),
    match multiProveR true exSha2 exBP exMRnd [2, 3] with
      | some (.ok (pf, _)) => MultiBulletProof.verifyR true exSha2 { pf with
          Vs := [pedersenCommit exBP.GP 2 17 exBP.H, pedersenCommit exBP.GP 1003 4 exBP.H]
          Tprime := pf.Tprime.map (· + (hashBP exSha2 exBP.GP pf.A pf.S).2 ^ 3 * 1000) }
      | _ => none) =
    ([(some ⟨true, false, true⟩, some false), (some ⟨true, false, true⟩, some false), (some ⟨true, false, true⟩, some false),
      (some ⟨true, true, true⟩, some true), (some ⟨false, true, true⟩, some false)], some true) := by decide +kernel

end MscPoc
