import Verif.Spec.MultiRobust
import Verif.Props.Robust
import Verif.Props.MultiBp
import Verif.Props.MultiVerify

/-!
# C92 — aggregated proofs: which ones crash `Verify`, what it prints, and when `MultiProve` returns
-/

set_option autoImplicit false

namespace MscPoc

variable {E : Type}

theorem before65_iff (sha : Bytes → Bytes) (pf : MultiBulletProof E) :
    (∃ r, pf.before65 sha = some r) ↔ pf.Reaches65 sha := by
  unfold MultiBulletProof.before65
  dsimp only
  constructor
  · rintro ⟨r, h⟩
    split at h
    · cases h
    rename_i hm
    unbind h with hp e1
    unbind h with tp e2
    unbind h with tx e3
    obtain ⟨a, b, c⟩ := updateGenerators_iff.mp ⟨hp, e1⟩
    exact ⟨fun h => hm (by simp [h]), ⟨by simp [e2], by simp [e3]⟩, ⟨a, b⟩, c⟩
  · rintro ⟨h1, ⟨h2, h3⟩, ⟨h4, h5⟩, h6⟩
    have hm : pf.Vs.length ≠ 0 := by simpa using h1
    rw [if_neg hm]
    obtain ⟨tp, h2⟩ := Option.ne_none_iff_exists'.mp h2
    obtain ⟨tx, h3⟩ := Option.ne_none_iff_exists'.mp h3
    obtain ⟨hp, e1⟩ := updateGenerators_iff.mpr ⟨h4, h5, h6⟩
    have e1 : updateGenerators pf.Params.GP pf.Params.Hh (hashBP sha pf.Params.GP pf.A pf.S).1 pf.Params.N = some hp := e1
    obtain ⟨dl, e4⟩ := deltaMul_isSome pf.Params.N pf.Vs.length pf.Params.GP.N (hashBP sha pf.Params.GP pf.A pf.S).1
      (hashBP sha pf.Params.GP pf.A pf.S).2 hm
    simp only [e1, h2, h3, e4, Option.bind_eq_bind, Option.bind_some]
    exact ⟨_, rfl⟩

theorem before65_len {sha : Bytes → Bytes} {pf : MultiBulletProof E} {c : Bool} {hp : List E}
    (h : pf.before65 sha = some (c, hp)) : hp.length = pf.Params.N ∧ pf.Vs.length ≠ 0 := by
  unfold MultiBulletProof.before65 at h
  dsimp only at h
  split at h
  · cases h
  rename_i hm
  unbind h with hp e1
  unbind h with tp e2
  unbind h with tx e3
  unbind h with dl e4
  simp only [Option.some.injEq, Prod.mk.injEq] at h
  exact ⟨h.2 ▸ updateGenerators_len e1, hm⟩

theorem multiSlides_isSome (GP : Grp E) (hp : List E) (z : Int) (bits : ℕ) (q : Int) :
    ∀ (js : List ℕ) (acc : E), (∀ j ∈ js, (j + 1) * bits ≤ hp.length) →
      ∃ r, multiSlides GP hp (powerOf 2 bits q) z bits js acc = some r
  | [], acc, _ => ⟨acc, rfl⟩
  | j :: js, acc, h => by
    have h0 := h j (by simp)
    have hj : j * bits ≤ (j + 1) * bits := Nat.mul_le_mul_right _ (by omega)
    have e1 : sliceTo hp ((j + 1) * bits) = some (hp.take ((j + 1) * bits)) := if_pos h0
    have e2 : sliceFrom (hp.take ((j + 1) * bits)) (j * bits) = some ((hp.take ((j + 1) * bits)).drop (j * bits)) :=
      if_pos (by rw [List.length_take, min_eq_left h0]; exact hj)
    have e3 : ∀ c, ∃ r, vectorExp GP ((hp.take ((j + 1) * bits)).drop (j * bits))
        (vectorAddConst (powerOf 2 bits q) c GP.N) = some r := fun c =>
      ⟨_, if_neg (by
        rw [List.length_drop, List.length_take, min_eq_left h0, vectorAddConst_len (powerOf_length _ _ _), Nat.succ_mul,
          Nat.add_sub_cancel_left]
        simp)⟩
    obtain ⟨r, e3⟩ := e3 (z ^ (2 + j) % GP.N)
    obtain ⟨r', hr⟩ := multiSlides_isSome GP hp z bits q js (GP.add acc r) fun k hk => h k (by simp [hk])
    refine ⟨r', ?_⟩
    unfold multiSlides
    simp only [e1, e2, e3, Option.bind_eq_bind, Option.bind_some]
    exact hr

theorem before67_iff (sha : Bytes → Bytes) (pf : MultiBulletProof E) (hp : List E) (hl : hp.length = pf.Params.N) :
    (∃ r, pf.before67 sha hp = some r) ↔ pf.Reaches67 := by
  unfold MultiBulletProof.before67
  dsimp only
  constructor
  · rintro ⟨r, h⟩
    unbind h with gm e1
    unbind h with he e2
    unbind h with pr e3
    unbind h with mu e4
    refine ⟨?_, by simp [e4]⟩
    unfold vectorExp at e1
    split at e1
    · cases e1
    · rename_i hl
      simpa [vectorCopy] using hl
  · rintro ⟨h1, h2⟩
    obtain ⟨mu, h2⟩ := Option.ne_none_iff_exists'.mp h2
    obtain ⟨g, e1⟩ : ∃ r, vectorExp pf.Params.GP pf.Params.Gg (vectorCopy (pf.Params.GP.N - (hashBP sha pf.Params.GP pf.A pf.S).2)
        pf.Params.N) = some r := ⟨_, if_neg (by simp [vectorCopy, h1])⟩
    obtain ⟨he, e2⟩ : ∃ r, vectorExp pf.Params.GP hp (vectorMul (powerOf (hashBP sha pf.Params.GP pf.A pf.S).1 pf.Params.N
        pf.Params.GP.N) (vectorCopy (hashBP sha pf.Params.GP pf.A pf.S).2 pf.Params.N) pf.Params.GP.N) = some r :=
      ⟨_, if_neg (by rw [vectorMul_len (powerOf_length _ _ _) (by simp [vectorCopy]), hl]; simp)⟩
    obtain ⟨pr, e3⟩ := multiSlides_isSome pf.Params.GP hp (hashBP sha pf.Params.GP pf.A pf.S).2 (pf.Params.N / pf.Vs.length)
      pf.Params.GP.N (List.range pf.Vs.length) pf.Params.GP.identity fun j hj => by
        rw [hl]
        refine (Nat.mul_le_mul_right _ (Nat.succ_le_of_lt (List.mem_range.mp hj))).trans ?_
        exact Nat.mul_div_le _ _
    simp only [e1, e2, e3, h2, Option.bind_eq_bind, Option.bind_some]
    exact ⟨_, rfl⟩

/-- C92: the printing verifier returns what `Verify` returns, and the three lines show the three checks. -/
theorem C92_output (sha : Bytes → Bytes) (pf : MultiBulletProof E) :
    (pf.verifyOut sha).result = pf.verify sha ∧
    ∀ c, pf.checks sha = some c ↔ pf.verifyOut sha =
      ⟨[checkLine "65" c.c65, checkLine "67" c.c67, checkLine "68" c.c68], some (c.c65 && c.c67 && c.c68)⟩ := by
  have key : pf.checks sha = (pf.before65 sha).bind fun r => (pf.before67 sha r.2).bind fun c67 =>
      (pf.InnerProductProof.verify sha).bind fun ok => some ⟨r.1, c67, ok⟩ := by
    unfold MultiBulletProof.checks MultiBulletProof.before65 MultiBulletProof.before67
    dsimp only
    split
    · rfl
    simp only [Option.bind_eq_bind, Option.bind_assoc, Option.bind_some]
  have inj : ∀ n b b', checkLine n b = checkLine n b' → b = b' := by
    intro n b b' h
    unfold checkLine at h
    have h := congrArg String.toList h
    cases b <;> cases b' <;> simp at h ⊢
  rw [MultiBulletProof.verify, key]
  unfold MultiBulletProof.verifyOut
  cases h1 : pf.before65 sha with
  | none => simp
  | some r =>
    obtain ⟨c65, hp⟩ := r
    dsimp only [Option.bind_some]
    cases h2 : pf.before67 sha hp with
    | none => simp
    | some c67 =>
      cases h3 : pf.InnerProductProof.verify sha with
      | none => simp
      | some ok =>
        simp only [Option.bind_eq_bind, Option.bind_some, Option.some.injEq, true_and]
        intro c
        constructor
        · rintro rfl
          rfl
        · intro h
          simp only [Printed.mk.injEq, List.cons.injEq, and_true] at h
          obtain ⟨⟨a, b, d⟩, -⟩ := h
          rw [inj _ _ _ a, inj _ _ _ b, inj _ _ _ d]

/-- **C92** Exactly which aggregated proofs crash `Verify`, and how many lines are printed before the crash: none, the first, or the
first two. -/
theorem C92_crash (sha : Bytes → Bytes) (pf : MultiBulletProof E) :
    ((pf.verify sha = none ∧ (pf.verifyOut sha).lines.length = 0) ↔ ¬ pf.Reaches65 sha) ∧
    ((pf.verify sha = none ∧ (pf.verifyOut sha).lines.length = 1) ↔ pf.Reaches65 sha ∧ ¬ pf.Reaches67) ∧
    ((pf.verify sha = none ∧ (pf.verifyOut sha).lines.length = 2) ↔
      pf.Reaches65 sha ∧ pf.Reaches67 ∧ ¬ pf.InnerProductProof.Processable sha) ∧
    ((∃ v, pf.verify sha = some v) ↔ pf.Reaches65 sha ∧ pf.Reaches67 ∧ pf.InnerProductProof.Processable sha) := by
  rw [← (C92_output sha pf).1, ← ip_processable_iff, ← before65_iff]
  unfold MultiBulletProof.verifyOut
  cases h1 : pf.before65 sha with
  | none => simp
  | some r =>
    obtain ⟨c65, hp⟩ := r
    rw [← before67_iff sha pf hp (before65_len h1).1]
    dsimp only
    cases h2 : pf.before67 sha hp with
    | none => simp
    | some c67 =>
      cases h3 : pf.InnerProductProof.verify sha with
      | none => simp
      | some ok => simp

theorem exists_step {α β γ : Type} {X : Option α} {v : α} (e : X = some v) {f : α → Option β} {g : γ → β}
    (h : ∃ r, f v = some (g r)) : ∃ r, (X >>= f) = some (g r) := by
  subst e; exact h

/-- `runs` under an existential -/
macro "steps " e:term : tactic => `(tactic| refine exists_step $e ?_)

theorem zPowersTimesTwo_isSome {N m bits : ℕ} (z q : Int) (h : m * bits = N) :
    ∃ v, zPowersTimesTwo N m bits z q = some v ∧ v.length = N := by
  have hl : (((List.range m).map fun j => (powerOf 2 bits q).map fun p => p * (z ^ (2 + j) % q) % q).flatten).length = N := by
    rw [List.length_flatten, List.map_map]
    have : (List.length ∘ fun j => (powerOf 2 bits q).map fun p => p * (z ^ (2 + j) % q) % q) = fun _ => bits := by
      funext j
      simp [powerOf_length]
    rw [this, List.map_const', List.sum_replicate, List.length_range, smul_eq_mul, h]
  exact ⟨_, if_pos hl, hl⟩

/-- **C92** `MultiProve` under a digest function whose values are invertible, with generators for `N = 2^k` bits: it returns a proof
exactly if the number of secrets is positive and divides `N`, and panics otherwise; the secrets themselves do not matter. -/
theorem C92_prove (params : BPParams E) (n : ℕ) (hn : params.GP.N = n) (k : ℕ) (hN : params.N = 2 ^ k)
    (lenG : params.Gg.length = 2 ^ k) (lenH : params.Hh.length = 2 ^ k) (Uu : E) (eU : params.GP.mapToGroup SEEDU = some Uu)
    (sha : Bytes → Bytes) (hgood : ∀ l r : E, Int.gcd (roundChallenge sha params.GP l r) params.GP.N = 1) (rnd : MultiRand)
    (secrets : List Int) (lsL : rnd.sL.length = 2 ^ k) (lsR : rnd.sR.length = 2 ^ k) :
    ((∃ pf, multiProve sha params rnd secrets = some (.ok (pf, rnd.gammas))) ↔ secrets ≠ [] ∧ secrets.length ∣ params.N) ∧
    (multiProve sha params rnd secrets = none ↔ secrets = [] ∨ ¬ secrets.length ∣ params.N) := by
  have key : secrets ≠ [] → secrets.length ∣ params.N → ∃ pf, multiProve sha params rnd secrets = some (.ok (pf, rnd.gammas)) := by
    intro hm hdv
    have hm : secrets.length ≠ 0 := by simpa using hm
    have hpos : 0 < 2 ^ k := Nat.two_pow_pos k
    have hNpos : ¬ ((params.N : Int) ≤ 0) := by omega
    have hmul : secrets.length * (params.N / secrets.length) = params.N := Nat.mul_div_cancel' hdv
    unfold multiProve
    dsimp only
    rw [if_neg hm]
    obtain ⟨aL, haL⟩ : ∃ l, concatPad params.N (secrets.map fun s => decompose s 2 (params.N / secrets.length)) = l := ⟨_, rfl⟩
    obtain ⟨aR, haR⟩ : ∃ l, concatPad params.N ((secrets.map fun s => decompose s 2 (params.N / secrets.length)).map computeAR) = l :=
      ⟨_, rfl⟩
    have lL : aL.length = 2 ^ k := by
      rw [← haL, concatPad_full _ _ (by rw [digits_length, hmul]), digits_length, hmul, hN]
    have lR : aR.length = 2 ^ k := by
      have : (((secrets.map fun s => decompose s 2 (params.N / secrets.length)).map computeAR).flatten).length = params.N := by
        rw [digits_AR, List.length_map, digits_length, hmul]
      rw [← haR, concatPad_full _ _ this, this, hN]
    rw [haL, haR]
    obtain ⟨A, eA⟩ : ∃ A, commitVector params.GP aR aR rnd.alpha params.H params.Gg params.Hh params.N = some A :=
      commitVectorGo_isSome (GP := params.GP) params.N aR aR params.Gg params.Hh
        (params.GP.mul params.H rnd.alpha) (by omega) (by omega) (by omega) (by omega)
    obtain ⟨S, eS⟩ : ∃ S, commitVector params.GP rnd.sL rnd.sR rnd.rho params.H params.Gg params.Hh params.N = some S :=
      commitVectorGo_isSome (GP := params.GP) params.N rnd.sL rnd.sR params.Gg params.Hh
        (params.GP.mul params.H rnd.rho) (by omega) (by omega) (by omega) (by omega)
    steps eA
    steps eS
    obtain ⟨y, hy⟩ : ∃ y, roundChallenge sha params.GP A S = y := ⟨_, rfl⟩
    simp only [hashBP_fst, hashBP_snd, hy]
    obtain ⟨z2v, ez, lz⟩ := zPowersTimesTwo_isSome y params.GP.N hmul
    rw [hN] at lz
    steps ez
    have c1 : vectorConvertToBig aL params.N = some aL := by
      unfold vectorConvertToBig sliceTo; rw [if_pos (by omega), List.take_of_length_le (by omega)]
    have c2 : vectorConvertToBig aR params.N = some aR := by
      unfold vectorConvertToBig sliceTo; rw [if_pos (by omega), List.take_of_length_le (by omega)]
    steps c1
    steps c2
    obtain ⟨l0, hl0⟩ : ∃ l, vectorAddConst aL (-y) params.GP.N = l := ⟨_, rfl⟩
    have ll0 : l0.length = 2 ^ k := hl0 ▸ vectorAddConst_len lL
    obtain ⟨aRzn, haRzn⟩ : ∃ l, vectorAdd (vectorCopy y params.N) aR params.GP.N = l := ⟨_, rfl⟩
    have laRzn : aRzn.length = 2 ^ k := haRzn ▸ vectorAdd_len (by simp [vectorCopy, hN]) lR
    obtain ⟨yP, hyP⟩ : ∃ l, powerOf y params.N params.GP.N = l := ⟨_, rfl⟩
    have lyP : yP.length = 2 ^ k := by rw [← hyP, powerOf_length, hN]
    simp only [hl0, haRzn, hyP]
    obtain ⟨r0, hr0⟩ : ∃ l, vectorAdd (vectorMul yP aRzn params.GP.N) z2v params.GP.N = l := ⟨_, rfl⟩
    have lr0 : r0.length = 2 ^ k := hr0 ▸ vectorAdd_len (vectorMul_len lyP laRzn) lz
    obtain ⟨r1, hr1⟩ : ∃ l, vectorMul yP rnd.sR params.GP.N = l := ⟨_, rfl⟩
    have lr1 : r1.length = 2 ^ k := hr1 ▸ vectorMul_len lyP lsR
    simp only [hr0, hr1]
    obtain ⟨t1l, et1l⟩ := vectorInnerProduct_isSome rnd.sL r0 params.GP.N (lsL.trans lr0.symm).le
    obtain ⟨t1r, et1r⟩ := vectorInnerProduct_isSome l0 r1 params.GP.N (ll0.trans lr1.symm).le
    obtain ⟨t2, et2⟩ := vectorInnerProduct_isSome rnd.sL r1 params.GP.N (lsL.trans lr1.symm).le
    steps et1l
    steps et1r
    steps et2
    obtain ⟨T1, hT1⟩ : ∃ e, pedersenCommit params.GP ((t1l + t1r) % params.GP.N) rnd.tau1 params.H = e := ⟨_, rfl⟩
    obtain ⟨T2, hT2⟩ : ∃ e, pedersenCommit params.GP t2 rnd.tau2 params.H = e := ⟨_, rfl⟩
    obtain ⟨x, hx⟩ : ∃ e, roundChallenge sha params.GP T1 T2 = e := ⟨_, rfl⟩
    simp only [hT1, hT2, hx]
    obtain ⟨bl, hbl⟩ : ∃ l, vectorAdd l0 (vectorScalarMul rnd.sL x params.GP.N) params.GP.N = l := ⟨_, rfl⟩
    have lbl : bl.length = 2 ^ k := hbl ▸ vectorAdd_len ll0 (vectorScalarMul_len lsL)
    obtain ⟨br, hbr⟩ : ∃ l, vectorAdd (vectorMul yP (vectorAdd aRzn (vectorScalarMul rnd.sR x params.GP.N) params.GP.N)
      params.GP.N) z2v params.GP.N = l := ⟨_, rfl⟩
    have lbr : br.length = 2 ^ k :=
      hbr ▸ vectorAdd_len (vectorMul_len lyP (vectorAdd_len laRzn (vectorScalarMul_len lsR))) lz
    simp only [hbl, hbr]
    obtain ⟨th, eth⟩ : ∃ t, scalarProduct bl br params.GP.N = some t :=
      ⟨scalarProductGo params.GP.N bl br 0, by unfold scalarProduct; rw [if_neg (not_not.mpr (lbl.trans lbr.symm))]⟩
    steps eth
    obtain ⟨hp, ehp⟩ := updateGenerators_isSome (GP := params.GP) (Hh := params.Hh) (y := y) (n := params.N) (hN ▸ hpos)
      (hN.trans lenH.symm).le (fun _ => hy ▸ hgood A S)
    have lhp : hp.length = 2 ^ k := (updateGenerators_len ehp).trans hN
    steps ehp
    have eipp : setupInnerProduct params.GP (some params.Gg) (some hp) params.N =
        some (.ok { Gg := params.Gg, Hh := hp, Uu := Uu, GP := params.GP }) := by
      unfold setupInnerProduct
      rw [if_neg hNpos]
      simp [eU]
    steps eipp
    obtain ⟨gcm, hgcm⟩ := Lawful.vectorExp_isSome (GP := params.GP) (gs := params.Gg) (as := bl) (lenG.trans lbl.symm)
    obtain ⟨hcm, hhcm⟩ := Lawful.vectorExp_isSome (GP := params.GP) (gs := hp) (as := br) (lhp.trans lbr.symm)
    obtain ⟨cm, ecm⟩ : ∃ c, commitInnerProduct params.GP params.Gg hp bl br = some c :=
      ⟨params.GP.add gcm hcm, by unfold commitInnerProduct; simp [hgcm, hhcm]⟩
    steps ecm
    obtain ⟨u, hu⟩ : ∃ c, ippChallenge sha params.GP params.Gg hp cm th = c := ⟨_, rfl⟩
    obtain ⟨pa, pb, Ls, Rs, h1, _, _, _⟩ := bip_agree (GP := params.GP) sha sha hgood k bl br params.Gg hp
      (params.GP.mul Uu u) (params.GP.add cm (params.GP.mul (params.GP.mul Uu u) th)) [] [] lbl lbr lenG lhp
    have pip : ∃ pr, proveInnerProduct sha bl br cm th { Gg := params.Gg, Hh := hp, Uu := Uu, GP := params.GP } = some (.ok pr) := by
      unfold proveInnerProduct
      rw [if_neg (not_not.mpr (lbl.trans lbr.symm))]
      have e1 : hashIP sha params.GP params.Gg hp cm th = some u := by
        rw [hashIP_eq, if_pos (lenG.trans lhp.symm).le, ← hu]
      rw [← lbl] at h1
      steps e1
      steps h1
      exact ⟨_, rfl⟩
    obtain ⟨pr, pip⟩ := pip
    steps pip
    exact ⟨_, rfl⟩
  have pan := C24_panics params n hn sha rnd secrets
  have hcase : (secrets ≠ [] ∧ secrets.length ∣ params.N) ∨ (secrets = [] ∨ ¬ secrets.length ∣ params.N) := by tauto
  rcases hcase with ⟨h1, h2⟩ | h
  · obtain ⟨pf, hpf⟩ := key h1 h2
    refine ⟨⟨fun _ => ⟨h1, h2⟩, fun _ => ⟨pf, hpf⟩⟩, ?_⟩
    rw [hpf]
    simp [h1, h2]
  · rw [pan h]
    refine ⟨⟨fun ⟨_, h⟩ => by simp at h, fun ⟨a, b⟩ => ?_⟩, by simpa using h⟩
    rcases h with h | h
    · exact absurd h a
    · exact absurd b h

variable {q : ℕ} {M : Type} [AddCommGroup M] [Module (ZMod q) M]

/-- **C92** What `Verify` prints for the library prover's own aggregated proof: three lines, the third is "Check 68: true", the first is
"Check 65: true" if the secrets are in range, and the second decides the verdict then. -/
theorem C92_honest (params : BPParams E) (L : Lawful params.GP q M) (k : ℕ) (hO : ParamsOK params L k)
    (sha : Bytes → Bytes) (rnd : MultiRand) (secrets : List Int) (pf : MultiBulletProof E) (gs : List Int)
    (lg : rnd.gammas.length = secrets.length) (lsL : rnd.sL.length = 2 ^ k) (lsR : rnd.sR.length = 2 ^ k)
    (h : multiProve sha params rnd secrets = some (.ok (pf, gs)))
    (yinv : ZMod q) (hyinv : 2 ≤ params.N → ((roundChallenge sha params.GP pf.A pf.S : Int) : ZMod q) * yinv = 1)
    (hr : ∀ v ∈ secrets, 0 ≤ v ∧ v < 2 ^ (params.N / secrets.length)) :
    ∃ b : Bool, pf.verifyOut sha =
      ⟨["Check 65: true", if b then "Check 67: true" else "Check 67: false", "Check 68: true"], some b⟩ := by
  obtain ⟨_, c, hc, -, h68, h65, -⟩ := C24_checks params L k hO sha rnd secrets pf gs lg lsL lsR h _ yinv rfl hyinv _ rfl
  have h1 : c.c65 = true := by
    rw [h65, Finset.sum_eq_zero, zero_smul]
    intro j _
    have := hr secrets[j] (List.getElem_mem _)
    rw [Int.emod_eq_of_lt this.1 this.2]
    simp
  rw [((C92_output sha pf).2 c).mp hc, h1, h68]
  refine ⟨c.c67, ?_⟩
  cases c.c67 <;> rfl

/-- the library prover's proof of two two-bit values over `Z/101` -/
def exTwoBits (secrets : List Int) : Option (MultiBulletProof Int) :=
  match multiProve exSha2 exBP exMRnd secrets with
  | some (.ok (pf, _)) => some pf
  | _ => none

/-- C92_output, C92_crash: the honest proof, one out of range, and the honest one with a number of each part or all values missing. -/
example : ([(exTwoBits [2, 3]), (exTwoBits [2, 7]), (exTwoBits [2, 3]).map (fun pf => { pf with Vs := [] }),
      (exTwoBits [2, 3]).map (fun pf => { pf with Taux := none }), (exTwoBits [2, 3]).map (fun pf => { pf with Mu := none }),
      (exTwoBits [2, 3]).map (fun pf => { pf with InnerProductProof := { pf.InnerProductProof with A := none } })].map
      fun o => (o.map fun pf => pf.verifyOut exSha2)) =
    [some ⟨["Check 65: true", "Check 67: false", "Check 68: true"], some false⟩,
     some ⟨["Check 65: false", "Check 67: false", "Check 68: true"], some false⟩,
     some ⟨[], none⟩, some ⟨[], none⟩, some ⟨["Check 65: true"], none⟩,
     some ⟨["Check 65: true", "Check 67: false"], none⟩] := by decide +kernel

/-- C92_prove: the hypotheses hold for the toy parameters and a constant digest, and four, two or one secrets work, but not three. -/
example : (∀ l r : Int, Int.gcd (roundChallenge (fun _ => [1]) exBP.GP l r) exBP.GP.N = 1) ∧ exBP.N = 2 ^ 2 ∧
    exBP.Gg.length = 2 ^ 2 ∧ exBP.Hh.length = 2 ^ 2 ∧ (exBP.GP.mapToGroup SEEDU).isSome ∧
    exMRnd.sL.length = 2 ^ 2 ∧ exMRnd.sR.length = 2 ^ 2 ∧
    [[], [5], [1, 2], [1, 2, 3], [0, 1, 1, 0]].map (fun s => (multiProve (fun _ => [1]) exBP exMRnd s).isSome) =
      [false, true, true, false, true] := by
  refine ⟨?_, by decide +kernel⟩
  intro l r
  have : roundChallenge (fun _ => [1]) exBP.GP l r = 1 := by
    change ((setBytes [1] : ℕ) : Int) = 1
    decide +kernel
  rw [this]
  decide +kernel

end MscPoc
