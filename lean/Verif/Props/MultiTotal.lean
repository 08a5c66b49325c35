import Verif.Props.MultiOpen
import Verif.Props.Attempts

/-!
# C92, C102 — the provers of aggregated proofs under arbitrary digest functions
-/

set_option autoImplicit false

namespace MscPoc

variable {E : Type} {GP : Grp E}

/-- a run of `computeBipRecursive` depends on the digest function only through the pairs that it returns -/
theorem bip_congr (sha sha' : Bytes → Bytes) : ∀ (n : ℕ) (a b : List Int) (g h : List E) (u P : E) (Ls Rs : List E) (r : Int × Int × List E × List E),
    computeBipRecursive sha' GP a b g h u P n Ls Rs = some r →
    ∃ L' R', r.2.2.1 = Ls ++ L' ∧ r.2.2.2 = Rs ++ R' ∧
      ((∀ p ∈ List.zip L' R', roundChallenge sha GP p.1 p.2 = roundChallenge sha' GP p.1 p.2) →
        computeBipRecursive sha GP a b g h u P n Ls Rs = some r) := by
  intro n
  induction n using Nat.strong_induction_on with
  | _ n ih =>
  intro a b g h u P Ls Rs r hr
  unfold computeBipRecursive at hr
  split at hr
  · rename_i h1
    refine ⟨[], [], ?_, ?_, fun _ => ?_⟩
    · unbind hr with x e1
      unbind hr with y e2
      simp only [Option.some.injEq] at hr
      simp [← hr]
    · unbind hr with x e1
      unbind hr with y e2
      simp only [Option.some.injEq] at hr
      simp [← hr]
    · unfold computeBipRecursive
      rw [if_pos h1]
      exact hr
  split at hr
  · cases hr
  rename_i h1 h0
  dsimp only at hr
  unbind hr with aLo e1
  unbind hr with aHi e2
  unbind hr with bLo e3
  unbind hr with bHi e4
  unbind hr with gLo e5
  unbind hr with gHi e6
  unbind hr with hLo e7
  unbind hr with hHi e8
  unbind hr with cL e9
  unbind hr with cR e10
  unbind hr with L0 e11
  unbind hr with Lh e12
  unbind hr with R0 e13
  unbind hr with Rh e14
  unbind hr with gh e15
  unbind hr with x2i e16
  unbind hr with xi e17
  obtain ⟨L', R', hL, hR, hc⟩ := ih (n / 2) (by omega) _ _ _ _ _ _ _ _ _ hr
  refine ⟨_ :: L', _ :: R', by rw [hL, List.append_assoc]; rfl, by rw [hR, List.append_assoc]; rfl, fun hag => ?_⟩
  have hag0 := hag (_, _) (List.mem_cons_self ..)
  have hc := hc fun p hp => hag p (List.mem_cons_of_mem _ hp)
  dsimp only at hag0
  simp only [hashBP_fst, ← hag0] at e15 e16 e17 hc
  unfold computeBipRecursive
  rw [if_neg h1, if_neg h0]
  dsimp only
  simp only [hashBP_fst]
  runs e1
  runs e2
  runs e3
  runs e4
  runs e5
  runs e6
  runs e7
  runs e8
  runs e9
  runs e10
  runs e11
  runs e12
  runs e13
  runs e14
  runs e15
  runs e16
  runs e17
  exact hc

/-- the same for `proveInnerProduct` -/
theorem ipp_congr (sha sha' : Bytes → Bytes) (a b : List Int) (P : E) (c : Int) (params : IPParams E) (ip : IPProof E)
    (h : proveInnerProduct sha' a b P c params = some (.ok ip))
    (h1 : ∀ Cc, ip.Cc = some Cc → ippChallenge sha params.GP ip.Params.Gg ip.Params.Hh ip.P Cc =
      ippChallenge sha' params.GP ip.Params.Gg ip.Params.Hh ip.P Cc)
    (h2 : ∀ p ∈ List.zip ip.L ip.R, roundChallenge sha params.GP p.1 p.2 = roundChallenge sha' params.GP p.1 p.2) :
    proveInnerProduct sha a b P c params = some (.ok ip) := by
  unfold proveInnerProduct at h ⊢
  split at h
  · simp at h
  rename_i hl
  rw [if_neg hl]
  unbind h with x e1
  dsimp only at h
  unbind h with r e2
  simp only [Option.some.injEq, Except.ok.injEq] at h
  subst h
  have h1 := h1 c rfl
  dsimp only at h1 h2
  have e1' : hashIP sha params.GP params.Gg params.Hh P c = some x := by
    rw [hashIP_eq] at e1 ⊢
    rw [h1]
    exact e1
  obtain ⟨L', R', hL, hR, hc⟩ := bip_congr sha sha' _ _ _ _ _ _ _ _ _ _ e2
  rw [hL, hR] at h2
  runs e1'
  dsimp only
  runs hc h2
  rfl

/-- the challenges taken in the run that made this aggregated proof are invertible modulo the group order -/
def MultiChallengesOK (sha : Bytes → Bytes) (pf : MultiBulletProof E) : Prop :=
  let GP := pf.Params.GP
  let ip := pf.InnerProductProof
  Int.gcd (roundChallenge sha GP pf.A pf.S) GP.N = 1 ∧
  Int.gcd (roundChallenge sha GP pf.T1 pf.T2) GP.N = 1 ∧
  (∀ c, ip.Cc = some c → Int.gcd (setBytes (ippDigest sha GP ip.Params.Gg ip.Params.Hh ip.P c) : ℕ) GP.N = 1) ∧
  ∀ p ∈ List.zip ip.L ip.R, Int.gcd (roundChallenge sha GP p.1 p.2) GP.N = 1

theorem multiProve_congr (sha sha' : Bytes → Bytes) (params : BPParams E) (rnd : MultiRand) (secrets : List Int)
    (pf : MultiBulletProof E) (gs : List Int) (h : multiProve sha' params rnd secrets = some (.ok (pf, gs)))
    (h1 : roundChallenge sha params.GP pf.A pf.S = roundChallenge sha' params.GP pf.A pf.S)
    (h2 : roundChallenge sha params.GP pf.T1 pf.T2 = roundChallenge sha' params.GP pf.T1 pf.T2)
    (h3 : ∀ Cc, pf.InnerProductProof.Cc = some Cc →
      ippChallenge sha params.GP pf.InnerProductProof.Params.Gg pf.InnerProductProof.Params.Hh pf.InnerProductProof.P Cc =
      ippChallenge sha' params.GP pf.InnerProductProof.Params.Gg pf.InnerProductProof.Params.Hh pf.InnerProductProof.P Cc)
    (h4 : ∀ p ∈ List.zip pf.InnerProductProof.L pf.InnerProductProof.R,
      roundChallenge sha params.GP p.1 p.2 = roundChallenge sha' params.GP p.1 p.2) :
    multiProve sha params rnd secrets = some (.ok (pf, gs)) := by
  unfold multiProve at h ⊢
  dsimp only at h ⊢
  split at h
  · simp at h
  rename_i hm
  rw [if_neg hm]
  unbind h with A eA
  unbind h with S eS
  simp only [hashBP_fst, hashBP_snd] at h ⊢
  unbind h with z2v ez
  unbind h with aL e1
  unbind h with aR e2
  unbind h with t1 e3
  unbind h with t2 e4
  unbind h with t3 e5
  unbind h with th e6
  unbind h with hp e7
  unbind h with ipp e8
  cases ipp with
  | error e => simp at h
  | ok ipp =>
    dsimp only at h
    unbind h with cm e9
    unbind h with ip e10
    cases ip with
    | error e => simp at h
    | ok ip =>
      simp only [Option.some.injEq, Except.ok.injEq, Prod.mk.injEq] at h
      obtain ⟨rfl, rfl⟩ := h
      dsimp only at h1 h2 h3 h4
      have hg : ipp.GP = params.GP := by
        unfold setupInnerProduct at e8
        split at e8
        · simp at e8
        · cases hU : params.GP.mapToGroup SEEDU with
          | none => simp [hU] at e8
          | some Uu =>
            simp [hU] at e8
            rw [← e8]
      rw [← hg] at h3 h4
      have e10' := ipp_congr sha sha' _ _ _ _ _ _ e10 h3 h4
      runs eA
      runs eS
      rw [h1]
      runs ez
      runs e1
      runs e2
      runs e3
      runs e4
      runs e5
      rw [h2]
      runs e6
      runs e7
      runs e8
      dsimp only
      runs e9
      runs e10'
      rfl

theorem multiProve_params {sha : Bytes → Bytes} {params : BPParams E} {rnd : MultiRand} {secrets : List Int} {pf : MultiBulletProof E}
    {g : List Int} (h : multiProve sha params rnd secrets = some (.ok (pf, g))) : pf.Params = params := by
  unfold multiProve at h
  dsimp only at h
  split at h
  · simp at h
  unbind h with A eA
  unbind h with S eS
  unbind h with z2v ez
  unbind h with aL e1
  unbind h with aR e2
  unbind h with t1 e3
  unbind h with t2 e4
  unbind h with t3 e5
  unbind h with th e6
  unbind h with hp e7
  unbind h with ipp e8
  cases ipp with
  | error e => simp at h
  | ok ipp =>
    dsimp only at h
    unbind h with cm e9
    unbind h with ip e10
    cases ip with
    | error e => simp at h
    | ok ip =>
      simp only [Option.some.injEq, Except.ok.injEq, Prod.mk.injEq] at h
      rw [← h.1]

/-- **C92** Under every digest function, with generators for `N = 2^k` bits and a number of secrets that is positive and divides `N`:
`MultiProve` panics only if a challenge of the run is not invertible. `pf` is the run with such challenges replaced by 1; it is the real
run if no challenge of it is bad. -/
theorem C92_total (params : BPParams E) (n : ℕ) (hn : params.GP.N = n) (k : ℕ) (hN : params.N = 2 ^ k)
    (lenG : params.Gg.length = 2 ^ k) (lenH : params.Hh.length = 2 ^ k) (Uu : E) (eU : params.GP.mapToGroup SEEDU = some Uu)
    (sha : Bytes → Bytes) (rnd : MultiRand) (secrets : List Int) (lsL : rnd.sL.length = 2 ^ k) (lsR : rnd.sR.length = 2 ^ k)
    (hm : secrets ≠ []) (hd : secrets.length ∣ params.N) :
    ∃ pf, multiProve (patchSha sha params.GP.N) params rnd secrets = some (.ok (pf, rnd.gammas)) ∧ pf.Params = params ∧
      (MultiChallengesOK sha pf → multiProve sha params rnd secrets = some (.ok (pf, rnd.gammas))) := by
  obtain ⟨pf, h⟩ := (C92_prove params n hn k hN lenG lenH Uu eU (patchSha sha params.GP.N) (patch_good sha params.GP) rnd secrets lsL
    lsR).1.mpr ⟨hm, hd⟩
  have hP : pf.Params = params := multiProve_params h
  refine ⟨pf, h, hP, ?_⟩
  rintro ⟨g1, g2, g3, g4⟩
  rw [hP] at g1 g2 g3 g4
  exact multiProve_congr sha _ params rnd secrets pf _ h (patch_round _ _ _ _ g1) (patch_round _ _ _ _ g2)
    (fun c hc => patch_ipp _ _ _ _ _ _ (g3 c hc)) (fun p hp => patch_round _ _ _ _ (g4 p hp))

theorem multiForge_congr (sha sha' : Bytes → Bytes) (params : BPParams E) (alpha rho tau1 tau2 : Int) (vs gs : List Int)
    (pf : MultiBulletProof E) (h : multiForge sha' params alpha rho tau1 tau2 vs gs = some pf)
    (h1 : roundChallenge sha params.GP pf.A pf.S = roundChallenge sha' params.GP pf.A pf.S)
    (h2 : roundChallenge sha params.GP pf.T1 pf.T2 = roundChallenge sha' params.GP pf.T1 pf.T2)
    (h3 : ∀ Cc, pf.InnerProductProof.Cc = some Cc →
      ippChallenge sha params.GP pf.InnerProductProof.Params.Gg pf.InnerProductProof.Params.Hh pf.InnerProductProof.P Cc =
      ippChallenge sha' params.GP pf.InnerProductProof.Params.Gg pf.InnerProductProof.Params.Hh pf.InnerProductProof.P Cc)
    (h4 : ∀ p ∈ List.zip pf.InnerProductProof.L pf.InnerProductProof.R,
      roundChallenge sha params.GP p.1 p.2 = roundChallenge sha' params.GP p.1 p.2) :
    multiForge sha params alpha rho tau1 tau2 vs gs = some pf := by
  unfold multiForge at h ⊢
  dsimp only at h ⊢
  unbind h with A0 eA
  simp only [hashBP_fst] at h ⊢
  unbind h with hp e7
  unbind h with Uu eU
  unbind h with P e9
  unbind h with ip e10
  cases ip with
  | error e => simp at h
  | ok ip =>
    simp only [Option.some.injEq] at h
    subst h
    dsimp only at h1 h2 h3 h4
    have e10' := ipp_congr sha sha' _ _ _ _ _ _ e10 h3 h4
    runs eA
    rw [h1, h2]
    runs e7
    runs eU
    runs e9
    runs e10'
    rfl

variable {q : ℕ} {M : Type} [AddCommGroup M] [Module (ZMod q) M]

/-- **C102** The same for the forger. -/
theorem C102_total [Fact q.Prime] (params : BPParams E) (L : Lawful params.GP q M) (k : ℕ) (hO : ParamsOK params L k) (Uu : E)
    (eU : params.GP.mapToGroup SEEDU = some Uu) (sha : Bytes → Bytes) (alpha rho tau1 tau2 : Int) (vs gs : List Int) :
    ∃ pf, multiForge (patchSha sha params.GP.N) params alpha rho tau1 tau2 vs gs = some pf ∧ pf.Params = params ∧
      (MultiChallengesOK sha pf → multiForge sha params alpha rho tau1 tau2 vs gs = some pf) := by
  obtain ⟨pf, h⟩ := C102_made params L k hO Uu eU (patchSha sha params.GP.N) (patch_good sha params.GP) alpha rho tau1 tau2 vs gs
  have hP : pf.Params = params := by
    have h := h
    unfold multiForge at h
    dsimp only at h
    unbind h with A0 eA
    unbind h with hp e7
    unbind h with Uu eU
    unbind h with P e9
    unbind h with ip e10
    cases ip with
    | error e => simp at h
    | ok ip =>
      simp only [Option.some.injEq] at h
      rw [← h]
  refine ⟨pf, h, hP, ?_⟩
  rintro ⟨g1, g2, g3, g4⟩
  rw [hP] at g1 g2 g3 g4
  exact multiForge_congr sha _ params alpha rho tau1 tau2 vs gs pf h (patch_round _ _ _ _ g1) (patch_round _ _ _ _ g2)
    (fun c hc => patch_ipp _ _ _ _ _ _ (g3 c hc)) (fun p hp => patch_round _ _ _ _ (g4 p hp))

/-- Any one to sixteen numbers, committed to with any randomness, are in an aggregated proof that is accepted, unless a digest taken to
make it has no inverse modulo the group order. -/
def ForgesAny (sha : Bytes → Bytes) (params : BPParams E) : Prop :=
  ∀ (alpha rho tau1 tau2 : Int) (vs gs : List Int), vs.length = gs.length → vs ≠ [] → vs.length ≤ 16 →
    ∃ pf, multiForge (patchSha sha params.GP.N) params alpha rho tau1 tau2 vs gs = some pf ∧ pf.Params = params ∧
      pf.Vs = List.zipWith (fun v g => pedersenCommit params.GP v g params.H) vs gs ∧
      (MultiChallengesOK sha pf → pf.verify sha = some true)

theorem C102_forges (sha : Bytes → Bytes) (nan64 : BitVec 64) (C : Grp E)
    (N bits : ℕ) (Bb : Int) (hr : (N, bits, Bb) ∈ curveTable) [Fact N.Prime] {M : Type} [AddCommGroup M] [Module (ZMod N) M]
    (L₂ : Lawful C N M) (hmap : ∀ s, SetupSeed 16 s → ∃ e, C.mapToGroup s = some e ∧ L₂.V e) :
    ∃ pp, setup nan64 C = some (.ok pp) ∧ pp.BPParams.N = 16 ∧ ForgesAny sha pp.BPParams := by
  obtain ⟨D, L₁, L, hD, dep, ok⟩ := C47_legal nan64 C N bits Bb hr L₂ hmap
  obtain ⟨Uu, hU, _⟩ := hmap SEEDU (.inr (.inl rfl))
  rw [← dep.EC] at hU
  have hN : D.bp.N = 16 := ok.bp.N
  refine ⟨D.pp, hD, hN, fun alpha rho tau1 tau2 vs gs hl hne hm => ?_⟩
  obtain ⟨pf, h1, h2, h3⟩ := C102_total D.bp L 4 ok.bp Uu hU sha alpha rho tau1 tau2 vs gs
  obtain ⟨_, _, _, h4⟩ := C102_any D.bp L 4 ok.bp _ alpha rho tau1 tau2 vs gs hl hne (by rw [hN]; omega) (by rw [hN]; omega) pf h1
  exact ⟨pf, h1, h2, h4, fun hc =>
    (C102_any D.bp L 4 ok.bp sha alpha rho tau1 tau2 vs gs hl hne (by rw [hN]; omega) (by rw [hN]; omega) pf (h3 hc)).1⟩

/-- **C102** The four groups of the program, with the hash functions it uses. -/
theorem C102_main (nan64 : BitVec 64) (L : K1Lib) (hL : L.Identities) (pieces : Bytes → List Bytes)
    (dec256 dec384 : Bytes → Option WPoint) :
    (∃ pp, setup nan64 (k1Grp L.real) = some (.ok pp) ∧ pp.BPParams.N = 16 ∧ ForgesAny sha256 pp.BPParams) ∧
    (∃ pp, setup nan64 (r255Grp (r255Real pieces)) = some (.ok pp) ∧ pp.BPParams.N = 16 ∧ ForgesAny sha256 pp.BPParams) ∧
    (∃ pp, setup nan64 (circlGrp (p256Real dec256)) = some (.ok pp) ∧ pp.BPParams.N = 16 ∧ ForgesAny sha256 pp.BPParams) ∧
    (∃ pp, setup nan64 (circlGrp (p384Real dec384)) = some (.ok pp) ∧ pp.BPParams.N = 16 ∧ ForgesAny sha256 pp.BPParams) := by
  refine ⟨?_, ?_, ?_, ?_⟩
  · let := k1Module
    have : Fact k1N.Prime := ⟨C48_orders.1⟩
    exact C102_forges sha256 nan64 (k1Grp L.real) k1N 256 15 k1_row (k1Lawful (real_identities hL).ok)
      (K1HashOK.legal (C66_seeds L))
  · let := r255Module
    exact C102_forges sha256 nan64 (r255Grp (r255Real pieces)) r255N 253 12 r255_row (r255Lawful _)
      (r255_hash fun s _ => C65_pieces (pieces s))
  · have row := RealRow.p256 dec256
    have ok := stdCircl_ord row.std.circl
    have : Fact (p256Real dec256).n.Prime := ⟨C48_orders.2.2.1⟩
    have := ok.fact'
    let := ok.module
    obtain ⟨Bb, hr, _⟩ := row.std.table
    exact C102_forges sha256 nan64 (circlGrp (p256Real dec256)) (p256Real dec256).n 256 Bb hr ok.lawful
      (fun s _ => ⟨_, rfl, (wLegal_iff _ _).mpr (row.valid s)⟩)
  · have row := RealRow.p384 dec384
    have ok := stdCircl_ord row.std.circl
    have : Fact (p384Real dec384).n.Prime := ⟨C48_orders.2.2.2⟩
    have := ok.fact'
    let := ok.module
    obtain ⟨Bb, hr, _⟩ := row.std.table
    exact C102_forges sha256 nan64 (circlGrp (p384Real dec384)) (p384Real dec384).n 384 Bb hr ok.lawful
      (fun s _ => ⟨_, rfl, (wLegal_iff _ _).mpr (row.valid s)⟩)

/-! ## Concrete cases -/

instance (sha : Bytes → Bytes) (pf : MultiBulletProof Int) : Decidable (MultiChallengesOK sha pf) :=
  match h : pf.InnerProductProof.Cc with
  | none => decidable_of_iff (Int.gcd (roundChallenge sha pf.Params.GP pf.A pf.S) pf.Params.GP.N = 1 ∧
      Int.gcd (roundChallenge sha pf.Params.GP pf.T1 pf.T2) pf.Params.GP.N = 1 ∧
      ∀ p ∈ List.zip pf.InnerProductProof.L pf.InnerProductProof.R, Int.gcd (roundChallenge sha pf.Params.GP p.1 p.2) pf.Params.GP.N = 1)
      (by simp [MultiChallengesOK, h])
  | some c => decidable_of_iff (Int.gcd (roundChallenge sha pf.Params.GP pf.A pf.S) pf.Params.GP.N = 1 ∧
      Int.gcd (roundChallenge sha pf.Params.GP pf.T1 pf.T2) pf.Params.GP.N = 1 ∧
      Int.gcd (setBytes (ippDigest sha pf.Params.GP pf.InnerProductProof.Params.Gg pf.InnerProductProof.Params.Hh pf.InnerProductProof.P c) : ℕ)
        pf.Params.GP.N = 1 ∧
      ∀ p ∈ List.zip pf.InnerProductProof.L pf.InnerProductProof.R, Int.gcd (roundChallenge sha pf.Params.GP p.1 p.2) pf.Params.GP.N = 1)
      (by simp [MultiChallengesOK, h])

/-- C92_total, C102_total: a digest function that also has values without an inverse (0 modulo 101). The runs for `2`, `3` meet no such
value and return; and a digest function with only such values makes the prover panic. -/
example : (setBytes (exSha2 [80]) : ℕ) % 101 = 0 ∧
    ((multiProve (patchSha exSha2 101) exBP exMRnd [2, 3]).bind fun r => r.toOption.map fun p => decide (MultiChallengesOK exSha2 p.1)) = some true ∧
    (multiForge (patchSha exSha2 101) exBP 5 3 2 90 [1000, -7] [17, 4]).map (fun pf => decide (MultiChallengesOK exSha2 pf)) = some true ∧
    (multiProve exSha2 exBP exMRnd [2, 3]).isSome ∧ multiProve (fun _ => [101]) exBP exMRnd [2, 3] = none ∧
    (multiForge (fun _ => [101]) exBP 5 3 2 90 [1000, -7] [17, 4]).isNone := by
  decide +kernel

end MscPoc
