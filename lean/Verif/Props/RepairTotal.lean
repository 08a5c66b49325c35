import Verif.Props.MultiTotal
import Verif.Props.MultiSound

/-!
# C95, C101 — the repaired prover of aggregated proofs under arbitrary digest functions
-/

set_option autoImplicit false

namespace MscPoc

variable {E : Type}

/-- a run of the repaired prover depends on the challenges only through those that its proof leads to -/
theorem multiProveC_congr (ch ch' : Challenges E) (sha sha' : Bytes → Bytes) (params : BPParams E) (rnd : MultiRand) (secrets : List Int)
    (pf : MultiBulletProof E) (gs : List Int) (h : multiProveC ch' sha' params rnd secrets = some (.ok (pf, gs)))
    (hy : ch.y pf.A pf.S = ch'.y pf.A pf.S) (hz : ch.z pf.A pf.S = ch'.z pf.A pf.S) (hx : ch.x pf.T1 pf.T2 = ch'.x pf.T1 pf.T2)
    (h3 : ∀ Cc, pf.InnerProductProof.Cc = some Cc →
      ippChallenge sha params.GP pf.InnerProductProof.Params.Gg pf.InnerProductProof.Params.Hh pf.InnerProductProof.P Cc =
      ippChallenge sha' params.GP pf.InnerProductProof.Params.Gg pf.InnerProductProof.Params.Hh pf.InnerProductProof.P Cc)
    (h4 : ∀ p ∈ List.zip pf.InnerProductProof.L pf.InnerProductProof.R,
      roundChallenge sha params.GP p.1 p.2 = roundChallenge sha' params.GP p.1 p.2) :
    multiProveC ch sha params rnd secrets = some (.ok (pf, gs)) ∧ pf.Params = params := by
  unfold multiProveC at h ⊢
  dsimp only at h ⊢
  split at h
  · simp at h
  rename_i hm
  rw [if_neg hm]
  unbind h with A eA
  unbind h with S eS
  unbind h with z2v ez
  unbind h with aL e1
  unbind h with aR e2
  unbind h with t1 e3
  unbind h with t2 e4
  unbind h with t3 e5
  unbind h with th e6
  unbind h with hp e7
  unbind h with ipp e8
  cases ipp with
  | error e => simp at h
  | ok ipp =>
    dsimp only at h
    unbind h with cm e9
    unbind h with ip e10
    cases ip with
    | error e => simp at h
    | ok ip =>
      simp only [Option.some.injEq, Except.ok.injEq, Prod.mk.injEq] at h
      obtain ⟨rfl, rfl⟩ := h
      dsimp only at hy hz hx h3 h4
      have hg : ipp.GP = params.GP := by
        unfold setupInnerProduct at e8
        split at e8
        · simp at e8
        · cases hU : params.GP.mapToGroup SEEDU with
          | none => simp [hU] at e8
          | some Uu =>
            simp [hU] at e8
            rw [← e8]
      rw [← hg] at h3 h4
      have e10' := ipp_congr sha sha' _ _ _ _ _ _ e10 h3 h4
      refine ⟨?_, rfl⟩
      runs eA
      runs eS
      rw [hy, hz]
      runs ez
      runs e1
      runs e2
      runs e3
      runs e4
      runs e5
      rw [hx]
      runs e6
      runs e7
      runs e8
      dsimp only
      runs e9
      runs e10'
      rfl

/-- `ch` with every `y` that is not invertible modulo `N` replaced by 1 -/
def patchCh (ch : Challenges E) (N : Int) : Challenges E where
  y := fun A S => if Int.gcd (ch.y A S) N = 1 then ch.y A S else 1
  z := ch.z
  x := ch.x

/-- the challenges that the repaired prover had to invert in the run that made this proof are invertible modulo the group order -/
def RepairedChallengesOK (ch : Challenges E) (sha : Bytes → Bytes) (pf : MultiBulletProof E) : Prop :=
  let GP := pf.Params.GP
  let ip := pf.InnerProductProof
  Int.gcd (ch.y pf.A pf.S) GP.N = 1 ∧
  (∀ c, ip.Cc = some c → Int.gcd (setBytes (ippDigest sha GP ip.Params.Gg ip.Params.Hh ip.P c) : ℕ) GP.N = 1) ∧
  ∀ p ∈ List.zip ip.L ip.R, Int.gcd (roundChallenge sha GP p.1 p.2) GP.N = 1

variable {q : ℕ} {M : Type} [AddCommGroup M] [Module (ZMod q) M]

/-- **C101** Under arbitrary challenges and digests: the repaired prover makes a proof of values in range, of a number that divides `N`,
and it is accepted, unless a challenge of the run cannot be inverted. `pf` is the run with such challenges replaced by 1. -/
theorem C101_total (params : BPParams E) (L : Lawful params.GP q M) (k : ℕ) (hO : ParamsOK params L k) (Uu : E)
    (eU : params.GP.mapToGroup SEEDU = some Uu) (ch : Challenges E) (sha : Bytes → Bytes) (rnd : MultiRand) (secrets : List Int)
    (lg : rnd.gammas.length = secrets.length) (lsL : rnd.sL.length = 2 ^ k) (lsR : rnd.sR.length = 2 ^ k)
    (hm : secrets ≠ []) (hdv : secrets.length ∣ params.N) (hr : ∀ v ∈ secrets, 0 ≤ v ∧ v < 2 ^ (params.N / secrets.length)) :
    ∃ pf, multiProveC (patchCh ch params.GP.N) (patchSha sha params.GP.N) params rnd secrets = some (.ok (pf, rnd.gammas)) ∧
      pf.Params = params ∧
      (RepairedChallengesOK ch sha pf →
        multiProveC ch sha params rnd secrets = some (.ok (pf, rnd.gammas)) ∧ pf.AcceptedC ch sha) := by
  obtain ⟨pf, h⟩ := multiProveC_returns (patchCh ch params.GP.N) params k hO.N hO.lenG hO.lenH Uu eU
    (fun l r => by
      show Int.gcd (if _ then _ else _) _ = 1
      split
      · assumption
      · exact Int.one_gcd)
    (patchSha sha params.GP.N) (patch_good sha params.GP) rnd secrets lsL lsR hm hdv
  have hP := (multiProveC_congr _ _ _ _ params rnd secrets pf _ h rfl rfl rfl (fun _ _ => rfl) (fun _ _ => rfl)).2
  refine ⟨pf, h, hP, ?_⟩
  rintro ⟨g1, g3, g4⟩
  rw [hP] at g1 g3 g4
  have e := (multiProveC_congr ch _ sha _ params rnd secrets pf _ h (if_pos g1).symm rfl rfl
    (fun c hc => patch_ipp _ _ _ _ _ _ (g3 c hc)) (fun p hp => patch_round _ _ _ _ (g4 p hp))).1
  exact ⟨e, ((C101_complete params L k hO ch sha rnd secrets lg lsL lsR hr).1 pf _ e).1⟩

/-- **C95** The same after both edits, with the program's own challenges. -/
theorem C95_total (params : BPParams E) (L : Lawful params.GP q M) (k : ℕ) (hO : ParamsOK params L k) (Uu : E)
    (eU : params.GP.mapToGroup SEEDU = some Uu) (sha : Bytes → Bytes) (rnd : MultiRand) (secrets : List Int)
    (lg : rnd.gammas.length = secrets.length) (lsL : rnd.sL.length = 2 ^ k) (lsR : rnd.sR.length = 2 ^ k)
    (hm : secrets ≠ []) (hdv : secrets.length ∣ params.N) (hr : ∀ v ∈ secrets, 0 ≤ v ∧ v < 2 ^ (params.N / secrets.length)) :
    ∃ pf, multiProveR true (patchSha sha params.GP.N) params rnd secrets = some (.ok (pf, rnd.gammas)) ∧ pf.Params = params ∧
      (MultiChallengesOK sha pf →
        multiProveR true sha params rnd secrets = some (.ok (pf, rnd.gammas)) ∧ pf.verifyR true sha = some true) := by
  obtain ⟨pf, h⟩ := multiProveR_returns true params k hO.N hO.lenG hO.lenH Uu eU (patchSha sha params.GP.N) (patch_good sha params.GP)
    rnd secrets lsL lsR hm hdv
  have h' : multiProveC (programChallenges (patchSha sha params.GP.N) params.GP) (patchSha sha params.GP.N) params rnd secrets =
    some (.ok (pf, rnd.gammas)) := h
  have hP := (multiProveC_congr _ _ _ _ params rnd secrets pf _ h' rfl rfl rfl (fun _ _ => rfl) (fun _ _ => rfl)).2
  refine ⟨pf, h, hP, ?_⟩
  rintro ⟨g1, g2, g3, g4⟩
  rw [hP] at g1 g2 g3 g4
  have e1 : roundChallenge sha params.GP pf.A pf.S = roundChallenge (patchSha sha params.GP.N) params.GP pf.A pf.S :=
    patch_round _ _ _ _ g1
  have e : multiProveR true sha params rnd secrets = some (.ok (pf, rnd.gammas)) :=
    (multiProveC_congr (programChallenges sha params.GP) _ sha _ params rnd secrets pf _ h'
      (by simpa only [programChallenges, hashBP_fst] using e1) (by simpa only [programChallenges, hashBP_snd] using e1)
      (by simpa only [programChallenges, hashBP_fst] using patch_round _ _ _ _ g2)
      (fun c hc => patch_ipp _ _ _ _ _ _ (g3 c hc)) (fun p hp => patch_round _ _ _ _ (g4 p hp))).1
  exact ⟨e, (C95_both params L k hO sha rnd secrets pf _ lg lsL lsR e _ rfl _ rfl).2 hr⟩

/-- Any values in range, of a number that divides the number of bits, have an accepted proof under the two edits, unless a digest taken to
make it has no inverse modulo the group order. -/
def EditedProves (sha : Bytes → Bytes) (params : BPParams E) : Prop :=
  ∀ (rnd : MultiRand) (secrets : List Int), rnd.gammas.length = secrets.length → rnd.sL.length = params.N → rnd.sR.length = params.N →
    secrets ≠ [] → secrets.length ∣ params.N → (∀ v ∈ secrets, 0 ≤ v ∧ v < 2 ^ (params.N / secrets.length)) →
    ∃ pf, multiProveR true (patchSha sha params.GP.N) params rnd secrets = some (.ok (pf, rnd.gammas)) ∧ pf.Params = params ∧
      (MultiChallengesOK sha pf →
        multiProveR true sha params rnd secrets = some (.ok (pf, rnd.gammas)) ∧ pf.verifyR true sha = some true)

theorem C95_proves (sha : Bytes → Bytes) (nan64 : BitVec 64) (C : Grp E)
    (N bits : ℕ) (Bb : Int) (hr : (N, bits, Bb) ∈ curveTable) {M : Type} [AddCommGroup M] [Module (ZMod N) M]
    (L₂ : Lawful C N M) (hmap : ∀ s, SetupSeed 16 s → ∃ e, C.mapToGroup s = some e ∧ L₂.V e) :
    ∃ pp, setup nan64 C = some (.ok pp) ∧ pp.BPParams.N = 16 ∧ EditedProves sha pp.BPParams := by
  obtain ⟨D, L₁, L, hD, dep, ok⟩ := C47_legal nan64 C N bits Bb hr L₂ hmap
  obtain ⟨Uu, hU, _⟩ := hmap SEEDU (.inr (.inl rfl))
  rw [← dep.EC] at hU
  have hN : D.bp.N = 16 := ok.bp.N
  exact ⟨D.pp, hD, hN, fun rnd secrets l0 l1 l2 hm hd hr =>
    C95_total D.bp L 4 ok.bp Uu hU sha rnd secrets l0 (l1.trans hN) (l2.trans hN) hm hd hr⟩

/-- **C95** The four groups of the program, with the hash functions it uses. -/
theorem C95_main (nan64 : BitVec 64) (L : K1Lib) (hL : L.Identities) (pieces : Bytes → List Bytes)
    (dec256 dec384 : Bytes → Option WPoint) :
    (∃ pp, setup nan64 (k1Grp L.real) = some (.ok pp) ∧ pp.BPParams.N = 16 ∧ EditedProves sha256 pp.BPParams) ∧
    (∃ pp, setup nan64 (r255Grp (r255Real pieces)) = some (.ok pp) ∧ pp.BPParams.N = 16 ∧ EditedProves sha256 pp.BPParams) ∧
    (∃ pp, setup nan64 (circlGrp (p256Real dec256)) = some (.ok pp) ∧ pp.BPParams.N = 16 ∧ EditedProves sha256 pp.BPParams) ∧
    (∃ pp, setup nan64 (circlGrp (p384Real dec384)) = some (.ok pp) ∧ pp.BPParams.N = 16 ∧ EditedProves sha256 pp.BPParams) := by
  refine ⟨?_, ?_, ?_, ?_⟩
  · let := k1Module
    exact C95_proves sha256 nan64 (k1Grp L.real) k1N 256 15 k1_row (k1Lawful (real_identities hL).ok)
      (K1HashOK.legal (C66_seeds L))
  · let := r255Module
    exact C95_proves sha256 nan64 (r255Grp (r255Real pieces)) r255N 253 12 r255_row (r255Lawful _)
      (r255_hash fun s _ => C65_pieces (pieces s))
  · have row := RealRow.p256 dec256
    have ok := stdCircl_ord row.std.circl
    have := ok.fact'
    let := ok.module
    obtain ⟨Bb, hr, _⟩ := row.std.table
    exact C95_proves sha256 nan64 (circlGrp (p256Real dec256)) (p256Real dec256).n 256 Bb hr ok.lawful
      (fun s _ => ⟨_, rfl, (wLegal_iff _ _).mpr (row.valid s)⟩)
  · have row := RealRow.p384 dec384
    have ok := stdCircl_ord row.std.circl
    have := ok.fact'
    let := ok.module
    obtain ⟨Bb, hr, _⟩ := row.std.table
    exact C95_proves sha256 nan64 (circlGrp (p384Real dec384)) (p384Real dec384).n 384 Bb hr ok.lawful
      (fun s _ => ⟨_, rfl, (wLegal_iff _ _).mpr (row.valid s)⟩)

/-! ## Concrete cases -/

/-- C95_total: the edited prover for `2`, `3` under a digest function that also has values without an inverse; none is met. -/
example : (setBytes (exSha2 [80]) : ℕ) % 101 = 0 ∧
    ((multiProveR true (patchSha exSha2 101) exBP exMRnd [2, 3]).bind fun r =>
      r.toOption.map fun p => decide (MultiChallengesOK exSha2 p.1)) = some true ∧
    ((multiProveR true exSha2 exBP exMRnd [2, 3]).bind fun r => r.toOption.bind fun p => p.1.verifyR true exSha2) = some true := by
  decide +kernel

/-- C101_total: separate challenges, of which `y` is 0 at some other first move; the run meets none of those. -/
example : let ch : Challenges Int := { y := fun A S => A + S, z := fun A S => A + 2 * S, x := fun A S => 3 * A + S }
    Int.gcd (ch.y 1 100) 101 ≠ 1 ∧
    ((multiProveC (patchCh ch 101) (patchSha exSha2 101) exBP exMRnd [2, 3]).bind fun r => r.toOption.map fun p =>
      decide (Int.gcd (ch.y p.1.A p.1.S) 101 = 1 ∧ MultiChallengesOK exSha2 p.1)) = some true ∧
    ((multiProveC ch exSha2 exBP exMRnd [2, 3]).bind fun r => r.toOption.bind fun p => p.1.verifyC ch exSha2) = some true := by
  decide +kernel

end MscPoc
