import Verif.Lemmas.BpRange
import Mathlib.RingTheory.Int.Basic

/-!
# C18–C21, C23 — the range proof
-/

set_option autoImplicit false

namespace MscPoc

variable {E : Type} {q : ℕ} {M : Type} [AddCommGroup M] [Module (ZMod q) M]

/-- Every digest that the prover takes while building `pf` is, as an unsigned number, invertible modulo the group order
(for a prime order: not a multiple of it). -/
def ChallengesOK (sha : Bytes → Bytes) (pf : BulletProof E) : Prop :=
  let GP := pf.Params.GP
  let ip := pf.InnerProductProof
  Int.gcd (roundChallenge sha GP pf.A pf.S) GP.N = 1 ∧
  Int.gcd (roundChallenge sha GP pf.T1 pf.T2) GP.N = 1 ∧
  (∀ c, ip.Cc = some c → Int.gcd (setBytes (ippDigest sha GP ip.Params.Gg ip.Params.Hh ip.P c) : ℕ) GP.N = 1) ∧
  ∀ p ∈ List.zip ip.L ip.R, Int.gcd (roundChallenge sha GP p.1 p.2) GP.N = 1

theorem proveFrom_total (params : BPParams E) (L : Lawful params.GP q M) (k : ℕ) (hO : ParamsOK params L k)
    (Uu : E) (eU : params.GP.mapToGroup SEEDU = some Uu) (sha : Bytes → Bytes)
    (rnd : BPRand) (V : E) (vV : L.V V) (aL aR : List Int)
    (lL : aL.length = 2 ^ k) (lR : aR.length = 2 ^ k) (lsL : rnd.sL.length = 2 ^ k) (lsR : rnd.sR.length = 2 ^ k) :
    ∃ pf, proveFrom (patchSha sha params.GP.N) params rnd V aL aR = some (.ok pf) ∧
      (ChallengesOK sha pf → proveFrom sha params rnd V aL aR = some (.ok pf)) := by
  obtain ⟨pf, h1, h2⟩ := proveFrom_agree params k hO.N hO.lenG hO.lenH Uu eU sha (patchSha sha params.GP.N)
    (patch_good sha params.GP) rnd V aL aR lL lR lsL lsR
  refine ⟨pf, h1, ?_⟩
  have hP := (proveFrom_exact params L k hO _ rnd V vV aL aR pf lL lR lsL lsR h1).2.1
  rintro ⟨g1, g2, g3, g4⟩
  rw [hP] at g1 g2 g3 g4
  exact h2 (patch_round _ _ _ _ g1) (patch_round _ _ _ _ g2) (fun c hc => patch_ipp _ _ _ _ _ _ (g3 c hc))
    (fun p hp => patch_round _ _ _ _ (g4 p hp))

theorem bpProve_iff (sha : Bytes → Bytes) (params : BPParams E) (rnd : BPRand) (v : Int) (pf : BulletProof E) (g : Int) :
    bpProve sha params rnd v = some (.ok (pf, g)) ↔ g = rnd.gamma ∧
      proveFrom sha params rnd (pedersenCommit params.GP v rnd.gamma params.H) (decompose v 2 params.N)
        ((decompose v 2 params.N).map (· - 1)) = some (.ok pf) := by
  have hb : ∀ d ∈ decompose v 2 params.N, d = 0 ∨ d = 1 := by
    intro d hd
    have := decompose_digit (by norm_num) _ _ _ hd
    omega
  unfold bpProve computeAR
  dsimp only
  rw [computeARE_ok _ hb]
  simp only [dropErr, Option.bind_eq_bind]
  cases proveFrom sha params rnd (pedersenCommit params.GP v rnd.gamma params.H) (decompose v 2 params.N)
        ((decompose v 2 params.N).map (· - 1)) with
  | none => simp
  | some r => cases r with
    | error e => simp
    | ok p =>
      simp only [Option.bind_some, Option.some.injEq, Except.ok.injEq, Prod.mk.injEq]
      constructor
      · rintro ⟨a, b⟩; exact ⟨b.symm, a⟩
      · rintro ⟨a, b⟩; exact ⟨b, a.symm⟩

/-- The verdict on the library prover's own output, for every integer secret. -/
theorem bpProve_exact (params : BPParams E) (L : Lawful params.GP q M) (k : ℕ) (hO : ParamsOK params L k)
    (sha : Bytes → Bytes) (rnd : BPRand) (lsL : rnd.sL.length = 2 ^ k) (lsR : rnd.sR.length = 2 ^ k)
    (v g : Int) (pf : BulletProof E) (h : bpProve sha params rnd v = some (.ok (pf, g))) :
    g = rnd.gamma ∧ pf.V = pedersenCommit params.GP v rnd.gamma params.H ∧ pf.Params = params ∧
    pf.InnerProductProof.Cc = pf.Tprime ∧
    ∃ b, pf.verify sha = some b ∧ (b = true ↔
      (((roundChallenge sha params.GP pf.A pf.S) ^ 2 * (v - v % 2 ^ (2 ^ k)) : Int) : ZMod q) • L.g = 0) := by
  obtain ⟨hg, h⟩ := (bpProve_iff sha params rnd v pf g).mp h
  have hlen : (decompose v 2 params.N).length = 2 ^ k := by rw [decompose_length, hO.N]
  have hb : ∀ d ∈ decompose v 2 params.N, d = 0 ∨ d = 1 := by
    intro d hd
    have := decompose_digit (by norm_num) _ _ _ hd
    omega
  have vV := L.V_pedersen hO.H v rnd.gamma
  obtain ⟨hV, hP, hC, _, _, _, _, _, hver⟩ := proveFrom_exact params L k hO sha rnd _ vV _ _ pf hlen (by simpa using hlen) lsL lsR h
  obtain ⟨b, hb1, hb2⟩ := hver _ rfl
  refine ⟨hg, hV, hP, hC, b, hb1, hb2.trans ?_⟩
  have hr := rangeForm_bits (q := q) (decompose v 2 params.N) hb
    (roundChallenge sha params.GP pf.A pf.S : Int) (roundChallenge sha params.GP pf.A pf.S : Int)
  rw [hlen] at hr
  rw [hr, decompose_value (by norm_num), hO.N, L.den_pedersen hO.H]
  push_cast
  constructor
  · intro h; linear_combination (norm := module) -h
  · intro h; linear_combination (norm := module) -h

/-- `T1` and `T2` of every proof built by the prover are Pedersen commitments. -/
theorem proveFrom_T (sha : Bytes → Bytes) (params : BPParams E) (rnd : BPRand) (V : E) (aL aR : List Int)
    (pf : BulletProof E) (h : proveFrom sha params rnd V aL aR = some (.ok pf)) :
    ∃ t1 t2, pf.T1 = pedersenCommit params.GP t1 rnd.tau1 params.H ∧ pf.T2 = pedersenCommit params.GP t2 rnd.tau2 params.H := by
  unfold proveFrom at h
  unbind h with A eA
  unbind h with S eS
  unbind h with aLb eLb
  unbind h with aRb eRb
  unbind h with t1l et1l
  unbind h with t1r et1r
  unbind h with t2 et2
  unbind h with th eth
  unbind h with hp ehp
  unbind h with ipp eipp
  cases ipp with
  | error e => simp at h
  | ok ipp =>
    unbind h with cm ecm
    unbind h with ip eip
    cases ip with
    | error e => simp at h
    | ok ip =>
      simp only [Option.some.injEq, Except.ok.injEq] at h
      subst h
      exact ⟨_, _, rfl, rfl⟩

/-- **C18** Range-proof completeness, and `gamma` opens `V`. -/
theorem C18_bp_complete (params : BPParams E) (L : Lawful params.GP q M) (k : ℕ) (hO : ParamsOK params L k)
    (sha : Bytes → Bytes) (rnd : BPRand) (lsL : rnd.sL.length = 2 ^ k) (lsR : rnd.sR.length = 2 ^ k)
    (v g : Int) (h0 : 0 ≤ v) (h1 : v < 2 ^ (2 ^ k)) (pf : BulletProof E)
    (h : bpProve sha params rnd v = some (.ok (pf, g))) :
    pf.verify sha = some true ∧ pf.Params = params ∧
    L.den pf.V = (v : ZMod q) • L.g + (g : ZMod q) • L.den params.H := by
  obtain ⟨hg, hV, hP, _, b, hb1, hb2⟩ := bpProve_exact params L k hO sha rnd lsL lsR v g pf h
  refine ⟨?_, hP, ?_⟩
  · rw [hb1, hb2.mpr]
    rw [Int.emod_eq_of_lt h0 h1, sub_self, mul_zero, Int.cast_zero, zero_smul]
  · rw [hV, hg, L.den_pedersen hO.H]

/-- C18: the prover never returns an error and panics only if one of the challenges of the run is not invertible.
`pf` is the run with bad challenges replaced by 1; it is the real run when no challenge of it is bad. -/
theorem C18_bp_prover_total (params : BPParams E) (L : Lawful params.GP q M) (k : ℕ) (hO : ParamsOK params L k)
    (Uu : E) (eU : params.GP.mapToGroup SEEDU = some Uu)
    (sha : Bytes → Bytes) (rnd : BPRand) (lsL : rnd.sL.length = 2 ^ k) (lsR : rnd.sR.length = 2 ^ k) (v : Int) :
    ∃ pf, bpProve (patchSha sha params.GP.N) params rnd v = some (.ok (pf, rnd.gamma)) ∧
      (ChallengesOK sha pf → bpProve sha params rnd v = some (.ok (pf, rnd.gamma))) := by
  have hlen : (decompose v 2 params.N).length = 2 ^ k := by rw [decompose_length, hO.N]
  obtain ⟨pf, h1, h2⟩ := proveFrom_total params L k hO Uu eU sha rnd _ (L.V_pedersen hO.H v rnd.gamma)
    (decompose v 2 params.N) ((decompose v 2 params.N).map (· - 1)) hlen (by simpa using hlen) lsL lsR
  exact ⟨pf, (bpProve_iff _ _ _ _ _ _).mpr ⟨rfl, h1⟩, fun hc => (bpProve_iff _ _ _ _ _ _).mpr ⟨rfl, h2 hc⟩⟩

/-- parameters, randomness for the examples: four-bit range over the additive group modulo 101 -/
def exBP : BPParams Int :=
  { N := 4, G := 1, H := 7, Gg := [3, 5, 7, 9], Hh := [2, 4, 8, 16], GP := toyGrp 101 }

def exRnd : BPRand := { gamma := 17, alpha := 5, sL := [1, 20, 3, 4], sR := [9, 8, 77, 6], rho := 3, tau1 := 2, tau2 := 90 }

/-- a hash function for the examples with digests that depend on the input -/
def exSha2 : Bytes → Bytes := fun b => [b.foldl (fun acc d => 7 * acc + d) 3]

theorem exBP_ok : ParamsOK exBP (toyLawful 101) 2 :=
  ⟨rfl, by unfold toyLawful; decide, by unfold toyLawful exBP; decide, by unfold toyLawful exBP; decide, rfl, rfl,
    fun _ h => toy_map 101 h⟩

/-- C18, C19: concrete runs: in range (13), out of range (16) and negative (-1). -/
example : (exBP.GP.mapToGroup SEEDU).isSome = true ∧ [13, 16, -1].map (fun v =>
      match bpProve exSha2 exBP exRnd v with
      | some (.ok (pf, _)) => (pf.verify exSha2, decide (roundChallenge exSha2 exBP.GP pf.A pf.S % 101 = 0))
      | _ => (none, false)) =
    [(some true, false), (some false, false), (some false, false)] := by decide +kernel

/-- **C19** The library prover cannot prove an out-of-range value: exact condition for every integer secret. -/
theorem C19_bp_out_of_range (params : BPParams E) (L : Lawful params.GP q M) (hfree : ∀ c : ZMod q, c • L.g = 0 → c = 0)
    (k : ℕ) (hO : ParamsOK params L k)
    (sha : Bytes → Bytes) (rnd : BPRand) (lsL : rnd.sL.length = 2 ^ k) (lsR : rnd.sR.length = 2 ^ k)
    (v g : Int) (pf : BulletProof E) (h : bpProve sha params rnd v = some (.ok (pf, g))) :
    ∃ b, pf.verify sha = some b ∧ (b = true ↔
      params.GP.N ∣ (roundChallenge sha params.GP pf.A pf.S) ^ 2 * (v - v % 2 ^ (2 ^ k))) := by
  obtain ⟨_, _, _, _, b, hb1, hb2⟩ := bpProve_exact params L k hO sha rnd lsL lsR v g pf h
  refine ⟨b, hb1, hb2.trans ?_⟩
  rw [L.N_eq, ← ZMod.intCast_zmod_eq_zero_iff_dvd]
  exact ⟨hfree _, fun h => by rw [h, zero_smul]⟩

/-- C19 for a prime order larger than the range: a proof with a non-zero challenge is accepted iff the secret is congruent to an
in-range integer.  The challenge and `v` are the only things that matter. -/
theorem C19_bp_out_of_range_prime [Fact q.Prime] (params : BPParams E) (L : Lawful params.GP q M)
    (hfree : ∀ c : ZMod q, c • L.g = 0 → c = 0) (k : ℕ) (hO : ParamsOK params L k)
    (sha : Bytes → Bytes) (rnd : BPRand) (lsL : rnd.sL.length = 2 ^ k) (lsR : rnd.sR.length = 2 ^ k)
    (v g : Int) (pf : BulletProof E) (h : bpProve sha params rnd v = some (.ok (pf, g)))
    (hz : ¬ params.GP.N ∣ roundChallenge sha params.GP pf.A pf.S) :
    ∃ b, pf.verify sha = some b ∧ (b = true ↔ params.GP.N ∣ v - v % 2 ^ (2 ^ k)) ∧
      (b = true → ∃ w, 0 ≤ w ∧ w < 2 ^ (2 ^ k) ∧ params.GP.N ∣ v - w) ∧
      (0 ≤ v → v < params.GP.N → (b = true ↔ v < 2 ^ (2 ^ k))) := by
  obtain ⟨b, hb1, hb2⟩ := C19_bp_out_of_range params L hfree k hO sha rnd lsL lsR v g pf h
  have hp : Prime (params.GP.N) := by
    rw [L.N_eq]; exact Nat.prime_iff_prime_int.mp (Fact.out)
  have h2 : (0 : Int) < 2 ^ (2 ^ k) := pow_pos (by norm_num) _
  have key : b = true ↔ params.GP.N ∣ v - v % 2 ^ (2 ^ k) := by
    rw [hb2]
    constructor
    · intro hd
      rcases hp.dvd_or_dvd hd with h | h
      · exact absurd (hp.dvd_of_dvd_pow h) hz
      · exact h
    · exact fun h => dvd_mul_of_dvd_right h _
  refine ⟨b, hb1, key, fun hb => ⟨_, Int.emod_nonneg _ h2.ne', Int.emod_lt_of_pos _ h2, key.mp hb⟩, ?_⟩
  intro v0 vN
  rw [key]
  constructor
  · intro hd
    have h3 := Int.emod_nonneg v h2.ne'
    have h4 : v % 2 ^ (2 ^ k) ≤ v := by
      have := Int.emod_add_mul_ediv v (2 ^ (2 ^ k)); have := mul_nonneg h2.le (Int.ediv_nonneg v0 h2.le); omega
    have h5 : v - v % 2 ^ (2 ^ k) = 0 := Int.eq_zero_of_dvd_of_nonneg_of_lt (by omega) (by omega) hd
    have h6 : v = v % 2 ^ (2 ^ k) := by omega
    rw [h6]; exact Int.emod_lt_of_pos _ h2
  · intro hlt
    rw [Int.emod_eq_of_lt v0 hlt, sub_self]; exact dvd_zero _

/-- C19: the toy group's generator is free. -/
example : ∀ c : ZMod 101, c • (toyLawful 101).g = 0 → c = 0 := by
  intro c hc
  have : (toyLawful 101).g = 1 := by unfold Lawful.g toyLawful; decide
  rw [this] at hc
  simpa using hc

/-- **C20** Range-proof verification equals the equations of the paper. -/
theorem C20_bp_verify_equations [Fact q.Prime] (pf : BulletProof E) (L : Lawful pf.Params.GP q M) (hV : BPValid pf L)
    (sha : Bytes → Bytes) (tp tx mu : Int) (b : Bool) (hn : 0 < pf.Params.N)
    (h2 : pf.Tprime = some tp) (h3 : pf.Taux = some tx) (h4 : pf.Mu = some mu)
    (h5 : pf.InnerProductProof.verify sha = some b)
    -- the challenges
    (y z x : ZMod q) (hy : y = (roundChallenge sha pf.Params.GP pf.A pf.S : Int)) (hz : z = y)
    (hx : x = (roundChallenge sha pf.Params.GP pf.T1 pf.T2 : Int)) (hy0 : y ≠ 0) :
    ∃ v, pf.verify sha = some v ∧ (v = true ↔
      -- (65)
      ((tp : ZMod q) • L.g + (tx : ZMod q) • L.den pf.Params.H =
        z ^ 2 • L.den pf.V + deltaSpec pf.Params.N y z • L.g + x • L.den pf.T1 + x ^ 2 • L.den pf.T2) ∧
      -- (67), with h'_i = y^{-i}.h_i
      ((mu : ZMod q) • L.den pf.Params.H + L.den pf.InnerProductProof.P =
        L.den pf.A + x • L.den pf.S - z • (L.denV pf.Params.Gg).sum +
          msm ((List.zipWith (fun (i : ℕ) m => (y⁻¹ ^ i) • m) (List.range pf.Params.N) (L.denV pf.Params.Hh)))
            ((List.range pf.Params.N).map (fun i => z * y ^ i + z ^ 2 * 2 ^ i))) ∧
      b = true) := by
  subst hz
  have hgcd : Int.gcd (roundChallenge sha pf.Params.GP pf.A pf.S) pf.Params.GP.N = 1 := by
    rw [L.N_eq]; exact (gcd_eq_one_iff _).mpr (hy ▸ hy0)
  obtain ⟨hp, hhp⟩ := updateGenerators_isSome (GP := pf.Params.GP) (Hh := pf.Params.Hh) hn hV.lenH.ge (fun _ => hgcd)
  obtain ⟨v, hv1, hv2⟩ := L.bpVerify_core pf hV sha hp tp tx mu b hhp h2 h3 h4 h5 z x hy hx
  obtain ⟨_, _, _, yi, hyi, hden⟩ := L.updateGenerators_spec hV.lenH hV.Hh hhp
  refine ⟨v, hv1, hv2.trans ?_⟩
  have e1 : (List.zipWith (fun c m => c • m) (pows yi pf.Params.N) (L.denV pf.Params.Hh)) =
      List.zipWith (fun (i : ℕ) m => (z⁻¹ ^ i) • m) (List.range pf.Params.N) (L.denV pf.Params.Hh) := by
    unfold pows
    rw [List.zipWith_map_left]
    rcases Nat.lt_or_ge pf.Params.N 2 with hlt | hge
    · have : pf.Params.N = 1 := by omega
      rw [this]
      cases L.denV pf.Params.Hh <;> simp
    · have : yi = z⁻¹ := by
        have := hyi hge
        rw [← hy] at this
        exact eq_inv_of_mul_eq_one_right this
      rw [this]
  have e2 : (List.zipWith (· + ·)
            (List.zipWith (· * ·) (pows z pf.Params.N) (List.replicate pf.Params.N z))
            ((pows 2 pf.Params.N).map (· * (z * z)))) =
      (List.range pf.Params.N).map (fun i => z * z ^ i + z ^ 2 * 2 ^ i) := by
    apply List.ext_getElem
    · simp [pows]
    · intro i h1 h2
      simp [pows]
      ring
  rw [hden, e1, e2]

/-- C20: a concrete accepted proof has legal elements and a non-zero challenge. -/
example : (match proveFrom exSha2 exBP exRnd 3 (decompose 13 2 4) [0, -1, 0, 0] with
     | some (.ok pf) => decide (∀ e ∈ [pf.V, pf.A, pf.S, pf.T1, pf.T2, pf.Params.H, pf.InnerProductProof.P], 0 ≤ e ∧ e < 101) &&
        pf.InnerProductProof.verify exSha2 == some true && decide (roundChallenge exSha2 exBP.GP pf.A pf.S % 101 ≠ 0)
     | _ => false) = true := by decide +kernel

/-- **C21** The verdict does not change when the commitment is shifted by `d.G` and `Tprime` by `z².d`. -/
theorem C21_shift (pf : BulletProof E) (L : Lawful pf.Params.GP q M) (vV : L.V pf.V) (vT1 : L.V pf.T1)
    (vT2 : L.V pf.T2) (vH : L.V pf.Params.H) (sha : Bytes → Bytes) (d : Int) :
    BulletProof.verify sha { pf with
      V := pf.Params.GP.add pf.V (pf.Params.GP.mulGen d)
      Tprime := pf.Tprime.map (· + (hashBP sha pf.Params.GP pf.A pf.S).2 ^ 2 * d) } = pf.verify sha := by
  unfold BulletProof.verify
  dsimp only
  simp only [hashBP_fst, hashBP_snd]
  cases h1 : updateGenerators pf.Params.GP pf.Params.Hh (roundChallenge sha pf.Params.GP pf.A pf.S) pf.Params.N with
  | none => rfl
  | some hp =>
  cases h2 : pf.Tprime with
  | none => rfl
  | some tp =>
  cases h3 : pf.Taux with
  | none => rfl
  | some tx =>
  simp only [Option.map_some, Option.bind_eq_bind, Option.bind_some]
  obtain ⟨dlt, hd⟩ := delta_isSome pf.Params.N pf.Params.GP.N (roundChallenge sha pf.Params.GP pf.A pf.S)
    (roundChallenge sha pf.Params.GP pf.A pf.S)
  simp only [hd, Option.bind_some]
  obtain ⟨z, hz⟩ : ∃ z, roundChallenge sha pf.Params.GP pf.A pf.S = z := ⟨_, rfl⟩
  obtain ⟨x, hx⟩ : ∃ x, roundChallenge sha pf.Params.GP pf.T1 pf.T2 = x := ⟨_, rfl⟩
  simp only [hz, hx]
  have key : pf.Params.GP.isEqual (pf.Params.GP.add (pf.Params.GP.add (pf.Params.GP.add
      (pf.Params.GP.mul (pf.Params.GP.add pf.V (pf.Params.GP.mulGen d)) (z * z % pf.Params.GP.N))
      (pf.Params.GP.mulGen dlt)) (pf.Params.GP.mul pf.T1 x)) (pf.Params.GP.mul pf.T2 (x * x % pf.Params.GP.N)))
      (pedersenCommit pf.Params.GP (tp + z ^ 2 * d) tx pf.Params.H) =
     pf.Params.GP.isEqual (pf.Params.GP.add (pf.Params.GP.add (pf.Params.GP.add
      (pf.Params.GP.mul pf.V (z * z % pf.Params.GP.N))
      (pf.Params.GP.mulGen dlt)) (pf.Params.GP.mul pf.T1 x)) (pf.Params.GP.mul pf.T2 (x * x % pf.Params.GP.N)))
      (pedersenCommit pf.Params.GP tp tx pf.Params.H) := by
    have vd := L.V_mulGen d
    have vVd := L.V_add vV vd
    have a1 := L.V_mul (z * z % pf.Params.GP.N) vVd
    have b1 := L.V_mul (z * z % pf.Params.GP.N) vV
    have c1 := L.V_mulGen dlt
    have c2 := L.V_mul x vT1
    have c3 := L.V_mul (x * x % pf.Params.GP.N) vT2
    have a2 := L.V_add a1 c1
    have a3 := L.V_add a2 c2
    have a4 := L.V_add a3 c3
    have b2 := L.V_add b1 c1
    have b3 := L.V_add b2 c2
    have b4 := L.V_add b3 c3
    rw [Bool.eq_iff_iff, L.isEqual_iff a4 (L.V_pedersen vH _ _), L.isEqual_iff b4 (L.V_pedersen vH _ _),
      L.den_pedersen vH, L.den_pedersen vH, L.den_add a3 c3, L.den_add a2 c2, L.den_add a1 c1, L.den_mul _ vVd,
      L.den_add vV vd, L.den_add b3 c3, L.den_add b2 c2, L.den_add b1 c1, L.den_mul _ vV]
    simp only [L.den_mulGen, L.cast_modN]
    push_cast
    constructor
    · intro h; linear_combination (norm := module) h
    · intro h; linear_combination (norm := module) h
  rw [key]

/-- C21: for every integer `v` and opening randomness `gamma` an accepted proof exists whose `V` commits to `v`,
obtained from an honest proof of 0; only the honest prover's run must have invertible challenges. -/
theorem C21_any_value (params : BPParams E) (L : Lawful params.GP q M) (k : ℕ) (hO : ParamsOK params L k)
    (sha : Bytes → Bytes) (rnd : BPRand) (lsL : rnd.sL.length = 2 ^ k) (lsR : rnd.sR.length = 2 ^ k)
    (pf : BulletProof E) (g : Int) (h : bpProve sha params rnd 0 = some (.ok (pf, g))) (v : Int) :
    ∃ pf' : BulletProof E, pf'.verify sha = some true ∧ pf'.Params = params ∧
      L.den pf'.V = (v : ZMod q) • L.g + (rnd.gamma : ZMod q) • L.den params.H := by
  obtain ⟨hv, hP, hV⟩ := C18_bp_complete params L k hO sha rnd lsL lsR 0 g le_rfl (pow_pos (by norm_num) _) pf h
  obtain ⟨hg, hV', _⟩ := bpProve_exact params L k hO sha rnd lsL lsR 0 g pf h
  have vV : L.V pf.V := hV' ▸ L.V_pedersen hO.H _ _
  obtain ⟨t1, t2, ht1, ht2⟩ := proveFrom_T _ _ _ _ _ _ _ ((bpProve_iff _ _ _ _ _ _).mp h).2
  have vT1 : L.V pf.T1 := ht1 ▸ L.V_pedersen hO.H _ _
  have vT2 : L.V pf.T2 := ht2 ▸ L.V_pedersen hO.H _ _
  have := fun vV => C21_shift (q := q) (M := M) pf (hP ▸ L) vV
  subst hP
  refine ⟨_, (this vV vT1 vT2 hO.H sha v).trans hv, rfl, ?_⟩
  dsimp only
  rw [L.den_add vV (L.V_mulGen v), hV, L.den_mulGen, hg]
  push_cast
  module

/-- C21: the shifted proof of a four-bit range committing to 13 + 50 = 63 is accepted. -/
example : (match bpProve exSha2 exBP exRnd 13 with
      | some (.ok (pf, _)) => (BulletProof.verify exSha2 { pf with
          V := pf.Params.GP.add pf.V (pf.Params.GP.mulGen 50)
          Tprime := pf.Tprime.map (· + (hashBP exSha2 pf.Params.GP pf.A pf.S).2 ^ 2 * 50) },
          (BulletProof.verify exSha2 { pf with V := pf.Params.GP.add pf.V (pf.Params.GP.mulGen 50) }))
      | _ => (none, none)) = (some true, some false) := by decide +kernel

/-- **C23** Because `y = z`, following `Prove` with `aL = 0` and `aR = (-1, -1-v, -1, …, -1)` gives an accepted
proof for every integer `v` — also when the verifier were to compare `Cc` with `Tprime` and to derive the
inner-product parameters itself. -/
theorem C23_forgery (params : BPParams E) (L : Lawful params.GP q M) (k : ℕ) (hk : 1 ≤ k) (hO : ParamsOK params L k)
    (sha : Bytes → Bytes) (rnd : BPRand) (lsL : rnd.sL.length = 2 ^ k) (lsR : rnd.sR.length = 2 ^ k) (v : Int)
    (pf : BulletProof E)
    (h : proveFrom sha params rnd (pedersenCommit params.GP v rnd.gamma params.H) (List.replicate (2 ^ k) 0)
      (forgeAR (2 ^ k) v) = some (.ok pf)) :
    pf.verify sha = some true ∧ pf.Params = params ∧
    L.den pf.V = (v : ZMod q) • L.g + (rnd.gamma : ZMod q) • L.den params.H ∧
    pf.InnerProductProof.Cc = pf.Tprime ∧
    some pf.InnerProductProof.Params.Hh = updateGenerators params.GP params.Hh (hashBP sha params.GP pf.A pf.S).1 params.N ∧
    pf.InnerProductProof.Params.Gg = params.Gg ∧
    some pf.InnerProductProof.Params.Uu = params.GP.mapToGroup SEEDU := by
  have hn : 2 ≤ 2 ^ k := by
    calc 2 = 2 ^ 1 := rfl
      _ ≤ 2 ^ k := Nat.pow_le_pow_right (by norm_num) hk
  have lR : (forgeAR (2 ^ k) v).length = 2 ^ k := by simp [forgeAR]; omega
  obtain ⟨hV, hP, hC, _, _, hG, hH, hU, hver⟩ := proveFrom_exact params L k hO sha rnd _ (L.V_pedersen hO.H v rnd.gamma)
    _ _ pf (by simp) lR lsL lsR h
  obtain ⟨b, hb1, hb2⟩ := hver _ rfl
  refine ⟨?_, hP, by rw [hV, L.den_pedersen hO.H], hC, hH, hG, hU⟩
  rw [hb1, hb2.mpr]
  rw [rangeForm_forge _ hn, L.den_pedersen hO.H]
  module

/-- C23: such a proof exists: the forging prover returns unless a challenge of its run is not invertible. -/
theorem C23_forgery_exists (params : BPParams E) (L : Lawful params.GP q M) (k : ℕ) (hk : 1 ≤ k) (hO : ParamsOK params L k)
    (Uu : E) (eU : params.GP.mapToGroup SEEDU = some Uu)
    (sha : Bytes → Bytes) (rnd : BPRand) (lsL : rnd.sL.length = 2 ^ k) (lsR : rnd.sR.length = 2 ^ k) (v : Int) :
    ∃ pf, proveFrom (patchSha sha params.GP.N) params rnd (pedersenCommit params.GP v rnd.gamma params.H)
        (List.replicate (2 ^ k) 0) (forgeAR (2 ^ k) v) = some (.ok pf) ∧
      (ChallengesOK sha pf → pf.verify sha = some true ∧
        L.den pf.V = (v : ZMod q) • L.g + (rnd.gamma : ZMod q) • L.den params.H) := by
  have hn : 2 ≤ 2 ^ k := by
    calc 2 = 2 ^ 1 := rfl
      _ ≤ 2 ^ k := Nat.pow_le_pow_right (by norm_num) hk
  have lR : (forgeAR (2 ^ k) v).length = 2 ^ k := by simp [forgeAR]; omega
  obtain ⟨pf, h1, h2⟩ := proveFrom_total params L k hO Uu eU sha rnd _ (L.V_pedersen hO.H v rnd.gamma)
    (List.replicate (2 ^ k) 0) (forgeAR (2 ^ k) v) (by simp) lR lsL lsR
  refine ⟨pf, h1, fun hc => ?_⟩
  have := C23_forgery params L k hk hO sha rnd lsL lsR v pf (h2 hc)
  exact ⟨this.1, this.2.2.1⟩

/-- C23: forged four-bit proofs of 63 and of -5 in the toy group. -/
example : [63, -5].map (fun v =>
      match proveFrom exSha2 exBP exRnd (pedersenCommit exBP.GP v exRnd.gamma exBP.H) (List.replicate 4 0) (forgeAR 4 v) with
      | some (.ok pf) => pf.verify exSha2
      | _ => none) = [some true, some true] := by decide +kernel

end MscPoc
