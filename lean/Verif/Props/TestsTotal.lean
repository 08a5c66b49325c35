import Verif.Props.MultiTotal
import Verif.Props.RepairTotal
import Verif.Props.Tests

/-!
# C68, C95 — when the tests of inner products and aggregated proofs return, under arbitrary digest functions
-/

set_option autoImplicit false

namespace MscPoc

variable {E : Type} {q : ℕ} {M : Type} [AddCommGroup M] [Module (ZMod q) M]

/-- the challenges taken in the run that made this inner-product proof are invertible modulo the group order -/
def InnerChallengesOK (sha : Bytes → Bytes) (ip : IPProof E) : Prop :=
  let GP := ip.Params.GP
  (∀ c, ip.Cc = some c → Int.gcd (setBytes (ippDigest sha GP ip.Params.Gg ip.Params.Hh ip.P c) : ℕ) GP.N = 1) ∧
  ∀ p ∈ List.zip ip.L ip.R, Int.gcd (roundChallenge sha GP p.1 p.2) GP.N = 1

theorem testInnerProduct_run (sha : Bytes → Bytes) (GP : Grp E) (L : Lawful GP q M)
    (hmap : ∀ s, SetupSeed 32 s → ∃ e, GP.mapToGroup s = some e ∧ L.V e) :
    ∃ params commitment ip, setupInnerProduct GP none none 4 = some (.ok params) ∧
      commitInnerProduct GP params.Gg params.Hh [2, -1, 10, 6] [1, 2, 10, 7] = some commitment ∧
      proveInnerProduct (patchSha sha GP.N) [2, -1, 10, 6] [1, 2, 10, 7] commitment 142 params = some (.ok ip) ∧
      (InnerChallengesOK sha ip → testInnerProduct sha GP = some true) := by
  have seed : ∀ (sd : ℕ → Bytes), (∀ i < 4, SetupSeed 32 (sd i)) →
      ∃ l, mapSeeds GP sd 4 = some l ∧ l.length = 4 ∧ ∀ e ∈ l, L.V e := by
    intro sd hsd
    obtain ⟨l, hl⟩ := mapSeeds_isSome sd 4 fun i hi => (hmap _ (hsd i hi)).imp fun _ h => h.1
    refine ⟨l, hl, mapSeeds_length hl, fun e he => ?_⟩
    have h := mapSeeds_iff.mp hl
    have : some e ∈ l.map some := List.mem_map_of_mem he
    rw [← h, List.mem_map] at this
    obtain ⟨i, hi, h1⟩ := this
    obtain ⟨e', h2, h3⟩ := hmap _ (hsd i (List.mem_range.mp hi))
    rw [h1] at h2
    injection h2 with h2
    rw [h2]
    exact h3
  obtain ⟨Gg, hGg, lG, vG⟩ := seed seedG fun i hi => Or.inr (Or.inr ⟨i, by omega, Or.inl rfl⟩)
  obtain ⟨Hh, hHh, lH, vH⟩ := seed seedHh fun i hi => Or.inr (Or.inr ⟨i, by omega, Or.inr rfl⟩)
  obtain ⟨Uu, hU, vU⟩ := hmap SEEDU (Or.inr (Or.inl rfl))
  have hset : setupInnerProduct GP none none 4 = some (.ok ⟨Gg, Hh, Uu, GP⟩) := by
    unfold setupInnerProduct
    rw [if_neg (by norm_num)]
    show (Option.bind (mapSeeds GP seedG 4) _) = _
    rw [hGg]
    show (Option.bind (mapSeeds GP seedHh 4) _) = _
    rw [hHh]
    show (Option.bind (GP.mapToGroup SEEDU) _) = _
    rw [hU]
    rfl
  obtain ⟨ga, ega⟩ : ∃ r, vectorExp GP Gg [2, -1, 10, 6] = some r := ⟨_, by unfold vectorExp; rw [if_neg (by simp [lG])]⟩
  obtain ⟨hb, ehb⟩ : ∃ r, vectorExp GP Hh [1, 2, 10, 7] = some r := ⟨_, by unfold vectorExp; rw [if_neg (by simp [lH])]⟩
  obtain ⟨_, va, da⟩ := L.vectorExp_spec vG ega
  obtain ⟨_, vb, db⟩ := L.vectorExp_spec vH ehb
  have hcom : commitInnerProduct GP Gg Hh [2, -1, 10, 6] [1, 2, 10, 7] = some (GP.add ga hb) := by
    unfold commitInnerProduct
    runs ega
    runs ehb
    rfl
  have hT := (testInnerProduct_pass (patchSha sha GP.N) GP L hmap).2 fun b => by
    unfold patchSha
    split
    · assumption
    · show Int.gcd (1 : ℤ) GP.N = 1
      exact Int.one_gcd
  obtain ⟨pf, hpf⟩ : ∃ pf, proveInnerProduct (patchSha sha GP.N) [2, -1, 10, 6] [1, 2, 10, 7] (GP.add ga hb) 142 ⟨Gg, Hh, Uu, GP⟩ =
      some (.ok pf) := by
    unfold testInnerProduct at hT
    rw [hset] at hT
    simp only [Option.bind_eq_bind, Option.bind_some] at hT
    rw [hcom] at hT
    simp only [Option.bind_some] at hT
    cases h : proveInnerProduct (patchSha sha GP.N) [2, -1, 10, 6] [1, 2, 10, 7] (GP.add ga hb) 142 ⟨Gg, Hh, Uu, GP⟩ with
    | none => rw [h] at hT; simp at hT
    | some r =>
      cases r with
      | error e => rw [h] at hT; simp at hT
      | ok pf => exact ⟨pf, rfl⟩
  have hP : pf.Params.GP = GP := by
    have h := hpf
    unfold proveInnerProduct at h
    split at h
    · simp at h
    unbind h with x e1
    dsimp only at h
    unbind h with r e2
    simp only [Option.some.injEq, Except.ok.injEq] at h
    rw [← h]
  refine ⟨_, _, pf, hset, hcom, hpf, ?_⟩
  rintro ⟨g1, g2⟩
  rw [hP] at g1 g2
  have hpf' := ipp_congr sha _ _ _ _ _ _ _ hpf (fun c hc => patch_ipp _ _ _ _ _ _ (g1 c hc)) (fun p hp => patch_round _ _ _ _ (g2 p hp))
  have := (C16_ipp_complete L sha 2 _ _ _ 142 ⟨Gg, Hh, Uu, GP⟩ pf rfl rfl rfl lG lH vG vH vU (L.V_add va vb)
    (by rw [L.den_add va vb, da, db]) (dot_test q) hpf').1
  unfold testInnerProduct
  runs hset
  runs hcom
  runs hpf'
  exact this

open R255 in
/-- **C68** `TestInnerProduct` passes unless one of the three digests of its own run is a multiple of the group order; `ip` is the run with
such digests replaced by 1. -/
theorem C68_inner_product_run (sha : Bytes → Bytes) (L : R255Lib) (hash : ∀ s, SetupSeed 32 s → (L.hash s).Even) :
    ∃ params commitment ip, setupInnerProduct (r255Grp L) none none 4 = some (.ok params) ∧
      commitInnerProduct (r255Grp L) params.Gg params.Hh [2, -1, 10, 6] [1, 2, 10, 7] = some commitment ∧
      proveInnerProduct (patchSha sha r255N) [2, -1, 10, 6] [1, 2, 10, 7] commitment 142 params = some (.ok ip) ∧
      (InnerChallengesOK sha ip → testInnerProduct sha (r255Grp L) = some true) := by
  let := r255Module
  exact testInnerProduct_run sha (r255Grp L) (r255Lawful L) fun s hs => ⟨_, rfl, (even_iff _).mp (hash s hs)⟩

open R255 in
/-- **C68, C95** The prover of `TestXYWithinRange` returns unless a digest of its own run is a multiple of the group order, with the code as
it is (the verdict is that of `C68_multi`) and with the two edits of C95; in the latter case the test passes. -/
theorem C68_multi_run (sha : Bytes → Bytes) (nan64 : BitVec 64) (L : R255Lib) (hash : ∀ s, SetupSeed 32 s → (L.hash s).Even) :
    ∃ p, bpSetup nan64 (2 ^ 32) (r255Grp L) = some (.ok p) ∧ ∀ rnd : MultiRand,
      rnd.gammas.length = 2 → rnd.sL.length = 32 → rnd.sR.length = 32 →
      (∃ pf, multiProve (patchSha sha r255N) p rnd [3, 15] = some (.ok (pf, rnd.gammas)) ∧
        (MultiChallengesOK sha pf → multiProve sha p rnd [3, 15] = some (.ok (pf, rnd.gammas)))) ∧
      ∃ pf, multiProveR true (patchSha sha r255N) p rnd [3, 15] = some (.ok (pf, rnd.gammas)) ∧
        (MultiChallengesOK sha pf →
          multiProveR true sha p rnd [3, 15] = some (.ok (pf, rnd.gammas)) ∧ pf.verifyR true sha = some true) := by
  let := r255Module
  have hmap : ∀ s, SetupSeed 32 s → ∃ e, (r255Grp L).mapToGroup s = some e ∧ (r255Lawful L).V e :=
    fun s hs => ⟨_, rfl, (even_iff _).mp (hash s hs)⟩
  obtain ⟨p, L', hp, hO, hGP, _, _, _, _⟩ := bpSetup_legal (r255Grp L) (r255Lawful L) hmap nan64
  obtain ⟨Uu, eU, _⟩ := hmap SEEDU (Or.inr (Or.inl rfl))
  rw [← hGP] at eU
  have hN : p.N = 32 := hO.1
  have hq : p.GP.N = (r255N : Int) := by rw [hGP]; rfl
  refine ⟨p, hp, fun rnd l0 l1 l2 => ⟨?_, ?_⟩⟩
  · obtain ⟨pf, h1, _, h3⟩ := C92_total p r255N hq 5 hO.N hO.lenG hO.lenH Uu eU sha rnd [3, 15] l1 l2 (by simp) (by rw [hN]; decide)
    exact ⟨pf, hq ▸ h1, h3⟩
  · obtain ⟨pf, h1, _, h3⟩ := C95_total p L' 5 hO Uu eU sha rnd [3, 15] l0 l1 l2 (by simp) (by rw [hN]; decide)
      (by rw [hN]; simp)
    exact ⟨pf, hq ▸ h1, h3⟩

/-- C68_inner_product_run: on the toy group the three digests are good for `exSha2`, and all are bad for a digest function whose only
value is the group order, for which the test panics. -/
example : testInnerProduct exSha2 exBP.GP = some true ∧ testInnerProduct (fun _ => [101]) exBP.GP = none := by
  decide +kernel

end MscPoc
