import Verif.Props.MainOut
import Verif.Spec.Attempts

/-!
# C85 — how often the vote prover starts over
-/

set_option autoImplicit false

namespace MscPoc

/-- The prover is still running exactly if every attempt was discarded. -/
theorem sigmaProve_running {E₁ E₂ : Type} (sha : Bytes → Bytes) (pp : ProofParams E₁ E₂) (secret rp rq1 rq2 : Int)
    (tape : List SigmaSample) : sigmaProve sha pp secret rp rq1 rq2 tape = .running ↔
      ∀ s ∈ tape, sigmaAttempt sha pp secret rp rq1 rq2 s = some none := by
  induction tape with
  | nil => simp [sigmaProve]
  | cons s tape ih =>
    rw [sigmaProve, List.forall_mem_cons]
    rcases sigmaAttempt sha pp secret rp rq1 rq2 s with _ | _ | pf <;> simp [ih]

/-- One attempt: on how many masks it is discarded. -/
theorem C85_attempt {E₁ E₂ : Type} (sha : Bytes → Bytes) (hsha : ∀ m, (sha m).length = 32) (pp : ProofParams E₁ E₂) {NF NE : Int}
    (hF : pp.GFF.N = some NF) (hE : pp.GEC.N = some NE) (hBc : pp.Bc.toNat < 264) (secret rp rq1 rq2 : Int) (h0 : 0 ≤ secret)
    (s : SigmaSample) (L U : ℕ) (hL : pp.zLowerBound = L) (hU : pp.zUpperBound = U)
    (hLU : L + 2 ^ pp.Bc.toNat * secret.toNat ≤ U) :
    let bad := Nat.card { k : Fin U // sigmaAttempt sha pp secret rp rq1 rq2 { s with k := ((k : ℕ) : Int) } = some none }
    L - 2 ^ pp.Bc.toNat * secret.toNat ≤ bad ∧ bad ≤ L + 2 ^ pp.Bc.toNat * secret.toNat := by
  classical
  dsimp only
  generalize hw : 2 ^ pp.Bc.toNat * secret.toNat = w at *
  have hw' : (2 : Int) ^ pp.Bc.toNat * secret = w := by
    rw [← hw]
    push_cast
    rw [Int.toNat_of_nonneg h0]
  rw [Nat.card_eq_fintype_card, Fintype.card_subtype]
  constructor
  · calc L - w = (Finset.univ : Finset (Fin (L - w))).card := by simp
      _ = ((Finset.univ : Finset (Fin (L - w))).map (Fin.castLEEmb (show L - w ≤ U by omega))).card := by rw [Finset.card_map]
      _ ≤ _ := by
        refine Finset.card_le_card fun k hk => ?_
        obtain ⟨j, _, rfl⟩ := Finset.mem_map.mp hk
        rw [Finset.mem_filter]
        refine ⟨Finset.mem_univ _, sigmaAttempt_low sha hsha pp hF hE hBc secret rp rq1 rq2 h0 _ ?_⟩
        rw [hw', hL]
        have := j.isLt
        show ((j : ℕ) : Int) + w < L
        omega
  · calc _ ≤ ((Finset.range L ∪ Finset.Ico (U - w) U : Finset ℕ)).card := by
          refine Finset.card_le_card_of_injOn (fun k : Fin U => (k : ℕ)) (fun k hk => ?_) (fun a _ b _ h => Fin.ext h)
          simp only [Finset.coe_filter, Finset.mem_univ, true_and, Set.mem_ofPred_eq] at hk
          simp only [Finset.coe_union, Finset.coe_range, Finset.coe_Ico, Set.mem_union, Set.mem_Iio, Set.mem_Ico]
          by_contra hc
          have hk' := k.isLt
          obtain ⟨pf, hp⟩ := (sigmaAttempt_safe sha hsha pp hF hE hBc secret rp rq1 rq2 h0 { s with k := ((k : ℕ) : Int) }).2
            (by rw [hL]; show (L : Int) ≤ ((k : ℕ) : Int); omega)
            (by rw [hU, hw']; show ((k : ℕ) : Int) + w < U; omega)
          rw [hp] at hk
          simp at hk
      _ ≤ L + w := by
        refine (Finset.card_union_le _ _).trans ?_
        rw [Finset.card_range, Nat.card_Ico]
        omega

/-- `n` attempts: on how many sequences of masks all are discarded. -/
theorem C85_attempts {E₁ E₂ : Type} (sha : Bytes → Bytes) (hsha : ∀ m, (sha m).length = 32) (pp : ProofParams E₁ E₂) {NF NE : Int}
    (hF : pp.GFF.N = some NF) (hE : pp.GEC.N = some NE) (hBc : pp.Bc.toNat < 264) (secret rp rq1 rq2 : Int) (h0 : 0 ≤ secret)
    {n : ℕ} (others : Fin n → SigmaSample) (L U : ℕ) (hL : pp.zLowerBound = L) (hU : pp.zUpperBound = U)
    (hLU : L + 2 ^ pp.Bc.toNat * secret.toNat ≤ U) :
    let bad := Nat.card { ks : Fin n → Fin U // sigmaProve sha pp secret rp rq1 rq2 (withMasks others ks) = .running }
    (L - 2 ^ pp.Bc.toNat * secret.toNat) ^ n ≤ bad ∧ bad ≤ (L + 2 ^ pp.Bc.toNat * secret.toNat) ^ n := by
  classical
  dsimp only
  have e : Nat.card { ks : Fin n → Fin U // sigmaProve sha pp secret rp rq1 rq2 (withMasks others ks) = .running } =
      ∏ i : Fin n, Nat.card { k : Fin U //
        sigmaAttempt sha pp secret rp rq1 rq2 { others i with k := ((k : ℕ) : Int) } = some none } := by
    rw [← Nat.card_pi]
    refine Nat.card_congr ?_
    refine (Equiv.subtypeEquivRight fun ks => ?_).trans
      (Equiv.subtypePiEquivPi (p := fun (i : Fin n) (k : Fin U) =>
        sigmaAttempt sha pp secret rp rq1 rq2 { others i with k := ((k : ℕ) : Int) } = some none))
    rw [sigmaProve_running, withMasks]
    simp [List.mem_ofFn]
  rw [e]
  have b := fun i => C85_attempt sha hsha pp hF hE hBc secret rp rq1 rq2 h0 (others i) L U hL hU hLU
  constructor
  · calc (L - 2 ^ pp.Bc.toNat * secret.toNat) ^ n = ∏ _i : Fin n, (L - 2 ^ pp.Bc.toNat * secret.toNat) := by simp
      _ ≤ _ := Finset.prod_le_prod' fun i _ => (b i).1
  · calc _ ≤ ∏ _i : Fin n, (L + 2 ^ pp.Bc.toNat * secret.toNat) := Finset.prod_le_prod' fun i _ => (b i).2
      _ = _ := by simp

theorem castVote_running {E : Type} {C : Grp E} {bits : ℕ} {D : Election Int E} (sha : Bytes → Bytes) (_ : Deployed C bits D)
    (rnd : CastRand) (tape : List SigmaSample) (choice : UInt16) (hc : drawChoice D.pp rnd.rChoice = some choice)
    (h : castVote sha D.pp { rnd with tape := tape } = .running) :
    ∃ rp rq1 rq2, ∀ tape', castVote sha D.pp { rnd with tape := tape' } = .running ↔
      sigmaProve sha D.pp.RPParams (choice.toNat : Int) rp rq1 rq2 tape' = .running := by
  revert h
  unfold castVote castChoice
  dsimp only
  rw [hc]
  dsimp only
  have eN : D.pp.ECGroupParams.N = some D.EC.N := rfl
  rw [eN]
  cases encryptVote D.pp.FFGroupParams.I D.pp.EGPK choice rnd.rEnc with
  | none => simp
  | some ct =>
    cases bpProve sha D.pp.BPParams rnd.bp1 ((choice - D.pp.candidateMin).toNat : Int) with
    | none => simp
    | some b1 =>
      rcases b1 with _ | b1
      · simp
      · cases bpProve sha D.pp.BPParams rnd.bp2 ((D.pp.candidateMax - choice).toNat : Int) with
        | none => simp
        | some b2 =>
          rcases b2 with _ | b2
          · simp
          · intro _
            refine ⟨ct.2, b1.2, D.EC.N - b2.2, fun tape' => ?_⟩
            dsimp only
            cases sigmaProve sha D.pp.RPParams (choice.toNat : Int) ct.2 b1.2 (D.EC.N - b2.2) tape' <;> simp

/-- **C85** How often the vote prover starts over on a deployed curve, whatever the digest function, the candidate and the other
draws are: out of the `2^((bits-1)n)` sequences of `n` masks, all `n` attempts are discarded on `(2^240)^n` sequences, give or take a
factor below `1 + 1/32` for each attempt.  The number is the same for all candidates up to that factor. -/
theorem C85_restarts (sha : Bytes → Bytes) (hsha : ∀ m, (sha m).length = 32) (nan64 : BitVec 64) {E : Type}
    (C : Grp E) (N bits : ℕ) (Bb : Int) (hr : (N, bits, Bb) ∈ curveTable)
    {M : Type} [AddCommGroup M] [Module (ZMod N) M] (L₂ : Lawful C N M)
    (hmap : ∀ s, SetupSeed 16 s → ∃ e, C.mapToGroup s = some e ∧ L₂.V e) :
    ∃ pp, setup nan64 C = some (.ok pp) ∧ ∀ (rnd : CastRand), 0 ≤ rnd.rChoice → rnd.rChoice < 1899 →
      ∀ (n : ℕ) (others : Fin n → SigmaSample),
        stillRunning sha pp rnd (2 ^ (bits - 1)) others ≤ (2 ^ 240 + 2 ^ 224 * (101 + rnd.rChoice.toNat)) ^ n ∧
        (CastDrawn bits { rnd with tape := [] } → CastRunOK sha pp rnd →
          (2 ^ 240 - 2 ^ 224 * (101 + rnd.rChoice.toNat)) ^ n ≤ stillRunning sha pp rnd (2 ^ (bits - 1)) others) := by
  obtain ⟨pp, hpp, hcast, _⟩ := C54_cast_completes sha hsha nan64 C N bits Bb hr L₂ hmap
  obtain ⟨D, L₁, L, hD, dep, ok⟩ := C47_legal nan64 C N bits Bb hr L₂ hmap
  have epp : pp = D.pp := by rw [hD] at hpp; exact (Except.ok.inj (Option.some.inj hpp)).symm
  subst epp
  refine ⟨D.pp, hD, fun rnd hr0 hr1 n others => ?_⟩
  have hbits : 253 ≤ bits := by
    simp only [curveTable, List.mem_cons, Prod.mk.injEq, List.not_mem_nil, or_false] at hr
    omega
  obtain ⟨choice, hc, hcv, _, hlt, _⟩ := C40_choice_range D.pp (by show D.lo < D.hi; rw [dep.lo, dep.hi]; decide) rnd.rChoice
    (by show _ ∧ _ < (((D.hi - D.lo).toNat : ℕ) : Int); rw [dep.lo, dep.hi]; exact ⟨hr0, hr1⟩)
  have hcmin : D.pp.candidateMin.toNat = 101 := by show D.lo.toNat = 101; rw [dep.lo]; rfl
  have hx : choice.toNat = 101 + rnd.rChoice.toNat := by
    have := hcv
    rw [hcmin] at this
    omega
  have hB : D.pp.RPParams.Bc.toNat = 224 := by show D.Bc.toNat = 224; rw [dep.Bc]; rfl
  have hl : D.pp.RPParams.zLowerBound = ((2 ^ 240 : ℕ) : Int) := by exact dep.zLower
  have hu : D.pp.RPParams.zUpperBound = ((2 ^ (bits - 1) : ℕ) : Int) := by
    rw [show D.pp.RPParams.zUpperBound = _ from dep.zUpper]; push_cast; rfl
  have hw : 2 ^ 240 + 2 ^ D.pp.RPParams.Bc.toNat * ((choice.toNat : Int)).toNat ≤ 2 ^ (bits - 1) := by
    have h1 : (2 : ℕ) ^ 252 ≤ 2 ^ (bits - 1) := Nat.pow_le_pow_right (by norm_num) (by omega)
    have h2 : rnd.rChoice.toNat < 1899 := by omega
    rw [hB, Int.toNat_natCast, hx]
    norm_num at h1 ⊢
    omega
  have key := fun rp rq1 rq2 => C85_attempts sha hsha D.pp.RPParams (NF := D.FF.N) (NE := D.EC.N) rfl rfl (by rw [hB]; norm_num)
    (choice.toNat : Int) rp rq1 rq2 (by positivity) others (2 ^ 240) (2 ^ (bits - 1)) hl hu hw
  rw [hB, Int.toNat_natCast, hx] at key
  have conv : ∀ tape, castVote sha D.pp { rnd with tape := tape } = .running →
      ∃ rp rq1 rq2, stillRunning sha D.pp rnd (2 ^ (bits - 1)) others = Nat.card { ks : Fin n → Fin (2 ^ (bits - 1)) //
        sigmaProve sha D.pp.RPParams (choice.toNat : Int) rp rq1 rq2 (withMasks others ks) = .running } := by
    intro tape ht
    obtain ⟨rp, rq1, rq2, h⟩ := castVote_running sha dep rnd tape choice hc ht
    exact ⟨rp, rq1, rq2, Nat.card_congr (Equiv.subtypeEquivRight fun ks => h _)⟩
  rw [hx] at conv
  constructor
  · rcases isEmpty_or_nonempty { ks : Fin n → Fin (2 ^ (bits - 1)) //
      castVote sha D.pp { rnd with tape := withMasks others ks } = .running } with he | ⟨⟨ks, hks⟩⟩
    · rw [stillRunning, Nat.card_of_isEmpty]
      exact Nat.zero_le _
    · obtain ⟨rp, rq1, rq2, e⟩ := conv _ hks
      rw [e]
      exact (key rp rq1 rq2).2
  · intro hd hrun
    have h0 : castVote sha D.pp { rnd with tape := [] } = .running := by
      have hnp := (hcast { rnd with tape := [] } hd hrun).1
      unfold castVote castChoice at hnp ⊢
      dsimp only at hnp ⊢
      rw [hc] at hnp ⊢
      dsimp only at hnp ⊢
      revert hnp
      repeat' split
      all_goals simp_all [sigmaProve]
    obtain ⟨rp, rq1, rq2, e⟩ := conv _ h0
    rw [e]
    exact (key rp rq1 rq2).1

/-- `n` consecutive attempts are all discarded with a probability between `2^-(most * n)` and `2^-(least * n)` over masks drawn
below `2^w`, for every candidate and all other draws; the lower bound for draws of the right lengths, no challenge a zero divisor -/
def RestartChance {E : Type} (sha : Bytes → Bytes) (pp : PublicParams Int E) (w least most : ℕ) : Prop :=
  ∀ rnd : CastRand, 0 ≤ rnd.rChoice → rnd.rChoice < 1899 → ∀ (n : ℕ) (others : Fin n → SigmaSample),
    stillRunning sha pp rnd (2 ^ w) others * 2 ^ (least * n) ≤ (2 ^ w) ^ n ∧
    ((rnd.bp1.sL.length = 16 ∧ rnd.bp1.sR.length = 16 ∧ rnd.bp2.sL.length = 16 ∧ rnd.bp2.sR.length = 16) → CastRunOK sha pp rnd →
      (2 ^ w) ^ n ≤ stillRunning sha pp rnd (2 ^ w) others * 2 ^ (most * n))

/-- **C85** as a probability, on every curve of the table -/
theorem C85_chance (sha : Bytes → Bytes) (hsha : ∀ m, (sha m).length = 32) (nan64 : BitVec 64) {E : Type}
    (C : Grp E) (N bits : ℕ) (Bb : Int) (hr : (N, bits, Bb) ∈ curveTable)
    {M : Type} [AddCommGroup M] [Module (ZMod N) M] (L₂ : Lawful C N M)
    (hmap : ∀ s, SetupSeed 16 s → ∃ e, C.mapToGroup s = some e ∧ L₂.V e) :
    ∃ pp, setup nan64 C = some (.ok pp) ∧ RestartChance sha pp (bits - 1) (bits - 242) (bits - 240) := by
  obtain ⟨pp, hpp, h⟩ := C85_restarts sha hsha nan64 C N bits Bb hr L₂ hmap
  refine ⟨pp, hpp, fun rnd h0 h1 n others => ?_⟩
  obtain ⟨u, l⟩ := h rnd h0 h1 n others
  have hbits : 253 ≤ bits := by
    simp only [curveTable, List.mem_cons, Prod.mk.injEq, List.not_mem_nil, or_false] at hr
    omega
  have h2 : rnd.rChoice.toNat < 1899 := by omega
  constructor
  · calc _ ≤ (2 ^ 241) ^ n * 2 ^ ((bits - 242) * n) := by
          refine Nat.mul_le_mul_right _ (u.trans (Nat.pow_le_pow_left ?_ n))
          norm_num
          omega
      _ = (2 ^ (bits - 1)) ^ n := by
        rw [pow_mul, ← mul_pow, ← pow_add, show 241 + (bits - 242) = bits - 1 by omega]
  · intro hl hrun
    calc (2 ^ (bits - 1)) ^ n = (2 ^ 239) ^ n * 2 ^ ((bits - 240) * n) := by
          rw [pow_mul, ← mul_pow, ← pow_add, show 239 + (bits - 240) = bits - 1 by omega]
      _ ≤ _ := by
        refine Nat.mul_le_mul_right _ ((Nat.pow_le_pow_left ?_ n).trans (l ⟨⟨h0, h1⟩, hl, by simp⟩ hrun))
        norm_num
        omega

/-- **C85** The four groups of the program, with the hash functions it uses: an attempt is discarded with a probability between
`2^-16` and `2^-14` on secp256k1 and P-256, `2^-13` and `2^-11` on Ristretto255, `2^-144` and `2^-142` on P-384, whatever happened in
the attempts before. -/
theorem C85_main (nan64 : BitVec 64) (L : K1Lib) (hL : L.Identities) (pieces : Bytes → List Bytes)
    (dec256 dec384 : Bytes → Option WPoint) :
    (∃ pp, setup nan64 (k1Grp L.real) = some (.ok pp) ∧ RestartChance sha256 pp 255 14 16) ∧
    (∃ pp, setup nan64 (r255Grp (r255Real pieces)) = some (.ok pp) ∧ RestartChance sha256 pp 252 11 13) ∧
    (∃ pp, setup nan64 (circlGrp (p256Real dec256)) = some (.ok pp) ∧ RestartChance sha256 pp 255 14 16) ∧
    (∃ pp, setup nan64 (circlGrp (p384Real dec384)) = some (.ok pp) ∧ RestartChance sha256 pp 383 142 144) := by
  refine ⟨?_, ?_, ?_, ?_⟩
  · let := k1Module
    exact C85_chance sha256 sha256_length nan64 (k1Grp L.real) k1N 256 15 k1_row (k1Lawful (real_identities hL).ok)
      (K1HashOK.legal (C66_seeds L))
  · let := r255Module
    exact C85_chance sha256 sha256_length nan64 (r255Grp (r255Real pieces)) r255N 253 12 r255_row (r255Lawful _)
      (r255_hash fun s _ => C65_pieces (pieces s))
  · have row := RealRow.p256 dec256
    have ok := stdCircl_ord row.std.circl
    have := ok.fact'
    let := ok.module
    obtain ⟨Bb, hr, _⟩ := row.std.table
    exact C85_chance sha256 sha256_length nan64 (circlGrp (p256Real dec256)) (p256Real dec256).n 256 Bb hr ok.lawful
      (fun s _ => ⟨_, rfl, (wLegal_iff _ _).mpr (row.valid s)⟩)
  · have row := RealRow.p384 dec384
    have ok := stdCircl_ord row.std.circl
    have := ok.fact'
    let := ok.module
    obtain ⟨Bb, hr, _⟩ := row.std.table
    exact C85_chance sha256 sha256_length nan64 (circlGrp (p384Real dec384)) (p384Real dec384).n 384 Bb hr ok.lawful
      (fun s _ => ⟨_, rfl, (wLegal_iff _ _).mpr (row.valid s)⟩)

/-- C85: with the digest and the draws of the example of C54, the prover may discard a thousand attempts in a row. -/
example (nan64 : BitVec 64) (dec : Bytes → Option WPoint) : ∃ pp, setup nan64 (circlGrp (p256Real dec)) = some (.ok pp) ∧
    0 < stillRunning (fun _ => List.replicate 31 0 ++ [1]) pp ⟨5, 9, ⟨1, 2, List.replicate 16 3, List.replicate 16 4, 5, 6, 7⟩,
      ⟨1, 2, List.replicate 16 3, List.replicate 16 4, 5, 6, 7⟩, []⟩ (2 ^ 255) (n := 1000) (fun i => ⟨0, i, 2 * i, 3⟩) := by
  have row := RealRow.p256 dec
  have ok := stdCircl_ord row.std.circl
  have := ok.fact'
  let := ok.module
  obtain ⟨Bb, hr, _⟩ := row.std.table
  have hmap : ∀ s, SetupSeed 16 s → ∃ e, (circlGrp (p256Real dec)).mapToGroup s = some e ∧ ok.lawful.V e :=
    fun s _ => ⟨_, rfl, (wLegal_iff _ _).mpr (row.valid s)⟩
  obtain ⟨pp, hpp, h⟩ := C85_chance (fun _ => List.replicate 31 0 ++ [1]) (fun _ => rfl) nan64 (circlGrp (p256Real dec))
    (p256Real dec).n 256 Bb hr ok.lawful hmap
  obtain ⟨pp', hpp', _, h'⟩ := C54_cast_completes (fun _ => List.replicate 31 0 ++ [1]) (fun _ => rfl) nan64 (circlGrp (p256Real dec))
    (p256Real dec).n 256 Bb hr ok.lawful hmap
  have e : pp' = pp := by rw [hpp] at hpp'; exact (Except.ok.inj (Option.some.inj hpp')).symm
  subst e
  refine ⟨pp', hpp, ?_⟩
  have hl := (h ⟨5, 9, ⟨1, 2, List.replicate 16 3, List.replicate 16 4, 5, 6, 7⟩,
      ⟨1, 2, List.replicate 16 3, List.replicate 16 4, 5, 6, 7⟩, []⟩ (by norm_num) (by norm_num) 1000 (fun i => ⟨0, i, 2 * i, 3⟩)).2
    ⟨rfl, rfl, rfl, rfl⟩ (h' (fun _ => by
      show Int.gcd (setBytes (List.replicate 31 0 ++ [1]) : ℕ) p256N = 1
      decide +kernel) _ ⟨by decide, by decide, by simp⟩)
  by_contra h0
  rw [Nat.eq_zero_of_not_pos h0, Nat.zero_mul] at hl
  have : 0 < ((2 : ℕ) ^ (256 - 1)) ^ 1000 := by positivity
  omega

end MscPoc
