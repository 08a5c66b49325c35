import Verif.Spec.Opening
import Verif.Spec.RecordedBallot
import Verif.Props.WeakFS

/-!
# C77 — the private key of the election is in the source, and opens every ballot

`setup` takes the number 13 as ElGamal private key (main.go:71), whatever the curve and whatever the random source.  So the ballot
that `castVote` returns names its candidate to everybody: with the public numbers `P`, 2 and 13 there is one `m` below 65536 that
satisfies `OpensTo`, and it is the choice.  The ballots under testdata open in the same way.
-/

set_option autoImplicit false

namespace MscPoc

/-- a ballot that was cast carries an `encryptVote` of the choice -/
theorem castChoice_encrypt {E₁ E₂ : Type} (sha : Bytes → Bytes) (pp : PublicParams E₁ E₂) (choice : UInt16) (rnd : CastRand)
    (b : BallotData E₁ E₂) (h : castChoice sha pp choice rnd = .done b) :
    ∃ rp, encryptVote pp.FFGroupParams.I pp.EGPK choice rnd.rEnc = some (b.Ballot, rp) := by
  unfold castChoice at h
  split at h
  · cases h
  rename_i ct rp he
  split at h
  · cases h
  · cases h
  split at h
  · cases h
  · cases h
  split at h
  · cases h
  dsimp only at h
  split at h
  · cases h
  · cases h
  cases h
  exact ⟨rp, he⟩

/-- `OpensTo` in terms of the group of the program -/
theorem opens_iff (L₁ : Lawful (modPGrp rfcGroup) modp3072Q (ModPM modp3072 modp3072Q)) (u v : Int) (hu : L₁.V u) (hv : L₁.V v)
    (m : ℕ) : OpensTo modp3072 u v m ↔ (m : ZMod modp3072Q) • L₁.g + (13 : ZMod modp3072Q) • L₁.den u = L₁.den v := by
  have e : (modPGrp rfcGroup).add ((modPGrp rfcGroup).mulGen m) ((modPGrp rfcGroup).mul u 13) =
      2 ^ m * u ^ 13 % (modp3072 : Int) := by
    show (bigExp (modPGrp rfcGroup).elt 2 (m : Int) (modp3072 : Int) * bigExp (modPGrp rfcGroup).elt u 13 (modp3072 : Int)) % (modp3072 : Int) = _
    unfold bigExp
    rw [if_pos (by omega), if_pos (by norm_num), Int.toNat_natCast, ← Int.mul_emod]
    rfl
  have h := L₁.isEqual_iff (L₁.V_add (L₁.V_mulGen (m : Int)) (L₁.V_mul 13 hu)) hv
  rw [L₁.den_add (L₁.V_mulGen _) (L₁.V_mul _ hu), L₁.den_mulGen, L₁.den_mul _ hu, e] at h
  have h2 : (modPGrp rfcGroup).isEqual (2 ^ m * u ^ 13 % (modp3072 : Int)) v = true ↔ OpensTo modp3072 u v m := by
    show ((_ : Int) == _) = true ↔ _
    rw [beq_iff_eq]
    rfl
  rw [← h2, h]
  push_cast
  rfl

/-- **C77** For the parameters `setup` returns, on every curve of the program: a ballot that was cast opens, with public numbers
only, to the choice and to no other number below 65536. -/
theorem C77_open {E : Type} (nan64 : BitVec 64) (C : Grp E)
    (N bits : ℕ) (Bb : Int) (hr : (N, bits, Bb) ∈ curveTable) {M : Type} [AddCommGroup M] [Module (ZMod N) M]
    (L₂ : Lawful C N M) (hmap : ∀ s, SetupSeed 16 s → ∃ e, C.mapToGroup s = some e ∧ L₂.V e) :
    ∃ D : Election Int E, setup nan64 C = some (.ok D.pp) ∧
      ∀ (sha : Bytes → Bytes) (choice : UInt16) (rnd : CastRand) (b : BallotData Int E),
        castChoice sha D.pp choice rnd = .done b →
        ∀ m : ℕ, m < 65536 → (OpensTo modp3072 b.Ballot.U b.Ballot.V m ↔ m = choice.toNat) := by
  obtain ⟨D, _, _, hD, dep, _⟩ := C47_legal nan64 C N bits Bb hr L₂ hmap
  refine ⟨D, hD, fun sha choice rnd b hb m hm => ?_⟩
  obtain ⟨rp, he⟩ := castChoice_encrypt sha D.pp choice rnd b hb
  change encryptVote D.FF D.PK choice rnd.rEnc = _ at he
  rw [dep.FF] at he
  let L₁ := modPLawful rfcGroup_ok
  have hpk : D.PK = (modPGrp rfcGroup).mulGen 13 := by
    have : (modPGrp rfcGroup).mulGen 13 = 8192 := by decide +kernel
    rw [dep.PK, this]
  have hVpk : L₁.V D.PK := by rw [hpk]; exact L₁.V_mulGen _
  have hg : L₁.g ≠ 0 := by
    intro h
    exact absurd ((L₁.isIdentity_iff L₁.V_gen).mpr h) (by decide +kernel)
  obtain ⟨_, hu, hv, du, dv⟩ := encryptVote_den (modPGrp rfcGroup) L₁ D.PK hVpk choice rnd.rEnc b.Ballot rp he
  rw [opens_iff L₁ _ _ hu hv, du, dv, hpk, L₁.den_mulGen]
  have : Fact modp3072Q.Prime := ⟨modp3072Q_prime⟩
  have h13 : (13 : ZMod modp3072Q) • (rp : ZMod modp3072Q) • L₁.g = (rp : ZMod modp3072Q) • ((13 : Int) : ZMod modp3072Q) • L₁.g := by
    rw [smul_smul, smul_smul, mul_comm]
    push_cast
    rfl
  rw [h13, add_left_inj]
  have hc : choice.toNat < 65536 := choice.toNat_lt
  have big : 65536 < modp3072Q := by decide +kernel
  constructor
  · intro h
    rw [← sub_eq_zero, ← sub_smul, smul_eq_zero] at h
    have h3 := h.resolve_right hg
    rw [sub_eq_zero] at h3
    have h4 : (m : ZMod modp3072Q) = (choice.toNat : ZMod modp3072Q) := by rw [h3]; push_cast; rfl
    rw [ZMod.natCast_eq_natCast_iff', Nat.mod_eq_of_lt (by omega), Nat.mod_eq_of_lt (by omega)] at h4
    exact h4
  · rintro rfl
    push_cast
    rfl

/-- **C77** The same for `castVote`: the ballot tells everybody the number that the voter's client drew. -/
theorem C77_cast {E : Type} (nan64 : BitVec 64) (C : Grp E)
    (N bits : ℕ) (Bb : Int) (hr : (N, bits, Bb) ∈ curveTable) {M : Type} [AddCommGroup M] [Module (ZMod N) M]
    (L₂ : Lawful C N M) (hmap : ∀ s, SetupSeed 16 s → ∃ e, C.mapToGroup s = some e ∧ L₂.V e) :
    ∃ D : Election Int E, setup nan64 C = some (.ok D.pp) ∧
      ∀ (sha : Bytes → Bytes) (rnd : CastRand), 0 ≤ rnd.rChoice → rnd.rChoice < 1899 →
        ∀ b : BallotData Int E, castVote sha D.pp rnd = .done b →
        ∀ m : ℕ, m < 65536 → (OpensTo modp3072 b.Ballot.U b.Ballot.V m ↔ (m : Int) = 101 + rnd.rChoice) := by
  obtain ⟨D, hD, h⟩ := C77_open nan64 C N bits Bb hr L₂ hmap
  obtain ⟨D', _, _, hD', dep, _⟩ := C47_legal nan64 C N bits Bb hr L₂ hmap
  have hpp : D'.pp = D.pp := by
    rw [hD] at hD'
    exact (Except.ok.inj (Option.some.inj hD')).symm
  refine ⟨D, hD, fun sha rnd h0 h1 b hb m hm => ?_⟩
  have hlo : D.pp.candidateMin = 101 := by rw [← hpp]; exact dep.lo
  have hhi : D.pp.candidateMax = 2000 := by rw [← hpp]; exact dep.hi
  have hw : (D.pp.candidateMax - D.pp.candidateMin).toNat = 1899 := by rw [hlo, hhi]; rfl
  obtain ⟨choice, hd, hc, -⟩ := C40_choice_range D.pp (by rw [hlo, hhi]; decide) rnd.rChoice ⟨h0, by rw [hw]; exact h1⟩
  unfold castVote at hb
  rw [hd] at hb
  rw [h sha choice rnd b hb m hm]
  have : D.pp.candidateMin.toNat = 101 := by rw [hlo]; rfl
  rw [this] at hc
  omega

/-- **C77** The votes recorded under testdata. -/
theorem C77_recorded : OpensTo modp3072 recBallot256.u recBallot256.v 883 ∧ OpensTo modp3072 recBallot384.u recBallot384.v 975 := by
  unfold OpensTo
  decide +kernel

/-- **C77** Any two numbers, whoever wrote them: at most one plaintext below 65536 opens them. -/
theorem C77_unique (u v : Int) (hu : ¬ (modp3072 : Int) ∣ u) (m m' : ℕ) (hm : m < 65536) (hm' : m' < 65536)
    (h : OpensTo modp3072 u v m) (h' : OpensTo modp3072 u v m') : m = m' := by
  have hp : Prime (modp3072 : Int) := Nat.prime_iff_prime_int.mp modp3072_isPrime
  have hd : (modp3072 : Int) ∣ 2 ^ m * u ^ 13 - 2 ^ m' * u ^ 13 := Int.dvd_of_emod_eq_zero (Int.emod_eq_emod_iff_emod_sub_eq_zero.mp (h.trans h'.symm))
  rw [← sub_mul] at hd
  have h2 := (hp.dvd_or_dvd hd).resolve_right fun hx => hu (hp.dvd_of_dvd_pow hx)
  have h3 : (2 : Int) ^ m % modp3072 = 2 ^ m' % modp3072 := Int.emod_eq_emod_iff_emod_sub_eq_zero.mpr (Int.emod_eq_zero_of_dvd h2)
  let L₁ := modPLawful rfcGroup_ok
  have hg : L₁.g ≠ 0 := by
    intro h
    exact absurd ((L₁.isIdentity_iff L₁.V_gen).mpr h) (by decide +kernel)
  have e : ∀ k : ℕ, (modPGrp rfcGroup).mulGen k = 2 ^ k % (modp3072 : Int) := by
    intro k
    show bigExp (modPGrp rfcGroup).elt 2 (k : Int) (modp3072 : Int) = _
    unfold bigExp
    rw [if_pos (by omega), Int.toNat_natCast]
  have h4 : L₁.den ((modPGrp rfcGroup).mulGen m) = L₁.den ((modPGrp rfcGroup).mulGen m') := by rw [e, e, h3]
  rw [L₁.den_mulGen, L₁.den_mulGen, ← sub_eq_zero, ← sub_smul] at h4
  have : Fact modp3072Q.Prime := ⟨modp3072Q_prime⟩
  have big : 65536 < modp3072Q := by decide +kernel
  have h5 := (smul_eq_zero.mp h4).resolve_right hg
  rw [sub_eq_zero] at h5
  have h6 : (m : ZMod modp3072Q) = (m' : ZMod modp3072Q) := by exact_mod_cast h5
  rw [ZMod.natCast_eq_natCast_iff', Nat.mod_eq_of_lt (by omega), Nat.mod_eq_of_lt (by omega)] at h6
  exact h6

/-- the ciphertexts of testdata are not multiples of the modulus, so 883 and 975 are the only openings -/
theorem C77_recorded_only (m : ℕ) (h : m < 65536) :
    (OpensTo modp3072 recBallot256.u recBallot256.v m ↔ m = 883) ∧ (OpensTo modp3072 recBallot384.u recBallot384.v m ↔ m = 975) := by
  refine ⟨⟨fun h1 => C77_unique _ _ (by decide +kernel) m 883 h (by norm_num) h1 C77_recorded.1, ?_⟩,
    ⟨fun h1 => C77_unique _ _ (by decide +kernel) m 975 h (by norm_num) h1 C77_recorded.2, ?_⟩⟩
  · rintro rfl
    exact C77_recorded.1
  · rintro rfl
    exact C77_recorded.2

/-- a ciphertext of 150 with randomness 5 -/
example : ∃ ct r, encryptVote (modPGrp rfcGroup) 8192 150 4 = some (ct, r) ∧ OpensTo modp3072 ct.U ct.V 150 ∧ ¬ OpensTo modp3072 ct.U ct.V 151 := by
  refine ⟨_, _, if_neg (by decide +kernel), ?_⟩
  unfold OpensTo
  decide +kernel

end MscPoc
