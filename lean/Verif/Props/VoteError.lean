import Verif.Spec.VoteError
import Verif.Props.BallotSound
import Verif.Props.HidingAll

/-!
# C103 — vote proofs and provers of unlimited power
-/

set_option autoImplicit false

namespace MscPoc

/-- byte strings of one length that agree in their first bytes -/
theorem card_prefix (n m : ℕ) (S : Set Bytes) (hl : ∀ d ∈ S, d.length = n + m)
    (hs : ∀ d ∈ S, ∀ d' ∈ S, d.take n = d'.take n) : S.Finite ∧ S.ncard ≤ 256 ^ m := by
  have hmaps : ∀ d ∈ S, setBytes (d.drop n) ∈ Set.Iio (256 ^ m) := by
    intro d hd
    have := setBytes_lt (d.drop n)
    rwa [List.length_drop, hl d hd, Nat.add_sub_cancel_left] at this
  have hinj : Set.InjOn (fun d : Bytes => setBytes (d.drop n)) S := by
    intro d hd d' hd' h
    have := setBytes_inj (by simp [hl d hd, hl d' hd']) h
    rw [← List.take_append_drop n d, ← List.take_append_drop n d', this, hs d hd d' hd']
  have hfin : (Set.Iio (256 ^ m)).Finite := Set.finite_Iio _
  refine ⟨Set.Finite.of_injOn hmaps hinj hfin, ?_⟩
  refine le_trans (Set.ncard_le_ncard_of_injOn _ hmaps hinj hfin) ?_
  rw [← Finset.coe_range, Set.ncard_coe_finset, Finset.card_range]

section
variable {E₁ E₂ M₁ M₂ : Type} {q₁ q₂ : ℕ} [AddCommGroup M₁] [Module (ZMod q₁) M₁] [AddCommGroup M₂] [Module (ZMod q₂) M₂]

/-- every group element of statement, parameters and first move is legal -/
structure MoveLegal (pp : ProofParams E₁ E₂) (L₁ : Lawful pp.GFF.I q₁ M₁) (L₂ : Lawful pp.GEC.I q₂ M₂) (comm : VerCommitments E₁ E₂)
    (f : FirstMove E₁ E₂) : Prop where
  H₁ : L₁.V pp.GFF.H
  H₂ : L₂.V pp.GEC.H
  W : L₁.V f.W
  Kp : L₁.V f.Kp
  Kq1 : L₂.V f.Kq1
  Kq2 : L₂.V f.Kq2
  Y : L₁.V comm.Y
  Xp : L₁.V comm.Xp
  Xq1 : L₂.V comm.Xq1
  Xq2 : L₂.V comm.Xq2

/-- **C103** Only the hash value of the move matters: with the digest function `sha`, the move can be completed exactly if its hash value
is among the answerable ones. -/
theorem C103_digest (pp : ProofParams E₁ E₂) (comm : VerCommitments E₁ E₂) (f : FirstMove E₁ E₂) (sha : Bytes → Bytes)
    (hsha : ∀ m, (sha m).length = 32) :
    (∃ pf : SigmaProof E₁ E₂, pf.Completes f pp ∧ pf.verify sha comm = some true) ↔
      sha (pp.GFF.I.str f.W ++ pp.GFF.I.str f.Kp ++ pp.GEC.I.str f.Kq1 ++ pp.GEC.I.str f.Kq2) ∈ answerable pp comm f := by
  have key : ∀ pf : SigmaProof E₁ E₂, pf.Completes f pp → (pf.verify sha comm = some true ↔
      pf.verify (fun _ => sha (pp.GFF.I.str f.W ++ pp.GFF.I.str f.Kp ++ pp.GEC.I.str f.Kq1 ++ pp.GEC.I.str f.Kq2)) comm =
        some true) := by
    rintro pf ⟨h1, h2, h3, h4, h5⟩
    rw [sigma_verify_iff, sigma_verify_iff]
    have : getFSChallenge sha pf.Params.GFF.I pf.Params.GEC.I pf.W pf.Kp pf.Kq1 pf.Kq2 pf.Params.Bc =
        getFSChallenge (fun _ => sha (pp.GFF.I.str f.W ++ pp.GFF.I.str f.Kp ++ pp.GEC.I.str f.Kq1 ++ pp.GEC.I.str f.Kq2))
          pf.Params.GFF.I pf.Params.GEC.I pf.W pf.Kp pf.Kq1 pf.Kq2 pf.Params.Bc := by
      rw [h1, h2, h3, h4, h5]
      rfl
    rw [this]
  constructor
  · rintro ⟨pf, hc, hv⟩
    exact ⟨hsha _, pf, hc, (key pf hc).mp hv⟩
  · rintro ⟨-, pf, hc, hv⟩
    exact ⟨pf, hc, (key pf hc).mpr hv⟩

/-- an answered hash value, as an equation in the first group -/
theorem answerable_eq (pp : ProofParams E₁ E₂) (L₁ : Lawful pp.GFF.I q₁ M₁) (L₂ : Lawful pp.GEC.I q₂ M₂) {comm : VerCommitments E₁ E₂}
    {f : FirstMove E₁ E₂} (hl : MoveLegal pp L₁ L₂ comm f) (sk : ZMod q₁) (hsk : L₁.den pp.GFF.H = sk • L₁.g) (d : Bytes)
    (hd : d ∈ answerable pp comm f) :
    pp.Bc.toNat / 8 ≤ 32 ∧ ∃ z : Int, pp.zLowerBound ≤ z ∧ z < pp.zUpperBound ∧ (z : ZMod q₁) • L₁.g =
      ((setBytes (d.take (pp.Bc.toNat / 8)) : ℕ) : ZMod q₁) • (L₁.den comm.Xp - sk • L₁.den comm.Y) +
        (L₁.den f.Kp - sk • L₁.den f.W) := by
  obtain ⟨hlen, pf, ⟨h1, h2, h3, h4, rfl⟩, hv⟩ := hd
  rw [sigma_verify_iff] at hv
  obtain ⟨Z, c, Sp, Sq1, Sq2, -, -, -, -, -, hz, hch, hk⟩ := hv
  have hc := C28_challenge (fun _ => d) (fun _ => hlen) pf.Params.GFF.I pf.Params.GEC.I pf.W pf.Kp pf.Kq1 pf.Kq2 pf.Params.Bc
  have hBc : ¬ 264 ≤ pf.Params.Bc.toNat := fun h => by
    rw [hc.1.mpr h] at hch
    cases hch
  have hce := (hc.2 c hch).1
  have e := (sigmaChecks_iff pf.Params L₁ L₂ pf comm
    ⟨hl.H₁, hl.H₂, h1 ▸ hl.W, h2 ▸ hl.Kp, h3 ▸ hl.Kq1, h4 ▸ hl.Kq2, hl.Y, hl.Xp, hl.Xq1, hl.Xq2⟩ Z c Sp Sq1 Sq2).mp hk
  obtain ⟨hz1, hz2⟩ := (zOk_iff _ _).mp hz
  refine ⟨by omega, Z, hz1, hz2, ?_⟩
  have e1 := e.eqY
  have e2 := e.eqXp
  rw [hsk] at e2
  rw [hce, h1] at e1
  rw [hce, h2] at e2
  simp only [Int.cast_natCast] at e1 e2
  linear_combination (norm := module) e2 - sk • e1

/-- **C103** Votes that the proof excludes: unless the vote — what the ciphertext decrypts to — is a fraction with numerator below
`hi - lo` and denominator below `2^Bc`, at most one challenge can be answered after any given first move, by a prover of any power and
for any range-proof commitments: at most `256^(32 - Bc/8)` of the `256^32` hash values. -/
theorem C103_bound [Fact q₁.Prime] (pp : ProofParams E₁ E₂) (L₁ : Lawful pp.GFF.I q₁ M₁) (L₂ : Lawful pp.GEC.I q₂ M₂) (hg : L₁.g ≠ 0)
    (comm : VerCommitments E₁ E₂) (f : FirstMove E₁ E₂) (hl : MoveLegal pp L₁ L₂ comm f) (sk x : ZMod q₁)
    (hsk : L₁.den pp.GFF.H = sk • L₁.g) (hx : L₁.den comm.Xp - sk • L₁.den comm.Y = x • L₁.g)
    (hns : ¬ ShortFraction (pp.zUpperBound - pp.zLowerBound) (256 ^ (pp.Bc.toNat / 8)) x) :
    (∀ d ∈ answerable pp comm f, ∀ d' ∈ answerable pp comm f, d.take (pp.Bc.toNat / 8) = d'.take (pp.Bc.toNat / 8)) ∧
      (answerable pp comm f).Finite ∧ (answerable pp comm f).ncard ≤ 256 ^ (32 - pp.Bc.toNat / 8) := by
  have hone : ∀ d ∈ answerable pp comm f, ∀ d' ∈ answerable pp comm f, d.take (pp.Bc.toNat / 8) = d'.take (pp.Bc.toNat / 8) := by
    intro d hd d' hd'
    obtain ⟨hb, z, z1, z2, e⟩ := answerable_eq pp L₁ L₂ hl sk hsk d hd
    obtain ⟨_, z', z1', z2', e'⟩ := answerable_eq pp L₁ L₂ hl sk hsk d' hd'
    have l1 : (d.take (pp.Bc.toNat / 8)).length = pp.Bc.toNat / 8 := by rw [List.length_take, hd.1]; omega
    have l2 : (d'.take (pp.Bc.toNat / 8)).length = pp.Bc.toNat / 8 := by rw [List.length_take, hd'.1]; omega
    have b1 := setBytes_lt (d.take (pp.Bc.toNat / 8))
    have b2 := setBytes_lt (d'.take (pp.Bc.toNat / 8))
    rw [l1] at b1
    rw [l2] at b2
    refine setBytes_inj (l1.trans l2.symm) ?_
    obtain ⟨c, hc⟩ : ∃ c, setBytes (d.take (pp.Bc.toNat / 8)) = c := ⟨_, rfl⟩
    obtain ⟨c', hc'⟩ : ∃ c, setBytes (d'.take (pp.Bc.toNat / 8)) = c := ⟨_, rfl⟩
    rw [hc] at e b1 ⊢
    rw [hc'] at e' b2 ⊢
    rw [hx] at e e'
    have hdiff : ((((c : Int) - c' : Int) : ZMod q₁) * x - ((z - z' : Int) : ZMod q₁)) • L₁.g = 0 := by
      push_cast
      linear_combination (norm := module) e' - e
    have hxx : (((c : Int) - c' : Int) : ZMod q₁) * x = ((z - z' : Int) : ZMod q₁) :=
      sub_eq_zero.mp ((smul_eq_zero.mp hdiff).resolve_right hg)
    have b1' : (c : Int) < 256 ^ (pp.Bc.toNat / 8) := by exact_mod_cast b1
    have b2' : (c' : Int) < 256 ^ (pp.Bc.toNat / 8) := by exact_mod_cast b2
    by_contra hne
    rcases Nat.lt_or_gt_of_ne hne with h | h
    · refine hns ⟨z' - z, (c' : Int) - c, abs_lt.mpr ⟨by omega, by omega⟩, by omega, by omega, ?_⟩
      rw [show ((c' : Int) - c) = -((c : Int) - c') by ring, show z' - z = -(z - z') by ring, Int.cast_neg, Int.cast_neg, neg_mul, hxx]
    · exact hns ⟨z - z', (c : Int) - c', abs_lt.mpr ⟨by omega, by omega⟩, by omega, by omega, hxx⟩
  refine ⟨hone, ?_⟩
  by_cases hem : answerable pp comm f = ∅
  · rw [hem]
    simp
  · obtain ⟨d, hd⟩ := Set.nonempty_iff_ne_empty.mpr hem
    have hb := (answerable_eq pp L₁ L₂ hl sk hsk d hd).1
    exact card_prefix _ _ _ (fun d hd => by rw [hd.1]; omega) hone

/-- **C103** Nothing else matters to a prover of unlimited power: after any first move, a hash value can be answered exactly if the
challenge times the vote, plus the number that `(W, Kp)` decrypts to, is in the interval for `Z` modulo the order of the first group.
The range-proof commitments are irrelevant. -/
theorem C103_exact [Fact q₁.Prime] [Fact q₂.Prime] (pp : ProofParams E₁ E₂) (L₁ : Lawful pp.GFF.I q₁ M₁)
    (L₂ : Lawful pp.GEC.I q₂ M₂) (hspan : ∀ m : M₁, ∃ a : ZMod q₁, a • L₁.g = m) (hgen : ∀ m : M₂, ∃ a : ZMod q₂, a • L₂.den pp.GEC.H = m)
    (hg : L₁.g ≠ 0) (hBc : pp.Bc.toNat < 264) (comm : VerCommitments E₁ E₂) (f : FirstMove E₁ E₂) (hl : MoveLegal pp L₁ L₂ comm f)
    (sk x k : ZMod q₁) (hsk : L₁.den pp.GFF.H = sk • L₁.g) (hx : L₁.den comm.Xp - sk • L₁.den comm.Y = x • L₁.g)
    (hk : L₁.den f.Kp - sk • L₁.den f.W = k • L₁.g) (d : Bytes) :
    d ∈ answerable pp comm f ↔ d.length = 32 ∧ ∃ z : Int, pp.zLowerBound ≤ z ∧ z < pp.zUpperBound ∧
      (z : ZMod q₁) = ((setBytes (d.take (pp.Bc.toNat / 8)) : ℕ) : ZMod q₁) * x + k := by
  constructor
  · intro hd
    obtain ⟨-, z, z1, z2, e⟩ := answerable_eq pp L₁ L₂ hl sk hsk d hd
    refine ⟨hd.1, z, z1, z2, ?_⟩
    rw [hx, hk, smul_smul, ← add_smul, ← sub_eq_zero, ← sub_smul] at e
    exact sub_eq_zero.mp ((smul_eq_zero.mp e).resolve_right hg)
  · rintro ⟨hlen, z, z1, z2, e⟩
    obtain ⟨c, hc⟩ : ∃ c : ℕ, setBytes (d.take (pp.Bc.toNat / 8)) = c := ⟨_, rfl⟩
    rw [hc] at e
    obtain ⟨sp, hsp⟩ := hspan ((c : ZMod q₁) • L₁.den comm.Y + L₁.den f.W)
    obtain ⟨s1, hs1⟩ := hgen ((c : ZMod q₂) • L₂.den comm.Xq1 + L₂.den f.Kq1 - (z : ZMod q₂) • L₂.g)
    obtain ⟨s2, hs2⟩ := hgen ((c : ZMod q₂) • L₂.den comm.Xq2 + L₂.den f.Kq2 - (z : ZMod q₂) • L₂.g)
    have : NeZero q₁ := ⟨(Fact.out : q₁.Prime).ne_zero⟩
    have : NeZero q₂ := ⟨(Fact.out : q₂.Prime).ne_zero⟩
    have cp : (((sp.val : Int)) : ZMod q₁) = sp := by simp
    have c1 : (((s1.val : Int)) : ZMod q₂) = s1 := by simp
    have c2 : (((s2.val : Int)) : ZMod q₂) = s2 := by simp
    refine ⟨hlen, ⟨f.W, f.Kp, f.Kq1, f.Kq2, some (c : Int), some z, some (sp.val : Int), some (s1.val : Int), some (s2.val : Int), pp⟩,
      ⟨rfl, rfl, rfl, rfl, rfl⟩, ?_⟩
    rw [sigma_verify_iff]
    refine ⟨z, c, sp.val, s1.val, s2.val, rfl, rfl, rfl, rfl, rfl, (zOk_iff _ _).mpr ⟨z1, z2⟩, ?_, ?_⟩
    · unfold getFSChallenge sliceTo
      dsimp only
      rw [if_pos (by rw [hlen]; omega), ← hc]
      rfl
    · refine (sigmaChecks_iff pp L₁ L₂ _ comm
        ⟨hl.H₁, hl.H₂, hl.W, hl.Kp, hl.Kq1, hl.Kq2, hl.Y, hl.Xp, hl.Xq1, hl.Xq2⟩ _ _ _ _ _).mpr ⟨?_, ?_, ?_, ?_⟩
      · rw [cp, hsp, Int.cast_natCast]
      · dsimp only
        rw [cp, hsk, smul_comm, hsp, Int.cast_natCast, e]
        linear_combination (norm := module) (-(c : ZMod q₁)) • hx - hk
      · dsimp only
        rw [c1, hs1, Int.cast_natCast]
        module
      · dsimp only
        rw [c2, hs2, Int.cast_natCast]
        module

/-- **C103** The bound is about the right set of votes: if `den * x = num` for numbers `0 < den`, `0 ≤ num`, then after a first move with
suitable `k`, every hash value whose challenge is a multiple of `den` can be answered; all of them if `x` is a whole number. -/
theorem C103_fraction [Fact q₁.Prime] [Fact q₂.Prime] (pp : ProofParams E₁ E₂) (L₁ : Lawful pp.GFF.I q₁ M₁)
    (L₂ : Lawful pp.GEC.I q₂ M₂) (hspan : ∀ m : M₁, ∃ a : ZMod q₁, a • L₁.g = m) (hgen : ∀ m : M₂, ∃ a : ZMod q₂, a • L₂.den pp.GEC.H = m)
    (hg : L₁.g ≠ 0) (hBc : pp.Bc.toNat < 264) (comm : VerCommitments E₁ E₂) (f : FirstMove E₁ E₂) (hl : MoveLegal pp L₁ L₂ comm f)
    (sk x : ZMod q₁) (num den k : ℕ) (hsk : L₁.den pp.GFF.H = sk • L₁.g) (hx : L₁.den comm.Xp - sk • L₁.den comm.Y = x • L₁.g)
    (hk : L₁.den f.Kp - sk • L₁.den f.W = (k : ZMod q₁) • L₁.g) (hden : 0 < den) (hfr : (den : ZMod q₁) * x = num)
    (hk1 : pp.zLowerBound ≤ k) (hk2 : (k : Int) + num * 256 ^ (pp.Bc.toNat / 8) ≤ pp.zUpperBound)
    (d : Bytes) (hd : d.length = 32) (hdvd : den ∣ setBytes (d.take (pp.Bc.toNat / 8))) (hnum : 0 < num) :
    d ∈ answerable pp comm f := by
  rw [C103_exact pp L₁ L₂ hspan hgen hg hBc comm f hl sk x k hsk hx hk]
  obtain ⟨t, ht⟩ := hdvd
  have hb := setBytes_lt (d.take (pp.Bc.toNat / 8))
  rw [List.length_take, hd, min_eq_left (by omega)] at hb
  have ht' : t < 256 ^ (pp.Bc.toNat / 8) := lt_of_le_of_lt (by rw [ht]; exact Nat.le_mul_of_pos_left t hden) hb
  refine ⟨hd, k + num * t, ?_, ?_, ?_⟩
  · have : (0 : Int) ≤ num * t := by positivity
    omega
  · refine lt_of_lt_of_le ?_ hk2
    have : num * t < num * 256 ^ (pp.Bc.toNat / 8) := Nat.mul_lt_mul_of_pos_left ht' hnum
    have : ((num * t : ℕ) : Int) < ((num * 256 ^ (pp.Bc.toNat / 8) : ℕ) : Int) := by exact_mod_cast this
    push_cast at this
    omega
  · rw [ht]
    push_cast
    linear_combination (-(t : ZMod q₁)) * hfr

end

/-- **C103** There are few such votes: fewer than `2 a b`. -/
theorem C103_few {q : ℕ} [Fact q.Prime] (a b : ℕ) (hb : b ≤ q) :
    {x : ZMod q | ShortFraction (a : Int) (b : Int) x}.ncard ≤ 2 * a * b := by
  classical
  have hsub : {x : ZMod q | ShortFraction (a : Int) (b : Int) x} ⊆
      ((Finset.Ioo (-(a : Int)) a ×ˢ Finset.Ioo 0 (b : Int)).image fun p : Int × Int => (p.1 : ZMod q) / (p.2 : ZMod q) : Finset (ZMod q)) := by
    rintro x ⟨n, d, hn, hd0, hdb, e⟩
    obtain ⟨n1, n2⟩ := abs_lt.mp hn
    rw [Finset.mem_coe, Finset.mem_image]
    refine ⟨(n, d), by simp [n1, n2, hd0, hdb], ?_⟩
    have hd : (d : ZMod q) ≠ 0 := by
      rw [Ne, ZMod.intCast_zmod_eq_zero_iff_dvd]
      intro h
      have := Int.le_of_dvd hd0 h
      omega
    rw [← e]
    exact mul_div_cancel_left₀ x hd
  refine le_trans (Set.ncard_le_ncard hsub (Finset.finite_toSet _)) ?_
  rw [Set.ncard_coe_finset]
  refine le_trans Finset.card_image_le ?_
  rw [Finset.card_product, Int.card_Ioo, Int.card_Ioo]
  exact Nat.mul_le_mul (by omega) (by omega)

/-- **C103** The parameters of `setup` on each of the four curves (`bits` is 256, 253, 256 or 384): unless a ciphertext decrypts to one of
at most `2^(bits + 224)` fractions, of more than `2^3070` votes there are, at most `2^32` of the `2^256` hash values of any given first
move can be answered, whatever the prover's power. -/
theorem C103_deployed {E : Type} (nan64 : BitVec 64) (C : Grp E)
    (N bits : ℕ) (Bb : Int) (hr : (N, bits, Bb) ∈ curveTable) [Fact N.Prime] {M : Type} [AddCommGroup M] [Module (ZMod N) M]
    (L₂ : Lawful C N M) (hmap : ∀ s, SetupSeed 16 s → ∃ e, C.mapToGroup s = some e ∧ L₂.V e) :
    ∃ (D : Election Int E) (L₁ : Lawful D.pp.RPParams.GFF.I modp3072Q (ModPM modp3072 modp3072Q)) (L : Lawful D.pp.RPParams.GEC.I N M),
      setup nan64 C = some (.ok D.pp) ∧
      (∀ (comm : VerCommitments Int E) (f : FirstMove Int E), MoveLegal D.pp.RPParams L₁ L comm f → ∀ x : ZMod modp3072Q,
        L₁.den (elgamalDecrypt D.FF 13 ⟨comm.Y, comm.Xp⟩) = x • L₁.g →
        ¬ ShortFraction (2 ^ (bits - 1)) (2 ^ 224) x → (answerable D.pp.RPParams comm f).ncard ≤ 2 ^ 32) ∧
      {x : ZMod modp3072Q | ShortFraction (2 ^ (bits - 1)) (2 ^ 224) x}.ncard ≤ 2 ^ (bits + 224) ∧ 2 ^ 3070 < modp3072Q := by
  obtain ⟨D, L₁, L, hD, dep, ok⟩ := C47_legal nan64 C N bits Bb hr L₂ hmap
  obtain ⟨hsetup, hq₁, -, -, -, -, -, -, hpk⟩ := dep.sizes hr
  have hBc : D.Bc.toNat = 224 := by rw [dep.Bc]; rfl
  have hBx : D.Bx.toNat = 16 := by rw [dep.Bx]; rfl
  have hbits : 253 ≤ bits := by
    have : ∀ r ∈ curveTable, 253 ≤ r.2.1 := by decide
    exact this _ hr
  have hg : L₁.g ≠ 0 := by
    intro h
    have := (L₁.isIdentity_iff L₁.V_gen).mpr h
    rw [dep.FF] at this
    exact absurd this (by decide +kernel)
  have hPK : L₁.den D.PK = ((13 : Int) : ZMod modp3072Q) • L₁.g := by rw [hpk, L₁.den_mulGen]
  obtain ⟨-, g2, -, -, -, -, -, -, -, -, g11, g12⟩ := vpSetup_ok hsetup
  have hup : D.rp.zUpperBound = 2 ^ (bits - 1) := by rw [g12, dep.Bg]
  have hlo : 0 ≤ D.rp.zLowerBound := by unfold ProofParams.zLowerBound; positivity
  refine ⟨D, L₁, L, hD, fun comm f hl x hx hns => ?_, ?_, by decide +kernel⟩
  · have hx' : L₁.den comm.Xp - ((13 : Int) : ZMod modp3072Q) • L₁.den comm.Y = x • L₁.g := by
      refine Eq.trans ?_ hx
      unfold elgamalDecrypt
      exact ((L₁.den_sub hl.Xp (L₁.V_mul _ hl.Y)).trans (by rw [L₁.den_mul _ hl.Y])).symm
    have := (C103_bound D.rp L₁ L hg comm f hl _ x hPK hx' (fun h => hns ?_)).2.2
    · have e : D.rp.Bc.toNat = 224 := hBc
      rw [e] at this
      exact this.trans (by norm_num)
    · obtain ⟨n, d, h1, h2, h3, h4⟩ := h
      have e : D.rp.Bc.toNat = 224 := hBc
      rw [e] at h3
      rw [hup] at h1
      exact ⟨n, d, by omega, h2, lt_of_lt_of_le h3 (by norm_num), h4⟩
  · have := C103_few (q := modp3072Q) (2 ^ (bits - 1)) (2 ^ 224) (by rw [hBc] at hq₁; exact hq₁)
    simp only [Nat.cast_pow, Nat.cast_ofNat] at this
    refine this.trans (le_of_eq ?_)
    rw [← pow_succ', show bits - 1 + 1 = bits by omega, pow_add]

/-- the subgroup of the deployed first group is generated by any of its elements but the identity -/
theorem modP_span {p q : ℕ} [Fact p.Prime] [Fact q.Prime] {g : ModPM p q} (hg : g ≠ 0) (m : ModPM p q) : ∃ a : ZMod q, a • g = m := by
  have : NeZero q := ⟨(Fact.out : q.Prime).ne_zero⟩
  have hinj : Function.Injective fun a : ZMod q => a • g := fun a b h => by
    have : (a - b) • g = 0 := by rw [sub_smul]; exact sub_eq_zero.mpr h
    exact sub_eq_zero.mp ((smul_eq_zero.mp this).resolve_right hg)
  have hcard : Nat.card (ModPM p q) ≤ Nat.card (ZMod q) := by
    rw [Nat.card_zmod]
    exact card_rootsOfUnity (ZMod p) q
  have : Finite (ModPM p q) := inferInstanceAs (Finite (rootsOfUnity q (ZMod p)))
  exact (hinj.bijective_of_nat_card_le hcard).2 m

/-- **C103** On each of the four curves, the vote proof by itself ties nothing to the range proofs for a prover of unlimited power: for a
ciphertext of any number `v` below `2^16` on the one hand, and any two range-proof commitments on the other, there is a first move after
which every one of the `2^256` hash values can be answered.  (The seed of `H` must not be hashed to the identity.) -/
theorem C103_untied {E : Type} (nan64 : BitVec 64) (C : Grp E)
    (N bits : ℕ) (Bb : Int) (hr : (N, bits, Bb) ∈ curveTable) [Fact N.Prime] {M : Type} [AddCommGroup M] [Module (ZMod N) M]
    (L₂ : Lawful C N M) (hcard : Nat.card M = N) (hmap : ∀ s, SetupSeed 16 s → ∃ e, C.mapToGroup s = some e ∧ L₂.V e)
    (hH : ∀ e, C.mapToGroup SEEDH = some e → L₂.den e ≠ 0) :
    ∃ (D : Election Int E) (L₁ : Lawful D.FF modp3072Q (ModPM modp3072 modp3072Q)) (L : Lawful D.EC N M),
      setup nan64 C = some (.ok D.pp) ∧
      ∀ comm : VerCommitments Int E, L₁.V comm.Y → L₁.V comm.Xp → L.V comm.Xq1 → L.V comm.Xq2 → ∀ v : ℕ, 0 < v → v < 2 ^ 16 →
        L₁.den (elgamalDecrypt D.FF 13 ⟨comm.Y, comm.Xp⟩) = L₁.den (D.FF.mulGen v) →
        ∃ f : FirstMove Int E, answerable D.pp.RPParams comm f = {d | d.length = 32} := by
  obtain ⟨D, hD, dep, _⟩ := C47_curves nan64 C (fun s h => (hmap s h).imp fun e h1 => h1.1) N bits Bb hr L₂.N_eq
  obtain ⟨L₁, L, ok, eV, eD⟩ := deployed_legal C D N bits Bb hr L₂ (seeds_legal hmap) dep
  obtain ⟨hsetup, hq₁, -, -, -, -, -, -, hpk⟩ := dep.sizes hr
  have hBc : D.rp.Bc.toNat = 224 := by change D.Bc.toNat = 224; rw [dep.Bc]; rfl
  have hBx : D.Bx.toNat = 16 := by rw [dep.Bx]; rfl
  have hbits : 253 ≤ bits := by
    have : ∀ r ∈ curveTable, 253 ≤ r.2.1 := by decide
    exact this _ hr
  have hg : L₁.g ≠ 0 := by
    intro h
    have := (L₁.isIdentity_iff L₁.V_gen).mpr h
    rw [dep.FF] at this
    exact absurd this (by decide +kernel)
  have hPK : L₁.den D.PK = ((13 : Int) : ZMod modp3072Q) • L₁.g := by rw [hpk, L₁.den_mulGen]
  obtain ⟨-, -, -, -, -, -, -, -, -, -, g11, g12⟩ := vpSetup_ok hsetup
  rw [hBx, show D.Bc.toNat = 224 from hBc] at g11
  rw [dep.Bg] at g12
  have hd : L.den D.H ≠ 0 := by
    rw [eD]
    exact hH _ dep.H
  have hgen : ∀ m : M, ∃ c : ZMod N, c • L.den D.H = m := by
    intro m
    have : m ∈ AddSubgroup.zmultiples (L.den D.H) := mem_zmultiples_of_prime_card hcard hd
    obtain ⟨j, e⟩ := AddSubgroup.mem_zmultiples_iff.mp this
    refine ⟨j, ?_⟩
    rw [← e]
    exact Int.cast_smul_eq_zsmul (ZMod N) j _
  refine ⟨D, L₁, L, hD, fun comm v1 v2 v3 v4 v hv0 hv hx => ?_⟩
  have : Fact modp3072.Prime := ⟨modp3072_prime modp3072Q_prime⟩
  have hx' : L₁.den comm.Xp - ((13 : Int) : ZMod modp3072Q) • L₁.den comm.Y = (v : ZMod modp3072Q) • L₁.g := by
    unfold elgamalDecrypt at hx
    rw [L₁.den_sub v2 (L₁.V_mul _ v1), L₁.den_mul _ v1, L₁.den_mulGen] at hx
    exact_mod_cast hx
  let f : FirstMove Int E := ⟨D.FF.identity, D.FF.mulGen ((2 ^ 240 : ℕ) : Int), D.EC.identity, D.EC.identity⟩
  have hk : L₁.den f.Kp - ((13 : Int) : ZMod modp3072Q) • L₁.den f.W = ((2 ^ 240 : ℕ) : ZMod modp3072Q) • L₁.g := by
    change L₁.den (D.FF.mulGen ((2 ^ 240 : ℕ) : Int)) - ((13 : Int) : ZMod modp3072Q) • L₁.den D.FF.identity = _
    rw [L₁.den_mulGen, L₁.den_ident, smul_zero, sub_zero, Int.cast_natCast]
  refine ⟨f, Set.ext fun d => ⟨fun h => h.1, fun h => ?_⟩⟩
  refine C103_fraction D.rp L₁ L (fun m => modP_span hg m) hgen hg (by omega) comm f
    ⟨by change L₁.V D.PK; rw [hpk]; exact L₁.V_mulGen _, ok.bp.H, L₁.V_ident, L₁.V_mulGen _, L.V_ident, L.V_ident, v1, v2, v3, v4⟩ _ (v : ZMod modp3072Q) v 1 (2 ^ 240) hPK hx' hk
    one_pos (by simp) ?_ ?_ d h (one_dvd _) hv0
  · rw [g11]
    norm_num
  · rw [g12, hBc]
    have : (2 : Int) ^ 252 ≤ 2 ^ (bits - 1) := pow_le_pow_right₀ (by norm_num) (by omega)
    have hv' : (v : Int) < 2 ^ 16 := by exact_mod_cast hv
    refine le_trans ?_ this
    norm_num at hv' ⊢
    omega

/-! ## Concrete cases -/

theorem not_short_of {q x : ℕ} {a b : Int} (h : ∀ e ∈ List.range b.toNat, 0 < e → a ≤ (e * x : Int) % q ∧ (e * x : Int) % q ≤ q - a)
    (hq : a ≤ q) : ¬ ShortFraction a b (x : ZMod q) := by
  rintro ⟨n, d, hn, hd0, hdb, e⟩
  obtain ⟨n1, n2⟩ := abs_lt.mp hn
  obtain ⟨h1, h2⟩ := h d.toNat (List.mem_range.mpr (by omega)) (by omega)
  rw [Int.toNat_of_nonneg hd0.le] at h1 h2
  have e' : (((d * x : Int)) : ZMod q) = (n : ZMod q) := by push_cast; exact e
  rw [ZMod.intCast_eq_intCast_iff] at e'
  have e' : (d * x : Int) % q = n % q := e'
  rw [e'] at h1 h2
  by_cases h0 : 0 ≤ n
  · rw [Int.emod_eq_of_lt h0 (by omega)] at h1
    omega
  · rw [show n % (q : Int) = n + q by rw [← Int.add_emod_right, Int.emod_eq_of_lt (by omega) (by omega)]] at h2
    omega

/-- C103_bound: a ciphertext of `400004`, which is no short fraction modulo `1048583`, and a first move that can be completed when the
challenge is `3`: `3 * 400004 + 897771` is `617` higher than a multiple of the order, and `617` is in the interval for `Z`. -/
example : Nat.Prime 1048583 ∧
    ¬ ShortFraction ((exPP 1048583).zUpperBound - (exPP 1048583).zLowerBound) (256 ^ ((exPP 1048583).Bc.toNat / 8))
      ((400004 : ℕ) : ZMod 1048583) ∧
    MoveLegal (exPP 1048583) (toyLawful 1048583) (toyLawful 1031) ⟨20, 400104, 77, 78⟩ ⟨8, 897811, 79, 80⟩ ∧
    (toyLawful 1048583).den 400104 - (5 : ZMod 1048583) • (toyLawful 1048583).den 20 =
      ((400004 : ℕ) : ZMod 1048583) • (toyLawful 1048583).g ∧
    (toyLawful 1048583).den (exPP 1048583).GFF.H = (5 : ZMod 1048583) • (toyLawful 1048583).g ∧
    SigmaProof.verify (fun _ => 3 :: List.replicate 31 0)
      ⟨8, 897811, 79, 80, some 3, some 617, some 68, some 195, some 310, exPP 1048583⟩ ⟨20, 400104, 77, 78⟩ = some true := by
  refine ⟨by norm_num, not_short_of (by decide +kernel) (by decide +kernel), ?_, by decide +kernel, by decide +kernel,
    by decide +kernel⟩
  constructor <;> (unfold toyLawful; decide +kernel)

/-- C103_exact, C103_fraction: a ciphertext of one half modulo `2039` and a first move with `k = 600`; the challenge `4` is answered,
though the range-proof commitments have nothing to do with the vote. -/
example : Nat.Prime 2039 ∧ Nat.Prime 1031 ∧ (∀ m : ZMod 2039, ∃ a : ZMod 2039, a • (toyLawful 2039).g = m) ∧
    (∀ m : ZMod 1031, ∃ a : ZMod 1031, a • (toyLawful 1031).den (exPP 2039).GEC.H = m) ∧
    MoveLegal (exPP 2039) (toyLawful 2039) (toyLawful 1031) ⟨20, 1120, 77, 78⟩ ⟨8, 640, 79, 80⟩ ∧
    (toyLawful 2039).den 1120 - (5 : ZMod 2039) • (toyLawful 2039).den 20 = (1020 : ZMod 2039) • (toyLawful 2039).g ∧
    (toyLawful 2039).den 640 - (5 : ZMod 2039) • (toyLawful 2039).den 8 = ((600 : ℕ) : ZMod 2039) • (toyLawful 2039).g ∧
    ((2 : ℕ) : ZMod 2039) * 1020 = (1 : ℕ) ∧ (exPP 2039).zLowerBound ≤ 600 ∧
    (600 : Int) + 1 * 256 ^ ((exPP 2039).Bc.toNat / 8) ≤ (exPP 2039).zUpperBound ∧
    SigmaProof.verify (fun _ => 4 :: List.replicate 31 0)
      ⟨8, 640, 79, 80, some 4, some 602, some 88, some 778, some 664, exPP 2039⟩ ⟨20, 1120, 77, 78⟩ = some true := by
  refine ⟨by norm_num, by norm_num, fun m => ⟨m, ?_⟩, fun m => ⟨m * 802, ?_⟩, ?_, by decide +kernel, by decide +kernel, by decide +kernel,
    by decide +kernel, by decide +kernel, by decide +kernel⟩
  · have : (toyLawful 2039).g = 1 := by decide +kernel
    rw [this, smul_eq_mul, mul_one]
  · have : (toyLawful 1031).den (exPP 2039).GEC.H = 9 := by decide +kernel
    rw [this, smul_eq_mul, mul_assoc, show (802 : ZMod 1031) * 9 = 1 by decide +kernel, mul_one]
  · constructor <;> (unfold toyLawful; decide +kernel)

end MscPoc
