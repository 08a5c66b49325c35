import Verif.Lemmas.RfcPrime
import Verif.Lemmas.Setup
import Verif.Lemmas.PrimeCerts
import Verif.Props.Basic
import Verif.Props.Vote
import Verif.Model.Points

/-!
# C47, C48 — the deployed parameters
-/

set_option autoImplicit false

namespace MscPoc

/-- What `setup` is expected to return for a curve whose order has `bits` bits. -/
structure Deployed {E : Type} (C : Grp E) (bits : ℕ) (D : Election Int E) : Prop where
  FF : D.FF = modPGrp rfcGroup
  EC : D.EC = C
  PK : D.PK = 8192
  n : D.n = 16
  G : D.G = C.mulGen 1
  H : C.mapToGroup SEEDH = some D.H
  lenG : D.Gg.length = 16
  lenH : D.Hh.length = 16
  Gg : ∀ i < 16, C.mapToGroup (seedG i) = D.Gg[i]?
  Hh : ∀ i < 16, C.mapToGroup (seedHh i) = D.Hh[i]?
  /-- the ElGamal modulus, although this is the curve's parameter record -/
  F : D.F = modp3072
  Bx : D.Bx = 16
  Bc : D.Bc = 224
  Bg : D.Bg.toNat = bits
  Bb : D.Bb = (bits : Int) - 241
  lo : D.lo = 101
  hi : D.hi = 2000
  zLower : D.rp.zLowerBound = 2 ^ 240
  zUpper : D.rp.zUpperBound = 2 ^ (bits - 1)

/-- **C47** `setup` for any curve whose hash-to-group never fails: success exactly when the order has at least 242 bits. -/
theorem C47_setup {E : Type} (nan64 : BitVec 64) (C : Grp E)
    (hmap : ∀ s, SetupSeed 16 s → ∃ e, C.mapToGroup s = some e)
    (hbits : bitLen C.N < 65536) :
    (242 ≤ bitLen C.N → ∃ D, setup nan64 C = some (.ok D.pp) ∧ Deployed C (bitLen C.N) D) ∧
    (bitLen C.N < 242 → setup nan64 C = some (.error "inconsistent parameter choice")) := by
  obtain ⟨bp, hbp, hN, hG, hH⟩ := bpSetup_succeeds C 16 hmap nan64 65536 (by norm_num) (by decide)
  obtain ⟨g1, g2, g3, g4, _⟩ := C15_generators C nan64 65536 bp hbp
  obtain ⟨bits, hb⟩ : ∃ b, bitLen C.N = b := ⟨_, rfl⟩
  rw [hb] at hbits ⊢
  have hu : (UInt16.ofNat bits).toNat = bits := by
    rw [UInt16.toNat_ofNat']; exact Nat.mod_eq_of_lt hbits
  have hs : setup nan64 C = (match vpSetup (16 : UInt8) 224 (UInt16.ofNat bits) 101 2000
        { GFF := { I := modPGrp rfcGroup, F := some (modPGrp rfcGroup).P, N := some (modPGrp rfcGroup).N,
                   G := (modPGrp rfcGroup).generator, H := (modPGrp rfcGroup).mulGen 13 },
          GEC := { I := C, F := some (modPGrp rfcGroup).P, N := some C.N, G := C.generator, H := bp.H } } with
      | .error e => some (.error e)
      | .ok rp => some (.ok
        { FFGroupParams :=
            { I := modPGrp rfcGroup, F := some (modPGrp rfcGroup).P, N := some (modPGrp rfcGroup).N,
              G := (modPGrp rfcGroup).generator, H := (modPGrp rfcGroup).mulGen 13 },
          ECGroupParams := { I := C, F := some (modPGrp rfcGroup).P, N := some C.N, G := C.generator, H := bp.H },
          EGPK := (modPGrp rfcGroup).mulGen 13, candidateMin := 101, candidateMax := 2000,
          BPParams := bp, RPParams := rp })) := by
    unfold setup
    rw [newModPGroup_rfc, hbp, hb]
    rfl
  rw [hs]
  unfold vpSetup
  dsimp only
  rw [hu]
  have h16 : (16 : UInt8).toNat = 16 := rfl
  have h224 : (224 : UInt16).toNat = 224 := rfl
  rw [h16, h224]
  constructor
  · intro hge
    rw [if_neg (by omega)]
    refine ⟨{ FF := modPGrp rfcGroup, EC := C, PK := (modPGrp rfcGroup).mulGen 13, n := bp.N, G := bp.G, H := bp.H,
              Gg := bp.Gg, Hh := bp.Hh, F := (modPGrp rfcGroup).P, Bx := 16, Bc := 224, Bg := UInt16.ofNat bits,
              Bb := (bits : Int) - 1 - 16 - 224, lo := 101, hi := 2000 }, ?_, ?_⟩
    · show some (Except.ok _) = some (Except.ok _)
      rw [← g3]
      rfl
    · have hpk : (modPGrp rfcGroup).mulGen 13 = 8192 := by decide +kernel
      have e1 : (UInt8.toUInt16 16 + 224).toNat = 240 := rfl
      refine ⟨rfl, rfl, hpk, hN, g1, g2, hG, hH, ?_, ?_, rfl, rfl, rfl, hu, by dsimp only; ring, rfl, rfl, ?_, ?_⟩
      · intro i hi; exact (g4 i (hN ▸ hi)).1
      · intro i hi; exact (g4 i (hN ▸ hi)).2
      · unfold ProofParams.zLowerBound ProofParams.bxbc Election.rp
        dsimp only
        rw [e1]
      · unfold ProofParams.zUpperBound ProofParams.bxbc Election.rp
        dsimp only
        have e2 : (((240 : ℕ) : Int) + ((bits : Int) - 1 - 16 - 224)).toNat = bits - 1 := by clear * - hge; omega
        rw [e1, e2]
  · intro hlt
    rw [if_pos (by omega)]

/-- The four curves: order, bit length, abort parameter. -/
def curveTable : List (ℕ × ℕ × Int) :=
  [(k1N, 256, 15), (r255N, 253, 12), (p256N, 256, 15), (p384N, 384, 143)]

theorem curveTable_ok : ∀ r ∈ curveTable, bitLen (r.1 : Int) = r.2.1 ∧ (r.2.1 : Int) - 241 = r.2.2 ∧
    2 ^ (r.2.1 - 1) < r.1 ∧ r.1 < 2 ^ r.2.1 ∧ r.1 < modp3072Q := by
  decide +kernel

/-- **C47** For each of the four curves `setup` succeeds with the expected parameters, and every response that passes
the interval check is below both group orders. -/
theorem C47_curves {E : Type} (nan64 : BitVec 64) (C : Grp E)
    (hmap : ∀ s, SetupSeed 16 s → ∃ e, C.mapToGroup s = some e)
    (N bits : ℕ) (Bb : Int) (hr : (N, bits, Bb) ∈ curveTable) (hN : C.N = N) :
    ∃ D, setup nan64 C = some (.ok D.pp) ∧ Deployed C bits D ∧ D.Bb = Bb ∧
      D.rp.zUpperBound < N ∧ D.rp.zUpperBound < modp3072Q ∧ D.hi.toNat - D.lo.toNat = 1899 ∧ 1899 < 2 ^ D.n ∧
      modp3072 = 2 * modp3072Q + 1 ∧ D.FF.N = modp3072Q ∧ D.FF.P = modp3072 := by
  obtain ⟨h1, h2, h3, h4, h5⟩ := curveTable_ok _ hr
  dsimp only at h1 h2 h3 h4 h5
  have hge : 242 ≤ bits ∧ bits < 65536 := by
    have : ∀ r ∈ curveTable, 242 ≤ r.2.1 ∧ r.2.1 < 65536 := by decide
    exact this _ hr
  have hb : bitLen C.N = bits := by rw [hN]; exact h1
  obtain ⟨D, hD, ok⟩ := (C47_setup nan64 C hmap (by rw [hb]; exact hge.2)).1 (by rw [hb]; exact hge.1)
  rw [hb] at ok
  refine ⟨D, hD, ok, by rw [ok.Bb, h2], ?_, ?_, by rw [ok.hi, ok.lo]; rfl, by rw [ok.n]; norm_num, modp3072_eq,
    by rw [ok.FF]; rfl, by rw [ok.FF]; rfl⟩
  · rw [ok.zUpper]; exact_mod_cast h3
  · rw [ok.zUpper]; exact_mod_cast h3.trans h5

/-- the deployed ElGamal group description satisfies the group laws' hypotheses -/
theorem rfcGroup_ok : ModPOK rfcGroup modp3072 modp3072Q where
  hp := modp3072_isPrime
  fo := rfl
  go := rfl
  qpos := modp3072Q_prime.pos
  gen0 := by show (0 : Int) < 2; norm_num
  gen1 := by
    show (2 : Int) < (modp3072 : ℕ)
    have : 2 < modp3072 := by decide +kernel
    exact_mod_cast this
  genq := by
    exact int_two_pow modp3072_two_pow

theorem seeds_legal {E : Type} {C : Grp E} {V : E → Prop} (h : ∀ s, SetupSeed 16 s → ∃ e, C.mapToGroup s = some e ∧ V e)
    (s : Bytes) (e : E) (hs : SetupSeed 16 s) (he : C.mapToGroup s = some e) : V e := by
  obtain ⟨e', h1, h2⟩ := h s hs
  rw [he] at h1
  injection h1 with h1
  rw [h1]
  exact h2

/-- Deployed parameters are legal, for the laws given. -/
theorem deployed_legal {E : Type} (C : Grp E) (D : Election Int E)
    (N bits : ℕ) (Bb : Int) (hr : (N, bits, Bb) ∈ curveTable) {M : Type} [AddCommGroup M] [Module (ZMod N) M]
    (L₂ : Lawful C N M) (hmap : ∀ s e, SetupSeed 16 s → C.mapToGroup s = some e → L₂.V e) (dep : Deployed C bits D) :
    ∃ (L₁ : Lawful D.FF modp3072Q (ModPM modp3072 modp3072Q)) (L : Lawful D.EC N M),
      D.OK L₁ L 4 ∧ L.V = L₂.V ∧ L.den = L₂.den := by
  obtain ⟨h1, h2, h3, h4, h5⟩ := curveTable_ok _ hr
  dsimp only at h1 h2 h3 h4 h5
  obtain ⟨FF, EC, PK, n, G, H, Gg, Hh, F, Bx, Bc, Bg, Bb, lo, hi⟩ := D
  obtain ⟨k1, k2, k3, k4, k5, k6, k7, k8, k9, k10, k11, k12, k13, k14, k15, k16, k17, k18, k19⟩ := dep
  dsimp only at k1 k2
  subst k1 k2
  refine ⟨modPLawful rfcGroup_ok, L₂, ⟨?_, ?_, ?_⟩, rfl, rfl⟩
  · show (modPLawful rfcGroup_ok).V PK
    have : PK = (modPGrp rfcGroup).mulGen 13 := by
      have hpk : (modPGrp rfcGroup).mulGen 13 = 8192 := by decide +kernel
      rw [hpk]; exact k3
    rw [this]
    exact (modPLawful rfcGroup_ok).V_mulGen 13
  · refine ⟨k4, hmap _ _ (Or.inl rfl) k6, ?_, ?_, k7, k8, fun _ h => hmap _ _ (Or.inr (Or.inl rfl)) h⟩
    · intro e he
      obtain ⟨i, hi, rfl⟩ := List.getElem_of_mem he
      have hi' : i < 16 := k7 ▸ hi
      exact hmap _ _ (Or.inr (Or.inr ⟨i, hi', Or.inl rfl⟩)) ((k9 i hi').trans (List.getElem?_eq_getElem hi))
    · intro e he
      obtain ⟨i, hi, rfl⟩ := List.getElem_of_mem he
      have hi' : i < 16 := k8 ▸ hi
      exact hmap _ _ (Or.inr (Or.inr ⟨i, hi', Or.inr rfl⟩)) ((k10 i hi').trans (List.getElem?_eq_getElem hi))
  · rw [k19]; exact_mod_cast (h3.trans h5).le

/-- **C47** The deployed parameters satisfy the hypotheses of the ballot theorems: for a curve library obeying the group laws (`L₂`), the parameters `setup` returns are legal. -/
theorem C47_legal {E : Type} (nan64 : BitVec 64) (C : Grp E)
    (N bits : ℕ) (Bb : Int) (hr : (N, bits, Bb) ∈ curveTable) {M : Type} [AddCommGroup M] [Module (ZMod N) M]
    (L₂ : Lawful C N M) (hmap : ∀ s, SetupSeed 16 s → ∃ e, C.mapToGroup s = some e ∧ L₂.V e) :
    ∃ (D : Election Int E) (L₁ : Lawful D.FF modp3072Q (ModPM modp3072 modp3072Q)) (L : Lawful D.EC N M),
      setup nan64 C = some (.ok D.pp) ∧ Deployed C bits D ∧ D.OK L₁ L 4 := by
  obtain ⟨D, hD, ok, _⟩ := C47_curves nan64 C (fun s hs => (hmap s hs).imp fun _ h => h.1) N bits Bb hr L₂.N_eq
  obtain ⟨L₁, L, h, _⟩ := deployed_legal C D N bits Bb hr L₂ (seeds_legal hmap) ok
  exact ⟨D, L₁, L, hD, ok, h⟩

/-- **C47** In the deployed system every ballot `castVote` completes is accepted by `verifyVote`. -/
theorem C47_deployment_accepts (sha : Bytes → Bytes) {E : Type} (nan64 : BitVec 64) (C : Grp E)
    (N bits : ℕ) (Bb : Int) (hr : (N, bits, Bb) ∈ curveTable) {M : Type} [AddCommGroup M] [Module (ZMod N) M]
    (L₂ : Lawful C N M) (hmap : ∀ s, SetupSeed 16 s → ∃ e, C.mapToGroup s = some e ∧ L₂.V e) :
    ∃ pp, setup nan64 C = some (.ok pp) ∧ ∀ (rnd : CastRand) (ballot : BallotData Int E),
      (0 ≤ rnd.rChoice ∧ rnd.rChoice < 1899) →
      (rnd.bp1.sL.length = 16 ∧ rnd.bp1.sR.length = 16 ∧ rnd.bp2.sL.length = 16 ∧ rnd.bp2.sR.length = 16) →
      (∀ s ∈ rnd.tape, 0 ≤ s.k ∧ s.k < 2 ^ (bits - 1)) →
      castVote sha pp rnd = .done ballot →
      verifyVote sha ballot pp.RPParams = some { result := true, times := [0, 0] } := by
  obtain ⟨D, L₁, L, hD, dep, ok⟩ := C47_legal nan64 C N bits Bb hr L₂ hmap
  refine ⟨D.pp, hD, fun rnd ballot hc hl ht hcast => ?_⟩
  exact (C41_honest_accepted sha D L₁ L 4 ok (by rw [dep.lo, dep.hi]; decide)
    (by rw [dep.lo, dep.hi]; decide) rnd (by rw [dep.lo, dep.hi]; exact hc)
    hl.1 hl.2.1 hl.2.2.1 hl.2.2.2 (by rw [dep.zUpper]; exact ht) ballot hcast).1

/-! ## C48 -/

/-- **C48** The group orders of the four curves are primes. -/
theorem C48_orders : k1N.Prime ∧ r255N.Prime ∧ p256N.Prime ∧ p384N.Prime :=
  ⟨prime_115792089237316195423570985008687907852837564279074904382605163141518161494337,
    prime_7237005577332262213973186563042994240857116359379907606001950938285454250989,
    prime_115792089210356248762697446949407573529996955224135760342422259061068512044369,
    prime_39402006196394479212279040100143613805079739270465446667946905279627659399113263569398956308152294913554433653942643⟩

/-- **C48** The field orders of the four curves are primes. -/
theorem C48_fields (dec : Bytes → Option WPoint) :
    k1P.Prime ∧ r255P.Prime ∧ (p256Curve dec).p.Prime ∧ (p384Curve dec).p.Prime :=
  ⟨prime_115792089237316195423570985008687907853269984665640564039457584007908834671663,
    prime_57896044618658097711785492504343953926634992332820282019728792003956564819949,
    prime_115792089210356248762697446949407573530086143415290314195533631308867097853951,
    prime_39402006196394479212279040100143613805079739270465446667948293404245721771496870329047266088258938001861606973112319⟩

/-- **C48** The 3072-bit constant: `p = 2q + 1`, both prime (`q` by an elliptic-curve certificate), the order of `2` is exactly
`q`, and hence the subgroup generated by `2` is the group of squares, with `q` elements. -/
theorem C48_modp : newModPGroup "RFC3526ModPGroup3072" rfc3526Hex "2" = some rfcGroup ∧
    rfcGroup.fieldOrder = modp3072 ∧ rfcGroup.groupOrder = modp3072Q ∧ rfcGroup.gen = 2 ∧
    2 ^ 3071 < modp3072 ∧ modp3072 < 2 ^ 3072 ∧
    modp3072 = 2 * modp3072Q + 1 ∧ 2 ^ modp3072Q % modp3072 = 1 ∧
    modp3072Q.Prime ∧ modp3072.Prime ∧ orderOf (2 : ZMod modp3072) = modp3072Q := by
  refine ⟨newModPGroup_rfc, rfl, rfl, rfl, modp3072_gt, by decide +kernel, modp3072_eq, modp3072_two_pow,
    modp3072Q_prime, modp3072_isPrime, orderOf_two modp3072Q_prime (by decide +kernel) modp3072_two_pow⟩

/-! Non-vacuity: the hypotheses on the curve hold for a group of the right order. -/

example : (∀ s, SetupSeed 16 s → ∃ e, (toyGrp p256N).mapToGroup s = some e) ∧ (p256N, 256, (15 : Int)) ∈ curveTable ∧
    (toyGrp p256N).N = p256N := by
  refine ⟨fun s _ => ⟨_, rfl⟩, by decide +kernel, rfl⟩

/-- a curve whose order has only 241 bits is refused -/
example : setup 0 (toyGrp (2 ^ 240 + 1)) = some (.error "inconsistent parameter choice") :=
  (C47_setup 0 (toyGrp (2 ^ 240 + 1)) (fun s _ => ⟨_, rfl⟩) (by decide +kernel)).2 (by decide +kernel)

end MscPoc
