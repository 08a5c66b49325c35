import Verif.Props.PublicKey
import Verif.Props.Receive
import Verif.Props.Ballot

/-!
# C91 — anybody on the wire can read a ballot and replace its vote

The bytes of a ballot are read with public numbers (C77).  C36 changes the vote of a ballot in memory without a secret; here the change
is made by somebody who has only the bytes: decode, change, encode.  The server accepts the new bytes and they open to the vote that the
attacker wanted.
-/

set_option autoImplicit false

namespace MscPoc

open JSpec Utf8Spec

/-- what somebody on the wire does with the bytes `b` to add `d` to the vote: only the bytes, the public parameters and `d` are used -/
def rewriteBallot {E₁ E₂ : Type} (sha : Bytes → Bytes) (C₁ : Codec E₁) (C₂ : Codec E₂) (pp : PublicParams E₁ E₂) (b : Bytes) (d : Int) :
    Option Bytes :=
  match decBallotBytes C₁ C₂ pp b with
  | some (.ok ballot) =>
    match encBallotText C₁ C₂ (maul pp.RPParams.GFF.I sha ballot d) with
    | some (.ok t) => some (Utf8.encode t)
    | _ => none
  | _ => none

section
variable {E₁ E₂ : Type} {q₁ q₂ : ℕ} {M₁ M₂ : Type} [AddCommGroup M₁] [Module (ZMod q₁) M₁] [AddCommGroup M₂]
  [Module (ZMod q₂) M₂]

/-- the parameters of the election, wherever a ballot carries parameters -/
structure Carries (D : Election E₁ E₂) (b : BallotData E₁ E₂) : Prop where
  lower : b.BpLower.Params = D.bp
  upper : b.BpUpper.Params = D.bp
  ipLower : b.BpLower.InnerProductProof.Params.GP = D.EC
  ipUpper : b.BpUpper.InnerProductProof.Params.GP = D.EC
  vote : b.VoteProof.Params = D.rp

theorem Carries.legal {D : Election E₁ E₂} {L₁ : Lawful D.FF q₁ M₁} {L₂ : Lawful D.EC q₂ M₂} {b : BallotData E₁ E₂}
    (h : Carries D b) (hb : BallotOk L₁.V L₂.V b) : BallotLegal D L₁ L₂ b where
  gpLower := by rw [h.lower]; rfl
  gpUpper := by rw [h.upper]; rfl
  gff := by rw [h.vote]; rfl
  gec := by rw [h.vote]; rfl
  V1 := hb.lower.com
  T11 := hb.lower.T1
  T12 := hb.lower.T2
  H1 := hb.lower.params.H
  V2 := hb.upper.com
  T21 := hb.upper.T1
  T22 := hb.upper.T2
  H2 := hb.upper.params.H
  U := hb.U
  V := hb.V
  HF := hb.sigma.H₁
  HE := hb.sigma.H₂
  W := hb.sigma.W
  Kp := hb.sigma.Kp
  Kq1 := hb.sigma.Kq1
  Kq2 := hb.sigma.Kq2

theorem shiftBp_ok {GP : Grp E₂} (L : Lawful GP q₂ M₂) (sha : Bytes → Bytes) (pf : BulletProof E₂) (hGP : pf.Params.GP = GP)
    (h : BPOk L.V pf) (d : Int) : BPOk L.V (shiftBp sha pf d) where
  com := by subst hGP; exact L.V_add h.com (L.V_mulGen _)
  A := h.A
  S := h.S
  T1 := h.T1
  T2 := h.T2
  ip := h.ip
  params := h.params

theorem maul_ok {D : Election E₁ E₂} {L₁ : Lawful D.FF q₁ M₁} {L₂ : Lawful D.EC q₂ M₂} {b : BallotData E₁ E₂} (sha : Bytes → Bytes)
    (h : Carries D b) (hb : BallotOk L₁.V L₂.V b) (d : Int) :
    BallotOk L₁.V L₂.V (maul D.FF sha b d) ∧ Carries D (maul D.FF sha b d) :=
  ⟨⟨hb.U, L₁.V_add hb.V (L₁.V_mulGen _), shiftBp_ok L₂ sha _ (h.legal hb).gpLower hb.lower d,
      shiftBp_ok L₂ sha _ (h.legal hb).gpUpper hb.upper (-d),
      ⟨hb.sigma.W, hb.sigma.Kp, hb.sigma.Kq1, hb.sigma.Kq2, hb.sigma.G₁, hb.sigma.H₁, hb.sigma.G₂, hb.sigma.H₂, hb.sigma.Bb⟩⟩,
    ⟨h.lower, h.upper, h.ipLower, h.ipUpper, h.vote⟩⟩

/-- the bytes of a ballot with legal elements and the election's parameters: the server gets the same ballot and the same verdict -/
theorem carried (D : Election E₁ E₂) {V₁ : E₁ → Prop} {V₂ : E₂ → Prop} (C₁ : Codec E₁) (C₂ : Codec E₂) (hC₁ : C₁.Good V₁)
    (hC₂ : C₂.Good V₂) (hf₁ : C₁.Flat) (hf₂ : C₂.Flat) (b : BallotData E₁ E₂) (hb : BallotOk V₁ V₂ b) (h : Carries D b) :
    ∃ t, encBallotText C₁ C₂ b = some (.ok t) ∧ decBallotBytes C₁ C₂ D.pp (Utf8.encode t) = some (.ok b) ∧
      ∀ sha ts, verifyVote sha b D.rp = some { result := true, times := ts } →
        unmarshalAndVerify sha C₁ C₂ D.pp (Utf8.encode t) = some none := by
  obtain ⟨j, e1, e2⟩ := ballot_roundtrip hC₁ hC₂ D.pp b hb
  rw [received_eq D b h.lower h.upper h.ipLower h.ipUpper h.vote] at e2
  have e : encBallotText C₁ C₂ b = some (.ok (JText.print j)) := by
    unfold encBallotText; rw [e1]; rfl
  obtain ⟨⟨l, -, f4, ht⟩, -⟩ := C61_marshalled C₁ C₂ hf₁ hf₂ D.pp b _ e
  rw [e1] at f4
  simp only [Option.some.injEq, Except.ok.injEq] at f4
  rw [← f4] at ht
  obtain ⟨b', f2, f3⟩ := C70_equal_lengths C₁ C₂ D.pp b b j e1 e2 hb.lower.ip.params.len hb.upper.ip.params.len
  refine ⟨_, e, ?_, fun sha ts hv => ?_⟩
  · unfold decBallotBytes decBallotText
    rw [Utf8.decode_encode, (C61_scanner _ _).mpr ht, e2]
  · unfold unmarshalAndVerify decBallotBytesN
    rw [Utf8.decode_encode, (C61_scanner _ _).mpr ht, f2]
    dsimp only
    rw [f3, show D.pp.RPParams = D.rp from rfl, hv]
    rfl

/-- **C91** Any lawful groups and codecs: the bytes of an accepted ballot with legal elements are rewritten, for every `d` that keeps `z` in
the release interval, to bytes which the server accepts and which decode to the ballot of C36. -/
theorem C91_bytes (sha : Bytes → Bytes) (D : Election E₁ E₂) (L₁ : Lawful D.FF q₁ M₁) (L₂ : Lawful D.EC q₂ M₂)
    (C₁ : Codec E₁) (C₂ : Codec E₂) (hC₁ : C₁.Good L₁.V) (hC₂ : C₂.Good L₂.V) (hf₁ : C₁.Flat) (hf₂ : C₂.Flat)
    (b : BallotData E₁ E₂) (hb : BallotOk L₁.V L₂.V b) (h : Carries D b) (ts : List Nat)
    (hacc : verifyVote sha b D.rp = some { result := true, times := ts }) (d : Int)
    (hz : ∀ z c, b.VoteProof.Z = some z → b.VoteProof.Challenge = some c →
      D.rp.zLowerBound ≤ z + c * d ∧ z + c * d < D.rp.zUpperBound) :
    ∃ t, encBallotText C₁ C₂ b = some (.ok t) ∧ ∃ b', rewriteBallot sha C₁ C₂ D.pp (Utf8.encode t) d = some b' ∧
      unmarshalAndVerify sha C₁ C₂ D.pp b' = some none ∧ decBallotBytes C₁ C₂ D.pp b' = some (.ok (maul D.FF sha b d)) := by
  obtain ⟨t, e1, e2, -⟩ := carried D C₁ C₂ hC₁ hC₂ hf₁ hf₂ b hb h
  obtain ⟨hb', h'⟩ := maul_ok sha h hb d
  obtain ⟨t', f1, f2, f3⟩ := carried D C₁ C₂ hC₁ hC₂ hf₁ hf₂ _ hb' h'
  refine ⟨t, e1, Utf8.encode t', ?_, f3 sha [0, 0] ?_, f2⟩
  · unfold rewriteBallot
    rw [e2]
    dsimp only
    rw [show D.pp.RPParams.GFF.I = D.FF from rfl, f1]
  · refine (C36_malleable sha D L₁ L₂ b (h.legal hb) ts hacc d fun z c k1 k2 => ?_).1
    rw [h.vote]
    exact hz z c k1 k2

end

/-- opening a ciphertext whose second part was multiplied by `2^d` -/
theorem opens_shift (u v : Int) (L₁ : Lawful (modPGrp rfcGroup) modp3072Q (ModPM modp3072 modp3072Q)) (hu : L₁.V u) (hv : L₁.V v)
    (m w : ℕ) (hw : w < 65536) (h : OpensTo modp3072 u v m) (m' : ℕ) (hm' : m' < 65536) :
    OpensTo modp3072 u ((modPGrp rfcGroup).add v ((modPGrp rfcGroup).mulGen ((w : Int) - m))) m' ↔ m' = w := by
  have hg : L₁.g ≠ 0 := by
    intro h
    exact absurd ((L₁.isIdentity_iff L₁.V_gen).mpr h) (by decide +kernel)
  have big : 65536 < modp3072Q := by decide +kernel
  have : Fact modp3072Q.Prime := ⟨modp3072Q_prime⟩
  rw [opens_iff L₁ u v hu hv] at h
  rw [opens_iff L₁ u _ hu (L₁.V_add hv (L₁.V_mulGen _)), L₁.den_add hv (L₁.V_mulGen _), L₁.den_mulGen, ← h]
  constructor
  · intro e
    have e2 : ((m' : ZMod modp3072Q) - (w : ZMod modp3072Q)) • L₁.g = 0 := by
      push_cast at e
      linear_combination (norm := module) e
    have h3 := (smul_eq_zero.mp e2).resolve_right hg
    rw [sub_eq_zero, ZMod.natCast_eq_natCast_iff', Nat.mod_eq_of_lt (by omega), Nat.mod_eq_of_lt (by omega)] at h3
    exact h3
  · rintro rfl
    push_cast
    module

/-- **C91** The deployed system (P-256, P-384; SHA-256).  From the bytes of any ballot of `castVote` and public numbers: `m` is found as
the one number below 65536 that opens it, and for every `v` below 65536 for which `z + c·(v - m)` is in the release interval, the
rewritten bytes are accepted and open to `v` only.  That holds for every `v` when `z` is 2^240 away from the ends of the interval. -/
theorem C91_deployed (nan64 : BitVec 64) {C : CirclCurve} {bits : ℕ} {H U : WPoint} {Gg Hh : List WPoint}
    (row : RealRow C bits H U Gg Hh) :
    ∃ pp, setup nan64 (circlGrp C) = some (.ok pp) ∧
      ∀ (rnd : CastRand) (ballot : BallotData Int WPoint),
        (0 ≤ rnd.rChoice ∧ rnd.rChoice < 1899) →
        (rnd.bp1.sL.length = 16 ∧ rnd.bp1.sR.length = 16 ∧ rnd.bp2.sL.length = 16 ∧ rnd.bp2.sR.length = 16) →
        (∀ s ∈ rnd.tape, 0 ≤ s.k ∧ s.k < 2 ^ (bits - 1)) →
        castVote sha256 pp rnd = .done ballot →
        ∃ t, encBallotText modPCodec (wCodec C.c) ballot = some (.ok t) ∧
          decBallotBytes modPCodec (wCodec C.c) pp (Utf8.encode t) = some (.ok ballot) ∧
          ∃ (m : ℕ) (z c : Int), (∀ m' : ℕ, m' < 65536 → (OpensTo modp3072 ballot.Ballot.U ballot.Ballot.V m' ↔ m' = m)) ∧
            (m : Int) = 101 + rnd.rChoice ∧ ballot.VoteProof.Z = some z ∧ ballot.VoteProof.Challenge = some c ∧
            (∀ v : ℕ, v < 65536 → 2 ^ 240 ≤ z + c * (v - m) → z + c * (v - m) < 2 ^ (bits - 1) →
              ∃ b' ballot', rewriteBallot sha256 modPCodec (wCodec C.c) pp (Utf8.encode t) (v - m) = some b' ∧
                unmarshalAndVerify sha256 modPCodec (wCodec C.c) pp b' = some none ∧
                decBallotBytes modPCodec (wCodec C.c) pp b' = some (.ok ballot') ∧
                ∀ m' : ℕ, m' < 65536 → (OpensTo modp3072 ballot'.Ballot.U ballot'.Ballot.V m' ↔ m' = v)) ∧
            (2 ^ 241 ≤ z → z < 2 ^ (bits - 1) - 2 ^ 240 → ∀ v : ℕ, v < 65536 →
              2 ^ 240 ≤ z + c * (v - m) ∧ z + c * (v - m) < 2 ^ (bits - 1)) := by
  have ok := stdCircl_ord row.std.circl
  have := ok.fact'
  let := ok.module
  obtain ⟨Bb, hr, hb1, hb2, _⟩ := row.std.table
  let L₂ := ok.lawful
  obtain ⟨D, hD, dep, _⟩ := C47_curves nan64 (circlGrp C) (fun s _ => ⟨_, rfl⟩) C.n bits Bb hr rfl
  obtain ⟨L₁, L, hok, hV, _⟩ := deployed_legal (circlGrp C) D C.n bits Bb hr L₂
    (fun s e hs he => by injection he with he; exact he ▸ (wLegal_iff _ _).mpr (row.valid s)) dep
  have hopen : ∀ (rnd : CastRand), 0 ≤ rnd.rChoice → rnd.rChoice < 1899 → ∀ b, castVote sha256 D.pp rnd = .done b →
      ∀ m : ℕ, m < 65536 → (OpensTo modp3072 b.Ballot.U b.Ballot.V m ↔ (m : Int) = 101 + rnd.rChoice) := by
    obtain ⟨D', hD', h⟩ := C77_cast nan64 (circlGrp C) C.n bits Bb hr L₂
      (fun s _ => ⟨_, rfl, (wLegal_iff _ _).mpr (row.valid s)⟩)
    rw [hD] at hD'
    simp only [Option.some.injEq, Except.ok.injEq] at hD'
    rw [hD']
    exact h sha256
  refine ⟨D.pp, hD, fun rnd ballot hc hl ht hcast => ?_⟩
  have good₁ : modPCodec.Good L₁.V := fun e _ => modPCodec_good e trivial
  have good₂ : (wCodec C.c).Good L.V := fun e he => by
    rw [hV] at he
    exact C06_json_roundtrip C.c (stdCircl_curve row.std.circl) e ((wLegal_iff _ _).mp he)
  have vG : L.V D.G := by rw [hV, dep.G]; exact L₂.V_mulGen 1
  have hBb : -(2 ^ 63) ≤ D.Bb ∧ D.Bb < 2 ^ 63 := by rw [dep.Bb]; exact ⟨hb1, hb2⟩
  have hacc := (C41_honest_accepted sha256 D L₁ L 4 hok (by rw [dep.lo, dep.hi]; decide) (by rw [dep.lo, dep.hi]; decide) rnd
    (by rw [dep.lo, dep.hi]; exact hc) hl.1 hl.2.1 hl.2.2.1 hl.2.2.2 (by rw [dep.zUpper]; exact ht) ballot hcast).1
  have hop := hopen rnd hc.1 hc.2 ballot hcast
  unfold castVote at hcast
  cases hd : drawChoice D.pp rnd.rChoice with
  | none => rw [hd] at hcast; simp at hcast
  | some choice =>
  rw [hd] at hcast
  obtain ⟨hb, k1, k2, k3, k4, k5, -, -⟩ := castChoice_legal sha256 D L₁ L 4 hok vG hBb choice rnd hl.1 hl.2.1 hl.2.2.1 hl.2.2.2
    ballot hcast
  have hcar : Carries D ballot := ⟨k1, k2, k3, k4, k5⟩
  obtain ⟨-, -, a3⟩ := verifyVote_accept_iff.mp ⟨_, hacc⟩
  obtain ⟨z, c, Sp, Sq1, Sq2, hZ, hC, -, -, -, -, hch, -⟩ := (sigma_verify_iff _ _ _).mp a3
  obtain ⟨t, e1, e2, -⟩ := carried D modPCodec (wCodec C.c) good₁ good₂ JText.modP_flat (JText.w_flat C.c) ballot hb hcar
  obtain ⟨m, hm⟩ : ∃ m : ℕ, (m : Int) = 101 + rnd.rChoice := ⟨(101 + rnd.rChoice).toNat, by omega⟩
  have hm6 : m < 65536 := by omega
  refine ⟨t, e1, e2, m, z, c, fun m' h' => ?_, hm, hZ, hC, fun v hv h1 h2 => ?_, fun h1 h2 v hv => ?_⟩
  · rw [hop m' h', ← hm]
    omega
  · obtain ⟨t', g1, b', g2, g3, g4⟩ := C91_bytes sha256 D L₁ L modPCodec (wCodec C.c) good₁ good₂ JText.modP_flat (JText.w_flat C.c)
      ballot hb hcar _ hacc ((v : Int) - m) (fun z' c' y1 y2 => by
        rw [hZ] at y1
        rw [hC] at y2
        simp only [Option.some.injEq] at y1 y2
        rw [← y1, ← y2, dep.zLower, dep.zUpper]
        exact ⟨h1, h2⟩)
    rw [e1] at g1
    simp only [Option.some.injEq, Except.ok.injEq] at g1
    rw [← g1] at g2
    refine ⟨b', _, g2, g3, g4, fun m' h' => ?_⟩
    have e := dep.FF
    clear * - hb hop hm hm6 hv h' e
    obtain ⟨hu, hv', -, -, -⟩ := hb
    obtain ⟨FF, EC, PK, n, G, H, Gg, Hh, F, Bx, Bc, Bg, Bb, lo, hi⟩ := D
    dsimp only at e
    subst e
    exact opens_shift _ _ L₁ hu hv' m v hv ((hop m hm6).mpr hm) m' h'
  · have hBc : ballot.VoteProof.Params.Bc = 224 := by rw [k5]; exact dep.Bc
    rw [hBc] at hch
    have hc0 : 0 ≤ c ∧ c < 2 ^ 224 := by
      obtain ⟨-, x1, -, x2⟩ := (C28_challenge sha256 sha256_length _ _ _ _ _ _ _).2 _ hch
      exact ⟨x1, x2⟩
    have hmv : |(v : Int) - m| ≤ 65535 := by
      rw [abs_le]; constructor <;> omega
    have : |c * ((v : Int) - m)| ≤ 2 ^ 224 * 65535 := by
      rw [abs_mul, abs_of_nonneg hc0.1]
      exact mul_le_mul hc0.2.le hmv (abs_nonneg _) (by positivity)
    rw [abs_le] at this
    have p : (2 : Int) ^ 241 = 2 * 2 ^ 240 ∧ (2 : Int) ^ 224 * 65535 < 2 ^ 240 := by decide +kernel
    generalize (2 : Int) ^ (bits - 1) = B at *
    constructor <;> linarith [this.1, this.2, p.1, p.2]

/-- evaluated in the toy election, from bytes to bytes: the vote of the ballot is changed by -2, and the server accepts -/
example : (match castVote exSha3 exElection.pp exCast with
    | .done b => (match encBallotText modPCodec modPCodec b with
      | some (.ok t) => (rewriteBallot exSha3 modPCodec modPCodec exElection.pp (Utf8.encode t) (-2)).map fun b' =>
          (b' == Utf8.encode t, unmarshalAndVerify exSha3 modPCodec modPCodec exElection.pp b')
      | _ => none)
    | _ => none) = some (false, some none) := by decide +kernel

/-- both curves are rows of that kind, and the interval of `z` in which every vote can be put in is most of the release interval -/
example (dec : Bytes → Option WPoint) : RealRow (p256Real dec) 256 recH256 recU256 recGg256 recHh256 ∧
    RealRow (p384Real dec) 384 recH384 recU384 recGg384 recHh384 ∧
    (2 ^ 255 - 2 ^ 240 - 2 ^ 240) - 2 ^ 241 > (2 ^ 255 - 2 ^ 240) * (9998 / 10000 : ℚ) := ⟨.p256 dec, .p384 dec, by norm_num⟩

end MscPoc
