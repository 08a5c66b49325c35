import Verif.Spec.Transport
import Verif.Model.RistrettoJson
import Verif.Props.CrossCurve
import Verif.Props.K1Hash
import Verif.Props.RistrettoEnc

/-!
# C90 — ballots on secp256k1 and Ristretto255 do not survive transport
-/

set_option autoImplicit false

namespace MscPoc

open JSpec Utf8Spec

/-- C90: the decoders of secp256k1 and Ristretto255 forget what was sent. -/
theorem C90_forget : k1Codec.Forgets ∧ r255WCodec.Forgets := by
  constructor
  · intro recv data e h
    simpa [Codec.decode, k1Codec] using h.symm
  · intro recv data e h
    unfold Codec.decode at h
    obtain ⟨⟨b, e'⟩, h1, rfl⟩ := Option.map_eq_some_iff.mp h
    change (match unmarshalPoint 32 data with
        | none => none
        | some .error => some (true, recv)
        | some (.bytes b) => match R255.decode b with
          | none => some (true, recv)
          | some Q => some (false, Q)) = _ at h1
    cases hu : unmarshalPoint 32 data with
    | none => rw [hu] at h1; simp at h1
    | some pb =>
      rw [hu] at h1
      cases pb with
      | error => simp only [Option.some.injEq, Prod.mk.injEq] at h1; exact h1.2.symm
      | bytes b' =>
        have hl : b'.length ≠ 32 := by
          rcases unmarshalPoint_length _ _ _ hu with rfl | hb
          · simp
          · omega
        have : R255.decode b' = none := by unfold R255.decode; rw [if_neg hl]
        dsimp only at h1
        rw [this] at h1
        simp only [Option.some.injEq, Prod.mk.injEq] at h1
        exact h1.2.symm

section
variable {E₁ E₂ : Type}

/-- what is left of a ballot when the elements of the curve are forgotten -/
theorem Parts.forgotten {C₁ : Codec E₁} {C₂ : Codec E₂} (hC : C₂.Forgets) {pp : PublicParams E₁ E₂} {msg : String → Raw} {lo hi : BPRaw}
    {vp : SigmaRaw} {b : BallotData E₁ E₂} (h : Parts C₁ C₂ pp msg lo hi vp b) :
    (b.BpLower.V = pp.BPParams.GP.elt ∧ b.BpLower.A = pp.BPParams.GP.elt ∧ b.BpLower.S = pp.BPParams.GP.elt) ∧
    (b.BpUpper.V = pp.BPParams.GP.elt ∧ b.BpUpper.A = pp.BPParams.GP.elt ∧ b.BpUpper.S = pp.BPParams.GP.elt) ∧
    (∀ x ∈ List.zip b.BpLower.InnerProductProof.L b.BpLower.InnerProductProof.R, x = (pp.BPParams.GP.elt, pp.BPParams.GP.elt)) ∧
    (∀ x ∈ List.zip b.BpUpper.InnerProductProof.L b.BpUpper.InnerProductProof.R, x = (pp.BPParams.GP.elt, pp.BPParams.GP.elt)) ∧
    b.VoteProof.Kq1 = pp.RPParams.GEC.I.elt ∧ b.VoteProof.Kq2 = pp.RPParams.GEC.I.elt ∧
    b.VoteProof.Params.GEC.H = pp.RPParams.GEC.I.elt ∧ b.VoteProof.Params.GEC.I = pp.RPParams.GEC.I := by
  have pairs : ∀ (GP : Grp E₂) (xs ys : List Json) (l r : List E₂), decPairs GP C₂ xs ys = some (l, r) →
      ∀ x ∈ List.zip l r, x = (GP.elt, GP.elt) := by
    intro GP xs
    induction xs with
    | nil => intro ys l r h; simp [decPairs] at h; obtain ⟨rfl, rfl⟩ := h; simp
    | cons x xs ih =>
      intro ys l r h
      cases ys with
      | nil => simp [decPairs] at h
      | cons y ys =>
        unfold decPairs at h
        unbind h with a e1
        unbind h with b e2
        unbind h with p e3
        obtain ⟨l', r'⟩ := p
        simp only [Option.some.injEq, Prod.mk.injEq] at h
        obtain ⟨rfl, rfl⟩ := h
        intro z hz
        rw [List.zip_cons_cons, List.mem_cons] at hz
        rcases hz with rfl | hz
        · rw [hC _ _ _ e1, hC _ _ _ e2]
        · exact ih ys l' r' e3 z hz
  have bp : ∀ (j : BPRaw) (p : BulletProof E₂), decBPRaw C₂ pp.BPParams j = some p →
      (p.V = pp.BPParams.GP.elt ∧ p.A = pp.BPParams.GP.elt ∧ p.S = pp.BPParams.GP.elt) ∧
      ∀ x ∈ List.zip p.InnerProductProof.L p.InnerProductProof.R, x = (pp.BPParams.GP.elt, pp.BPParams.GP.elt) := by
    intro j p h
    unfold decBPRaw at h
    unbind h with ip e0
    unbind h with v e1
    unbind h with a e2
    unbind h with s e3
    unbind h with t1 e4
    unbind h with t2 e5
    simp only [Option.some.injEq] at h
    rw [← h]
    refine ⟨⟨hC _ _ _ e1, hC _ _ _ e2, hC _ _ _ e3⟩, ?_⟩
    unfold decIPProof at e0
    unbind e0 with params f1
    unbind e0 with lr f2
    unbind e0 with P f3
    simp only [Option.some.injEq] at e0
    rw [← e0]
    exact pairs _ _ _ _ _ f2
  obtain ⟨a1, a2⟩ := bp _ _ h.lower.2
  obtain ⟨b1, b2⟩ := bp _ _ h.upper.2
  have d := h.vote.2
  unfold decSigmaRaw decGroupParams at d
  unbind d with gff c1
  unbind d with gec c2
  unbind c2 with g3 d3
  unbind c2 with g4 d4
  unbind d with w c3
  unbind d with kp c4
  unbind d with kq1 c5
  unbind d with kq2 c6
  simp only [Option.some.injEq] at d c2
  rw [← d]
  exact ⟨a1, b1, a2, b2, hC _ _ _ c5, hC _ _ _ c6, by rw [← c2]; exact hC _ _ _ d4, by rw [← c2]⟩

variable {q : ℕ} [Fact q.Prime] {M : Type} [AddCommGroup M] [Module (ZMod q) M]

/-- **C90** A server whose decoder forgets the elements of the curve: everything it accepts has a challenge and a `Z` that the group
order divides. -/
theorem C90_accepted (sha : Bytes → Bytes) (C₁ : Codec E₁) (C₂ : Codec E₂) (hC : C₂.Forgets) (pp : PublicParams E₁ E₂)
    (GP : Grp E₂) (e1 : pp.BPParams.GP = GP) (e2 : pp.RPParams.GEC.I = GP) (L : Lawful GP q M)
    (hv : L.V GP.elt) (hd : L.den GP.elt = 0) (hfree : ∀ c : ZMod q, c • L.g = 0 → c = 0)
    (hr : ((pp.RPParams.RangeLo.toNat : Int) : ZMod q) ≠ ((pp.RPParams.RangeHi.toNat : Int) : ZMod q)) (b : Bytes)
    (h : unmarshalAndVerify sha C₁ C₂ pp b = some none) :
    ∃ t kvs vp Z c, Decodes b t ∧ IsText 10000 t (.obj kvs) ∧ rawSigma (lookupField ballotFields kvs "voteProof") = .ok vp ∧
      vp.Z = some Z ∧ vp.Challenge = some c ∧ (q : Int) ∣ Z ∧ (q : Int) ∣ c := by
  obtain ⟨t, kvs, lo, hi, vp, ballot, t1, t2, hp, hv'⟩ := unmarshalAndVerify_accepts.mp h
  obtain ⟨-, -, v3, -⟩ := verifyVote_parts (C70_no_new_verdicts _ _ _ _ _ _ hv')
  obtain ⟨Z, c, Sp, Sq1, Sq2, z1, z2, z3, z4, z5, -, -, hk⟩ := (sigma_verify_iff sha _ _).mp v3
  obtain ⟨f1, f2, -⟩ := decSigma_raw hp.vote.2
  obtain ⟨⟨g1, -⟩, ⟨g2, -⟩, -, -, g3, g4, g5, g6⟩ := hp.forgotten hC
  rw [e1] at g1 g2
  rw [e2] at g3 g4 g5 g6
  unfold sigmaChecks sigmaPedersenCheck vpCommit voteCommitments at hk
  simp only [Bool.and_eq_true] at hk
  obtain ⟨⟨-, k1⟩, k2⟩ := hk
  rw [g1, g3, g5, g6, e2] at k1
  rw [g2, g4, g5, g6, e2] at k2
  have vl : ∀ s, L.V (GP.add (GP.mulGen Z) (GP.mul GP.elt s)) := fun s => L.V_add (L.V_mulGen _) (L.V_mul _ hv)
  have dl : ∀ s, L.den (GP.add (GP.mulGen Z) (GP.mul GP.elt s)) = (Z : ZMod q) • L.g := fun s => by
    rw [L.den_add (L.V_mulGen _) (L.V_mul _ hv), L.den_mulGen, L.den_mul _ hv, hd, smul_zero, add_zero]
  have vx : ∀ (s : Int) (e : E₂), L.V e → L.V (GP.add (GP.mul (GP.add (GP.mulGen s) e) c) GP.elt) := fun s e he =>
    L.V_add (L.V_mul _ (L.V_add (L.V_mulGen _) he)) hv
  have dx : ∀ (s : Int) (e : E₂), L.V e → L.den e = 0 → L.den (GP.add (GP.mul (GP.add (GP.mulGen s) e) c) GP.elt) =
      ((c : ZMod q) * s) • L.g := fun s e he hz => by
    rw [L.den_add (L.V_mul _ (L.V_add (L.V_mulGen _) he)) hv, L.den_mul _ (L.V_add (L.V_mulGen _) he), L.den_add (L.V_mulGen _) he,
      L.den_mulGen, hd, hz, add_zero, add_zero, smul_smul]
  have vm : L.V (GP.mul GP.elt (-1)) := L.V_mul _ hv
  have dm : L.den (GP.mul GP.elt (-1)) = 0 := by rw [L.den_mul _ hv, hd, smul_zero]
  rw [L.isEqual_iff (vl _) (vx _ _ hv), dl, dx _ _ hv hd, ← sub_eq_zero, ← sub_smul] at k1
  rw [L.isEqual_iff (vl _) (vx _ _ vm), dl, dx _ _ vm dm, ← sub_eq_zero, ← sub_smul] at k2
  have m1 := hfree _ k1
  have m2 := hfree _ k2
  have hc : (c : ZMod q) = 0 := by
    have : (c : ZMod q) * (((pp.RPParams.RangeLo.toNat : Int) : ZMod q) - ((pp.RPParams.RangeHi.toNat : Int) : ZMod q)) = 0 := by
      linear_combination m2 - m1
    exact (mul_eq_zero.mp this).resolve_right (sub_ne_zero.mpr hr)
  rw [hc, zero_mul, sub_zero] at m1
  exact ⟨t, kvs, vp, Z, c, t1, t2, hp.vote.1, f1 ▸ z1, f2 ▸ z2, (ZMod.intCast_zmod_eq_zero_iff_dvd _ _).mp m1,
    (ZMod.intCast_zmod_eq_zero_iff_dvd _ _).mp hc⟩

/-- the raw parts of a document decode with any codec of the curve on which decoding does not panic -/
theorem Parts.other {E₂' : Type} {C₁ : Codec E₁} {C₂ : Codec E₂} {C₂' : Codec E₂'} {pp : PublicParams E₁ E₂} {pp' : PublicParams E₁ E₂'}
    (hf : pp.RPParams.GFF.I = pp'.RPParams.GFF.I) {kvs : List (String × Json)} {lo hi : BPRaw} {vp : SigmaRaw} {b : BallotData E₁ E₂}
    (h : Parts C₁ C₂ pp (lookupField ballotFields kvs) lo hi vp b) (hn : decBallot C₁ C₂' pp' (some (.obj kvs)) ≠ none) :
    ∃ b', Parts C₁ C₂' pp' (lookupField ballotFields kvs) lo hi vp b' := by
  have h0 := h.ballot
  rw [hf] at h0
  unfold decBallot asObj decBP decSigma at hn
  dsimp only at hn
  rw [bindEnc_ok h0, h.lower.1, h.upper.1, h.vote.1] at hn
  dsimp only at hn
  cases e1 : decBPRaw C₂' pp'.BPParams lo with
  | none => rw [e1] at hn; exact absurd rfl hn
  | some l =>
  rw [e1] at hn
  cases e2 : decBPRaw C₂' pp'.BPParams hi with
  | none => rw [e2] at hn; exact absurd rfl hn
  | some u =>
  rw [e2] at hn
  cases e3 : decSigmaRaw C₁ C₂' pp'.RPParams.GFF.I pp'.RPParams.GEC.I vp with
  | none => rw [e3] at hn; exact absurd rfl hn
  | some v => exact ⟨⟨b.Ballot, l, u, v⟩, h0, ⟨h.lower.1, e1⟩, ⟨h.upper.1, e2⟩, h.vote.1, e3⟩

/-! ### secp256k1 -/

/-- a decoder for what `k1Codec` writes -/
def k1Back : Codec K1Point where
  marshal := k1Codec.marshal
  unmarshal := fun recv r => match r with
    | some (.obj [(_, x), (_, y)]) => some (false, ⟨num x, num y⟩)
    | _ => some (true, recv)
where num : Json → Option Int
  | .num v => some v
  | _ => none

theorem k1Back_good (V : K1Point → Prop) : k1Back.Good V := by
  rintro ⟨X, Y⟩ -
  refine ⟨_, rfl, fun recv => ?_⟩
  have h : ∀ o : Option Int, k1Back.num (bigJson o) = o := fun o => by cases o <;> rfl
  show some (false, (⟨k1Back.num (bigJson X), k1Back.num (bigJson Y)⟩ : K1Point)) = _
  rw [h, h]

theorem encElems_back (es : List K1Point) : encElems k1Back es = encElems k1Codec es := by
  induction es with
  | nil => rfl
  | cons e es ih =>
    show bindEnc (k1Codec.enc e) (fun j => bindEnc (encElems k1Back es) _) = bindEnc (k1Codec.enc e) (fun j => bindEnc (encElems k1Codec es) _)
    rw [ih]

theorem encBallot_back (b : BallotData Int K1Point) : encBallot modPCodec k1Back b = encBallot modPCodec k1Codec b := by
  have e : k1Back.enc = k1Codec.enc := rfl
  have e' : encElems k1Back = encElems k1Codec := funext encElems_back
  unfold encBallot encBP encSigma encIPProof encBPParams encIPParams encProofParams encGroupParams
  rw [e, e']

theorem k1Back_decode (recv : K1Point) (r : Raw) : k1Back.decode recv r ≠ none := by
  unfold Codec.decode
  have : k1Back.unmarshal recv r ≠ none := by
    unfold k1Back
    dsimp only
    split <;> simp
  cases h : k1Back.unmarshal recv r with
  | none => exact absurd h this
  | some x => simp

/-- **C90** The deployed system on secp256k1 (SHA-256, ing-bank's hash to the curve): everything the server accepts has a challenge and
a `Z` that the group order divides.  The bytes of a ballot of `castVote` are never accepted: they are rejected, or — if the order divides
the challenge of two fresh elements — crash the server. -/
theorem C90_secp256k1 (nan64 : BitVec 64) (L : K1Lib) (hL : L.Identities) :
    ∃ pp, setup nan64 (k1Grp L.real) = some (.ok pp) ∧
      (∀ b, unmarshalAndVerify sha256 modPCodec k1Codec pp b = some none →
        ∃ t kvs vp Z c, Decodes b t ∧ IsText 10000 t (.obj kvs) ∧ rawSigma (lookupField ballotFields kvs "voteProof") = .ok vp ∧
          vp.Z = some Z ∧ vp.Challenge = some c ∧ (k1N : Int) ∣ Z ∧ (k1N : Int) ∣ c) ∧
      ∀ (rnd : CastRand) (ballot : BallotData Int K1Point),
        (0 ≤ rnd.rChoice ∧ rnd.rChoice < 1899) →
        (rnd.bp1.sL.length = 16 ∧ rnd.bp1.sR.length = 16 ∧ rnd.bp2.sL.length = 16 ∧ rnd.bp2.sR.length = 16) →
        (∀ s ∈ rnd.tape, 0 ≤ s.k ∧ s.k < 2 ^ 255) →
        castVote sha256 pp rnd = .done ballot →
        ∃ t, encBallotText modPCodec k1Codec ballot = some (.ok t) ∧
          unmarshalAndVerify sha256 modPCodec k1Codec pp (Utf8.encode t) =
            if (k1N : Int) ∣ roundChallenge sha256 (k1Grp L.real) ⟨none, none⟩ ⟨none, none⟩ then none
            else some (some "failed to verify data") := by
  let := k1Module
  have : Fact k1N.Prime := ⟨C48_orders.1⟩
  have hash := C66_seeds L
  have hL' := real_identities hL
  let L₂ := k1Lawful hL'.ok
  have hmap := K1HashOK.legal hash
  obtain ⟨D, hD, dep, _⟩ := C47_curves nan64 (k1Grp L.real) (fun s hs => (hmap s hs).imp fun _ h => h.1) k1N 256 15 k1_row rfl
  obtain ⟨L₁, LE, hok, hV, hden⟩ := deployed_legal (k1Grp L.real) D k1N 256 15 k1_row L₂ (seeds_legal hmap) dep
  have hfree : ∀ c : ZMod k1N, c • L₂.g = 0 → c = 0 := by
    intro c hc
    by_contra hne
    have h := smul_cancel hne hc
    rw [smul_zero] at h
    unfold Lawful.g at h
    obtain ⟨_, d⟩ := k1Mul_spec hL'.ok k1Base_legal 1
    rw [one_zsmul] at d
    exact k1Base_ne (d.symm.trans h)
  have acc := C90_accepted sha256 modPCodec k1Codec C90_forget.1 D.pp (k1Grp L.real) dep.EC dep.EC L₂ L₂.V_ident L₂.den_ident hfree
    (by
      show ((D.lo.toNat : Int) : ZMod k1N) ≠ ((D.hi.toNat : Int) : ZMod k1N)
      rw [dep.lo, dep.hi]
      intro h
      rw [ZMod.intCast_eq_intCast_iff_dvd_sub] at h
      exact absurd h (by decide +kernel))
  refine ⟨D.pp, hD, acc, fun rnd ballot hc hl ht hcast => ?_⟩
  have vG : LE.V D.G := by rw [hV, dep.G]; exact L₂.V_mulGen 1
  have hBb : -(2 ^ 63) ≤ D.Bb ∧ D.Bb < 2 ^ 63 := by rw [dep.Bb]; decide
  obtain ⟨j, e1, b, e2, rfl, e3⟩ := C44_end_to_end sha256 D L₁ LE modPCodec k1Back (fun e _ => modPCodec_good e trivial) (k1Back_good _) 4
    hok vG hBb (by rw [dep.lo, dep.hi]; decide) (by rw [dep.lo, dep.hi]; decide) rnd (by rw [dep.lo, dep.hi]; exact hc)
    hl.1 hl.2.1 hl.2.2.1 hl.2.2.2 (by rw [dep.zUpper]; exact ht) ballot hcast
  obtain ⟨hb, hP⟩ : BallotOk L₁.V LE.V b ∧ b.VoteProof.Params = D.rp := by
    unfold castVote at hcast
    cases hd : drawChoice D.pp rnd.rChoice with
    | none => rw [hd] at hcast; simp at hcast
    | some choice =>
      rw [hd] at hcast
      obtain ⟨hb, -, -, -, -, hP, -⟩ := castChoice_legal sha256 D L₁ LE 4 hok vG hBb choice rnd hl.1 hl.2.1 hl.2.2.1 hl.2.2.2 b hcast
      exact ⟨hb, hP⟩
  have e : encBallotText modPCodec k1Codec b = some (.ok (JText.print j)) := by
    unfold encBallotText
    rw [← encBallot_back, e1]
    rfl
  refine ⟨_, e, ?_⟩
  obtain ⟨⟨l, -, f4, ht⟩, -⟩ := C61_marshalled modPCodec k1Codec JText.modP_flat JText.k1_flat D.pp b _ e
  rw [← encBallot_back, e1] at f4
  simp only [Option.some.injEq, Except.ok.injEq] at f4
  subst f4
  have hps : JText.parse (Utf8.decode (Utf8.encode (JText.print (.obj l)))) = some (.obj l) := by
    rw [Utf8.decode_encode, (C61_scanner _ _).mpr ht]
  -- accepted when the elements survive
  have ha : unmarshalAndVerify sha256 modPCodec k1Back D.pp (Utf8.encode (JText.print (.obj l))) = some none := by
    obtain ⟨b', h1, h2⟩ := C70_equal_lengths modPCodec k1Back D.pp b b _ e1 e2 hb.lower.ip.params.len hb.upper.ip.params.len
    unfold unmarshalAndVerify decBallotBytesN
    rw [hps, h1]
    dsimp only
    rw [h2, show D.pp.RPParams = D.rp from rfl, e3]
    rfl
  have hN : D.pp.BPParams.GP.N = (k1N : ℕ) := by rw [show D.pp.BPParams.GP = k1Grp L.real from dep.EC]; rfl
  have hn : D.pp.BPParams.N = 16 := dep.n
  have chk := (C87_checked sha256 sha256_length modPCodec k1Back D.pp k1N C48_orders.1 hN (by omega) (by rw [hn]; exact dep.lenG)
    (by rw [hn]; exact dep.lenH) rfl (Utf8.encode (JText.print (.obj l)))).1 ha
  have pan := C87_panics sha256 sha256_length modPCodec k1Codec D.pp k1N C48_orders.1 hN (by omega) (by rw [hn]; exact dep.lenG)
    (by rw [hn]; exact dep.lenH) rfl (Utf8.encode (JText.print (.obj l)))
  have one : ∀ {t : Text} {kvs : List (String × Json)}, Decodes (Utf8.encode (JText.print (.obj l))) t → IsText 10000 t (.obj kvs) →
      kvs = l := by
    intro t kvs t1 t2
    have e : some (Json.obj kvs) = some (Json.obj l) := ((C75_document _ _).mpr ⟨t, t1, t2⟩).symm.trans hps
    simpa using e
  obtain ⟨t, kvs, t1, t2, chk⟩ := chk
  obtain rfl := one t1 t2
  have nb : (fun r => k1Back.decode D.pp.BPParams.GP.elt r = none) = fun r => k1Codec.decode D.pp.BPParams.GP.elt r = none := by
    funext r
    exact propext ⟨fun h => absurd h (k1Back_decode _ _), fun h => absurd h (by simp [Codec.decode, k1Codec])⟩
  rw [nb] at chk
  obtain ⟨lo, hi, vp, hp⟩ := parts_of e2
  obtain ⟨b', hp'⟩ := hp.other (C₂' := k1Codec) (pp' := D.pp) rfl fun h =>
    chk.points ((C84_ballot modPCodec k1Codec D.pp _ rfl).mp h)
  obtain ⟨⟨-, a1, s1⟩, ⟨-, a2, s2⟩, z1, z2, -⟩ := hp'.forgotten C90_forget.1
  have hE : D.pp.BPParams.GP = k1Grp L.real := dep.EC
  rw [hE] at a1 s1 a2 s2 z1 z2
  have zero : ∀ {p : BulletProof K1Point}, p.A = ⟨none, none⟩ → p.S = ⟨none, none⟩ →
      (∀ x ∈ List.zip p.InnerProductProof.L p.InnerProductProof.R, x = ((⟨none, none⟩ : K1Point), (⟨none, none⟩ : K1Point))) →
      (ZeroChallenge sha256 D.pp.BPParams.GP p ↔ (k1N : Int) ∣ roundChallenge sha256 (k1Grp L.real) ⟨none, none⟩ ⟨none, none⟩) := by
    intro p h1 h2 h3
    unfold ZeroChallenge
    rw [hE, h1, h2, show (k1Grp L.real).N = (k1N : Int) from rfl]
    exact ⟨fun h => h.elim id fun ⟨x, hx, h⟩ => by rw [h3 x hx] at h; exact h, Or.inl⟩
  have c1 := chk.ranges "lbProof" (by simp) lo hp'.lower.1
  by_cases hz : (k1N : Int) ∣ roundChallenge sha256 (k1Grp L.real) ⟨none, none⟩ ⟨none, none⟩
  · rw [if_pos hz, pan]
    exact ⟨t, _, t1, t2, Or.inr ⟨lo, hi, vp, b', hp', Or.inl (Or.inr ((zero a1 s1 z1).mpr hz))⟩⟩
  · rw [if_neg hz]
    have c2 := chk.ranges "ubProof" (by simp) hi hp'.upper.1
    have np : unmarshalAndVerify sha256 modPCodec k1Codec D.pp (Utf8.encode (JText.print (.obj kvs))) ≠ none := by
      intro h
      obtain ⟨lo', hi', vp', b'', hp'', h⟩ := (C87_checked sha256 sha256_length modPCodec k1Codec D.pp k1N C48_orders.1 hN (by omega)
        (by rw [hn]; exact dep.lenG) (by rw [hn]; exact dep.lenH) rfl (Utf8.encode (JText.print (.obj kvs)))).2 t kvs t1 t2 chk h
      obtain ⟨⟨-, a1, s1⟩, ⟨-, a2, s2⟩, z1, z2, -⟩ := hp''.forgotten C90_forget.1
      rw [hE] at a1 s1 a2 s2 z1 z2
      rcases h with h | h
      · exact hz ((zero a1 s1 z1).mp h)
      · exact hz ((zero a2 s2 z2).mp h)
    have na : unmarshalAndVerify sha256 modPCodec k1Codec D.pp (Utf8.encode (JText.print (.obj kvs))) ≠ some none := by
      intro h
      obtain ⟨t', kvs', vp', Z, c, u1, u2, u3, u4, -, u5, -⟩ := acc _ h
      obtain rfl := one u1 u2
      have ev := hp.vote.1.symm.trans u3
      simp only [Except.ok.injEq] at ev
      subst ev
      obtain ⟨-, -, v3, -⟩ := verifyVote_parts e3
      obtain ⟨Z', _, _, _, _, y1, -, -, -, -, y2, -⟩ := (sigma_verify_iff sha256 _ _).mp v3
      have : Z' = Z := by
        have := (decSigma_raw hp.vote.2).1
        rw [y1, u4] at this
        simpa using this
      subst this
      rw [hP] at y2
      unfold ProofParams.zOk at y2
      rw [dep.zLower, dep.zUpper] at y2
      simp only [Bool.not_eq_true', Bool.or_eq_false_iff, decide_eq_false_iff_not, Bool.not_eq_false', decide_eq_true_eq, not_lt] at y2
      obtain ⟨w1, w2⟩ := y2
      have w3 : (2 : Int) ^ (256 - 1) < k1N := by decide +kernel
      have w4 : (0 : Int) < 2 ^ 240 := by decide +kernel
      have := Int.le_of_dvd (w4.trans_le w1) u5
      exact absurd (w2.trans w3) (not_lt.mpr this)
    revert np na
    unfold unmarshalAndVerify decBallotBytesN
    rw [hps, hp'.decN]
    dsimp only
    cases verifyVoteN sha256 (b'.withNils (lo.IP.nilH, lo.IP.nilR) (hi.IP.nilH, hi.IP.nilR)) D.pp.RPParams with
    | none => exact fun np => absurd rfl np
    | some out =>
      obtain ⟨r, ts⟩ := out
      cases r with
      | true => exact fun _ na => absurd rfl na
      | false => exact fun _ _ => rfl

/-! ### Ristretto255 -/

/-- no error is returned -/
def NoErr {α : Type} (x : Option (Except String α)) : Prop := ∀ e, x ≠ some (.error e)

theorem NoErr.bind {α β : Type} {x : Option (Except String α)} {f : α → Option (Except String β)} (hx : NoErr x) (hf : ∀ a, NoErr (f a)) :
    NoErr (bindEnc x f) := by
  unfold bindEnc
  split
  · simp [NoErr]
  · exact absurd rfl (hx _)
  · exact hf _

theorem NoErr.ok {α : Type} (a : α) : NoErr (some (.ok a) : Option (Except String α)) := by simp [NoErr]

theorem encElems_noErr {E : Type} {C : Codec E} (h : ∀ e, NoErr (C.enc e)) (es : List E) : NoErr (encElems C es) := by
  induction es with
  | nil => exact NoErr.ok _
  | cons e es ih => exact (h e).bind fun _ => ih.bind fun _ => NoErr.ok _

theorem encBP_noErr {E : Type} {C : Codec E} (h : ∀ e, NoErr (C.enc e)) (p : BulletProof E) : NoErr (encBP C p) := by
  have hs := encElems_noErr h
  exact (h _).bind fun _ => (h _).bind fun _ => (h _).bind fun _ => (h _).bind fun _ => (h _).bind fun _ =>
    NoErr.bind ((h _).bind fun _ => (hs _).bind fun _ => (hs _).bind fun _ =>
      NoErr.bind ((hs _).bind fun _ => (hs _).bind fun _ => (h _).bind fun _ => NoErr.ok _) fun _ => NoErr.ok _) fun _ =>
    NoErr.bind ((h _).bind fun _ => (h _).bind fun _ => (hs _).bind fun _ => (hs _).bind fun _ => NoErr.ok _) fun _ => NoErr.ok _

/-- a generator on which the encoder panics makes the encoder of ballots panic -/
theorem encBallot_gen_none {E₁ E₂ : Type} {C₁ : Codec E₁} {C₂ : Codec E₂} (h₁ : ∀ e, NoErr (C₁.enc e)) (h₂ : ∀ e, NoErr (C₂.enc e))
    (b : BallotData E₁ E₂) (hg : C₂.enc b.VoteProof.Params.GEC.G = none) : encBallot C₁ C₂ b = none := by
  have hs : NoErr (encSigma C₁ C₂ b.VoteProof) :=
    (h₁ _).bind fun _ => (h₁ _).bind fun _ => (h₂ _).bind fun _ => (h₂ _).bind fun _ =>
      NoErr.bind (NoErr.bind ((h₁ _).bind fun _ => (h₁ _).bind fun _ => NoErr.ok _) fun _ =>
        NoErr.bind ((h₂ _).bind fun _ => (h₂ _).bind fun _ => NoErr.ok _) fun _ => NoErr.ok _) fun _ => NoErr.ok _
  have hb : NoErr (encBallot C₁ C₂ b) :=
    NoErr.bind ((h₁ _).bind fun _ => (h₁ _).bind fun _ => NoErr.ok _) fun _ => (encBP_noErr h₂ _).bind fun _ =>
      (encBP_noErr h₂ _).bind fun _ => hs.bind fun _ => NoErr.ok _
  cases h : encBallot C₁ C₂ b with
  | none => rfl
  | some r =>
    cases r with
    | error e => exact absurd h (hb e)
    | ok j =>
      exfalso
      unfold encBallot at h
      obtain ⟨_, _, h⟩ := bindEnc_inv h
      obtain ⟨_, _, h⟩ := bindEnc_inv h
      obtain ⟨_, _, h⟩ := bindEnc_inv h
      obtain ⟨vp, h, _⟩ := bindEnc_inv h
      unfold encSigma encProofParams encGroupParams at h
      obtain ⟨_, _, h⟩ := bindEnc_inv h
      obtain ⟨_, _, h⟩ := bindEnc_inv h
      obtain ⟨_, _, h⟩ := bindEnc_inv h
      obtain ⟨_, _, h⟩ := bindEnc_inv h
      obtain ⟨_, h, _⟩ := bindEnc_inv h
      obtain ⟨_, _, h⟩ := bindEnc_inv h
      obtain ⟨_, h, _⟩ := bindEnc_inv h
      obtain ⟨g, h, _⟩ := bindEnc_inv h
      rw [hg] at h
      simp at h

theorem r255_noErr (e : WPoint) : NoErr (r255WCodec.enc e) := by
  have hl : (R255.encode e).length = 32 := R255.toBytes_length (R255.encodeS_lt e)
  show NoErr (marshalPoint 32 (R255.encode e))
  generalize R255.encode e = b at hl
  have h := C09_marshal (fun _ => true) ⟨b⟩ hl
  change marshalPoint 32 b = _ at h
  rw [h]
  split
  · exact NoErr.ok _
  · simp [NoErr]

/-- the generator of Ristretto255 cannot be marshalled -/
theorem r255_generator (pieces : Bytes → List Bytes) : r255WCodec.enc (r255Grp (r255Real pieces)).generator = none := by
  have h : (r255Codec fun _ => true).marshal ⟨R255.encode edBase⟩ = none := by rw [C65_json, if_neg (by decide +kernel)]
  generalize hb : R255.encode edBase = b at h
  show marshalPoint 32 (R255.encode edBase) = none
  rw [hb]
  exact h

/-- **C90** The deployed system on Ristretto255 (real encoding, real map, any derivation of the mapped strings): no ballot of `castVote`
can be marshalled, `json.Marshal` panics; and everything a server accepts has a challenge and a `Z` that the group order divides. -/
theorem C90_ristretto (sha : Bytes → Bytes) (nan64 : BitVec 64) (pieces : Bytes → List Bytes) :
    ∃ pp, setup nan64 (r255Grp (r255Real pieces)) = some (.ok pp) ∧
      (∀ (rnd : CastRand) (ballot : BallotData Int WPoint),
        (rnd.bp1.sL.length = 16 ∧ rnd.bp1.sR.length = 16 ∧ rnd.bp2.sL.length = 16 ∧ rnd.bp2.sR.length = 16) →
        castVote sha pp rnd = .done ballot → encBallotText modPCodec r255WCodec ballot = none) ∧
      ∀ b, unmarshalAndVerify sha modPCodec r255WCodec pp b = some none →
        ∃ t kvs vp Z c, Decodes b t ∧ IsText 10000 t (.obj kvs) ∧ rawSigma (lookupField ballotFields kvs "voteProof") = .ok vp ∧
          vp.Z = some Z ∧ vp.Challenge = some c ∧ (r255N : Int) ∣ Z ∧ (r255N : Int) ∣ c := by
  let := r255Module
  let L₂ := r255Lawful (r255Real pieces)
  have hmap := r255_hash (L := r255Real pieces) fun s _ => C65_pieces (pieces s)
  obtain ⟨D, hD, dep, _⟩ := C47_curves nan64 (r255Grp (r255Real pieces)) (fun s hs => (hmap s hs).imp fun _ h => h.1) r255N 253 12 r255_row rfl
  obtain ⟨L₁, LE, hok, hV, hden⟩ := deployed_legal (r255Grp (r255Real pieces)) D r255N 253 12 r255_row L₂ (seeds_legal hmap) dep
  have hfree : ∀ c : ZMod r255N, c • L₂.g = 0 → c = 0 := by
    intro c hc
    by_contra hne
    have h := smul_cancel hne hc
    rw [smul_zero] at h
    exact r255Base_ne h
  have acc := C90_accepted sha modPCodec r255WCodec C90_forget.2 D.pp (r255Grp (r255Real pieces)) dep.EC dep.EC L₂ L₂.V_ident
    L₂.den_ident hfree
    (by
      show ((D.lo.toNat : Int) : ZMod r255N) ≠ ((D.hi.toNat : Int) : ZMod r255N)
      rw [dep.lo, dep.hi]
      intro h
      rw [ZMod.intCast_eq_intCast_iff_dvd_sub] at h
      exact absurd h (by decide +kernel))
  refine ⟨D.pp, hD, fun rnd ballot hl hcast => ?_, acc⟩
  have vG : LE.V D.G := by rw [hV, dep.G]; exact L₂.V_mulGen 1
  have hBb : -(2 ^ 63) ≤ D.Bb ∧ D.Bb < 2 ^ 63 := by rw [dep.Bb]; decide
  have hP : ballot.VoteProof.Params = D.rp := by
    unfold castVote at hcast
    cases hd : drawChoice D.pp rnd.rChoice with
    | none => rw [hd] at hcast; simp at hcast
    | some choice =>
      rw [hd] at hcast
      exact (castChoice_legal sha D L₁ LE 4 hok vG hBb choice rnd hl.1 hl.2.1 hl.2.2.1 hl.2.2.2 ballot hcast).2.2.2.2.2.1
  unfold encBallotText
  have h₁ : ∀ e : Int, NoErr (modPCodec.enc e) := fun e => NoErr.ok _
  have hg : r255WCodec.enc ballot.VoteProof.Params.GEC.G = none := by
    rw [hP, show D.rp.GEC.G = D.EC.generator from rfl, dep.EC]
    exact r255_generator pieces
  rw [encBallot_gen_none h₁ r255_noErr ballot hg]
  rfl

end

/-- a codec that keeps its elements does not forget: the one of the ElGamal group; so C90 is about the other two -/
example : ¬ modPCodec.Forgets := fun h => absurd (h 1 (some (.num 2)) 2 rfl) (by decide)

/-- `exK1` meets the condition of `C90_secp256k1` -/
example : exK1.Identities := ⟨Or.inr rfl, Or.inl rfl⟩

/-- evaluated in the toy election, with the curve's codec replaced by one that forgets: the ballot of the honest voter is rejected, while
the codec that keeps elements gets it accepted -/
example : (match castVote exSha3 exElection.pp exCast with
    | .done b => (match encBallotText modPCodec modPCodec b with
      | some (.ok t) => [modPCodec, { modPCodec with unmarshal := fun recv _ => some (false, recv) }].map fun C =>
        unmarshalAndVerify exSha3 modPCodec C exElection.pp (Utf8.encode t)
      | _ => [])
    | _ => []) = [some none, some (some "failed to verify data")] := by decide +kernel

/-- the condition of `C90_accepted` on the range holds in the toy election -/
example : ((exElection.pp.RPParams.RangeLo.toNat : Int) : ZMod 1031) ≠ ((exElection.pp.RPParams.RangeHi.toNat : Int) : ZMod 1031) := by
  decide

end MscPoc
