import Verif.Props.RandHiding
import Verif.Props.K1Hash
import Verif.Props.RistrettoEnc

/-!
# C99 — range proofs reveal nothing about the values, on all four curves and for any test a reader applies
-/

set_option autoImplicit false

namespace MscPoc

variable {E : Type} {q : ℕ} {M : Type} [AddCommGroup M] [Module (ZMod q) M]

theorem runsWith_results (P : BulletProof E → Prop) (sha : Bytes → Bytes) (params : BPParams E) (v : Int) :
    {a : BPRand | a.Drawn params.N params.GP.N ∧ ∃ b, bpResult (bpProve sha params a v) = some b ∧ P b.1} =
      runsWith P sha params v := by
  ext rnd
  simp only [runsWith, Set.mem_ofPred_eq]
  refine and_congr_right fun _ => ⟨?_, fun ⟨pf, h, hp⟩ => ⟨_, by rw [h]; rfl, hp⟩⟩
  rintro ⟨⟨p, g⟩, e, hp⟩
  have e' := bpResult_some e
  obtain rfl : g = rnd.gamma := (C49_same_challenges sha params rnd v p g e' _ _ rfl rfl).2.2.2.1
  exact ⟨p, e', hp⟩

theorem multiRunsWith_results (P : MultiBulletProof E → Prop) (sha : Bytes → Bytes) (params : BPParams E) (vs : List Int) :
    {a : MultiRand | a.Drawn vs.length params.N params.GP.N ∧
      ∃ b, multiProve sha params a vs = some b ∧ ∃ pf g, b = .ok (pf, g) ∧ P pf} = multiRunsWith P false sha params vs := by
  ext rnd
  simp only [multiRunsWith, Set.mem_ofPred_eq]
  refine and_congr_right fun _ => ⟨?_, fun ⟨pf, h, hp⟩ => ⟨_, by rw [← (C95_same sha params rnd vs pf).1]; exact h, _, _, rfl, hp⟩⟩
  rintro ⟨_, e, pf, g, rfl, hp⟩
  obtain rfl : g = rnd.gammas := multiProve_gammas e
  exact ⟨pf, by rw [(C95_same sha params rnd vs pf).1]; exact e, hp⟩

/-- **C99** For every test `P` and every length `L`, `Prove` returns a proof that passes on equally many strings of `L` bytes for any two
values of the range.  The test must not tell apart proofs that look alike, and may pass only proofs of good points whose challenge `x` is
not zero modulo the order. -/
theorem C99_prove [Fact q.Prime] (params : BPParams E) (Lw : Lawful params.GP q M) (k : ℕ) (hO : ParamsOK params Lw k)
    {R : E → E → Prop} {good : E → Prop} (hR : Looks Lw R good)
    (hgen : ∀ m : M, ∃ c : ZMod q, c • Lw.den params.H = m)
    (sha : Bytes → Bytes) (P : BulletProof E → Prop) (hP : ∀ a b : BulletProof E, a.Alike R b → P b → P a)
    (hg : ∀ pf, P pf → ∀ e ∈ pf.points, good e)
    (hx : ∀ pf, P pf → ¬ params.GP.N ∣ roundChallenge sha params.GP pf.T1 pf.T2)
    (v v' : Int) (hv : 0 ≤ v ∧ v < 2 ^ params.N) (hv' : 0 ≤ v' ∧ v' < 2 ^ params.N) (L : ℕ) :
    Nat.card {t : Bytes // t.length = L ∧ ∃ r rest, P r.1 ∧ bpProveB sha params v t = .done (r, rest)} =
      Nat.card {t : Bytes // t.length = L ∧ ∃ r rest, P r.1 ∧ bpProveB sha params v' t = .done (r, rest)} := by
  have hN : 0 < params.GP.N := by rw [Lw.N_eq]; exact_mod_cast (Fact.out : q.Prime).pos
  obtain ⟨f1, e⟩ := C53_test params Lw k hO hR hgen sha P hP hg hx v v' hv hv'
  obtain ⟨f2, _⟩ := C53_test params Lw k hO hR hgen sha P hP hg hx v' v hv' hv
  rw [← runsWith_results] at f1 f2
  rw [← runsWith_results, ← runsWith_results] at e
  exact ((drawBP_uniform params hN).same (fun r => bpResult (bpProve sha params r v)) (fun r => bpResult (bpProve sha params r v'))
    (fun r => P r.1) f1 f2 e L).2

/-- **C99** The same for aggregated proofs, as `MultiProve` makes them. -/
theorem C99_multi [Fact q.Prime] (params : BPParams E) (Lw : Lawful params.GP q M) (k : ℕ) (hO : ParamsOK params Lw k)
    {R : E → E → Prop} {good : E → Prop} (hR : Looks Lw R good)
    (hgen : ∀ m : M, ∃ c : ZMod q, c • Lw.den params.H = m)
    (sha : Bytes → Bytes) (P : MultiBulletProof E → Prop) (hP : ∀ a b : MultiBulletProof E, a.Alike R b → P b → P a)
    (hg : ∀ pf, P pf → ∀ e ∈ pf.points, good e)
    (hx : ∀ pf, P pf → ¬ params.GP.N ∣ roundChallenge sha params.GP pf.T1 pf.T2)
    (vs vs' : List Int) (hlen : vs.length = vs'.length)
    (hv : ∀ v ∈ vs, 0 ≤ v ∧ v < 2 ^ (params.N / vs.length)) (hv' : ∀ v ∈ vs', 0 ≤ v ∧ v < 2 ^ (params.N / vs.length)) (L : ℕ) :
    Nat.card {t : Bytes // t.length = L ∧ ∃ pf g rest, P pf ∧ multiProveB sha params vs t = .done (.ok (pf, g), rest)} =
      Nat.card {t : Bytes // t.length = L ∧ ∃ pf g rest, P pf ∧ multiProveB sha params vs' t = .done (.ok (pf, g), rest)} := by
  have hN : 0 < params.GP.N := by rw [Lw.N_eq]; exact_mod_cast (Fact.out : q.Prime).pos
  obtain ⟨f1, e⟩ := C96_test false params Lw k hO hR hgen sha P hP hg hx vs vs' hlen hv hv'
  obtain ⟨f2, _⟩ := C96_test false params Lw k hO hR hgen sha P hP hg hx vs' vs hlen.symm (hlen ▸ hv') (hlen ▸ hv)
  rw [← multiRunsWith_results] at f1 f2
  rw [← multiRunsWith_results, ← multiRunsWith_results] at e
  rw [← hlen] at f2 e
  have key := ((drawMulti_uniform params hN vs.length).same (fun r => multiProve sha params r vs) (fun r => multiProve sha params r vs')
    (fun r => ∃ pf g, r = .ok (pf, g) ∧ P pf) f1 f2 e L).2
  have sets : ∀ x : Draw (Except String (MultiBulletProof E × List Int)), ∀ t : Bytes,
      (t.length = L ∧ ∃ r rest, (∃ pf g, r = .ok (pf, g) ∧ P pf) ∧ x t = .done (r, rest)) ↔
      (t.length = L ∧ ∃ pf g rest, P pf ∧ x t = .done (.ok (pf, g), rest)) := by
    intro x t
    refine and_congr_right fun _ => ⟨?_, ?_⟩
    · rintro ⟨_, rest, ⟨pf, g, rfl, hp⟩, e⟩
      exact ⟨pf, g, rest, hp, e⟩
    · rintro ⟨pf, g, rest, hp, e⟩
      exact ⟨_, rest, ⟨pf, g, rfl, hp⟩, e⟩
  simp only [sets] at key
  by_cases h0 : vs.length = 0
  · have e1 : multiProveB sha params vs = Draw.lift none := if_pos h0
    have e2 : multiProveB sha params vs' = Draw.lift none := if_pos (hlen ▸ h0)
    rw [e1, e2]
  · have e1 : multiProveB sha params vs = (drawMulti params vs.length >>= fun r => Draw.lift (multiProve sha params r vs)) := if_neg h0
    have e2 : multiProveB sha params vs' = (drawMulti params vs.length >>= fun r => Draw.lift (multiProve sha params r vs')) := by
      rw [hlen]; exact if_neg (hlen ▸ h0)
    rw [e1, e2]
    exact key

/-- what C99 says about the parameters that `setup` returns for a group of order `n` -/
def HidesFrom {E : Type} (nan64 : BitVec 64) (C : Grp E) (n : ℕ) (R : E → E → Prop) (good : E → Prop) : Prop :=
  ∃ pp, setup nan64 C = some (.ok pp) ∧ ∀ (sha : Bytes → Bytes) (L : ℕ),
    (∀ P : BulletProof E → Prop, (∀ a b : BulletProof E, a.Alike R b → P b → P a) → (∀ pf, P pf → ∀ e ∈ pf.points, good e) →
      (∀ pf, P pf → ¬ (n : Int) ∣ roundChallenge sha C pf.T1 pf.T2) →
      ∀ v v' : Int, 0 ≤ v ∧ v < 65536 → 0 ≤ v' ∧ v' < 65536 →
      Nat.card {t : Bytes // t.length = L ∧ ∃ r rest, P r.1 ∧ bpProveB sha pp.BPParams v t = .done (r, rest)} =
      Nat.card {t : Bytes // t.length = L ∧ ∃ r rest, P r.1 ∧ bpProveB sha pp.BPParams v' t = .done (r, rest)}) ∧
    ∀ P : MultiBulletProof E → Prop, (∀ a b : MultiBulletProof E, a.Alike R b → P b → P a) → (∀ pf, P pf → ∀ e ∈ pf.points, good e) →
      (∀ pf, P pf → ¬ (n : Int) ∣ roundChallenge sha C pf.T1 pf.T2) →
      ∀ vs vs' : List Int, vs.length = vs'.length → (∀ v ∈ vs, 0 ≤ v ∧ v < 2 ^ (16 / vs.length)) →
      (∀ v ∈ vs', 0 ≤ v ∧ v < 2 ^ (16 / vs.length)) →
      Nat.card {t : Bytes // t.length = L ∧ ∃ pf g rest, P pf ∧ multiProveB sha pp.BPParams vs t = .done (.ok (pf, g), rest)} =
      Nat.card {t : Bytes // t.length = L ∧ ∃ pf g rest, P pf ∧ multiProveB sha pp.BPParams vs' t = .done (.ok (pf, g), rest)}

/-- **C99** With the parameters of `setup`, for any curve of the table whose group has as many elements as its order and whose `H` is not
the identity. -/
theorem C99_deployed (nan64 : BitVec 64) (C : Grp E) (N bits : ℕ) (Bb : Int) (row : (N, bits, Bb) ∈ curveTable) [Fact N.Prime]
    {M : Type} [AddCommGroup M] [Module (ZMod N) M] (L₀ : Lawful C N M) (hcard : Nat.card M = N)
    (hm : ∀ s, SetupSeed 16 s → ∃ e, C.mapToGroup s = some e ∧ L₀.V e)
    (hH : ∀ e, C.mapToGroup SEEDH = some e → L₀.den e ≠ 0)
    {R : E → E → Prop} {good : E → Prop} (hR : Looks L₀ R good) : HidesFrom nan64 C N R good := by
  obtain ⟨D, hD, dep, _⟩ := C47_curves nan64 C (fun s h => (hm s h).imp fun e h1 => h1.1) N bits Bb row L₀.N_eq
  obtain ⟨L₁, Lw, hok, eV, eD⟩ := deployed_legal C D N bits Bb row L₀ (seeds_legal hm) dep
  have hn : D.pp.BPParams.N = 16 := dep.n
  have hG : D.pp.BPParams.GP = C := dep.EC
  have hR' : Looks Lw R good := ⟨hR.refl, hR.symm, hR.trans, fun h => by rw [dep.EC]; exact hR.str h, hR.good_of, fun {a b} ha hb e g => by
    rw [eV] at ha hb
    rw [eD] at e
    exact hR.rep ha hb e g⟩
  have hd : Lw.den D.pp.BPParams.H ≠ 0 := by
    rw [eD]
    exact hH _ dep.H
  have hgen : ∀ m : M, ∃ c : ZMod N, c • Lw.den D.pp.BPParams.H = m := by
    intro m
    have : m ∈ AddSubgroup.zmultiples (Lw.den D.pp.BPParams.H) := mem_zmultiples_of_prime_card hcard hd
    obtain ⟨j, e⟩ := AddSubgroup.mem_zmultiples_iff.mp this
    refine ⟨j, ?_⟩
    rw [← e]
    exact Int.cast_smul_eq_zsmul (ZMod N) j _
  refine ⟨D.pp, hD, fun sha L => ⟨fun P hP hg hx v v' hv hv' => ?_, fun P hP hg hx vs vs' hlen hv hv' => ?_⟩⟩
  · exact C99_prove D.pp.BPParams Lw 4 hok.bp hR' hgen sha P hP hg (by rw [hG, L₀.N_eq]; exact hx) v v' (by rw [hn]; norm_num; exact hv)
      (by rw [hn]; norm_num; exact hv') L
  · exact C99_multi D.pp.BPParams Lw 4 hok.bp hR' hgen sha P hP hg (by rw [hG, L₀.N_eq]; exact hx) vs vs' hlen (by rw [hn]; exact hv)
      (by rw [hn]; exact hv') L

/-- secp256k1: every point but the identity, which is `(nil, nil)` or `(0, 0)`, has one representation -/
theorem looks_k1 {L : K1Lib} (hL : L.OK) :
    let _ := k1Module
    Looks (k1Lawful hL) Eq fun e => (k1Grp L).isIdentity e = false := by
  intro _
  refine ⟨fun _ => rfl, fun h => h.symm, fun h h' => h.trans h', fun h => h ▸ rfl, fun h g => h ▸ g, ?_⟩
  intro a b ha hb e g
  have hz : (k1Lawful hL).den b ≠ 0 := fun h0 => by
    rw [((k1Lawful hL).isIdentity_iff hb).mpr h0] at g
    exact Bool.noConfusion g
  have hc := (k1Den_inj ha hb).mp e
  rcases K1Legal.cases hb with ⟨h, _⟩ | ⟨h, _⟩
  · exact absurd h.den hz
  rcases K1Legal.cases ha with ⟨h', _⟩ | ⟨h', _⟩
  · exact absurd (e.symm.trans h'.den) hz
  rw [h, h', hc]

/-- the encodings are the same -/
def SameCode (a b : WPoint) : Prop := R255.encode a = R255.encode b

theorem SameCode.str {pieces : Bytes → List Bytes} {a b : WPoint} (h : SameCode a b) :
    (r255Grp (r255Real pieces)).str a = (r255Grp (r255Real pieces)).str b := by
  simp only [r255Grp, r255Real]
  exact h

theorem r255Lawful_V (L : R255Lib) : let _ := r255Module; (r255Lawful L).V = R255Legal := rfl
theorem r255Lawful_den (L : R255Lib) : let _ := r255Module; (r255Lawful L).den = r255Den := rfl

theorem SameCode.of_den {a b : WPoint} (ha : R255Legal a) (hb : R255Legal b) (e : r255Den a = r255Den b) : SameCode a b :=
  (R255.encode_canonical ha hb).mpr ((edEqual_den ha hb).mpr e)

/-- Ristretto255: all representations of an element have the same encoding -/
theorem looks_r255 (pieces : Bytes → List Bytes) :
    let _ := r255Module
    Looks (r255Lawful (r255Real pieces)) SameCode fun _ => True := by
  intro _
  exact
    { refl := fun a => Eq.refl (R255.encode a)
      symm := fun h => Eq.symm h
      trans := fun h h' => Eq.trans h h'
      str := SameCode.str
      good_of := fun _ _ => trivial
      rep := by
        intro a b ha hb e _
        rw [r255Lawful_V] at ha hb
        rw [r255Lawful_den] at e
        exact SameCode.of_den ha hb e }

/-- **C99** P-256 and P-384 -/
theorem C99_circl (nan64 : BitVec 64) {C : CirclCurve} {bits : ℕ} {H U : WPoint} {Gg Hh : List WPoint}
    (row : RealRow C bits H U Gg Hh) : HidesFrom nan64 (circlGrp C) C.n Eq (fun _ => True) := by
  obtain ⟨Bb, hr, _⟩ := row.std.table
  have ok := stdCircl_ord row.std.circl
  have := ok.fact'
  have : Fact C.n.Prime := ⟨ok.n_prime⟩
  let _ := ok.module
  refine C99_deployed nan64 (circlGrp C) C.n bits Bb hr ok.lawful ok.card
    (fun s _ => ⟨_, rfl, (wLegal_iff _ _).mpr (row.valid s)⟩) ?_ (Looks.eq fun ha hb e => wDen_inj ok.noroot ok.two_ne ha hb e)
  intro e he e0
  obtain rfl : C.hash SEEDH = e := Option.some.inj he
  have h0 : C.hash SEEDH = ⟨0, 0⟩ :=
    wDen_inj ok.noroot ok.two_ne ((wLegal_iff _ _).mpr (row.valid SEEDH)) (Or.inl rfl) (e0.trans wDen_zero.symm)
  exact row.distinct.2 (by rw [← h0, row.vals.1]; simp)

/-- **C99** The four groups of the program.  secp256k1: proofs none of whose points outside the inner product argument is the identity.
Ristretto255: whatever `circl` hashes the seed of `H` to, unless it is the identity, and tests that see the points through their encodings.
P-256 and P-384: any test. -/
theorem C99_main (nan64 : BitVec 64) (L : K1Lib) (hL : L.Identities) (pieces : Bytes → List Bytes)
    (hp : edEqual (R255.fromPieces (pieces SEEDH)) edZero = false) (dec256 dec384 : Bytes → Option WPoint) :
    HidesFrom nan64 (k1Grp L.real) k1N Eq (fun e => (k1Grp L.real).isIdentity e = false) ∧
    HidesFrom nan64 (r255Grp (r255Real pieces)) r255N SameCode (fun _ => True) ∧
    HidesFrom nan64 (circlGrp (p256Real dec256)) (p256Real dec256).n Eq (fun _ => True) ∧
    HidesFrom nan64 (circlGrp (p384Real dec384)) (p384Real dec384).n Eq (fun _ => True) := by
  refine ⟨?_, ?_, ?_, ?_⟩
  · let _ := k1Module
    have : Fact k1N.Prime := ⟨C48_orders.1⟩
    refine C99_deployed nan64 (k1Grp L.real) k1N 256 15 k1_row (k1Lawful (real_identities hL).ok) k1_card
      (K1HashOK.legal (C66_seeds L)) ?_ (looks_k1 (real_identities hL).ok)
    intro e he e0
    obtain ⟨e', h1, hv, h3⟩ := (C66_seeds L SEEDH (Or.inl rfl)).map
    obtain rfl : e' = e := Option.some.inj (h1.symm.trans he)
    obtain ⟨x, y, eh, hx, _⟩ := C66_seeds L SEEDH (Or.inl rfl)
    rcases K1Legal.cases hv with ⟨z, _⟩ | ⟨_, _, hne, _⟩
    · rw [h3, eh] at z
      rcases z with z | z
      · simp at z
      · simp only [K1Point.mk.injEq, Option.some.injEq, Nat.cast_eq_zero] at z
        rw [z.1] at hx
        exact absurd hx (by decide +kernel)
    · have := (k1Den_inj hv (K1Zero.legal (Or.inl rfl))).mp (e0.trans (K1Zero.den (Or.inl rfl)).symm)
      exact hne (this.trans (K1Zero.coords (Or.inl rfl)))
  · let _ := r255Module
    refine C99_deployed nan64 (r255Grp (r255Real pieces)) r255N 253 12 r255_row (r255Lawful (r255Real pieces)) r255Group_card
      (r255_hash fun s _ => C65_pieces (pieces s)) (fun e he e0 => ?_) (looks_r255 pieces)
    obtain rfl : R255.fromPieces (pieces SEEDH) = e := Option.some.inj he
    have hz := ((r255Lawful (r255Real pieces)).isIdentity_iff (R255.fromPieces_even (pieces SEEDH))).mpr e0
    have hz' : edEqual (R255.fromPieces (pieces SEEDH)) edZero = true := hz
    rw [hp] at hz'
    exact Bool.noConfusion hz'
  · exact C99_circl nan64 (RealRow.p256 dec256)
  · exact C99_circl nan64 (RealRow.p384 dec384)

/-- the opposite of the base point, as `H` of the example -/
def exMinus : K1Point := ⟨k1Base.X, k1Base.Y.map ((k1P : Int) - ·)⟩

/-- C99: the hypotheses on the libraries are met, and the notion of looking alike is needed.  On Ristretto255 an element has several
representations with one encoding.  On secp256k1 the identity can show how it came about: as a commitment to 0 it is `(nil, nil)`, as a
commitment to 1 it is `(0, 0)`. -/
example : exK1.Identities ∧
    edEqual (R255.fromPieces [5 :: List.replicate 31 0, 7 :: List.replicate 31 1]) edZero = false ∧
    (edBase ≠ edAdd edBase ⟨0, r255P - 1⟩ ∧ edEqual edBase (edAdd edBase ⟨0, r255P - 1⟩) = true ∧
      R255.encode edBase = R255.encode (edAdd edBase ⟨0, r255P - 1⟩)) ∧
    pedersenCommit (k1Grp exK1) 0 0 exMinus = ⟨none, none⟩ ∧ pedersenCommit (k1Grp exK1) 1 1 exMinus = ⟨some 0, some 0⟩ ∧
    (k1Grp exK1).isIdentity ⟨none, none⟩ = true ∧ (k1Grp exK1).isIdentity ⟨some 0, some 0⟩ = true ∧
    (k1Grp exK1).isIdentity k1Base = false := by
  refine ⟨⟨Or.inr rfl, Or.inl rfl⟩, by decide +kernel, ⟨by decide +kernel, by decide +kernel, by decide +kernel⟩, by decide +kernel,
    by decide +kernel, by decide +kernel, by decide +kernel, by decide +kernel⟩

/-- C99: a test that passes some proofs and not others, with the conditions asked for: over `Z/101` the last challenge is not zero and the
commitment is below 50; the proofs for 13 of C98 and for 12 on the same bytes. -/
example : (∀ a b : BulletProof Int, a.Alike Eq b → (b.V < 50 ∧ ¬ (101 : Int) ∣ roundChallenge exSha2 exBP.GP b.T1 b.T2) →
      (a.V < 50 ∧ ¬ (101 : Int) ∣ roundChallenge exSha2 exBP.GP a.T1 a.T2)) ∧
    ([13, 12].map fun v => match bpProveB exSha2 exBP v [17, 5, 1, 20, 3, 4, 9, 8, 120, 77, 6, 3, 2, 90] with
      | .done ((pf, _), _) => decide (pf.V < 50 ∧ roundChallenge exSha2 exBP.GP pf.T1 pf.T2 % 101 ≠ 0)
      | _ => false) = [true, true] := by
  refine ⟨fun a b h => h.eq ▸ id, by decide +kernel⟩

end MscPoc
