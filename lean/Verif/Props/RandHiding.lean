import Verif.Props.RandMulti
import Verif.Props.MultiHiding
import Verif.Props.BallotHiding
import Verif.Props.State

/-!
# C98 — range proofs reveal nothing about the values, counted in byte strings
-/

set_option autoImplicit false

namespace MscPoc

variable {α β : Type}

/-- runs on streams: a string that is read completely, then anything -/
theorem Draw.Least.streams {x : Draw α} (hx : x.Least 0) (P : α → Prop) (L : ℕ) :
    Nat.card {t : Bytes // t.length = L ∧ ∃ a rest, P a ∧ x t = .done (a, rest)} =
      ∑ i : Fin (L + 1), Nat.card {u : Bytes // u.length = i ∧ ∃ a, P a ∧ x.Uses u a} * Nat.card {r : Bytes // r.length = L - i} := by
  have E : (Σ i : Fin (L + 1), {u : Bytes // u.length = i ∧ ∃ a, P a ∧ x.Uses u a} × {r : Bytes // r.length = L - i}) ≃
      {t : Bytes // t.length = L ∧ ∃ a rest, P a ∧ x t = .done (a, rest)} := by
    refine Equiv.ofBijective (fun s => ⟨s.2.1.1 ++ s.2.2.1, ?_, ?_⟩) ⟨?_, ?_⟩
    · have := s.1.2
      rw [List.length_append, s.2.1.2.1, s.2.2.2]; omega
    · obtain ⟨a, pa, U⟩ := s.2.1.2.2
      exact ⟨a, _, pa, U _⟩
    · rintro ⟨i, ⟨u, hu, a, pa, U⟩, ⟨v, hv⟩⟩ ⟨i', ⟨u', hu', a', pa', U'⟩, ⟨v', hv'⟩⟩ h
      simp only [Subtype.mk.injEq] at h
      have e := U v
      rw [h, U' v'] at e
      simp only [Outcome.done.injEq, Prod.mk.injEq] at e
      obtain ⟨rfl, rfl⟩ := e
      have e' := List.append_cancel_right h
      subst e'
      obtain rfl : i = i' := Fin.ext (hu.symm.trans hu')
      rfl
    · rintro ⟨t, hl, a, r, pa, e⟩
      obtain ⟨u, rfl, _, U⟩ := hx _ _ _ e
      rw [List.length_append] at hl
      exact ⟨⟨⟨u.length, by omega⟩, ⟨u, rfl, a, pa, U⟩, ⟨r, by simp; omega⟩⟩, rfl⟩
  rw [← Nat.card_congr E]
  have : ∀ i : Fin (L + 1), Finite ({u : Bytes // u.length = i ∧ ∃ a, P a ∧ x.Uses u a} × {r : Bytes // r.length = L - i}) := fun i => by
    have := bytes_finite i fun u => ∃ a, P a ∧ x.Uses u a
    have : Finite {r : Bytes // r.length = L - i} := (List.finite_length_eq UInt8 (L - i)).to_subtype
    infer_instance
  rw [Nat.card_sigma]
  exact Finset.sum_congr rfl fun i _ => Nat.card_prod _ _

/-- two computations that draw alike and return results of some kind on equally many draws do so on equally many streams -/
theorem Draw.Uniform.same {x : Draw α} {S : α → Prop} (hx : x.Uniform S) (f g : α → Option β) (P : β → Prop)
    (h1 : {a | S a ∧ ∃ b, f a = some b ∧ P b}.Finite) (h2 : {a | S a ∧ ∃ b, g a = some b ∧ P b}.Finite)
    (he : {a | S a ∧ ∃ b, f a = some b ∧ P b}.ncard = {a | S a ∧ ∃ b, g a = some b ∧ P b}.ncard) (L : ℕ) :
    (Nat.card {t : Bytes // t.length = L ∧ ∃ b, P b ∧ (x >>= fun a => Draw.lift (f a)) t = .done (b, [])} =
      Nat.card {t : Bytes // t.length = L ∧ ∃ b, P b ∧ (x >>= fun a => Draw.lift (g a)) t = .done (b, [])}) ∧
    Nat.card {t : Bytes // t.length = L ∧ ∃ b rest, P b ∧ (x >>= fun a => Draw.lift (f a)) t = .done (b, rest)} =
      Nat.card {t : Bytes // t.length = L ∧ ∃ b rest, P b ∧ (x >>= fun a => Draw.lift (g a)) t = .done (b, rest)} := by
  have least : ∀ f : α → Option β, (x >>= fun a => Draw.lift (f a)).Least 0 := fun f =>
    hx.least.bind fun a => Draw.Least.lift (f a)
  have key : ∀ j, Nat.card {u : Bytes // u.length = j ∧ ∃ b, P b ∧ (x >>= fun a => Draw.lift (f a)).Uses u b} =
      Nat.card {u : Bytes // u.length = j ∧ ∃ b, P b ∧ (x >>= fun a => Draw.lift (g a)).Uses u b} := by
    intro j
    by_cases hS : ∃ a₀, S a₀
    · obtain ⟨a₀, h0⟩ := hS
      rw [hx.count f P j a₀ h0 h1, hx.count g P j a₀ h0 h2, he]
    · have : ∀ f : α → Option β, IsEmpty {u : Bytes // u.length = j ∧ ∃ b, P b ∧ (x >>= fun a => Draw.lift (f a)).Uses u b} := by
        refine fun f => ⟨?_⟩
        rintro ⟨u, _, b, _, U⟩
        obtain ⟨a, m, e1, _⟩ := Draw.bind_done.mp U.nil
        exact hS ⟨a, hx.mem _ _ _ e1⟩
      have := this f
      have := ‹∀ f : α → Option β, IsEmpty _› g
      rw [Nat.card_of_isEmpty, Nat.card_of_isEmpty]
  constructor
  · have := key L
    simp only [(least _).uses_iff] at this
    exact this
  · rw [(least f).streams P L, (least g).streams P L]
    exact Finset.sum_congr rfl fun i _ => by rw [key]

variable {E : Type} {q : ℕ} {M : Type} [AddCommGroup M] [Module (ZMod q) M]

/-- **C98** The numbers drawn by `Prove` and by `MultiProve` are uniform and independent: for every length `L`, all lists of numbers in
range are drawn on equally many strings of `L` bytes, and no other numbers are drawn. -/
theorem C98_draws (params : BPParams E) (h : 0 < params.GP.N) (m L : ℕ) :
    (∀ rnd rnd' : BPRand, rnd.Drawn params.N params.GP.N → rnd'.Drawn params.N params.GP.N →
      Nat.card {t : Bytes // t.length = L ∧ drawBP params t = .done (rnd, [])} =
      Nat.card {t : Bytes // t.length = L ∧ drawBP params t = .done (rnd', [])}) ∧
    (∀ t rnd rest, drawBP params t = .done (rnd, rest) → rnd.Drawn params.N params.GP.N) ∧
    (∀ rnd rnd' : MultiRand, rnd.Drawn m params.N params.GP.N → rnd'.Drawn m params.N params.GP.N →
      Nat.card {t : Bytes // t.length = L ∧ drawMulti params m t = .done (rnd, [])} =
      Nat.card {t : Bytes // t.length = L ∧ drawMulti params m t = .done (rnd', [])}) ∧
    ∀ t rnd rest, drawMulti params m t = .done (rnd, rest) → rnd.Drawn m params.N params.GP.N := by
  have b := drawBP_uniform params h
  have c := drawMulti_uniform params h m
  refine ⟨fun r r' h h' => ?_, b.mem, fun r r' h h' => ?_, c.mem⟩
  · have := b.card L r r' h h'
    simp only [Draw.Strings, b.least.uses_iff] at this
    exact this
  · have := c.card L r r' h h'
    simp only [Draw.Strings, c.least.uses_iff] at this
    exact this

/-- the sets counted by C53 -/
theorem runsTo_eq (sha : Bytes → Bytes) (params : BPParams E) (v : Int) (pf : BulletProof E) :
    {a : BPRand | a.Drawn params.N params.GP.N ∧ ∃ b, bpResult (bpProve sha params a v) = some b ∧ b.1 = pf} = runsTo sha params v pf := by
  ext rnd
  simp only [runsTo, Set.mem_ofPred_eq]
  refine and_congr_right fun _ => ⟨?_, fun h => ⟨_, by rw [h]; rfl, rfl⟩⟩
  rintro ⟨⟨p, g⟩, e, rfl⟩
  have e' := bpResult_some e
  rw [e']
  obtain rfl : g = rnd.gamma := (C49_same_challenges sha params rnd v p g e' _ _ rfl rfl).2.2.2.1
  rfl

/-- **C98** For every proof `pf` and every length `L`, `Prove` returns `pf` on equally many strings of `L` bytes for any two values of
the range; and likewise if only the strings count that are read completely.  Hypotheses as in C53. -/
theorem C98_prove [Fact q.Prime] (params : BPParams E) (Lw : Lawful params.GP q M) (k : ℕ) (hO : ParamsOK params Lw k)
    (hinj : ∀ {a b}, Lw.V a → Lw.V b → Lw.den a = Lw.den b → a = b)
    (hgen : ∀ m : M, ∃ c : ZMod q, c • Lw.den params.H = m)
    (sha : Bytes → Bytes) (pf : BulletProof E)
    (hx : ¬ params.GP.N ∣ roundChallenge sha params.GP pf.T1 pf.T2)
    (v v' : Int) (hv : 0 ≤ v ∧ v < 2 ^ params.N) (hv' : 0 ≤ v' ∧ v' < 2 ^ params.N) (L : ℕ) :
    (Nat.card {t : Bytes // t.length = L ∧ ∃ r, r.1 = pf ∧ bpProveB sha params v t = .done (r, [])} =
      Nat.card {t : Bytes // t.length = L ∧ ∃ r, r.1 = pf ∧ bpProveB sha params v' t = .done (r, [])}) ∧
    Nat.card {t : Bytes // t.length = L ∧ ∃ r rest, r.1 = pf ∧ bpProveB sha params v t = .done (r, rest)} =
      Nat.card {t : Bytes // t.length = L ∧ ∃ r rest, r.1 = pf ∧ bpProveB sha params v' t = .done (r, rest)} := by
  have hN : 0 < params.GP.N := by rw [Lw.N_eq]; exact_mod_cast (Fact.out : q.Prime).pos
  obtain ⟨f1, e⟩ := C53_hiding params Lw k hO hinj hgen sha pf hx v v' hv hv'
  obtain ⟨f2, _⟩ := C53_hiding params Lw k hO hinj hgen sha pf hx v' v hv' hv
  rw [← runsTo_eq] at f1 f2
  rw [← runsTo_eq, ← runsTo_eq] at e
  exact (drawBP_uniform params hN).same (fun r => bpResult (bpProve sha params r v)) (fun r => bpResult (bpProve sha params r v'))
    (fun r => r.1 = pf) f1 f2 e L

theorem multiProve_gammas {sha : Bytes → Bytes} {params : BPParams E} {rnd : MultiRand} {secrets : List Int} {pf : MultiBulletProof E}
    {g : List Int} (h : multiProve sha params rnd secrets = some (.ok (pf, g))) : g = rnd.gammas := by
  unfold multiProve at h
  dsimp only at h
  split at h
  · simp at h
  unbind h with A eA
  unbind h with S eS
  unbind h with z2v ez
  unbind h with aL e1
  unbind h with aR e2
  unbind h with t1 e3
  unbind h with t2 e4
  unbind h with t3 e5
  unbind h with th e6
  unbind h with hp e7
  unbind h with ipp e8
  cases ipp with
  | error e => simp at h
  | ok ipp =>
    dsimp only at h
    unbind h with cm e9
    unbind h with ip e10
    cases ip with
    | error e => simp at h
    | ok ip =>
      simp only [Option.some.injEq, Except.ok.injEq, Prod.mk.injEq] at h
      exact h.2.symm

/-- the sets counted by C96 -/
theorem multiRunsTo_eq (sha : Bytes → Bytes) (params : BPParams E) (vs : List Int) (pf : MultiBulletProof E) :
    {a : MultiRand | a.Drawn vs.length params.N params.GP.N ∧ ∃ b, multiProve sha params a vs = some b ∧ ∃ g, b = .ok (pf, g)} =
      multiRunsTo false sha params vs pf := by
  ext rnd
  simp only [multiRunsTo, Set.mem_ofPred_eq]
  rw [(C95_same sha params rnd vs pf).1]
  refine and_congr_right fun _ => ⟨?_, fun h => ⟨_, h, _, rfl⟩⟩
  rintro ⟨_, e, g, rfl⟩
  rw [e]
  obtain rfl : g = rnd.gammas := multiProve_gammas e
  rfl

/-- **C98** The same for aggregated proofs, as `MultiProve` makes them, for any two lists of as many values of the range. -/
theorem C98_multi [Fact q.Prime] (params : BPParams E) (Lw : Lawful params.GP q M) (k : ℕ) (hO : ParamsOK params Lw k)
    (hinj : ∀ {a b}, Lw.V a → Lw.V b → Lw.den a = Lw.den b → a = b)
    (hgen : ∀ m : M, ∃ c : ZMod q, c • Lw.den params.H = m)
    (sha : Bytes → Bytes) (pf : MultiBulletProof E)
    (hx : ¬ params.GP.N ∣ roundChallenge sha params.GP pf.T1 pf.T2)
    (vs vs' : List Int) (hlen : vs.length = vs'.length)
    (hv : ∀ v ∈ vs, 0 ≤ v ∧ v < 2 ^ (params.N / vs.length)) (hv' : ∀ v ∈ vs', 0 ≤ v ∧ v < 2 ^ (params.N / vs.length)) (L : ℕ) :
    (Nat.card {t : Bytes // t.length = L ∧ ∃ r, (∃ g, r = .ok (pf, g)) ∧ multiProveB sha params vs t = .done (r, [])} =
      Nat.card {t : Bytes // t.length = L ∧ ∃ r, (∃ g, r = .ok (pf, g)) ∧ multiProveB sha params vs' t = .done (r, [])}) ∧
    Nat.card {t : Bytes // t.length = L ∧ ∃ r rest, (∃ g, r = .ok (pf, g)) ∧ multiProveB sha params vs t = .done (r, rest)} =
      Nat.card {t : Bytes // t.length = L ∧ ∃ r rest, (∃ g, r = .ok (pf, g)) ∧ multiProveB sha params vs' t = .done (r, rest)} := by
  have hN : 0 < params.GP.N := by rw [Lw.N_eq]; exact_mod_cast (Fact.out : q.Prime).pos
  obtain ⟨f1, e⟩ := C96_hiding false params Lw k hO hinj hgen sha pf hx vs vs' hlen hv hv'
  obtain ⟨f2, _⟩ := C96_hiding false params Lw k hO hinj hgen sha pf hx vs' vs hlen.symm (hlen ▸ hv') (hlen ▸ hv)
  rw [← multiRunsTo_eq] at f1 f2
  rw [← multiRunsTo_eq, ← multiRunsTo_eq] at e
  rw [← hlen] at f2 e
  have := (drawMulti_uniform params hN vs.length).same (fun r => multiProve sha params r vs) (fun r => multiProve sha params r vs')
    (fun r => ∃ g, r = .ok (pf, g)) f1 f2 e L
  by_cases h0 : vs.length = 0
  · have e1 : multiProveB sha params vs = Draw.lift none := if_pos h0
    have e2 : multiProveB sha params vs' = Draw.lift none := if_pos (hlen ▸ h0)
    rw [e1, e2]
    exact ⟨rfl, rfl⟩
  · have e1 : multiProveB sha params vs = (drawMulti params vs.length >>= fun r => Draw.lift (multiProve sha params r vs)) := if_neg h0
    have e2 : multiProveB sha params vs' = (drawMulti params vs.length >>= fun r => Draw.lift (multiProve sha params r vs')) := by
      rw [hlen]; exact if_neg (hlen ▸ h0)
    rw [e1, e2]
    exact this

/-- **C98** On P-256 and P-384 with the parameters `setup` returns: for values below 65536, single or aggregated, a proof is returned on
equally many strings whatever the values are. -/
theorem C98_deployed (nan64 : BitVec 64) {C : CirclCurve} {bits : ℕ} {H U : WPoint} {Gg Hh : List WPoint}
    (row : RealRow C bits H U Gg Hh) :
    ∃ pp, setup nan64 (circlGrp C) = some (.ok pp) ∧ ∀ (sha : Bytes → Bytes) (L : ℕ),
      (∀ pf : BulletProof WPoint, ¬ (C.n : Int) ∣ roundChallenge sha (circlGrp C) pf.T1 pf.T2 →
        ∀ v v' : Int, 0 ≤ v ∧ v < 65536 → 0 ≤ v' ∧ v' < 65536 →
        Nat.card {t : Bytes // t.length = L ∧ ∃ r rest, r.1 = pf ∧ bpProveB sha pp.BPParams v t = .done (r, rest)} =
        Nat.card {t : Bytes // t.length = L ∧ ∃ r rest, r.1 = pf ∧ bpProveB sha pp.BPParams v' t = .done (r, rest)}) ∧
      ∀ pf : MultiBulletProof WPoint, ¬ (C.n : Int) ∣ roundChallenge sha (circlGrp C) pf.T1 pf.T2 →
        ∀ vs vs' : List Int, vs.length = vs'.length → (∀ v ∈ vs, 0 ≤ v ∧ v < 2 ^ (16 / vs.length)) →
        (∀ v ∈ vs', 0 ≤ v ∧ v < 2 ^ (16 / vs.length)) →
        Nat.card {t : Bytes // t.length = L ∧ ∃ r rest, (∃ g, r = .ok (pf, g)) ∧ multiProveB sha pp.BPParams vs t = .done (r, rest)} =
        Nat.card {t : Bytes // t.length = L ∧ ∃ r rest, (∃ g, r = .ok (pf, g)) ∧ multiProveB sha pp.BPParams vs' t = .done (r, rest)} := by
  obtain ⟨Bb, hr, _⟩ := row.std.table
  have ok := stdCircl_ord row.std.circl
  have := ok.fact'
  have : Fact C.n.Prime := ⟨ok.n_prime⟩
  let _ := ok.module
  obtain ⟨D, hD, dep, _⟩ := C47_curves nan64 (circlGrp C) (fun s _ => ⟨_, rfl⟩) C.n bits Bb hr rfl
  obtain ⟨L₁, Lw, hok, eV, eD⟩ := deployed_legal (circlGrp C) D C.n bits Bb hr ok.lawful
    (seeds_legal fun s _ => ⟨_, rfl, (wLegal_iff _ _).mpr (row.valid s)⟩) dep
  have hV : ∀ a, Lw.V a → WLegal C.c a := fun a h => by rw [eV] at h; exact h
  have hden : ∀ a, Lw.den a = wDen C.c a := fun a => by rw [eD]; rfl
  have hH : D.H = H := by
    rw [← row.vals.1]
    exact (Option.some.inj dep.H).symm
  have hd : wDen C.c D.H ≠ 0 := by
    intro e
    have h0 : D.H = ⟨0, 0⟩ := wDen_inj ok.noroot ok.two_ne (hV _ hok.bp.H) (Or.inl rfl) (e.trans wDen_zero.symm)
    exact row.distinct.2 (by rw [← h0, hH]; simp)
  have hinj : ∀ {a b}, Lw.V a → Lw.V b → Lw.den a = Lw.den b → a = b := by
    intro x y hx hy e
    rw [hden, hden] at e
    exact wDen_inj ok.noroot ok.two_ne (hV _ hx) (hV _ hy) e
  have hgen : ∀ m : WGroup C.c, ∃ c : ZMod C.n, c • Lw.den D.H = m := by
    intro m
    obtain ⟨j, _, e⟩ := sw_cyclic ok.n_prime ok.card _ hd m
    refine ⟨j, ?_⟩
    rw [e, hden]
    exact Nat.cast_smul_eq_nsmul (ZMod C.n) j (wDen C.c D.H)
  have hn : D.pp.BPParams.N = 16 := dep.n
  have hG : D.pp.BPParams.GP = circlGrp C := dep.EC
  refine ⟨D.pp, hD, fun sha L => ⟨fun pf hx v v' hv hv' => ?_, fun pf hx vs vs' hlen hv hv' => ?_⟩⟩
  · exact (C98_prove D.pp.BPParams Lw 4 hok.bp hinj hgen sha pf (by rw [hG]; exact hx) v v' (by rw [hn]; norm_num; exact hv)
      (by rw [hn]; norm_num; exact hv') L).2
  · exact (C98_multi D.pp.BPParams Lw 4 hok.bp hinj hgen sha pf (by rw [hG]; exact hx) vs vs' hlen (by rw [hn]; exact hv)
      (by rw [hn]; exact hv') L).2

/-- C98: the hypotheses on the group hold for the toy group (C53), and the counted sets are not empty: the 18 bytes of C97 give a proof
whose last challenge is not zero modulo the order, and so do the bytes of a single proof, one of them rejected. -/
example : (match multiProveB exSha2 exBP [2, 3] exMTape with
      | .done (.ok (pf, _), rest) => decide (rest = [200, 201]) && decide (roundChallenge exSha2 exBP.GP pf.T1 pf.T2 % 101 ≠ 0)
      | _ => false) = true ∧
    (match bpProveB exSha2 exBP 13 [17, 5, 1, 20, 3, 4, 9, 8, 120, 77, 6, 3, 2, 90] with
      | .done ((pf, _), rest) => decide (rest = []) && decide (roundChallenge exSha2 exBP.GP pf.T1 pf.T2 % 101 ≠ 0)
      | _ => false) = true := by
  constructor <;> decide +kernel

end MscPoc
