import Verif.Lemmas.BpHide
import Verif.Props.Bp
import Verif.Props.Curve
import Mathlib.Data.Set.Card
import Mathlib.Data.Set.Finite.List

/-!
# C53 — range proofs reveal nothing about the value
-/

set_option autoImplicit false

namespace MscPoc

variable {E : Type} {q : ℕ} {M : Type} [AddCommGroup M] [Module (ZMod q) M]

/-- the runs of `Prove` on secret `v` that return the proof `pf`, as the set of their random draws -/
def runsTo (sha : Bytes → Bytes) (params : BPParams E) (v : Int) (pf : BulletProof E) : Set BPRand :=
  {rnd | rnd.Drawn params.N params.GP.N ∧ bpProve sha params rnd v = some (.ok (pf, rnd.gamma))}

theorem proveTail_fields {sha : Bytes → Bytes} {params : BPParams E} {V : E} {s : PState E} {pf : BulletProof E}
    (h : proveTail sha params V s = some (.ok pf)) :
    pf.V = V ∧ pf.A = s.A ∧ pf.S = s.S ∧ pf.T1 = s.T1 ∧ pf.T2 = s.T2 := by
  unfold proveTail at h
  unbind h with th e1
  unbind h with hp e2
  unbind h with ipp e3
  cases ipp with
  | error e => simp at h
  | ok ipp =>
    unbind h with cm e4
    unbind h with ip e5
    cases ip with
    | error e => simp at h
    | ok ip =>
      simp only [Option.some.injEq, Except.ok.injEq] at h
      subst h
      exact ⟨rfl, rfl, rfl, rfl, rfl⟩

/-- `R` tells which representations of group elements look alike, and any two legal representations of the same element do when the
second one is `good`.  Where every element has one representation, `R` is equality and all are `good`. -/
structure Looks {GP : Grp E} (L : Lawful GP q M) (R : E → E → Prop) (good : E → Prop) : Prop where
  refl : ∀ a, R a a
  symm : ∀ {a b}, R a b → R b a
  trans : ∀ {a b c}, R a b → R b c → R a c
  str : ∀ {a b}, R a b → GP.str a = GP.str b
  good_of : ∀ {a b}, R a b → good b → good a
  rep : ∀ {a b}, L.V a → L.V b → L.den a = L.den b → good b → R a b

/-- the five points of the proof outside the inner product argument -/
def BulletProof.points (pf : BulletProof E) : List E := [pf.V, pf.A, pf.S, pf.T1, pf.T2]

/-- the same proof, up to `R` in those five points -/
structure BulletProof.Alike (R : E → E → Prop) (pf pf' : BulletProof E) : Prop where
  V : R pf.V pf'.V
  A : R pf.A pf'.A
  S : R pf.S pf'.S
  T1 : R pf.T1 pf'.T1
  T2 : R pf.T2 pf'.T2
  Taux : pf.Taux = pf'.Taux
  Mu : pf.Mu = pf'.Mu
  Tprime : pf.Tprime = pf'.Tprime
  InnerProductProof : pf.InnerProductProof = pf'.InnerProductProof
  Params : pf.Params = pf'.Params

theorem BulletProof.Alike.eq {pf pf' : BulletProof E} (h : pf.Alike Eq pf') : pf = pf' := by
  obtain ⟨h1, h2, h3, h4, h5, h6, h7, h8, h9, h10⟩ := h
  cases pf; cases pf'
  simp only at *
  subst h1 h2 h3 h4 h5 h6 h7 h8 h9 h10
  rfl

section Alike
variable {GP : Grp E} {L : Lawful GP q M} {R : E → E → Prop} {good : E → Prop}

theorem Looks.challenge (hR : Looks L R good) (sha : Bytes → Bytes) {a b a' b' : E} (h : R a a') (h' : R b b') :
    roundChallenge sha GP a b = roundChallenge sha GP a' b' := by
  unfold roundChallenge
  rw [hR.str h, hR.str h']

/-- one representation per element -/
theorem Looks.eq (hinj : ∀ {a b}, L.V a → L.V b → L.den a = L.den b → a = b) : Looks L Eq fun _ => True :=
  ⟨fun _ => rfl, fun h => h.symm, fun h h' => h.trans h', fun h => h ▸ rfl, fun _ _ => trivial, fun h h' e _ => hinj h h' e⟩

end Alike

/-- the runs of `Prove` on secret `v` that return a proof for which `P` holds, as the set of their random draws -/
def runsWith (P : BulletProof E → Prop) (sha : Bytes → Bytes) (params : BPParams E) (v : Int) : Set BPRand :=
  {rnd | rnd.Drawn params.N params.GP.N ∧ ∃ pf, bpProve sha params rnd v = some (.ok (pf, rnd.gamma)) ∧ P pf}

theorem runsWith_eq (sha : Bytes → Bytes) (params : BPParams E) (v : Int) (pf : BulletProof E) :
    runsWith (· = pf) sha params v = runsTo sha params v pf := by
  ext rnd
  constructor
  · rintro ⟨h, pf', e, rfl⟩
    exact ⟨h, e⟩
  · rintro ⟨h, e⟩
    exact ⟨h, pf, e, rfl⟩

/-- the rest of `Prove` depends on the points only through their challenge and copies them -/
theorem proveTail_points {sha : Bytes → Bytes} {params : BPParams E} {V V' A S T1 T2 A' S' T1' T2' : E} {bl br : List Int}
    {tauX mu : Int} {pf : BulletProof E}
    (hc : roundChallenge sha params.GP A' S' = roundChallenge sha params.GP A S)
    (h : proveTail sha params V ⟨A, S, T1, T2, bl, br, tauX, mu⟩ = some (.ok pf)) :
    proveTail sha params V' ⟨A', S', T1', T2', bl, br, tauX, mu⟩ =
      some (.ok { pf with V := V', A := A', S := S', T1 := T1', T2 := T2' }) := by
  unfold proveTail at h ⊢
  dsimp only at h ⊢
  rw [hc]
  unbind h with th e1
  unbind h with hp e2
  unbind h with ipp e3
  runs e1
  runs e2
  runs e3
  cases ipp with
  | error e => simp at h
  | ok ipp =>
    dsimp only at h ⊢
    unbind h with cm e4
    unbind h with ip e5
    runs e4
    runs e5
    cases ip with
    | error e => simp at h
    | ok ip =>
      simp only [Option.some.injEq, Except.ok.injEq] at h
      subst h
      rfl

/-- One direction of the exchange: a run for `v` becomes a run for `v'` whose proof looks the same. -/
theorem exchange_run [Fact q.Prime] (params : BPParams E) (L : Lawful params.GP q M) (k : ℕ) (hO : ParamsOK params L k)
    {R : E → E → Prop} {good : E → Prop} (hR : Looks L R good)
    (sha : Bytes → Bytes) (v v' : Int) (hv : 0 ≤ v ∧ v < 2 ^ params.N) (hv' : 0 ≤ v' ∧ v' < 2 ^ params.N)
    (pf : BulletProof E) (hg : ∀ e ∈ pf.points, good e) (hx : ((roundChallenge sha params.GP pf.T1 pf.T2 : Int) : ZMod q) ≠ 0)
    (d l : ZMod q) (hl : l • L.den params.H = L.g)
    (hd : d • L.den params.H =
      msm (L.denV params.Gg) (lsub (castV q (decompose v 2 params.N)) (castV q (decompose v' 2 params.N))) +
      msm (L.denV params.Hh) (lsub (castV q ((decompose v 2 params.N).map (· - 1)))
        (castV q ((decompose v' 2 params.N).map (· - 1)))))
    (rnd : BPRand) (hrnd : rnd ∈ runsTo sha params v pf) :
    (exchange (2 ^ k) ((roundChallenge sha params.GP pf.A pf.S : Int) : ZMod q)
      ((roundChallenge sha params.GP pf.T1 pf.T2 : Int) : ZMod q) d l v v' (castV q (decompose v 2 params.N))
      (castV q ((decompose v 2 params.N).map (· - 1))) (castV q (decompose v' 2 params.N))
      (castV q ((decompose v' 2 params.N).map (· - 1))) (rnd.toF q)).lift ∈ runsWith (·.Alike R pf) sha params v' := by
  obtain ⟨dr, hrun⟩ := hrnd
  have hq : 0 < q := (Fact.out : q.Prime).pos
  have : NeZero q := ⟨hq.ne'⟩
  have hNq := L.N_eq
  obtain ⟨_, hrun⟩ := (bpProve_iff sha params rnd v pf _).mp hrun
  have la : ∀ v : Int, (decompose v 2 params.N).length = 2 ^ k := fun v => by rw [decompose_length, hO.N]
  have lb : ∀ v : Int, ((decompose v 2 params.N).map (· - 1)).length = 2 ^ k := fun v => by rw [List.length_map, la]
  have lsL : rnd.sL.length = 2 ^ k := dr.lenL.trans hO.N
  have lsR : rnd.sR.length = 2 ^ k := dr.lenR.trans hO.N
  obtain ⟨s, es, sp⟩ := proveFrom_state params L hq k hO sha rnd (pedersenCommit params.GP v rnd.gamma params.H)
    _ _ (la v) (lb v) lsL lsR
  rw [es] at hrun
  obtain ⟨fV, fA, fS, fT1, fT2⟩ := proveTail_fields hrun
  rw [fT1, fT2] at hx
  rw [fA, fS, fT1, fT2]
  simp only [BulletProof.points, List.mem_cons, List.not_mem_nil, or_false, forall_eq_or_imp, forall_eq, fV, fA, fS, fT1, fT2] at hg
  obtain ⟨gV, gA, gS, gT1, gT2⟩ := hg
  obtain ⟨s1, s2, s3, s4, s5, s6, s7, s8, s9, s10, s11, s12, s13, s14⟩ := sp
  obtain ⟨A, S, T1, T2, bl, br, tauX, mu⟩ := s
  dsimp only at *
  obtain ⟨y, hy⟩ : ∃ y : Int, roundChallenge sha params.GP A S = y := ⟨_, rfl⟩
  obtain ⟨x, hx'⟩ : ∃ y : Int, roundChallenge sha params.GP T1 T2 = y := ⟨_, rfl⟩
  rw [hx'] at hx
  rw [hy, hx']
  rw [hy] at s7 s8 s11 s12 s13
  rw [hx'] at s11 s12 s13 s14
  set FL := castV q (decompose v 2 params.N) with hFL
  set FR := castV q ((decompose v 2 params.N).map (· - 1)) with hFR
  set FL' := castV q (decompose v' 2 params.N) with hFL'
  set FR' := castV q ((decompose v' 2 params.N).map (· - 1)) with hFR'
  have lFL : FL.length = 2 ^ k := by rw [hFL, List.length_map, la]
  have lFR : FR.length = 2 ^ k := by rw [hFR, List.length_map, lb]
  have lFL' : FL'.length = 2 ^ k := by rw [hFL', List.length_map, la]
  have lFR' : FR'.length = 2 ^ k := by rw [hFR', List.length_map, lb]
  have lsL' : (castV q rnd.sL).length = 2 ^ k := by rw [List.length_map, lsL]
  have lsR' : (castV q rnd.sR).length = 2 ^ k := by rw [List.length_map, lsR]
  obtain ⟨r', hr'⟩ : ∃ r', exchange (2 ^ k) (y : ZMod q) (x : ZMod q) d l v v' FL FR FL' FR' (rnd.toF q) = r' := ⟨_, rfl⟩
  rw [hr']
  have hr'' := hr'
  rw [← r'.toF_lift] at hr''
  obtain ⟨rn, hrn⟩ : ∃ rn, r'.lift = rn := ⟨_, rfl⟩
  rw [hrn] at hr'' ⊢
  have cg := congrArg FRand.gamma hr''
  have ca := congrArg FRand.alpha hr''
  have cL := congrArg FRand.sL hr''
  have cR := congrArg FRand.sR hr''
  have cr := congrArg FRand.rho hr''
  have c1 := congrArg FRand.tau1 hr''
  have c2 := congrArg FRand.tau2 hr''
  simp only [exchange, BPRand.toF] at cg ca cL cR cr c1 c2
  have lr1 : r'.sL.length = 2 ^ k := by rw [← hr']; simp [exchange, shift, lsub, BPRand.toF, lsL, lFL, lFL']
  have lr2 : r'.sR.length = 2 ^ k := by rw [← hr']; simp [exchange, shift, lsub, BPRand.toF, lsR, lFR, lFR']
  have dr' : rn.Drawn (2 ^ k) q := hrn ▸ r'.drawn (2 ^ k) lr1 lr2
  obtain ⟨s', es', sp'⟩ := proveFrom_state params L hq k hO sha rn (pedersenCommit params.GP v' rn.gamma params.H)
    _ _ (la v') (lb v') dr'.lenL dr'.lenR
  obtain ⟨A', S', T1', T2', bl', br', tauX', mu'⟩ := s'
  obtain ⟨p1, p2, p3, p4, p5, p6, p7, p8, p9, p10, p11, p12, p13, p14⟩ := sp'
  dsimp only at *
  rw [cL, cR] at c1 c2
  rw [← hFL', ← hFR'] at p5 p7
  rw [← hFL'] at p11
  rw [← hFR'] at p12
  have eA : R A' A := by
    refine hR.rep p1 s1 ?_ gA
    rw [p5, s5, ← ca, add_smul, hd, msm_lsub _ _ _ (lFL.trans lFL'.symm), msm_lsub _ _ _ (lFR.trans lFR'.symm)]
    module
  have eS : R S' S := by
    refine hR.rep p2 s2 ?_ gS
    rw [p6, s6, ← cr, ← cL, ← cR, msm_shift _ _ _ _ (by simp [lsub, lsL, lFL, lFL']),
      msm_shift _ _ _ _ (by simp [lsub, lsR, lFR, lFR'])]
    have hd' := congrArg ((x : ZMod q)⁻¹ • ·) hd
    linear_combination (norm := module) -hd'
  rw [hR.challenge sha eA eS, hy] at p7 p8 p11 p12 p13
  have eT1 : R T1' T1 := by
    refine hR.rep p3 s3 ?_ gT1
    rw [p7, s7, ← c1, ← hl]
    module
  have eT2 : R T2' T2 := by
    refine hR.rep p4 s4 ?_ gT2
    rw [p8, s8, ← c2, ← hl]
    module
  rw [hR.challenge sha eT1 eT2, hx'] at p11 p12 p13 p14
  have ebl : bl' = bl := by
    rw [hNq] at p9 s9
    refine castV_inj p9 s9 ?_
    rw [p11, s11, ← cL]
    exact bl_exchange _ _ hx _ _ _ (lsL'.trans lFL.symm) (lFL.trans lFL'.symm)
  have ebr : br' = br := by
    rw [hNq] at p10 s10
    refine castV_inj p10 s10 ?_
    rw [p12, s12, ← cR]
    exact br_exchange _ _ _ hx _ _ _ (lsR'.trans lFR.symm) (lFR.trans lFR'.symm)
  subst ebl ebr
  have hemod : ∀ a b : Int, (a : ZMod q) = b → a % params.GP.N = b % params.GP.N := by
    intro a b h
    rw [hNq]
    exact (ZMod.intCast_eq_intCast_iff a b q).mp h
  have emu : mu' = mu := by
    rw [p14, s14]
    apply hemod
    push_cast
    rw [← cr, ← ca]
    linear_combination -d * inv_mul_cancel₀ hx
  have hval : ∀ v : Int, 0 ≤ v ∧ v < 2 ^ params.N → rangeForm (2 ^ k) (castV q (decompose v 2 params.N))
      (castV q ((decompose v 2 params.N).map (· - 1))) (y : ZMod q) y = (y : ZMod q) ^ 2 * v := by
    intro v hv
    have hb : ∀ d ∈ decompose v 2 params.N, d = 0 ∨ d = 1 := by
      intro d hd
      have := decompose_digit (by norm_num) _ _ _ hd
      omega
    have := rangeForm_bits (q := q) (decompose v 2 params.N) hb (y : ZMod q) y
    rw [la, decompose_value (by norm_num), Int.emod_eq_of_lt hv.1 hv.2] at this
    exact this
  have etau : tauX' = tauX := by
    rw [p13, s13]
    apply hemod
    push_cast
    have i1 := t_identity (2 ^ k) (y : ZMod q) (x : ZMod q) FL FR (castV q rnd.sL) (castV q rnd.sR) lFL lFR lsL' lsR'
    have i2 := t_identity (2 ^ k) (y : ZMod q) (x : ZMod q) FL' FR' (castV q rn.sL) (castV q rn.sR) lFL' lFR'
      (by simp [dr'.lenL]) (by simp [dr'.lenR])
    rw [← s11, ← s12, hval v hv] at i1
    rw [← p11, ← p12, hval v' hv'] at i2
    rw [← c1, ← c2, ← cg]
    linear_combination l * (i2 - i1)
  subst emu etau
  have eV : R (pedersenCommit params.GP v' rn.gamma params.H) (pedersenCommit params.GP v rnd.gamma params.H) := by
    refine hR.rep (L.V_pedersen hO.H _ _) (L.V_pedersen hO.H _ _) ?_ gV
    rw [L.den_pedersen hO.H, L.den_pedersen hO.H, ← cg, ← hl]
    module
  refine ⟨by rw [hO.N, hNq]; exact dr', _, (bpProve_iff _ _ _ _ _ _).mpr ⟨rfl, es'.trans (proveTail_points (hR.challenge sha eA eS) hrun)⟩, ?_⟩
  rw [← fV] at eV
  rw [← fA] at eA
  rw [← fS] at eS
  rw [← fT1] at eT1
  rw [← fT2] at eT2
  exact ⟨eV, eA, eS, eT1, eT2, rfl, rfl, rfl, rfl, rfl⟩

theorem drawn_finite (n : ℕ) (N : Int) : {rnd : BPRand | rnd.Drawn n N}.Finite := by
  have hI : (Set.Ico (0 : Int) N).Finite := Set.finite_Ico 0 N
  have hV : {l : List Int | l.length = n ∧ ∀ a ∈ l, a ∈ Set.Ico (0 : Int) N}.Finite := by
    have := List.finite_length_eq (Set.Ico (0 : Int) N) n
    refine (this.image (List.map Subtype.val)).subset ?_
    rintro l ⟨h1, h2⟩
    exact ⟨l.attach.map fun a => ⟨a.1, h2 a.1 a.2⟩, by simp [h1], by
      rw [List.map_map]; exact List.attach_map_subtype_val l⟩
  refine ((hI.prod (hI.prod (hV.prod (hV.prod (hI.prod (hI.prod hI)))))).image
    fun t => (⟨t.1, t.2.1, t.2.2.1, t.2.2.2.1, t.2.2.2.2.1, t.2.2.2.2.2.1, t.2.2.2.2.2.2⟩ : BPRand)).subset ?_
  intro r hr
  exact ⟨(r.gamma, r.alpha, r.sL, r.sR, r.rho, r.tau1, r.tau2),
    ⟨hr.gamma, hr.alpha, ⟨hr.lenL, hr.sL⟩, ⟨hr.lenR, hr.sR⟩, hr.rho, hr.tau1, hr.tau2⟩, rfl⟩

/-- the challenges in the proof that `Prove` returns -/
def challengesOf (sha : Bytes → Bytes) (params : BPParams E) (rnd : BPRand) (v : Int) : Int × Int :=
  match bpProve sha params rnd v with
  | some (.ok (pf, _)) => (roundChallenge sha params.GP pf.A pf.S, roundChallenge sha params.GP pf.T1 pf.T2)
  | _ => (0, 0)

theorem challengesOf_eq {sha : Bytes → Bytes} {params : BPParams E} {rnd : BPRand} {v g : Int} {pf : BulletProof E}
    (h : bpProve sha params rnd v = some (.ok (pf, g))) :
    challengesOf sha params rnd v = (roundChallenge sha params.GP pf.A pf.S, roundChallenge sha params.GP pf.T1 pf.T2) := by
  unfold challengesOf
  rw [h]

/-- **C53** Perfect hiding of the range proof, for any test a reader may apply: if the test `P` does not tell proofs apart that look alike,
and holds only for proofs of good points whose challenge `x` is not zero modulo the order, the number of random tapes on which `Prove`
returns a proof that passes is the same for every secret in the range.  Needs: prime order and `H` a generator. -/
theorem C53_test [Fact q.Prime] (params : BPParams E) (L : Lawful params.GP q M) (k : ℕ) (hO : ParamsOK params L k)
    {R : E → E → Prop} {good : E → Prop} (hR : Looks L R good)
    (hgen : ∀ m : M, ∃ c : ZMod q, c • L.den params.H = m)
    (sha : Bytes → Bytes) (P : BulletProof E → Prop) (hP : ∀ a b : BulletProof E, a.Alike R b → P b → P a)
    (hg : ∀ pf, P pf → ∀ e ∈ pf.points, good e)
    (hx : ∀ pf, P pf → ¬ params.GP.N ∣ roundChallenge sha params.GP pf.T1 pf.T2)
    (v v' : Int) (hv : 0 ≤ v ∧ v < 2 ^ params.N) (hv' : 0 ≤ v' ∧ v' < 2 ^ params.N) :
    (runsWith P sha params v).Finite ∧ (runsWith P sha params v).ncard = (runsWith P sha params v').ncard := by
  refine ⟨(drawn_finite _ _).subset fun r h => h.1, ?_⟩
  have hq : 0 < q := (Fact.out : q.Prime).pos
  have : NeZero q := ⟨hq.ne'⟩
  have la : ∀ v : Int, (decompose v 2 params.N).length = 2 ^ k := fun v => by rw [decompose_length, hO.N]
  have lb : ∀ v : Int, ((decompose v 2 params.N).map (· - 1)).length = 2 ^ k := fun v => by rw [List.length_map, la]
  have lca : ∀ v : Int, (castV q (decompose v 2 params.N)).length = 2 ^ k := fun v => by rw [List.length_map, la]
  have lcb : ∀ v : Int, (castV q ((decompose v 2 params.N).map (· - 1))).length = 2 ^ k := fun v => by rw [List.length_map, lb]
  obtain ⟨l, hl⟩ := hgen L.g
  obtain ⟨d, hd⟩ := hgen (msm (L.denV params.Gg) (lsub (castV q (decompose v 2 params.N)) (castV q (decompose v' 2 params.N))) +
      msm (L.denV params.Hh) (lsub (castV q ((decompose v 2 params.N).map (· - 1)))
        (castV q ((decompose v' 2 params.N).map (· - 1)))))
  have hd' : (-d) • L.den params.H =
      msm (L.denV params.Gg) (lsub (castV q (decompose v' 2 params.N)) (castV q (decompose v 2 params.N))) +
      msm (L.denV params.Hh) (lsub (castV q ((decompose v' 2 params.N).map (· - 1)))
        (castV q ((decompose v 2 params.N).map (· - 1)))) := by
    rw [msm_lsub _ _ _ ((lca _).trans (lca _).symm), msm_lsub _ _ _ ((lcb _).trans (lcb _).symm)] at hd ⊢
    rw [neg_smul, hd]; abel
  -- the exchange, with the challenges of the proof that the run returns
  obtain ⟨X, hX⟩ : ∃ X : Int → Int → ZMod q → BPRand → BPRand, X = fun (v v' : Int) (d : ZMod q) (rnd : BPRand) =>
      (exchange (2 ^ k) (((challengesOf sha params rnd v).1 : Int) : ZMod q) (((challengesOf sha params rnd v).2 : Int) : ZMod q) d l v v'
        (castV q (decompose v 2 params.N)) (castV q ((decompose v 2 params.N).map (· - 1))) (castV q (decompose v' 2 params.N))
        (castV q ((decompose v' 2 params.N).map (· - 1))) (rnd.toF q)).lift := ⟨_, rfl⟩
  have step : ∀ (v v' : Int), 0 ≤ v ∧ v < 2 ^ params.N → 0 ≤ v' ∧ v' < 2 ^ params.N → ∀ d : ZMod q, d • L.den params.H =
      msm (L.denV params.Gg) (lsub (castV q (decompose v 2 params.N)) (castV q (decompose v' 2 params.N))) +
      msm (L.denV params.Hh) (lsub (castV q ((decompose v 2 params.N).map (· - 1)))
        (castV q ((decompose v' 2 params.N).map (· - 1)))) → ∀ rnd ∈ runsWith P sha params v,
      X v v' d rnd ∈ runsWith P sha params v' ∧ challengesOf sha params (X v v' d rnd) v' = challengesOf sha params rnd v := by
    rintro v v' hv hv' d hd rnd ⟨dr, pf, e, hp⟩
    have hx0 : ((roundChallenge sha params.GP pf.T1 pf.T2 : Int) : ZMod q) ≠ 0 := by
      rw [ne_eq, ZMod.intCast_zmod_eq_zero_iff_dvd, ← L.N_eq]; exact hx pf hp
    rw [hX]
    dsimp only
    rw [challengesOf_eq e]
    obtain ⟨dr', pf₂, e', al⟩ := exchange_run params L k hO hR sha v v' hv hv' pf (hg pf hp) hx0 d l hl hd rnd ⟨dr, e⟩
    refine ⟨⟨dr', pf₂, e', hP _ _ al hp⟩, ?_⟩
    rw [challengesOf_eq e', hR.challenge sha al.A al.S, hR.challenge sha al.T1 al.T2]
  have back : ∀ (v v' : Int) (d : ZMod q) (rnd : BPRand), rnd.Drawn params.N params.GP.N →
      challengesOf sha params (X v v' d rnd) v' = challengesOf sha params rnd v → X v' v (-d) (X v v' d rnd) = rnd := by
    intro v v' d rnd hr hc
    rw [hX] at hc ⊢
    dsimp only at hc ⊢
    rw [hc, FRand.toF_lift, exchange_back _ _ _ _ _ _ _ _ _ _ _ _ (by simp [BPRand.toF, hr.lenL, hO.N])
      (by simp [BPRand.toF, hr.lenR, hO.N]) (lca _) (lcb _) (lca _) (lcb _)]
    rw [L.N_eq] at hr
    exact BPRand.lift_toF hr
  refine Set.ncard_congr (fun rnd _ => X v v' d rnd) (fun rnd h => (step v v' hv hv' d hd rnd h).1) ?_ ?_
  · intro a b ha hb h
    rw [← back v v' d a ha.1 (step v v' hv hv' d hd a ha).2, ← back v v' d b hb.1 (step v v' hv hv' d hd b hb).2, h]
  · intro b hb
    obtain ⟨h1, h2⟩ := step v' v hv' hv (-d) hd' b hb
    refine ⟨_, h1, ?_⟩
    have := back v' v (-d) b hb.1 h2
    rwa [neg_neg] at this

/-- **C53** Perfect hiding of the range proof: for any proof `pf`, the number of random tapes on which `Prove` returns `pf`
is the same for every secret in the range.  Needs: prime order, `H` a generator, one representation per group element,
and the challenge `x` of the proof not zero modulo the order. -/
theorem C53_hiding [Fact q.Prime] (params : BPParams E) (L : Lawful params.GP q M) (k : ℕ) (hO : ParamsOK params L k)
    (hinj : ∀ {a b}, L.V a → L.V b → L.den a = L.den b → a = b)
    (hgen : ∀ m : M, ∃ c : ZMod q, c • L.den params.H = m)
    (sha : Bytes → Bytes) (pf : BulletProof E)
    (hx : ¬ params.GP.N ∣ roundChallenge sha params.GP pf.T1 pf.T2)
    (v v' : Int) (hv : 0 ≤ v ∧ v < 2 ^ params.N) (hv' : 0 ≤ v' ∧ v' < 2 ^ params.N) :
    (runsTo sha params v pf).Finite ∧ (runsTo sha params v pf).ncard = (runsTo sha params v' pf).ncard := by
  have := C53_test params L k hO (Looks.eq hinj) hgen sha (· = pf) (fun a b h e => h.eq.trans e) (fun _ _ _ _ => trivial)
    (fun _ e => e ▸ hx) v v' hv hv'
  rwa [runsWith_eq, runsWith_eq] at this

/-- **C53** A proof that some run on `v` returns is also returned by a run on any other value of the range: it fits all of
them. -/
theorem C53_indistinguishable [Fact q.Prime] (params : BPParams E) (L : Lawful params.GP q M) (k : ℕ)
    (hO : ParamsOK params L k) (hinj : ∀ {a b}, L.V a → L.V b → L.den a = L.den b → a = b)
    (hgen : ∀ m : M, ∃ c : ZMod q, c • L.den params.H = m)
    (sha : Bytes → Bytes) (pf : BulletProof E)
    (hx : ¬ params.GP.N ∣ roundChallenge sha params.GP pf.T1 pf.T2)
    (v v' : Int) (hv : 0 ≤ v ∧ v < 2 ^ params.N) (hv' : 0 ≤ v' ∧ v' < 2 ^ params.N)
    (rnd : BPRand) (hr : rnd.Drawn params.N params.GP.N) (h : bpProve sha params rnd v = some (.ok (pf, rnd.gamma))) :
    ∃ rnd' : BPRand, rnd'.Drawn params.N params.GP.N ∧ bpProve sha params rnd' v' = some (.ok (pf, rnd'.gamma)) := by
  obtain ⟨f1, e⟩ := C53_hiding params L k hO hinj hgen sha pf hx v v' hv hv'
  have h1 : 0 < (runsTo sha params v pf).ncard := (Set.ncard_pos f1).mpr ⟨rnd, hr, h⟩
  rw [e] at h1
  obtain ⟨r', h'⟩ := Set.nonempty_of_ncard_ne_zero h1.ne'
  exact ⟨r', h'⟩

/-- **C53** On P-256 and P-384 nothing is needed but curve points as generators and `H` not the identity. -/
theorem C53_curves (C : CirclCurve) (hC : StdCircl C) (hash : (C.hash SEEDU).Valid C.c) (k : ℕ) (g h : WPoint)
    (Gg Hh : List WPoint) (hh : h.Valid C.c) (hne : h ≠ ⟨0, 0⟩) (hG : ∀ e ∈ Gg, e.Valid C.c) (hH : ∀ e ∈ Hh, e.Valid C.c)
    (lG : Gg.length = 2 ^ k) (lH : Hh.length = 2 ^ k) (sha : Bytes → Bytes) (pf : BulletProof WPoint)
    (hx : ¬ C.n ∣ (roundChallenge sha (circlGrp C) pf.T1 pf.T2).natAbs)
    (v v' : Int) (hv : 0 ≤ v ∧ v < 2 ^ 2 ^ k) (hv' : 0 ≤ v' ∧ v' < 2 ^ 2 ^ k) :
    (runsTo sha ⟨2 ^ k, g, h, Gg, Hh, circlGrp C⟩ v pf).Finite ∧
    (runsTo sha ⟨2 ^ k, g, h, Gg, Hh, circlGrp C⟩ v pf).ncard = (runsTo sha ⟨2 ^ k, g, h, Gg, Hh, circlGrp C⟩ v' pf).ncard := by
  have ok := stdCircl_ord hC
  have := ok.fact'
  have : Fact C.n.Prime := ⟨ok.n_prime⟩
  let _ := ok.module
  have hl : h ∈ {P | WLegal C.c P} := (wLegal_iff _ _).mpr hh
  have hd : wDen C.c h ≠ 0 := fun e => hne (wDen_inj ok.noroot ok.two_ne hl (Or.inl rfl) (e.trans wDen_zero.symm))
  refine C53_hiding (q := C.n) (M := WGroup C.c) ⟨2 ^ k, g, h, Gg, Hh, circlGrp C⟩
    ok.lawful k
    ⟨rfl, hl, fun e he => (wLegal_iff _ _).mpr (hG e he), fun e he => (wLegal_iff _ _).mpr (hH e he), lG, lH,
      fun e he => by injection he with he; exact he ▸ (wLegal_iff _ _).mpr hash⟩ ?_ ?_ sha pf
    (fun hdvd => hx (Int.natCast_dvd.mp hdvd)) v v' hv hv'
  · intro a b ha hb e
    exact wDen_inj ok.noroot ok.two_ne ha hb e
  · intro m
    obtain ⟨j, _, e⟩ := sw_cyclic ok.n_prime ok.card _ hd m
    refine ⟨j, ?_⟩
    rw [e]
    exact Nat.cast_smul_eq_nsmul (ZMod C.n) j (wDen C.c h)

/-- The hypotheses hold: toy group of prime order, one representation per element, `H = 7` generates, and a real run. -/
example : Nat.Prime 101 ∧ (∀ {a b : Int}, (toyLawful 101).V a → (toyLawful 101).V b →
      (toyLawful 101).den a = (toyLawful 101).den b → a = b) ∧
    (∀ m : ZMod 101, ∃ c : ZMod 101, c • (toyLawful 101).den exBP.H = m) ∧ exRnd.Drawn exBP.N exBP.GP.N ∧
    (match bpProve exSha2 exBP exRnd 13 with
      | some (.ok (pf, _)) => decide (roundChallenge exSha2 exBP.GP pf.T1 pf.T2 % 101 ≠ 0)
      | _ => false) = true := by
  refine ⟨by norm_num, ?_, ?_, ?_, by decide +kernel⟩
  · intro a b ha hb e
    exact int_eq_of_cast (q := 101) ha hb e
  · intro m
    refine ⟨m * 29, ?_⟩
    show m * 29 * ((7 : Int) : ZMod 101) = m
    rw [mul_assoc]
    have : (29 : ZMod 101) * ((7 : Int) : ZMod 101) = 1 := by decide
    rw [this, mul_one]
  · constructor <;> decide

/-- The claim is about the distribution: on the same draws two values give different proofs. -/
example : (match bpProve exSha2 exBP exRnd 13, bpProve exSha2 exBP exRnd 12 with
      | some (.ok (p, _)), some (.ok (p', _)) => decide (p.V ≠ p'.V)
      | _, _ => false) = true := by decide +kernel

end MscPoc
