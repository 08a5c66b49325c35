import Verif.Lemmas.MultiHide
import Verif.Props.Hiding
import Verif.Props.MultiRepair

/-!
# C96 — aggregated range proofs reveal nothing about the values
-/

set_option autoImplicit false

namespace MscPoc

variable {E : Type} {q : ℕ} {M : Type} [AddCommGroup M] [Module (ZMod q) M]

/-- the runs of `MultiProve` (with line 86 as it is or edited) on these secrets that return the proof `pf`, as the set of their random
draws -/
def multiRunsTo (fixA : Bool) (sha : Bytes → Bytes) (params : BPParams E) (secrets : List Int) (pf : MultiBulletProof E) :
    Set MultiRand :=
  {rnd | rnd.Drawn secrets.length params.N params.GP.N ∧ multiProveR fixA sha params rnd secrets = some (.ok (pf, rnd.gammas))}

/-- the commitments and the four points of the proof outside the inner product argument -/
def MultiBulletProof.points (pf : MultiBulletProof E) : List E := pf.A :: pf.S :: pf.T1 :: pf.T2 :: pf.Vs

/-- the same proof, up to `R` in those points -/
structure MultiBulletProof.Alike (R : E → E → Prop) (pf pf' : MultiBulletProof E) : Prop where
  Vs : List.Forall₂ R pf.Vs pf'.Vs
  A : R pf.A pf'.A
  S : R pf.S pf'.S
  T1 : R pf.T1 pf'.T1
  T2 : R pf.T2 pf'.T2
  Taux : pf.Taux = pf'.Taux
  Mu : pf.Mu = pf'.Mu
  Tprime : pf.Tprime = pf'.Tprime
  InnerProductProof : pf.InnerProductProof = pf'.InnerProductProof
  Params : pf.Params = pf'.Params

theorem MultiBulletProof.Alike.eq {pf pf' : MultiBulletProof E} (h : pf.Alike Eq pf') : pf = pf' := by
  obtain ⟨h1, h2, h3, h4, h5, h6, h7, h8, h9, h10⟩ := h
  rw [List.forall₂_eq_eq_eq] at h1
  cases pf; cases pf'
  simp only at *
  subst h1 h2 h3 h4 h5 h6 h7 h8 h9 h10
  rfl

/-- the runs of `MultiProve` (with line 86 as it is or edited) on these secrets that return a proof for which `P` holds -/
def multiRunsWith (P : MultiBulletProof E → Prop) (fixA : Bool) (sha : Bytes → Bytes) (params : BPParams E) (secrets : List Int) :
    Set MultiRand :=
  {rnd | rnd.Drawn secrets.length params.N params.GP.N ∧
    ∃ pf, multiProveR fixA sha params rnd secrets = some (.ok (pf, rnd.gammas)) ∧ P pf}

theorem multiRunsWith_eq (fixA : Bool) (sha : Bytes → Bytes) (params : BPParams E) (secrets : List Int) (pf : MultiBulletProof E) :
    multiRunsWith (· = pf) fixA sha params secrets = multiRunsTo fixA sha params secrets pf := by
  ext rnd
  constructor
  · rintro ⟨h, pf', e, rfl⟩
    exact ⟨h, e⟩
  · rintro ⟨h, e⟩
    exact ⟨h, pf, e, rfl⟩

/-- the rest of `MultiProve` depends on the points only through their challenge and copies them -/
theorem multiTail_points {sha : Bytes → Bytes} {params : BPParams E} {Vs : List E} {A S T1 T2 : E} {gammas gs bl br : List Int}
    {tauX mu : Int} {pf : MultiBulletProof E} (h : multiTail sha params Vs gammas ⟨A, S, T1, T2, bl, br, tauX, mu⟩ = some (.ok (pf, gs))) :
    pf.Vs = Vs ∧ ∀ (Vs' : List E) (A' S' T1' T2' : E) (gammas' : List Int),
      roundChallenge sha params.GP A' S' = roundChallenge sha params.GP A S →
      multiTail sha params Vs' gammas' ⟨A', S', T1', T2', bl, br, tauX, mu⟩ =
        some (.ok ({ pf with Vs := Vs', A := A', S := S', T1 := T1', T2 := T2' }, gammas')) := by
  unfold multiTail at h
  dsimp only at h
  unbind h with th e1
  unbind h with hp e2
  unbind h with ipp e3
  cases ipp with
  | error e => simp at h
  | ok ipp =>
    dsimp only at h
    unbind h with cm e4
    unbind h with ip e5
    cases ip with
    | error e => simp at h
    | ok ip =>
      simp only [Option.some.injEq, Except.ok.injEq, Prod.mk.injEq] at h
      obtain ⟨h, hg⟩ := h
      subst h
      refine ⟨rfl, fun Vs' A' S' T1' T2' gammas' hc => ?_⟩
      unfold multiTail
      dsimp only
      rw [hc]
      runs e1
      runs e2
      runs e3
      dsimp only
      runs e4
      runs e5
      rfl

/-- the digits as field elements -/
def fDigits (q bits : ℕ) (secrets : List Int) : List (ZMod q) := castV q (allDigits bits secrets)
def fDigits1 (q bits : ℕ) (secrets : List Int) : List (ZMod q) := castV q ((allDigits bits secrets).map (· - 1))

theorem allDigits_length (bits : ℕ) (secrets : List Int) : (allDigits bits secrets).length = secrets.length * bits :=
  digits_length bits secrets

theorem fDigits_length (bits : ℕ) (secrets : List Int) : (fDigits q bits secrets).length = secrets.length * bits := by
  simp [fDigits, allDigits_length]

theorem fDigits1_length (bits : ℕ) (secrets : List Int) : (fDigits1 q bits secrets).length = secrets.length * bits := by
  simp [fDigits1, allDigits_length]

/-- the digits and the digits minus one change alike -/
theorem lsub_digits [Fact q.Prime] (bits : ℕ) (vs vs' : List Int) :
    lsub (fDigits1 q bits vs) (fDigits1 q bits vs') = lsub (fDigits q bits vs) (fDigits q bits vs') := by
  unfold fDigits fDigits1 lsub
  apply List.ext_getElem
  · simp
  · intro i _ _
    simp

/-- the exchange of randomness for a proof with the challenges `c` -/
def exchangeFor (q : ℕ) [Fact q.Prime] (n : ℕ) (c : Int × Int) (bits : ℕ) (d l : ZMod q) (vs vs' : List Int)
    (r : MFRand (ZMod q)) : MFRand (ZMod q) :=
  exchangeM n (c.1 : ZMod q) (c.2 : ZMod q) d l (blocksMul bits (zpows (c.1 : ZMod q) 0 vs.length))
    (castV q vs) (castV q vs') (fDigits q bits vs) (fDigits1 q bits vs) (fDigits q bits vs') (fDigits1 q bits vs') r

/-- the challenges in the proof that `MultiProve` returns -/
def multiChallengesOf (fixA : Bool) (sha : Bytes → Bytes) (params : BPParams E) (rnd : MultiRand) (secrets : List Int) : Int × Int :=
  match multiProveR fixA sha params rnd secrets with
  | some (.ok (pf, _)) => (roundChallenge sha params.GP pf.A pf.S, roundChallenge sha params.GP pf.T1 pf.T2)
  | _ => (0, 0)

theorem multiChallengesOf_eq {fixA : Bool} {sha : Bytes → Bytes} {params : BPParams E} {rnd : MultiRand} {secrets g : List Int}
    {pf : MultiBulletProof E} (h : multiProveR fixA sha params rnd secrets = some (.ok (pf, g))) :
    multiChallengesOf fixA sha params rnd secrets =
      (roundChallenge sha params.GP pf.A pf.S, roundChallenge sha params.GP pf.T1 pf.T2) := by
  unfold multiChallengesOf
  rw [h]

/-- One direction of the exchange: a run for `vs` becomes a run for `vs'` whose proof looks the same. -/
theorem exchangeM_run [Fact q.Prime] (fixA : Bool) (params : BPParams E) (L : Lawful params.GP q M) (k : ℕ)
    (hO : ParamsOK params L k) {R : E → E → Prop} {good : E → Prop} (hR : Looks L R good)
    (sha : Bytes → Bytes) (vs vs' : List Int) (hlen : vs.length = vs'.length) (bits : ℕ) (hm : vs.length ≠ 0)
    (hmul : vs.length * bits = params.N)
    (hv : ∀ v ∈ vs, 0 ≤ v ∧ v < 2 ^ bits) (hv' : ∀ v ∈ vs', 0 ≤ v ∧ v < 2 ^ bits)
    (pf : MultiBulletProof E) (hg : ∀ e ∈ pf.points, good e) (hx : ((roundChallenge sha params.GP pf.T1 pf.T2 : Int) : ZMod q) ≠ 0)
    (d l : ZMod q) (hl : l • L.den params.H = L.g)
    (hd : d • L.den params.H = msm (L.denV params.Gg) (lsub (fDigits q bits vs) (fDigits q bits vs')) +
      msm (L.denV params.Hh) (lsub (fDigits1 q bits vs) (fDigits1 q bits vs')))
    (rnd : MultiRand) (hrnd : rnd ∈ multiRunsTo fixA sha params vs pf) :
    (exchangeFor q params.N (roundChallenge sha params.GP pf.A pf.S, roundChallenge sha params.GP pf.T1 pf.T2) bits d l vs vs'
      (rnd.toF q)).lift ∈ multiRunsWith (·.Alike R pf) fixA sha params vs' := by
  unfold exchangeFor
  dsimp only
  obtain ⟨dr, hrun⟩ := hrnd
  have hq : 0 < q := (Fact.out : q.Prime).pos
  have : NeZero q := ⟨hq.ne'⟩
  have hNq := L.N_eq
  have hmul' : vs'.length * bits = params.N := by rw [← hlen, hmul]
  have lsL : rnd.sL.length = 2 ^ k := dr.lenL.trans hO.N
  have lsR : rnd.sR.length = 2 ^ k := dr.lenR.trans hO.N
  obtain ⟨s, es, sp⟩ := multiProveR_state fixA params L hq k hO sha rnd vs bits hm hmul dr.lenG lsL lsR
  rw [es] at hrun
  obtain ⟨-, fA, fS, fT1, fT2, -⟩ := multiTail_fields hrun
  rw [fT1, fT2] at hx
  rw [fA, fS, fT1, fT2]
  simp only [MultiBulletProof.points, List.mem_cons, forall_eq_or_imp, fA, fS, fT1, fT2] at hg
  obtain ⟨gA, gS, gT1, gT2, gV⟩ := hg
  obtain ⟨s1, s2, s3, s4, s5, s6, s7, s8, s9, s10, s11, s12, ⟨ts, s13, s13'⟩, s14⟩ := sp
  obtain ⟨A, S, T1, T2, bl, br, tauX, mu⟩ := s
  obtain ⟨fV, htail⟩ := multiTail_points hrun
  dsimp only at *
  obtain ⟨y, hy⟩ : ∃ y : Int, roundChallenge sha params.GP A S = y := ⟨_, rfl⟩
  obtain ⟨x, hx'⟩ : ∃ y : Int, roundChallenge sha params.GP T1 T2 = y := ⟨_, rfl⟩
  rw [hx'] at hx
  rw [hy, hx']
  rw [hy] at s7 s8 s11 s12 s13'
  rw [hx'] at s11 s12 s13' s14
  have z1 := t0W_digits (q := q) bits vs (2 ^ k) (hmul.trans hO.N) (y : ZMod q) hv
  have z2 := t0W_digits (q := q) bits vs' (2 ^ k) (hmul'.trans hO.N) (y : ZMod q) hv'
  have hX : ∀ vs : List Int, castV q (if fixA then allDigits bits vs else (allDigits bits vs).map (· - 1)) =
      if fixA then fDigits q bits vs else fDigits1 q bits vs := by
    intro vs; cases fixA <;> rfl
  have hXl : lsub (if fixA then fDigits q bits vs else fDigits1 q bits vs) (if fixA then fDigits q bits vs' else fDigits1 q bits vs') =
      lsub (fDigits q bits vs) (fDigits q bits vs') := by
    cases fixA
    · exact lsub_digits bits vs vs'
    · rfl
  have lFL := (fDigits_length (q := q) bits vs).trans (hmul.trans hO.N)
  have lFR := (fDigits1_length (q := q) bits vs).trans (hmul.trans hO.N)
  have lFL' := (fDigits_length (q := q) bits vs').trans (hmul'.trans hO.N)
  have lFR' := (fDigits1_length (q := q) bits vs').trans (hmul'.trans hO.N)
  have lX : (if fixA then fDigits q bits vs else fDigits1 q bits vs).length = 2 ^ k := by cases fixA; exacts [lFR, lFL]
  have lX' : (if fixA then fDigits q bits vs' else fDigits1 q bits vs').length = 2 ^ k := by cases fixA; exacts [lFR', lFL']
  rw [hX] at s5
  rw [show castV q (allDigits bits vs) = fDigits q bits vs from rfl,
    show castV q ((allDigits bits vs).map (· - 1)) = fDigits1 q bits vs from rfl] at *
  rw [show castV q (allDigits bits vs') = fDigits q bits vs' from rfl,
    show castV q ((allDigits bits vs').map (· - 1)) = fDigits1 q bits vs' from rfl, ← hlen] at z2
  obtain ⟨W, hW⟩ : ∃ W, blocksMul bits (zpows (y : ZMod q) 0 vs.length) = W := ⟨_, rfl⟩
  have lW : W.length = 2 ^ k := by rw [← hW, blocksMul_length, zpows_length, hmul, hO.N]
  rw [hW] at s7 s12 z1 z2 ⊢
  rw [hO.N]
  have lsL' : (castV q rnd.sL).length = 2 ^ k := by rw [List.length_map, lsL]
  have lsR' : (castV q rnd.sR).length = 2 ^ k := by rw [List.length_map, lsR]
  obtain ⟨r', hr'⟩ : ∃ r', exchangeM (2 ^ k) (y : ZMod q) (x : ZMod q) d l W (castV q vs) (castV q vs') (fDigits q bits vs)
    (fDigits1 q bits vs) (fDigits q bits vs') (fDigits1 q bits vs') (rnd.toF q) = r' := ⟨_, rfl⟩
  rw [hr']
  have hr'' := hr'
  rw [← r'.toF_lift] at hr''
  obtain ⟨rn, hrn⟩ : ∃ rn, r'.lift = rn := ⟨_, rfl⟩
  rw [hrn] at hr'' ⊢
  have cg := congrArg MFRand.gammas hr''
  have ca := congrArg MFRand.alpha hr''
  have cL := congrArg MFRand.sL hr''
  have cR := congrArg MFRand.sR hr''
  have cr := congrArg MFRand.rho hr''
  have c1 := congrArg MFRand.tau1 hr''
  have c2 := congrArg MFRand.tau2 hr''
  simp only [exchangeM, MultiRand.toF] at cg ca cL cR cr c1 c2
  have lr0 : r'.gammas.length = vs'.length := by
    rw [← hr']; simp [exchangeM, shift, lsub, MultiRand.toF, dr.lenG, hlen]
  have lr1 : r'.sL.length = 2 ^ k := by rw [← hr']; simp [exchangeM, shift, lsub, MultiRand.toF, lsL, lFL, lFL']
  have lr2 : r'.sR.length = 2 ^ k := by rw [← hr']; simp [exchangeM, shift, lsub, MultiRand.toF, lsR, lFR, lFR']
  have dr' : rn.Drawn vs'.length (2 ^ k) q := hrn ▸ r'.drawn vs'.length (2 ^ k) lr0 lr1 lr2
  obtain ⟨s', es', sp'⟩ := multiProveR_state fixA params L hq k hO sha rn vs' bits (hlen ▸ hm) hmul' dr'.lenG dr'.lenL dr'.lenR
  obtain ⟨A', S', T1', T2', bl', br', tauX', mu'⟩ := s'
  obtain ⟨p1, p2, p3, p4, p5, p6, p7, p8, p9, p10, p11, p12, ⟨tp, p13, p13'⟩, p14⟩ := sp'
  dsimp only at *
  rw [cL, cR] at c1 c2
  rw [hX] at p5
  rw [show castV q (allDigits bits vs') = fDigits q bits vs' from rfl] at p7 p11
  rw [show castV q ((allDigits bits vs').map (· - 1)) = fDigits1 q bits vs' from rfl] at p5 p7 p12
  have eA : R A' A := by
    refine hR.rep p1 s1 ?_ gA
    rw [← hXl, msm_lsub _ _ _ (lX.trans lX'.symm), msm_lsub _ _ _ (lFR.trans lFR'.symm)] at hd
    rw [p5, s5, ← ca, add_smul, hd]
    module
  have eS : R S' S := by
    refine hR.rep p2 s2 ?_ gS
    rw [p6, s6, ← cr, ← cL, ← cR, msm_shift _ _ _ _ (by simp [lsub, lsL, lFL, lFL']),
      msm_shift _ _ _ _ (by simp [lsub, lsR, lFR, lFR'])]
    have hd' := congrArg ((x : ZMod q)⁻¹ • ·) hd
    linear_combination (norm := module) -hd'
  rw [hR.challenge sha eA eS, hy] at p7 p8 p11 p12 p13'
  rw [← hlen, hW] at p7 p12
  have eT1 : R T1' T1 := by
    refine hR.rep p3 s3 ?_ gT1
    rw [p7, s7, ← c1, ← hl]
    module
  have eT2 : R T2' T2 := by
    refine hR.rep p4 s4 ?_ gT2
    rw [p8, s8, ← c2, ← hl]
    module
  rw [hR.challenge sha eT1 eT2, hx'] at p11 p12 p13' p14
  have ebl : bl' = bl := by
    rw [hNq] at p9 s9
    refine castV_inj p9 s9 ?_
    rw [p11, s11, ← cL]
    exact bl_exchange _ _ hx _ _ _ (lsL'.trans lFL.symm) (lFL.trans lFL'.symm)
  have ebr : br' = br := by
    rw [hNq] at p10 s10
    refine castV_inj p10 s10 ?_
    rw [p12, s12, ← cR]
    exact brW_exchange _ _ _ hx _ _ _ _ (lsR'.trans lFR.symm) (lFR.trans lFR'.symm)
  subst ebl ebr
  have hemod : ∀ a b : Int, (a : ZMod q) = b → a % params.GP.N = b % params.GP.N := by
    intro a b h
    rw [hNq]
    exact (ZMod.intCast_eq_intCast_iff a b q).mp h
  have emu : mu' = mu := by
    rw [p14, s14]
    apply hemod
    push_cast
    rw [← cr, ← ca]
    linear_combination -d * inv_mul_cancel₀ hx
  have etau : tauX' = tauX := by
    rw [p13, s13]
    apply hemod
    rw [p13', s13']
    have i1 := t_identityW (2 ^ k) (y : ZMod q) (x : ZMod q) W _ _ (castV q rnd.sL) (castV q rnd.sR) lFL lFR lsL' lsR' lW
    have i2 := t_identityW (2 ^ k) (y : ZMod q) (x : ZMod q) W _ _ (castV q rn.sL) (castV q rn.sR) lFL' lFR'
      (by simp [dr'.lenL]) (by simp [dr'.lenR]) lW
    rw [← s11, ← s12, z1] at i1
    rw [← p11, ← p12, z2] at i2
    have i3 := dot_shift l⁻¹ (castV q rnd.gammas) (castV q vs) (castV q vs') (zpows (y : ZMod q) 0 vs.length)
      (by simp [dr.lenG]) (by simp [hlen])
    rw [cg, inv_inv] at i3
    rw [← hlen, i3, ← c1, ← c2]
    linear_combination l * (i2 - i1)
  subst emu etau
  rw [fV] at gV
  have eV : List.Forall₂ R (List.zipWith (fun s g => pedersenCommit params.GP s g params.H) vs' rn.gammas)
      (List.zipWith (fun s g => pedersenCommit params.GP s g params.H) vs rnd.gammas) := by
    rw [List.forall₂_iff_get]
    refine ⟨by simp [dr.lenG, dr'.lenG, hlen], fun i h1 h2 => ?_⟩
    have g := gV _ (List.get_mem _ ⟨i, h2⟩)
    rw [List.length_zipWith] at h1 h2
    simp only [List.get_eq_getElem, List.getElem_zipWith] at g ⊢
    refine hR.rep (L.V_pedersen hO.H _ _) (L.V_pedersen hO.H _ _) ?_ g
    have e : ((rn.gammas[i]'(by omega) : Int) : ZMod q) = (castV q rn.gammas)[i]'(by simp; omega) := by simp
    rw [L.den_pedersen hO.H, L.den_pedersen hO.H, e]
    simp only [← cg, shift, lsub, List.getElem_zipWith, List.getElem_map, inv_inv]
    rw [← hl]
    module
  refine ⟨by rw [hO.N, hNq]; exact dr', _, es'.trans (htail _ _ _ _ _ _ (hR.challenge sha eA eS)), ?_⟩
  rw [← fV] at eV
  rw [← fA] at eA
  rw [← fS] at eS
  rw [← fT1] at eT1
  rw [← fT2] at eT2
  exact ⟨eV, eA, eS, eT1, eT2, rfl, rfl, rfl, rfl, rfl⟩

theorem multi_drawn_finite (m n : ℕ) (N : Int) : {rnd : MultiRand | rnd.Drawn m n N}.Finite := by
  have hI : (Set.Ico (0 : Int) N).Finite := Set.finite_Ico 0 N
  have hV : ∀ n, {l : List Int | l.length = n ∧ ∀ a ∈ l, a ∈ Set.Ico (0 : Int) N}.Finite := by
    intro n
    have := List.finite_length_eq (Set.Ico (0 : Int) N) n
    refine (this.image (List.map Subtype.val)).subset ?_
    rintro l ⟨h1, h2⟩
    exact ⟨l.attach.map fun a => ⟨a.1, h2 a.1 a.2⟩, by simp [h1], by
      rw [List.map_map]; exact List.attach_map_subtype_val l⟩
  refine (((hV m).prod (hI.prod ((hV n).prod ((hV n).prod (hI.prod (hI.prod hI)))))).image
    fun t => (⟨t.1, t.2.1, t.2.2.1, t.2.2.2.1, t.2.2.2.2.1, t.2.2.2.2.2.1, t.2.2.2.2.2.2⟩ : MultiRand)).subset ?_
  intro r hr
  exact ⟨(r.gammas, r.alpha, r.sL, r.sR, r.rho, r.tau1, r.tau2),
    ⟨⟨hr.lenG, hr.gammas⟩, hr.alpha, ⟨hr.lenL, hr.sL⟩, ⟨hr.lenR, hr.sR⟩, hr.rho, hr.tau1, hr.tau2⟩, rfl⟩

/-- **C96** Perfect hiding of aggregated proofs, as the program makes them (`fixA = false`) and with line 86 edited, for any test a reader
may apply: if the test `P` does not tell proofs apart that look alike, and holds only for proofs of good points whose challenge `x` is not
zero modulo the order, the number of random tapes on which `MultiProve` returns a proof that passes is the same for any two lists of as
many secrets in the range.  Needs: prime order and `H` a generator. -/
theorem C96_test [Fact q.Prime] (fixA : Bool) (params : BPParams E) (L : Lawful params.GP q M) (k : ℕ) (hO : ParamsOK params L k)
    {R : E → E → Prop} {good : E → Prop} (hR : Looks L R good)
    (hgen : ∀ m : M, ∃ c : ZMod q, c • L.den params.H = m)
    (sha : Bytes → Bytes) (P : MultiBulletProof E → Prop) (hP : ∀ a b : MultiBulletProof E, a.Alike R b → P b → P a)
    (hg : ∀ pf, P pf → ∀ e ∈ pf.points, good e)
    (hx : ∀ pf, P pf → ¬ params.GP.N ∣ roundChallenge sha params.GP pf.T1 pf.T2)
    (vs vs' : List Int) (hlen : vs.length = vs'.length)
    (hv : ∀ v ∈ vs, 0 ≤ v ∧ v < 2 ^ (params.N / vs.length)) (hv' : ∀ v ∈ vs', 0 ≤ v ∧ v < 2 ^ (params.N / vs.length)) :
    (multiRunsWith P fixA sha params vs).Finite ∧
    (multiRunsWith P fixA sha params vs).ncard = (multiRunsWith P fixA sha params vs').ncard := by
  refine ⟨(multi_drawn_finite _ _ _).subset fun r h => h.1, ?_⟩
  have hq : 0 < q := (Fact.out : q.Prime).pos
  have : NeZero q := ⟨hq.ne'⟩
  by_cases hdiv : vs.length ≠ 0 ∧ vs.length * (params.N / vs.length) = params.N
  swap
  · have e : ∀ ws : List Int, ws.length = vs.length → multiRunsWith P fixA sha params ws = ∅ := by
      intro ws hw
      ext rnd
      simp only [Set.mem_empty_iff_false, iff_false]
      rintro ⟨_, _, h, _⟩
      obtain ⟨h1, h2⟩ := multiProveR_divides fixA params sha rnd ws _ ⟨q, L.N_eq⟩ h
      rw [hw] at h1 h2
      exact hdiv ⟨h1, h2⟩
    rw [e vs rfl, e vs' hlen.symm]
  obtain ⟨hm, hmul⟩ := hdiv
  obtain ⟨bits, hbits⟩ : ∃ b, params.N / vs.length = b := ⟨_, rfl⟩
  rw [hbits] at hmul hv hv'
  have hmul' : vs'.length * bits = params.N := hlen ▸ hmul
  have a1 := (fDigits_length (q := q) bits vs).trans hmul
  have a2 := (fDigits1_length (q := q) bits vs).trans hmul
  have a3 := (fDigits_length (q := q) bits vs').trans hmul'
  have a4 := (fDigits1_length (q := q) bits vs').trans hmul'
  obtain ⟨l, hl⟩ := hgen L.g
  obtain ⟨d, hd⟩ := hgen (msm (L.denV params.Gg) (lsub (fDigits q bits vs) (fDigits q bits vs')) +
      msm (L.denV params.Hh) (lsub (fDigits1 q bits vs) (fDigits1 q bits vs')))
  have hd' : (-d) • L.den params.H = msm (L.denV params.Gg) (lsub (fDigits q bits vs') (fDigits q bits vs)) +
      msm (L.denV params.Hh) (lsub (fDigits1 q bits vs') (fDigits1 q bits vs)) := by
    rw [msm_lsub _ _ _ (a1.trans a3.symm), msm_lsub _ _ _ (a2.trans a4.symm)] at hd
    rw [msm_lsub _ _ _ (a3.trans a1.symm), msm_lsub _ _ _ (a4.trans a2.symm), neg_smul, hd]; abel
  -- the exchange, with the challenges of the proof that the run returns
  obtain ⟨X, hX⟩ : ∃ X : List Int → List Int → ZMod q → MultiRand → MultiRand,
      X = fun (vs vs' : List Int) (d : ZMod q) (rnd : MultiRand) =>
        (exchangeFor q params.N (multiChallengesOf fixA sha params rnd vs) bits d l vs vs' (rnd.toF q)).lift := ⟨_, rfl⟩
  have step : ∀ (vs vs' : List Int), vs.length = vs'.length → vs.length ≠ 0 → vs.length * bits = params.N →
      (∀ v ∈ vs, 0 ≤ v ∧ v < 2 ^ bits) → (∀ v ∈ vs', 0 ≤ v ∧ v < 2 ^ bits) → ∀ d : ZMod q,
      d • L.den params.H = msm (L.denV params.Gg) (lsub (fDigits q bits vs) (fDigits q bits vs')) +
        msm (L.denV params.Hh) (lsub (fDigits1 q bits vs) (fDigits1 q bits vs')) → ∀ rnd ∈ multiRunsWith P fixA sha params vs,
      X vs vs' d rnd ∈ multiRunsWith P fixA sha params vs' ∧
        multiChallengesOf fixA sha params (X vs vs' d rnd) vs' = multiChallengesOf fixA sha params rnd vs := by
    rintro vs vs' hlen hm hmul hv hv' d hd rnd ⟨dr, pf, e, hp⟩
    have hx0 : ((roundChallenge sha params.GP pf.T1 pf.T2 : Int) : ZMod q) ≠ 0 := by
      rw [ne_eq, ZMod.intCast_zmod_eq_zero_iff_dvd, ← L.N_eq]; exact hx pf hp
    rw [hX]
    dsimp only
    rw [multiChallengesOf_eq e]
    obtain ⟨dr', pf₂, e', al⟩ := exchangeM_run fixA params L k hO hR sha vs vs' hlen bits hm hmul hv hv' pf (hg pf hp) hx0 d l hl hd rnd
      ⟨dr, e⟩
    refine ⟨⟨dr', pf₂, e', hP _ _ al hp⟩, ?_⟩
    rw [multiChallengesOf_eq e', hR.challenge sha al.A al.S, hR.challenge sha al.T1 al.T2]
  have back : ∀ (vs vs' : List Int) (d : ZMod q) (rnd : MultiRand), vs.length = vs'.length → vs.length * bits = params.N →
      rnd.Drawn vs.length params.N params.GP.N →
      multiChallengesOf fixA sha params (X vs vs' d rnd) vs' = multiChallengesOf fixA sha params rnd vs →
      X vs' vs (-d) (X vs vs' d rnd) = rnd := by
    intro vs vs' d rnd hlen hmul hr hc
    have hmul' : vs'.length * bits = params.N := hlen ▸ hmul
    rw [hX] at hc ⊢
    dsimp only at hc ⊢
    rw [hc, MFRand.toF_lift]
    unfold exchangeFor
    rw [← hlen, exchangeM_back _ vs.length _ _ _ _ _ _ _ _ _ _ _ _ (by simp [MultiRand.toF, hr.lenG])
      (by simp [MultiRand.toF, hr.lenL]) (by simp [MultiRand.toF, hr.lenR]) (by simp) (by simp [hlen])
      ((fDigits_length bits vs).trans hmul) ((fDigits1_length bits vs).trans hmul)
      ((fDigits_length bits vs').trans hmul') ((fDigits1_length bits vs').trans hmul')]
    rw [L.N_eq] at hr
    exact MultiRand.lift_toF hr
  have fwd := step vs vs' hlen hm hmul hv hv' d hd
  refine Set.ncard_congr (fun rnd _ => X vs vs' d rnd) (fun rnd h => (fwd rnd h).1) ?_ ?_
  · intro a b ha hb h
    rw [← back vs vs' d a hlen hmul ha.1 (fwd a ha).2, ← back vs vs' d b hlen hmul hb.1 (fwd b hb).2, h]
  · intro b hb
    obtain ⟨h1, h2⟩ := step vs' vs hlen.symm (hlen ▸ hm) hmul' hv' hv (-d) hd' b hb
    refine ⟨_, h1, ?_⟩
    have := back vs' vs (-d) b hlen.symm hmul' hb.1 h2
    rwa [neg_neg] at this

/-- **C96** Perfect hiding of aggregated proofs, as the program makes them (`fixA = false`) and with line 86 edited: for any proof `pf`, the
number of random tapes on which `MultiProve` returns `pf` is the same for any two lists of as many secrets in the range.  Needs: prime
order, `H` a generator, one representation per group element, and the challenge `x` of the proof not zero modulo the order. -/
theorem C96_hiding [Fact q.Prime] (fixA : Bool) (params : BPParams E) (L : Lawful params.GP q M) (k : ℕ) (hO : ParamsOK params L k)
    (hinj : ∀ {a b}, L.V a → L.V b → L.den a = L.den b → a = b)
    (hgen : ∀ m : M, ∃ c : ZMod q, c • L.den params.H = m)
    (sha : Bytes → Bytes) (pf : MultiBulletProof E)
    (hx : ¬ params.GP.N ∣ roundChallenge sha params.GP pf.T1 pf.T2)
    (vs vs' : List Int) (hlen : vs.length = vs'.length)
    (hv : ∀ v ∈ vs, 0 ≤ v ∧ v < 2 ^ (params.N / vs.length)) (hv' : ∀ v ∈ vs', 0 ≤ v ∧ v < 2 ^ (params.N / vs.length)) :
    (multiRunsTo fixA sha params vs pf).Finite ∧
    (multiRunsTo fixA sha params vs pf).ncard = (multiRunsTo fixA sha params vs' pf).ncard := by
  have := C96_test fixA params L k hO (Looks.eq hinj) hgen sha (· = pf) (fun a b h e => h.eq.trans e) (fun _ _ _ _ => trivial)
    (fun _ e => e ▸ hx) vs vs' hlen hv hv'
  rwa [multiRunsWith_eq, multiRunsWith_eq] at this

/-- **C96** A proof that some run of the program's `MultiProve` on `vs` returns is also returned by a run on any other list of as many
values of the range. -/
theorem C96_indistinguishable [Fact q.Prime] (params : BPParams E) (L : Lawful params.GP q M) (k : ℕ)
    (hO : ParamsOK params L k) (hinj : ∀ {a b}, L.V a → L.V b → L.den a = L.den b → a = b)
    (hgen : ∀ m : M, ∃ c : ZMod q, c • L.den params.H = m)
    (sha : Bytes → Bytes) (pf : MultiBulletProof E)
    (hx : ¬ params.GP.N ∣ roundChallenge sha params.GP pf.T1 pf.T2)
    (vs vs' : List Int) (hlen : vs.length = vs'.length)
    (hv : ∀ v ∈ vs, 0 ≤ v ∧ v < 2 ^ (params.N / vs.length)) (hv' : ∀ v ∈ vs', 0 ≤ v ∧ v < 2 ^ (params.N / vs.length))
    (rnd : MultiRand) (hr : rnd.Drawn vs.length params.N params.GP.N)
    (h : multiProve sha params rnd vs = some (.ok (pf, rnd.gammas))) :
    ∃ rnd' : MultiRand, rnd'.Drawn vs.length params.N params.GP.N ∧
      multiProve sha params rnd' vs' = some (.ok (pf, rnd'.gammas)) := by
  obtain ⟨f1, e⟩ := C96_hiding false params L k hO hinj hgen sha pf hx vs vs' hlen hv hv'
  have h1 : 0 < (multiRunsTo false sha params vs pf).ncard := (Set.ncard_pos f1).mpr ⟨rnd, hr, h⟩
  rw [e] at h1
  obtain ⟨r', h1', h2'⟩ := Set.nonempty_of_ncard_ne_zero h1.ne'
  exact ⟨r', hlen ▸ h1', h2'⟩

/-- **C96** On P-256 and P-384 nothing is needed but curve points as generators and `H` not the identity. -/
theorem C96_curves (C : CirclCurve) (hC : StdCircl C) (hash : (C.hash SEEDU).Valid C.c) (k : ℕ) (g h : WPoint)
    (Gg Hh : List WPoint) (hh : h.Valid C.c) (hne : h ≠ ⟨0, 0⟩) (hG : ∀ e ∈ Gg, e.Valid C.c) (hH : ∀ e ∈ Hh, e.Valid C.c)
    (lG : Gg.length = 2 ^ k) (lH : Hh.length = 2 ^ k) (fixA : Bool) (sha : Bytes → Bytes) (pf : MultiBulletProof WPoint)
    (hx : ¬ C.n ∣ (roundChallenge sha (circlGrp C) pf.T1 pf.T2).natAbs)
    (vs vs' : List Int) (hlen : vs.length = vs'.length)
    (hv : ∀ v ∈ vs, 0 ≤ v ∧ v < 2 ^ (2 ^ k / vs.length)) (hv' : ∀ v ∈ vs', 0 ≤ v ∧ v < 2 ^ (2 ^ k / vs.length)) :
    (multiRunsTo fixA sha ⟨2 ^ k, g, h, Gg, Hh, circlGrp C⟩ vs pf).Finite ∧
    (multiRunsTo fixA sha ⟨2 ^ k, g, h, Gg, Hh, circlGrp C⟩ vs pf).ncard =
      (multiRunsTo fixA sha ⟨2 ^ k, g, h, Gg, Hh, circlGrp C⟩ vs' pf).ncard := by
  have ok := stdCircl_ord hC
  have := ok.fact'
  have : Fact C.n.Prime := ⟨ok.n_prime⟩
  let _ := ok.module
  have hl : h ∈ {P | WLegal C.c P} := (wLegal_iff _ _).mpr hh
  have hd : wDen C.c h ≠ 0 := fun e => hne (wDen_inj ok.noroot ok.two_ne hl (Or.inl rfl) (e.trans wDen_zero.symm))
  refine C96_hiding (q := C.n) (M := WGroup C.c) fixA ⟨2 ^ k, g, h, Gg, Hh, circlGrp C⟩
    ok.lawful k
    ⟨rfl, hl, fun e he => (wLegal_iff _ _).mpr (hG e he), fun e he => (wLegal_iff _ _).mpr (hH e he), lG, lH,
      fun e he => by injection he with he; exact he ▸ (wLegal_iff _ _).mpr hash⟩ ?_ ?_ sha pf
    (fun hdvd => hx (Int.natCast_dvd.mp hdvd)) vs vs' hlen hv hv'
  · intro a b ha hb e
    exact wDen_inj ok.noroot ok.two_ne ha hb e
  · intro m
    obtain ⟨j, _, e⟩ := sw_cyclic ok.n_prime ok.card _ hd m
    refine ⟨j, ?_⟩
    rw [e]
    exact Nat.cast_smul_eq_nsmul (ZMod C.n) j (wDen C.c h)

/-- C96: drawn randomness and a real run on two two-bit values over `Z/101`, with and without the edit; on the same draws other values give
other proofs.  (The group hypotheses are those of C53, met there by the same parameters.) -/
example : exMRnd.Drawn 2 exBP.N exBP.GP.N ∧
    ([false, true].map fun fixA => match multiProveR fixA exSha2 exBP exMRnd [2, 3], multiProveR fixA exSha2 exBP exMRnd [0, 3] with
      | some (.ok (pf, gs)), some (.ok (pf', _)) => decide (roundChallenge exSha2 exBP.GP pf.T1 pf.T2 % 101 ≠ 0) &&
          decide (gs = exMRnd.gammas) && decide (pf.Vs ≠ pf'.Vs)
      | _, _ => false) = [true, true] := by
  refine ⟨?_, by decide +kernel⟩
  constructor <;> decide

end MscPoc
