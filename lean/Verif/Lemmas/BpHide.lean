import Verif.Lemmas.BpRange
import Verif.Lemmas.BpProgress

/-!
# What of the prover's state reaches the proof
-/

set_option autoImplicit false

namespace MscPoc

variable {E : Type} {q : ℕ} {M : Type} [AddCommGroup M] [Module (ZMod q) M]

/-- the values from which the rest of the proof is computed without randomness and without the secret -/
structure PState (E : Type) where
  A : E
  S : E
  T1 : E
  T2 : E
  bl : List Int
  br : List Int
  tauX : Int
  mu : Int

/-- the rest of `Prove` -/
def proveTail (sha : Bytes → Bytes) (params : BPParams E) (V : E) (s : PState E) :
    Option (Except String (BulletProof E)) := do
  let GP := params.GP
  let th ← scalarProduct s.bl s.br GP.N
  let hp ← updateGenerators GP params.Hh (roundChallenge sha GP s.A s.S) params.N
  let ipp ← setupInnerProduct GP (some params.Gg) (some hp) params.N
  match ipp with
  | .error e => some (.error e)
  | .ok ipp =>
    let commit ← commitInnerProduct GP params.Gg hp s.bl s.br
    let ipProof ← proveInnerProduct sha s.bl s.br commit th ipp
    match ipProof with
    | .error _ => none
    | .ok ipProof =>
      some (.ok { V := V, A := s.A, S := s.S, T1 := s.T1, T2 := s.T2, Taux := some s.tauX, Mu := some s.mu,
                  Tprime := some th, InnerProductProof := ipProof, Params := params })

section spec
variable {F : Type} [CommRing F]

/-- coefficient of `x` in `⟨l(x), r(x)⟩` -/
def t1Spec (n : ℕ) (y : F) (FL FR SL SR : List F) : F :=
  dot SL (List.zipWith (· + ·) (List.zipWith (· * ·) (pows y n) (FR.map (y + ·))) ((pows (2 : F) n).map (· * (y * y)))) +
    dot (FL.map (· + -y)) (List.zipWith (· * ·) (pows y n) SR)

/-- coefficient of `x²` -/
def t2Spec (n : ℕ) (y : F) (SL SR : List F) : F := dot SL (List.zipWith (· * ·) (pows y n) SR)

/-- `l(x)` -/
def blSpec (y x : F) (FL SL : List F) : List F := List.zipWith (· + ·) (FL.map (· + -y)) (SL.map (· * x))

/-- `r(x)` -/
def brSpec (n : ℕ) (y x : F) (FR SR : List F) : List F :=
  List.zipWith (· + ·) (List.zipWith (· * ·) (pows y n) (List.zipWith (· + ·) (FR.map (y + ·)) (SR.map (· * x))))
    ((pows (2 : F) n).map (· * (y * y)))

theorem t_identity (n : ℕ) (y x : F) (FL FR SL SR : List F) (fl : FL.length = n) (fr : FR.length = n) (sl : SL.length = n)
    (sr : SR.length = n) :
    dot (blSpec y x FL SL) (brSpec n y x FR SR) =
      rangeForm n FL FR y y + deltaSpec n y y + x * t1Spec n y FL FR SL SR + x ^ 2 * t2Spec n y SL SR := by
  unfold blSpec brSpec t1Spec t2Spec
  rw [br_shape x _ _ _ _ (by simp [pows_length, fr]) (by simp [pows_length, sr]) (by simp [pows_length]),
    dot_expand x _ _ _ _ (by simp [fl, sl]) (by simp [pows_length, fr, sr]),
    bp_scalar y FL FR _ _ (by omega) (by simp [pows_length, fl]) (by simp [pows_length, fl])]
  unfold rangeForm deltaSpec
  ring

end spec

/-- all entries are reduced -/
def Reduced (N : Int) (l : List Int) : Prop := ∀ a ∈ l, 0 ≤ a ∧ a < N

theorem reduced_vectorAdd {N : Int} (hN : 0 < N) {a b : List Int} (h : a.length = b.length) : Reduced N (vectorAdd a b N) := by
  rw [vectorAdd_eq h]
  intro c hc
  rw [List.mem_iff_getElem] at hc
  obtain ⟨i, hi, rfl⟩ := hc
  rw [List.getElem_zipWith]
  exact ⟨Int.emod_nonneg _ hN.ne', Int.emod_lt_of_pos _ hN⟩

/-- meaning of the state reached by `Prove` -/
structure PState.Spec (params : BPParams E) (L : Lawful params.GP q M) (k : ℕ) (sha : Bytes → Bytes) (rnd : BPRand)
    (aL aR : List Int) (s : PState E) : Prop where
  vA : L.V s.A
  vS : L.V s.S
  vT1 : L.V s.T1
  vT2 : L.V s.T2
  dA : L.den s.A = (rnd.alpha : ZMod q) • L.den params.H + msm (L.denV params.Gg) (castV q aL) +
    msm (L.denV params.Hh) (castV q aR)
  dS : L.den s.S = (rnd.rho : ZMod q) • L.den params.H + msm (L.denV params.Gg) (castV q rnd.sL) +
    msm (L.denV params.Hh) (castV q rnd.sR)
  dT1 : L.den s.T1 = t1Spec (2 ^ k) ((roundChallenge sha params.GP s.A s.S : Int) : ZMod q) (castV q aL) (castV q aR)
    (castV q rnd.sL) (castV q rnd.sR) • L.g + (rnd.tau1 : ZMod q) • L.den params.H
  dT2 : L.den s.T2 = t2Spec (2 ^ k) ((roundChallenge sha params.GP s.A s.S : Int) : ZMod q)
    (castV q rnd.sL) (castV q rnd.sR) • L.g + (rnd.tau2 : ZMod q) • L.den params.H
  rl : Reduced params.GP.N s.bl
  rr : Reduced params.GP.N s.br
  dl : castV q s.bl = blSpec ((roundChallenge sha params.GP s.A s.S : Int) : ZMod q)
    ((roundChallenge sha params.GP s.T1 s.T2 : Int) : ZMod q) (castV q aL) (castV q rnd.sL)
  dr : castV q s.br = brSpec (2 ^ k) ((roundChallenge sha params.GP s.A s.S : Int) : ZMod q)
    ((roundChallenge sha params.GP s.T1 s.T2 : Int) : ZMod q) (castV q aR) (castV q rnd.sR)
  tauX : s.tauX = (rnd.tau2 * (roundChallenge sha params.GP s.T1 s.T2 * roundChallenge sha params.GP s.T1 s.T2) +
    rnd.tau1 * roundChallenge sha params.GP s.T1 s.T2 +
    roundChallenge sha params.GP s.A s.S * roundChallenge sha params.GP s.A s.S * rnd.gamma) % params.GP.N
  mu : s.mu = (rnd.rho * roundChallenge sha params.GP s.T1 s.T2 + rnd.alpha) % params.GP.N

theorem proveFrom_state (params : BPParams E) (L : Lawful params.GP q M) (hq : 0 < q) (k : ℕ) (hO : ParamsOK params L k)
    (sha : Bytes → Bytes) (rnd : BPRand) (V : E) (aL aR : List Int)
    (lL : aL.length = 2 ^ k) (lR : aR.length = 2 ^ k) (lsL : rnd.sL.length = 2 ^ k) (lsR : rnd.sR.length = 2 ^ k) :
    ∃ s : PState E, proveFrom sha params rnd V aL aR = proveTail sha params V s ∧ s.Spec params L k sha rnd aL aR := by
  have hN := hO.N
  have lenG := hO.lenG
  have lenH := hO.lenH
  have hNq := L.N_eq
  have hNpos : 0 < params.GP.N := by rw [hNq]; exact_mod_cast hq
  obtain ⟨A, eA⟩ := commitVectorGo_isSome (GP := params.GP) params.N aL aR params.Gg params.Hh
    (params.GP.mul params.H rnd.alpha) (by omega) (by omega) (by omega) (by omega)
  obtain ⟨S, eS⟩ := commitVectorGo_isSome (GP := params.GP) params.N rnd.sL rnd.sR params.Gg params.Hh
    (params.GP.mul params.H rnd.rho) (by omega) (by omega) (by omega) (by omega)
  obtain ⟨vA, dA⟩ := L.commitVector_spec (lL.trans hN.symm) (lR.trans hN.symm) (by rw [lenG, hN]) (by rw [lenH, hN]) hO.Gg hO.Hh hO.H eA
  obtain ⟨vS, dS⟩ := L.commitVector_spec (lsL.trans hN.symm) (lsR.trans hN.symm) (by rw [lenG, hN]) (by rw [lenH, hN]) hO.Gg hO.Hh hO.H eS
  obtain ⟨y, hy⟩ : ∃ y, roundChallenge sha params.GP A S = y := ⟨_, rfl⟩
  have c1 : vectorConvertToBig aL params.N = some aL := by
    unfold vectorConvertToBig sliceTo; rw [if_pos (by omega), List.take_of_length_le (by omega)]
  have c2 : vectorConvertToBig aR params.N = some aR := by
    unfold vectorConvertToBig sliceTo; rw [if_pos (by omega), List.take_of_length_le (by omega)]
  obtain ⟨l0, hl0⟩ : ∃ l, vectorAddConst aL (-y) params.GP.N = l := ⟨_, rfl⟩
  have ll0 : l0.length = 2 ^ k := hl0 ▸ vectorAddConst_len lL
  have cl0 : castV q l0 = (castV q aL).map (· + -(y : ZMod q)) := by
    rw [← hl0, hNq, cast_vectorAddConst]; push_cast; rfl
  have lvc : (vectorCopy y params.N).length = 2 ^ k := by simp [vectorCopy, hN]
  obtain ⟨aRzn, haRzn⟩ : ∃ l, vectorAdd (vectorCopy y params.N) aR params.GP.N = l := ⟨_, rfl⟩
  have laRzn : aRzn.length = 2 ^ k := haRzn ▸ vectorAdd_len lvc lR
  have caRzn : castV q aRzn = (castV q aR).map ((y : ZMod q) + ·) := by
    rw [← haRzn, hNq, cast_vectorAdd (lvc.trans lR.symm), castV_replicate, hN, ← lR]
    clear * -
    induction aR with
    | nil => simp
    | cons a l ih => simp [List.replicate_succ, ih]
  obtain ⟨yP, hyP⟩ : ∃ l, powerOf y params.N params.GP.N = l := ⟨_, rfl⟩
  have lyP : yP.length = 2 ^ k := by rw [← hyP, powerOf_length, hN]
  have cyP : castV q yP = pows (y : ZMod q) (2 ^ k) := by rw [← hyP, hNq, powerOf_cast, hN]
  obtain ⟨p2, hp2⟩ : ∃ l, vectorScalarMul (powerOf 2 params.N params.GP.N) (y * y) params.GP.N = l := ⟨_, rfl⟩
  have lp2 : p2.length = 2 ^ k := hp2 ▸ vectorScalarMul_len (by rw [powerOf_length, hN])
  have cp2 : castV q p2 = (pows (2 : ZMod q) (2 ^ k)).map (· * ((y : ZMod q) * y)) := by
    rw [← hp2, hNq, cast_vectorScalarMul, powerOf_cast, hN]; push_cast; rfl
  obtain ⟨r0, hr0⟩ : ∃ l, vectorAdd (vectorMul yP aRzn params.GP.N) p2 params.GP.N = l := ⟨_, rfl⟩
  have lr0 : r0.length = 2 ^ k := hr0 ▸ vectorAdd_len (vectorMul_len lyP laRzn) lp2
  have cr0 : castV q r0 = List.zipWith (· + ·) (List.zipWith (· * ·) (pows (y : ZMod q) (2 ^ k)) ((castV q aR).map ((y : ZMod q) + ·)))
      ((pows (2 : ZMod q) (2 ^ k)).map (· * ((y : ZMod q) * y))) := by
    rw [← hr0, hNq, cast_vectorAdd ((vectorMul_len lyP laRzn).trans lp2.symm), cast_vectorMul (lyP.trans laRzn.symm), cyP,
      caRzn, cp2]
  obtain ⟨r1, hr1⟩ : ∃ l, vectorMul yP rnd.sR params.GP.N = l := ⟨_, rfl⟩
  have lr1 : r1.length = 2 ^ k := hr1 ▸ vectorMul_len lyP lsR
  have cr1 : castV q r1 = List.zipWith (· * ·) (pows (y : ZMod q) (2 ^ k)) (castV q rnd.sR) := by
    rw [← hr1, hNq, cast_vectorMul (lyP.trans lsR.symm), cyP]
  obtain ⟨t1l, et1l⟩ := vectorInnerProduct_isSome rnd.sL r0 params.GP.N (lsL.trans lr0.symm).le
  obtain ⟨t1r, et1r⟩ := vectorInnerProduct_isSome l0 r1 params.GP.N (ll0.trans lr1.symm).le
  obtain ⟨t2, et2⟩ := vectorInnerProduct_isSome rnd.sL r1 params.GP.N (lsL.trans lr1.symm).le
  have ct1l := et1l
  have ct1r := et1r
  have ct2 := et2
  rw [hNq] at ct1l ct1r ct2
  replace ct1l := vectorInnerProduct_spec ct1l
  replace ct1r := vectorInnerProduct_spec ct1r
  replace ct2 := vectorInnerProduct_spec ct2
  rw [cr0] at ct1l
  rw [cl0, cr1] at ct1r
  rw [cr1] at ct2
  obtain ⟨T1, hT1⟩ : ∃ e, pedersenCommit params.GP ((t1l + t1r) % params.GP.N) rnd.tau1 params.H = e := ⟨_, rfl⟩
  obtain ⟨T2, hT2⟩ : ∃ e, pedersenCommit params.GP t2 rnd.tau2 params.H = e := ⟨_, rfl⟩
  have vT1 : L.V T1 := hT1 ▸ L.V_pedersen hO.H _ _
  have vT2 : L.V T2 := hT2 ▸ L.V_pedersen hO.H _ _
  have dT1 := L.den_pedersen hO.H ((t1l + t1r) % params.GP.N) rnd.tau1
  have dT2 := L.den_pedersen hO.H t2 rnd.tau2
  rw [hT1, L.cast_modN, Int.cast_add, ct1l, ct1r] at dT1
  rw [hT2, ct2] at dT2
  obtain ⟨x, hx⟩ : ∃ e, roundChallenge sha params.GP T1 T2 = e := ⟨_, rfl⟩
  obtain ⟨bl, hbl⟩ : ∃ l, vectorAdd l0 (vectorScalarMul rnd.sL x params.GP.N) params.GP.N = l := ⟨_, rfl⟩
  have lsx := vectorScalarMul_len (c := x) (N := params.GP.N) lsL
  have lsrx := vectorScalarMul_len (c := x) (N := params.GP.N) lsR
  have rbl : Reduced params.GP.N bl := hbl ▸ reduced_vectorAdd hNpos (ll0.trans lsx.symm)
  have cbl : castV q bl = blSpec (y : ZMod q) (x : ZMod q) (castV q aL) (castV q rnd.sL) := by
    rw [hNq] at lsx
    rw [← hbl, hNq, cast_vectorAdd (ll0.trans lsx.symm), cl0, cast_vectorScalarMul]; rfl
  obtain ⟨tmp, htmp⟩ : ∃ l, vectorAdd aRzn (vectorScalarMul rnd.sR x params.GP.N) params.GP.N = l := ⟨_, rfl⟩
  have ltmp : tmp.length = 2 ^ k := htmp ▸ vectorAdd_len laRzn lsrx
  have ctmp : castV q tmp = List.zipWith (· + ·) ((castV q aR).map ((y : ZMod q) + ·)) ((castV q rnd.sR).map (· * (x : ZMod q))) := by
    rw [hNq] at lsrx
    rw [← htmp, hNq, cast_vectorAdd (laRzn.trans lsrx.symm), caRzn, cast_vectorScalarMul]
  obtain ⟨br, hbr⟩ : ∃ l, vectorAdd (vectorMul yP tmp params.GP.N) p2 params.GP.N = l := ⟨_, rfl⟩
  have rbr : Reduced params.GP.N br := hbr ▸ reduced_vectorAdd hNpos ((vectorMul_len lyP ltmp).trans lp2.symm)
  have cbr : castV q br = brSpec (2 ^ k) (y : ZMod q) (x : ZMod q) (castV q aR) (castV q rnd.sR) := by
    rw [← hbr, hNq, cast_vectorAdd ((vectorMul_len lyP ltmp).trans lp2.symm), cast_vectorMul (lyP.trans ltmp.symm), cyP,
      ctmp, cp2]
    rfl
  refine ⟨⟨A, S, T1, T2, bl, br, (rnd.tau2 * (x * x) + rnd.tau1 * x + y * y * rnd.gamma) % params.GP.N,
    (rnd.rho * x + rnd.alpha) % params.GP.N⟩, ?_, ?_⟩
  · unfold proveFrom
    runs eA
    runs eS
    simp only [hashBP_fst, hashBP_snd, hy]
    runs c1
    runs c2
    simp only [hl0, haRzn, hyP, hp2, hr0, hr1]
    runs et1l
    runs et1r
    runs et2
    simp only [hT1, hT2, hx, hbl, htmp, hbr]
    unfold proveTail
    simp only [hy]
    rfl
  · constructor
    all_goals dsimp only
    all_goals try simp only [hy, hx]
    all_goals assumption

/-! ## Exchanging the witness -/

theorem int_eq_of_cast {a b : Int} (ha : 0 ≤ a ∧ a < q) (hb : 0 ≤ b ∧ b < q) (h : (a : ZMod q) = b) : a = b := by
  rw [ZMod.intCast_eq_intCast_iff] at h
  have := h.eq
  rwa [Int.emod_eq_of_lt ha.1 ha.2, Int.emod_eq_of_lt hb.1 hb.2] at this

theorem castV_inj {a b : List Int} (ha : Reduced q a) (hb : Reduced q b) (h : castV q a = castV q b) : a = b := by
  induction a generalizing b with
  | nil => cases b with
    | nil => rfl
    | cons _ _ => simp [castV] at h
  | cons x a ih => cases b with
    | nil => simp [castV] at h
    | cons y b =>
      simp only [castV, List.map_cons, List.cons.injEq] at h
      rw [int_eq_of_cast (ha x (by simp)) (hb y (by simp)) h.1,
        ih (fun c hc => ha c (by simp [hc])) (fun c hc => hb c (by simp [hc])) h.2]

/-- the random draws as field elements -/
structure FRand (F : Type) where
  gamma : F
  alpha : F
  sL : List F
  sR : List F
  rho : F
  tau1 : F
  tau2 : F

/-- integers drawn by `rand.Int(rand.Reader, N)`, `n` of them for each blinding vector -/
structure BPRand.Drawn (rnd : BPRand) (n : ℕ) (N : Int) : Prop where
  gamma : 0 ≤ rnd.gamma ∧ rnd.gamma < N
  alpha : 0 ≤ rnd.alpha ∧ rnd.alpha < N
  lenL : rnd.sL.length = n
  lenR : rnd.sR.length = n
  sL : ∀ a ∈ rnd.sL, 0 ≤ a ∧ a < N
  sR : ∀ a ∈ rnd.sR, 0 ≤ a ∧ a < N
  rho : 0 ≤ rnd.rho ∧ rnd.rho < N
  tau1 : 0 ≤ rnd.tau1 ∧ rnd.tau1 < N
  tau2 : 0 ≤ rnd.tau2 ∧ rnd.tau2 < N

def FRand.lift (r : FRand (ZMod q)) : BPRand where
  gamma := r.gamma.val
  alpha := r.alpha.val
  sL := r.sL.map fun a => (a.val : Int)
  sR := r.sR.map fun a => (a.val : Int)
  rho := r.rho.val
  tau1 := r.tau1.val
  tau2 := r.tau2.val

def BPRand.toF (q : ℕ) (r : BPRand) : FRand (ZMod q) where
  gamma := r.gamma
  alpha := r.alpha
  sL := castV q r.sL
  sR := castV q r.sR
  rho := r.rho
  tau1 := r.tau1
  tau2 := r.tau2

theorem val_range [NeZero q] (a : ZMod q) : (0 : Int) ≤ a.val ∧ (a.val : Int) < q :=
  ⟨by positivity, by exact_mod_cast a.val_lt⟩

theorem val_cast [NeZero q] (a : ZMod q) : (((a.val : ℕ) : Int) : ZMod q) = a := by simp

theorem FRand.drawn [NeZero q] (r : FRand (ZMod q)) (n : ℕ) (h1 : r.sL.length = n) (h2 : r.sR.length = n) :
    r.lift.Drawn n q where
  gamma := val_range _
  alpha := val_range _
  lenL := by simpa [FRand.lift] using h1
  lenR := by simpa [FRand.lift] using h2
  sL := by
    intro a ha
    simp only [FRand.lift, List.mem_map] at ha
    obtain ⟨b, _, rfl⟩ := ha
    exact val_range _
  sR := by
    intro a ha
    simp only [FRand.lift, List.mem_map] at ha
    obtain ⟨b, _, rfl⟩ := ha
    exact val_range _
  rho := val_range _
  tau1 := val_range _
  tau2 := val_range _

theorem FRand.toF_lift [NeZero q] (r : FRand (ZMod q)) : r.lift.toF q = r := by
  obtain ⟨g, a, sL, sR, rho, t1, t2⟩ := r
  simp [FRand.lift, BPRand.toF, castV, Function.comp_def]

theorem BPRand.lift_toF [NeZero q] {r : BPRand} {n : ℕ} (h : r.Drawn n q) : (r.toF q).lift = r := by
  have e : ∀ {a : Int}, 0 ≤ a ∧ a < q → (((a : ZMod q).val : ℕ) : Int) = a := fun {a} ha =>
    int_eq_of_cast (val_range _) ha (val_cast _)
  have el : ∀ {l : List Int}, (∀ a ∈ l, 0 ≤ a ∧ a < q) → (castV q l).map (fun a => (a.val : Int)) = l := by
    intro l hl
    induction l with
    | nil => rfl
    | cons a l ih =>
      simp only [castV, List.map_cons] at ih ⊢
      rw [e (hl a (by simp)), ih (fun b hb => hl b (by simp [hb]))]
  obtain ⟨g, a, sL, sR, rho, t1, t2⟩ := r
  simp only [BPRand.toF, FRand.lift, BPRand.mk.injEq]
  exact ⟨e h.gamma, e h.alpha, el h.sL, el h.sR, e h.rho, e h.tau1, e h.tau2⟩

section exchange
variable {F : Type} [Field F]

/-- pointwise difference, sum -/
def lsub (a b : List F) : List F := List.zipWith (· - ·) a b
def shift (x : F) (s d : List F) : List F := List.zipWith (fun s d => s + d * x⁻¹) s d

/-- The exchange of randomness: `FL, FR` are the bits of the old secret `v`, `FL', FR'` those of the new one; `d` is the
logarithm of the change of the bit commitment and `l` that of `G`, to base `H`. -/
def exchange (n : ℕ) (y x d l v v' : F) (FL FR FL' FR' : List F) (r : FRand F) : FRand F :=
  let sL := shift x r.sL (lsub FL FL')
  let sR := shift x r.sR (lsub FR FR')
  { gamma := r.gamma + l * (v - v')
    alpha := r.alpha + d
    sL := sL
    sR := sR
    rho := r.rho - d * x⁻¹
    tau1 := r.tau1 + l * (t1Spec n y FL FR r.sL r.sR - t1Spec n y FL' FR' sL sR)
    tau2 := r.tau2 + l * (t2Spec n y r.sL r.sR - t2Spec n y sL sR) }

theorem shift_back (x : F) (s a b : List F) (h1 : s.length = a.length) (h2 : a.length = b.length) :
    shift x (shift x s (lsub a b)) (lsub b a) = s := by
  unfold shift lsub
  apply List.ext_getElem
  · simp [h1, h2]
  · intro i _ _
    simp only [List.getElem_zipWith]
    ring

theorem exchange_back (n : ℕ) (y x d l v v' : F) (FL FR FL' FR' : List F) (r : FRand F) (h1 : r.sL.length = n)
    (h2 : r.sR.length = n) (l1 : FL.length = n) (l2 : FR.length = n) (l3 : FL'.length = n) (l4 : FR'.length = n) :
    exchange n y x (-d) l v' v FL' FR' FL FR (exchange n y x d l v v' FL FR FL' FR' r) = r := by
  obtain ⟨g, a, sL, sR, rho, t1, t2⟩ := r
  dsimp only at h1 h2
  unfold exchange
  dsimp only
  rw [shift_back x sL _ _ (by omega) (by omega), shift_back x sR _ _ (by omega) (by omega)]
  simp only [FRand.mk.injEq, true_and]
  refine ⟨by ring, by ring, by ring, by ring, by ring⟩

theorem bl_exchange (y x : F) (hx : x ≠ 0) (s a b : List F) (h1 : s.length = a.length) (h2 : a.length = b.length) :
    blSpec y x b (shift x s (lsub a b)) = blSpec y x a s := by
  unfold blSpec shift lsub
  apply List.ext_getElem
  · simp [h1, h2]
  · intro i _ _
    simp only [List.getElem_zipWith, List.getElem_map]
    rw [add_mul, mul_assoc, inv_mul_cancel₀ hx]
    ring

theorem br_exchange (n : ℕ) (y x : F) (hx : x ≠ 0) (s a b : List F) (h1 : s.length = a.length) (h2 : a.length = b.length) :
    brSpec n y x b (shift x s (lsub a b)) = brSpec n y x a s := by
  unfold brSpec
  congr 2
  unfold shift lsub
  apply List.ext_getElem
  · simp [h1, h2]
  · intro i _ _
    simp only [List.getElem_zipWith, List.getElem_map]
    rw [add_mul, mul_assoc, inv_mul_cancel₀ hx]
    ring

theorem msm_lsub {M : Type} [AddCommGroup M] [Module F M] (g : List M) (a b : List F) (h : a.length = b.length) :
    msm g (lsub a b) = msm g a - msm g b := by
  have e : a = List.zipWith (· + ·) b (lsub a b) := by
    unfold lsub
    apply List.ext_getElem
    · simp [h]
    · intro i _ _
      simp
  rw [eq_sub_iff_add_eq, add_comm, ← msm_add_right _ _ _ (by simp [lsub, h]), ← e]

theorem msm_shift {M : Type} [AddCommGroup M] [Module F M] (x : F) (g : List M) (s d : List F) (h : s.length = d.length) :
    msm g (shift x s d) = msm g s + x⁻¹ • msm g d := by
  have e : shift x s d = List.zipWith (· + ·) s (d.map (· * x⁻¹)) := by
    unfold shift
    apply List.ext_getElem
    · simp [h]
    · intro i _ _
      simp
  rw [e, msm_add_right _ _ _ (by simp [h]), msm_map_mul]

end exchange

end MscPoc
