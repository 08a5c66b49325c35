import Verif.Lemmas.MultiRepair
import Verif.Lemmas.BpHide
import Verif.Props.MultiCrash

/-!
# What of the aggregated prover's state reaches the proof

As `Lemmas/BpHide.lean`, for `MultiProve` with either setting of line 86 (`Spec/MultiRepair.lean`).
-/

set_option autoImplicit false

namespace MscPoc

variable {E : Type} {q : ℕ} {M : Type} [AddCommGroup M] [Module (ZMod q) M]

/-- the rest of `MultiProve` -/
def multiTail (sha : Bytes → Bytes) (params : BPParams E) (Vs : List E) (gammas : List Int) (s : PState E) :
    Option (Except String (MultiBulletProof E × List Int)) := do
  let GP := params.GP
  let th ← scalarProduct s.bl s.br GP.N
  let hp ← updateGenerators GP params.Hh (roundChallenge sha GP s.A s.S) params.N
  let ipp ← setupInnerProduct GP (some params.Gg) (some hp) params.N
  match ipp with
  | .error e => some (.error e)
  | .ok ipp =>
    let commit ← commitInnerProduct GP params.Gg hp s.bl s.br
    let ipProof ← proveInnerProduct sha s.bl s.br commit th ipp
    match ipProof with
    | .error _ => none
    | .ok ipProof =>
      some (.ok ({ Vs := Vs, A := s.A, S := s.S, T1 := s.T1, T2 := s.T2, Taux := some s.tauX, Mu := some s.mu,
                   Tprime := some th, InnerProductProof := ipProof, Params := params }, gammas))

theorem multiTail_fields {sha : Bytes → Bytes} {params : BPParams E} {Vs : List E} {gammas gs : List Int} {s : PState E}
    {pf : MultiBulletProof E} (h : multiTail sha params Vs gammas s = some (.ok (pf, gs))) :
    gs = gammas ∧ pf.A = s.A ∧ pf.S = s.S ∧ pf.T1 = s.T1 ∧ pf.T2 = s.T2 ∧
      ∀ gammas', multiTail sha params Vs gammas' s = some (.ok (pf, gammas')) := by
  unfold multiTail at h
  unbind h with th e1
  unbind h with hp e2
  unbind h with ipp e3
  cases ipp with
  | error e => simp at h
  | ok ipp =>
    unbind h with cm e4
    unbind h with ip e5
    cases ip with
    | error e => simp at h
    | ok ip =>
      simp only [Option.some.injEq, Except.ok.injEq, Prod.mk.injEq] at h
      obtain ⟨h, hg⟩ := h
      subst h
      refine ⟨hg.symm, rfl, rfl, rfl, rfl, fun gammas' => ?_⟩
      unfold multiTail
      runs e1
      runs e2
      runs e3
      dsimp only
      runs e4
      runs e5
      rfl

section spec
variable {F : Type} [CommRing F]

/-- coefficient of `x` in `⟨l(x), r(x)⟩`, `w` being the last summand of `r` -/
def t1W (n : ℕ) (y : F) (w FL FR SL SR : List F) : F :=
  dot SL (List.zipWith (· + ·) (List.zipWith (· * ·) (pows y n) (FR.map (y + ·))) w) +
    dot (FL.map (· + -y)) (List.zipWith (· * ·) (pows y n) SR)

/-- `r(x)` -/
def brW (n : ℕ) (y x : F) (w FR SR : List F) : List F :=
  List.zipWith (· + ·) (List.zipWith (· * ·) (pows y n) (List.zipWith (· + ·) (FR.map (y + ·)) (SR.map (· * x)))) w

/-- the constant coefficient -/
def t0W (n : ℕ) (y : F) (w FL FR : List F) : F :=
  dot FL (List.zipWith (· * ·) (pows y n) FR) + y * (dot FL (pows y n) - dot (pows y n) FR - (pows y n).sum) + dot FL w
        + (y - y ^ 2) * (pows y n).sum - y * w.sum

theorem t_identityW (n : ℕ) (y x : F) (w FL FR SL SR : List F) (fl : FL.length = n) (fr : FR.length = n) (sl : SL.length = n)
    (sr : SR.length = n) (wl : w.length = n) :
    dot (blSpec y x FL SL) (brW n y x w FR SR) =
      t0W n y w FL FR + x * t1W n y w FL FR SL SR + x ^ 2 * t2Spec n y SL SR := by
  unfold blSpec brW t1W t2Spec t0W
  rw [br_shape x _ _ _ _ (by simp [pows_length, fr]) (by simp [pows_length, sr]) (by simp [pows_length, wl]),
    dot_expand x _ _ _ _ (by simp [fl, sl]) (by simp [pows_length, fr, sr, wl]),
    bp_scalar' y FL FR _ _ (by omega) (by simp [pows_length, fl]) (by omega)]

end spec

/-- meaning of the state reached by `MultiProve`: `aX` is the first vector committed to, `m` the number of values, `bits` the bits of each -/
structure PState.MSpec (params : BPParams E) (L : Lawful params.GP q M) (k : ℕ) (sha : Bytes → Bytes) (rnd : MultiRand)
    (m bits : ℕ) (aX aL aR : List Int) (s : PState E) : Prop where
  vA : L.V s.A
  vS : L.V s.S
  vT1 : L.V s.T1
  vT2 : L.V s.T2
  dA : L.den s.A = (rnd.alpha : ZMod q) • L.den params.H + msm (L.denV params.Gg) (castV q aX) +
    msm (L.denV params.Hh) (castV q aR)
  dS : L.den s.S = (rnd.rho : ZMod q) • L.den params.H + msm (L.denV params.Gg) (castV q rnd.sL) +
    msm (L.denV params.Hh) (castV q rnd.sR)
  dT1 : L.den s.T1 = t1W (2 ^ k) ((roundChallenge sha params.GP s.A s.S : Int) : ZMod q)
    (blocksMul bits (zpows ((roundChallenge sha params.GP s.A s.S : Int) : ZMod q) 0 m)) (castV q aL) (castV q aR)
    (castV q rnd.sL) (castV q rnd.sR) • L.g + (rnd.tau1 : ZMod q) • L.den params.H
  dT2 : L.den s.T2 = t2Spec (2 ^ k) ((roundChallenge sha params.GP s.A s.S : Int) : ZMod q)
    (castV q rnd.sL) (castV q rnd.sR) • L.g + (rnd.tau2 : ZMod q) • L.den params.H
  rl : Reduced params.GP.N s.bl
  rr : Reduced params.GP.N s.br
  dl : castV q s.bl = blSpec ((roundChallenge sha params.GP s.A s.S : Int) : ZMod q)
    ((roundChallenge sha params.GP s.T1 s.T2 : Int) : ZMod q) (castV q aL) (castV q rnd.sL)
  dr : castV q s.br = brW (2 ^ k) ((roundChallenge sha params.GP s.A s.S : Int) : ZMod q)
    ((roundChallenge sha params.GP s.T1 s.T2 : Int) : ZMod q)
    (blocksMul bits (zpows ((roundChallenge sha params.GP s.A s.S : Int) : ZMod q) 0 m)) (castV q aR) (castV q rnd.sR)
  tauX : ∃ t : Int, s.tauX = t % params.GP.N ∧ (t : ZMod q) =
    rnd.tau2 * ((roundChallenge sha params.GP s.T1 s.T2 : Int) : ZMod q) ^ 2 +
    rnd.tau1 * ((roundChallenge sha params.GP s.T1 s.T2 : Int) : ZMod q) +
    dot (castV q rnd.gammas) (zpows ((roundChallenge sha params.GP s.A s.S : Int) : ZMod q) 0 m)
  mu : s.mu = (rnd.rho * roundChallenge sha params.GP s.T1 s.T2 + rnd.alpha) % params.GP.N

/-- the digits of all values one after the other -/
def allDigits (bits : ℕ) (secrets : List Int) : List Int := (secrets.map (fun s => decompose s 2 bits)).flatten

theorem multiProveR_state (fixA : Bool) (params : BPParams E) (L : Lawful params.GP q M) (hq : 0 < q) (k : ℕ)
    (hO : ParamsOK params L k) (sha : Bytes → Bytes) (rnd : MultiRand) (secrets : List Int) (bits : ℕ)
    (hm : secrets.length ≠ 0) (hmul : secrets.length * bits = params.N) (lg : rnd.gammas.length = secrets.length)
    (lsL : rnd.sL.length = 2 ^ k) (lsR : rnd.sR.length = 2 ^ k) :
    ∃ s : PState E, multiProveR fixA sha params rnd secrets =
        multiTail sha params (List.zipWith (fun s g => pedersenCommit params.GP s g params.H) secrets rnd.gammas) rnd.gammas s ∧
      s.MSpec params L k sha rnd secrets.length bits
        (if fixA then allDigits bits secrets else (allDigits bits secrets).map (· - 1)) (allDigits bits secrets)
        ((allDigits bits secrets).map (· - 1)) := by
  have hN := hO.N
  have lenG := hO.lenG
  have lenH := hO.lenH
  have hNq := L.N_eq
  have hNpos : 0 < params.GP.N := by rw [hNq]; exact_mod_cast hq
  have hbt : params.N / secrets.length = bits := by rw [← hmul, Nat.mul_div_cancel_left _ (Nat.pos_of_ne_zero hm)]
  obtain ⟨aL, haL⟩ : ∃ aL, allDigits bits secrets = aL := ⟨_, rfl⟩
  have lL : aL.length = 2 ^ k := by rw [← haL, allDigits, digits_length, hmul, hN]
  have hAR := digits_AR bits secrets
  have hf : (secrets.map (fun s => decompose s 2 bits)).flatten = aL := haL
  rw [hf] at hAR
  have e1 : concatPad params.N (secrets.map (fun s => decompose s 2 bits)) = aL := by
    rw [concatPad_full _ _ (by rw [hf, lL, hN]), hf]
  have e2 : concatPad params.N ((secrets.map (fun s => decompose s 2 bits)).map computeAR) = aL.map (· - 1) := by
    rw [concatPad_full _ _ (by rw [hAR, List.length_map, lL, hN]), hAR]
  rw [haL]
  obtain ⟨aR, haR⟩ : ∃ aR, aL.map (· - 1) = aR := ⟨_, rfl⟩
  have lR : aR.length = 2 ^ k := by rw [← haR, List.length_map, lL]
  rw [haR] at e2 ⊢
  obtain ⟨aX, haX⟩ : ∃ aX, (if fixA then aL else aR) = aX := ⟨_, rfl⟩
  have lX : aX.length = 2 ^ k := by rw [← haX]; cases fixA; exacts [lR, lL]
  rw [haX]
  obtain ⟨A, eA⟩ := commitVectorGo_isSome (GP := params.GP) params.N aX aR params.Gg params.Hh
    (params.GP.mul params.H rnd.alpha) (by omega) (by omega) (by omega) (by omega)
  obtain ⟨S, eS⟩ := commitVectorGo_isSome (GP := params.GP) params.N rnd.sL rnd.sR params.Gg params.Hh
    (params.GP.mul params.H rnd.rho) (by omega) (by omega) (by omega) (by omega)
  obtain ⟨vA, dA⟩ := L.commitVector_spec (lX.trans hN.symm) (lR.trans hN.symm) (by rw [lenG, hN]) (by rw [lenH, hN]) hO.Gg hO.Hh hO.H eA
  obtain ⟨vS, dS⟩ := L.commitVector_spec (lsL.trans hN.symm) (lsR.trans hN.symm) (by rw [lenG, hN]) (by rw [lenH, hN]) hO.Gg hO.Hh hO.H eS
  obtain ⟨y, hy⟩ : ∃ y, roundChallenge sha params.GP A S = y := ⟨_, rfl⟩
  have c1 : vectorConvertToBig aL params.N = some aL := by
    unfold vectorConvertToBig sliceTo; rw [if_pos (by omega), List.take_of_length_le (by omega)]
  have c2 : vectorConvertToBig aR params.N = some aR := by
    unfold vectorConvertToBig sliceTo; rw [if_pos (by omega), List.take_of_length_le (by omega)]
  obtain ⟨l0, hl0⟩ : ∃ l, vectorAddConst aL (-y) params.GP.N = l := ⟨_, rfl⟩
  have ll0 : l0.length = 2 ^ k := hl0 ▸ vectorAddConst_len lL
  have cl0 : castV q l0 = (castV q aL).map (· + -(y : ZMod q)) := by
    rw [← hl0, hNq, cast_vectorAddConst]; push_cast; rfl
  have lvc : (vectorCopy y params.N).length = 2 ^ k := by simp [vectorCopy, hN]
  obtain ⟨aRzn, haRzn⟩ : ∃ l, vectorAdd (vectorCopy y params.N) aR params.GP.N = l := ⟨_, rfl⟩
  have laRzn : aRzn.length = 2 ^ k := haRzn ▸ vectorAdd_len lvc lR
  have caRzn : castV q aRzn = (castV q aR).map ((y : ZMod q) + ·) := by
    rw [← haRzn, hNq, cast_vectorAdd (lvc.trans lR.symm), castV_replicate, hN, ← lR]
    clear * -
    induction aR with
    | nil => simp
    | cons a l ih => simp [List.replicate_succ, ih]
  obtain ⟨yP, hyP⟩ : ∃ l, powerOf y params.N params.GP.N = l := ⟨_, rfl⟩
  have lyP : yP.length = 2 ^ k := by rw [← hyP, powerOf_length, hN]
  have cyP : castV q yP = pows (y : ZMod q) (2 ^ k) := by rw [← hyP, hNq, powerOf_cast, hN]
  obtain ⟨p2, ez, lp2⟩ := zPowersTimesTwo_isSome y params.GP.N hmul
  rw [hN] at lp2
  have ez' := ez
  rw [hNq] at ez'
  obtain ⟨-, -, cp2⟩ := zPowersTimesTwo_spec ez'
  obtain ⟨r0, hr0⟩ : ∃ l, vectorAdd (vectorMul yP aRzn params.GP.N) p2 params.GP.N = l := ⟨_, rfl⟩
  have lr0 : r0.length = 2 ^ k := hr0 ▸ vectorAdd_len (vectorMul_len lyP laRzn) lp2
  have cr0 : castV q r0 = List.zipWith (· + ·) (List.zipWith (· * ·) (pows (y : ZMod q) (2 ^ k)) ((castV q aR).map ((y : ZMod q) + ·)))
      (blocksMul bits (zpows (y : ZMod q) 0 secrets.length)) := by
    rw [← hr0, hNq, cast_vectorAdd ((vectorMul_len lyP laRzn).trans lp2.symm), cast_vectorMul (lyP.trans laRzn.symm), cyP,
      caRzn, cp2]
  obtain ⟨r1, hr1⟩ : ∃ l, vectorMul yP rnd.sR params.GP.N = l := ⟨_, rfl⟩
  have lr1 : r1.length = 2 ^ k := hr1 ▸ vectorMul_len lyP lsR
  have cr1 : castV q r1 = List.zipWith (· * ·) (pows (y : ZMod q) (2 ^ k)) (castV q rnd.sR) := by
    rw [← hr1, hNq, cast_vectorMul (lyP.trans lsR.symm), cyP]
  obtain ⟨t1l, et1l⟩ := vectorInnerProduct_isSome rnd.sL r0 params.GP.N (lsL.trans lr0.symm).le
  obtain ⟨t1r, et1r⟩ := vectorInnerProduct_isSome l0 r1 params.GP.N (ll0.trans lr1.symm).le
  obtain ⟨t2, et2⟩ := vectorInnerProduct_isSome rnd.sL r1 params.GP.N (lsL.trans lr1.symm).le
  have ct1l := et1l
  have ct1r := et1r
  have ct2 := et2
  rw [hNq] at ct1l ct1r ct2
  replace ct1l := vectorInnerProduct_spec ct1l
  replace ct1r := vectorInnerProduct_spec ct1r
  replace ct2 := vectorInnerProduct_spec ct2
  rw [cr0] at ct1l
  rw [cl0, cr1] at ct1r
  rw [cr1] at ct2
  obtain ⟨T1, hT1⟩ : ∃ e, pedersenCommit params.GP ((t1l + t1r) % params.GP.N) rnd.tau1 params.H = e := ⟨_, rfl⟩
  obtain ⟨T2, hT2⟩ : ∃ e, pedersenCommit params.GP t2 rnd.tau2 params.H = e := ⟨_, rfl⟩
  have vT1 : L.V T1 := hT1 ▸ L.V_pedersen hO.H _ _
  have vT2 : L.V T2 := hT2 ▸ L.V_pedersen hO.H _ _
  have dT1 := L.den_pedersen hO.H ((t1l + t1r) % params.GP.N) rnd.tau1
  have dT2 := L.den_pedersen hO.H t2 rnd.tau2
  rw [hT1, L.cast_modN, Int.cast_add, ct1l, ct1r] at dT1
  rw [hT2, ct2] at dT2
  obtain ⟨x, hx⟩ : ∃ e, roundChallenge sha params.GP T1 T2 = e := ⟨_, rfl⟩
  obtain ⟨bl, hbl⟩ : ∃ l, vectorAdd l0 (vectorScalarMul rnd.sL x params.GP.N) params.GP.N = l := ⟨_, rfl⟩
  have lsx := vectorScalarMul_len (c := x) (N := params.GP.N) lsL
  have lsrx := vectorScalarMul_len (c := x) (N := params.GP.N) lsR
  have rbl : Reduced params.GP.N bl := hbl ▸ reduced_vectorAdd hNpos (ll0.trans lsx.symm)
  have cbl : castV q bl = blSpec (y : ZMod q) (x : ZMod q) (castV q aL) (castV q rnd.sL) := by
    rw [hNq] at lsx
    rw [← hbl, hNq, cast_vectorAdd (ll0.trans lsx.symm), cl0, cast_vectorScalarMul]; rfl
  obtain ⟨tmp, htmp⟩ : ∃ l, vectorAdd aRzn (vectorScalarMul rnd.sR x params.GP.N) params.GP.N = l := ⟨_, rfl⟩
  have ltmp : tmp.length = 2 ^ k := htmp ▸ vectorAdd_len laRzn lsrx
  have ctmp : castV q tmp = List.zipWith (· + ·) ((castV q aR).map ((y : ZMod q) + ·)) ((castV q rnd.sR).map (· * (x : ZMod q))) := by
    rw [hNq] at lsrx
    rw [← htmp, hNq, cast_vectorAdd (laRzn.trans lsrx.symm), caRzn, cast_vectorScalarMul]
  obtain ⟨br, hbr⟩ : ∃ l, vectorAdd (vectorMul yP tmp params.GP.N) p2 params.GP.N = l := ⟨_, rfl⟩
  have rbr : Reduced params.GP.N br := hbr ▸ reduced_vectorAdd hNpos ((vectorMul_len lyP ltmp).trans lp2.symm)
  have cbr : castV q br = brW (2 ^ k) (y : ZMod q) (x : ZMod q) (blocksMul bits (zpows (y : ZMod q) 0 secrets.length))
      (castV q aR) (castV q rnd.sR) := by
    rw [← hbr, hNq, cast_vectorAdd ((vectorMul_len lyP ltmp).trans lp2.symm), cast_vectorMul (lyP.trans ltmp.symm), cyP,
      ctmp, cp2]
    rfl
  obtain ⟨tg, htg⟩ : ∃ t : Int, (rnd.gammas.zipIdx).foldl (fun acc (gj : Int × Nat) =>
        (acc + gj.1 * (y ^ (2 + gj.2) % params.GP.N)) % params.GP.N) 0 = t := ⟨_, rfl⟩
  have ctg : (tg : ZMod q) = dot (castV q rnd.gammas) (zpows (y : ZMod q) 0 secrets.length) := by
    rw [← htg, hNq, gammas_foldl, lg]; simp
  refine ⟨⟨A, S, T1, T2, bl, br, (rnd.tau2 * (x * x) + rnd.tau1 * x + tg) % params.GP.N,
    (rnd.rho * x + rnd.alpha) % params.GP.N⟩, ?_, ?_⟩
  · unfold multiProveR
    dsimp only
    rw [if_neg hm, hbt, e1, e2, haX]
    runs eA
    runs eS
    simp only [hashBP_fst, hashBP_snd, hy]
    runs ez
    runs c1
    runs c2
    simp only [hl0, haRzn, hyP, hr0, hr1]
    runs et1l
    runs et1r
    runs et2
    simp only [hT1, hT2, hx, hbl, htmp, hbr, htg]
    unfold multiTail
    simp only [hy]
    rfl
  · have ctau : ∃ t : Int, (rnd.tau2 * (x * x) + rnd.tau1 * x + tg) % params.GP.N = t % params.GP.N ∧ (t : ZMod q) =
        rnd.tau2 * (x : ZMod q) ^ 2 + rnd.tau1 * (x : ZMod q) +
        dot (castV q rnd.gammas) (zpows (y : ZMod q) 0 secrets.length) := by
      refine ⟨_, rfl, ?_⟩
      push_cast
      rw [ctg]
      ring
    constructor
    all_goals dsimp only
    all_goals try simp only [hy, hx]
    all_goals assumption

/-! ## Exchanging the witness -/

/-- the random draws as field elements -/
structure MFRand (F : Type) where
  gammas : List F
  alpha : F
  sL : List F
  sR : List F
  rho : F
  tau1 : F
  tau2 : F

/-- integers drawn by `rand.Int(rand.Reader, N)`: `m` blinding factors, and `n` entries for each blinding vector -/
structure MultiRand.Drawn (rnd : MultiRand) (m n : ℕ) (N : Int) : Prop where
  lenG : rnd.gammas.length = m
  gammas : ∀ a ∈ rnd.gammas, 0 ≤ a ∧ a < N
  alpha : 0 ≤ rnd.alpha ∧ rnd.alpha < N
  lenL : rnd.sL.length = n
  lenR : rnd.sR.length = n
  sL : ∀ a ∈ rnd.sL, 0 ≤ a ∧ a < N
  sR : ∀ a ∈ rnd.sR, 0 ≤ a ∧ a < N
  rho : 0 ≤ rnd.rho ∧ rnd.rho < N
  tau1 : 0 ≤ rnd.tau1 ∧ rnd.tau1 < N
  tau2 : 0 ≤ rnd.tau2 ∧ rnd.tau2 < N

def MFRand.lift (r : MFRand (ZMod q)) : MultiRand where
  gammas := r.gammas.map fun a => (a.val : Int)
  alpha := r.alpha.val
  sL := r.sL.map fun a => (a.val : Int)
  sR := r.sR.map fun a => (a.val : Int)
  rho := r.rho.val
  tau1 := r.tau1.val
  tau2 := r.tau2.val

def MultiRand.toF (q : ℕ) (r : MultiRand) : MFRand (ZMod q) where
  gammas := castV q r.gammas
  alpha := r.alpha
  sL := castV q r.sL
  sR := castV q r.sR
  rho := r.rho
  tau1 := r.tau1
  tau2 := r.tau2

theorem MFRand.drawn [NeZero q] (r : MFRand (ZMod q)) (m n : ℕ) (h0 : r.gammas.length = m) (h1 : r.sL.length = n)
    (h2 : r.sR.length = n) : r.lift.Drawn m n q := by
  have k : ∀ (l : List (ZMod q)), ∀ a ∈ l.map (fun a => (a.val : Int)), 0 ≤ a ∧ a < q := by
    intro l a ha
    rw [List.mem_map] at ha
    obtain ⟨b, _, rfl⟩ := ha
    exact val_range _
  exact ⟨by simpa [MFRand.lift] using h0, k _, val_range _, by simpa [MFRand.lift] using h1, by simpa [MFRand.lift] using h2,
    k _, k _, val_range _, val_range _, val_range _⟩

theorem MFRand.toF_lift [NeZero q] (r : MFRand (ZMod q)) : r.lift.toF q = r := by
  obtain ⟨g, a, sL, sR, rho, t1, t2⟩ := r
  simp [MFRand.lift, MultiRand.toF, castV, Function.comp_def]

theorem MultiRand.lift_toF [NeZero q] {r : MultiRand} {m n : ℕ} (h : r.Drawn m n q) : (r.toF q).lift = r := by
  have e : ∀ {a : Int}, 0 ≤ a ∧ a < q → (((a : ZMod q).val : ℕ) : Int) = a := fun {a} ha =>
    int_eq_of_cast (val_range _) ha (val_cast _)
  have el : ∀ {l : List Int}, (∀ a ∈ l, 0 ≤ a ∧ a < q) → (castV q l).map (fun a => (a.val : Int)) = l := by
    intro l hl
    induction l with
    | nil => rfl
    | cons a l ih =>
      simp only [castV, List.map_cons] at ih ⊢
      rw [e (hl a (by simp)), ih (fun b hb => hl b (by simp [hb]))]
  obtain ⟨g, a, sL, sR, rho, t1, t2⟩ := r
  simp only [MultiRand.toF, MFRand.lift, MultiRand.mk.injEq]
  exact ⟨el h.gammas, e h.alpha, el h.sL, el h.sR, e h.rho, e h.tau1, e h.tau2⟩

section exchange
variable {F : Type} [Field F]

/-- The exchange of randomness: `FL, FR` are the digits of the old secrets `vs`, `FL', FR'` those of the new ones; `d` is the logarithm of
the change of the digit commitment and `l` that of `G`, to base `H`. -/
def exchangeM (n : ℕ) (y x d l : F) (w vs vs' FL FR FL' FR' : List F) (r : MFRand F) : MFRand F :=
  let sL := shift x r.sL (lsub FL FL')
  let sR := shift x r.sR (lsub FR FR')
  { gammas := shift l⁻¹ r.gammas (lsub vs vs')
    alpha := r.alpha + d
    sL := sL
    sR := sR
    rho := r.rho - d * x⁻¹
    tau1 := r.tau1 + l * (t1W n y w FL FR r.sL r.sR - t1W n y w FL' FR' sL sR)
    tau2 := r.tau2 + l * (t2Spec n y r.sL r.sR - t2Spec n y sL sR) }

theorem exchangeM_back (n m : ℕ) (y x d l : F) (w vs vs' FL FR FL' FR' : List F) (r : MFRand F) (h0 : r.gammas.length = m)
    (h1 : r.sL.length = n) (h2 : r.sR.length = n) (v1 : vs.length = m) (v2 : vs'.length = m)
    (l1 : FL.length = n) (l2 : FR.length = n) (l3 : FL'.length = n) (l4 : FR'.length = n) :
    exchangeM n y x (-d) l w vs' vs FL' FR' FL FR (exchangeM n y x d l w vs vs' FL FR FL' FR' r) = r := by
  obtain ⟨g, a, sL, sR, rho, t1, t2⟩ := r
  dsimp only at h0 h1 h2
  unfold exchangeM
  dsimp only
  rw [shift_back _ g _ _ (by omega) (by omega), shift_back x sL _ _ (by omega) (by omega),
    shift_back x sR _ _ (by omega) (by omega)]
  simp only [MFRand.mk.injEq, true_and]
  refine ⟨by ring, by ring, by ring, by ring⟩

theorem brW_exchange (n : ℕ) (y x : F) (hx : x ≠ 0) (w s a b : List F) (h1 : s.length = a.length) (h2 : a.length = b.length) :
    brW n y x w b (shift x s (lsub a b)) = brW n y x w a s := by
  unfold brW
  congr 2
  unfold shift lsub
  apply List.ext_getElem
  · simp [h1, h2]
  · intro i _ _
    simp only [List.getElem_zipWith, List.getElem_map]
    rw [add_mul, mul_assoc, inv_mul_cancel₀ hx]
    ring

theorem dot_shift (x : F) : ∀ (s a b cs : List F), s.length = a.length → a.length = b.length →
    dot (shift x s (lsub a b)) cs = dot s cs + x⁻¹ * (dot a cs - dot b cs)
  | [], [], [], cs, _, _ => by simp [shift]
  | _ :: _, [], _, _, h, _ => by simp at h
  | [], _ :: _, _, _, h, _ => by simp at h
  | _, [], _ :: _, _, _, h => by simp at h
  | _, _ :: _, [], _, _, h => by simp at h
  | s :: ss, a :: as, b :: bs, [], _, _ => by simp
  | s :: ss, a :: as, b :: bs, c :: cs, h1, h2 => by
    have ih := dot_shift x ss as bs cs (by simpa using h1) (by simpa using h2)
    unfold shift lsub at ih ⊢
    simp only [List.zipWith_cons_cons, dot_cons, ih]
    ring

end exchange

/-- the constant coefficient for digits of values in range -/
theorem t0W_digits (bits : ℕ) (secrets : List Int) (n : ℕ) (hn : secrets.length * bits = n) (y : ZMod q)
    (hr : ∀ v ∈ secrets, 0 ≤ v ∧ v < 2 ^ bits) :
    t0W n y (blocksMul bits (zpows y 0 secrets.length)) (castV q (allDigits bits secrets))
      (castV q ((allDigits bits secrets).map (· - 1))) =
    dot (castV q secrets) (zpows y 0 secrets.length) + ((y - y ^ 2) * (pows y n).sum -
      y * (blocksMul bits (zpows y 0 secrets.length)).sum) := by
  have hb : ∀ d ∈ allDigits bits secrets, d = 0 ∨ d = 1 := digits_bits bits secrets
  have ll : (allDigits bits secrets).length = n := by rw [allDigits, digits_length, hn]
  have b1 := bits_dot_zero (pows y n) (allDigits bits secrets) hb
  have b2 := bits_dot_diff (pows y n) (allDigits bits secrets) (by rw [ll, pows_length])
  have b3 : dot (castV q (allDigits bits secrets)) (blocksMul bits (zpows y 0 secrets.length)) =
    dot (castV q (secrets.map (· % 2 ^ bits))) (zpows y 0 secrets.length) := digits_dot bits secrets (zpows y 0 secrets.length) (by simp)
  have e : secrets.map (· % 2 ^ bits) = secrets := by
    conv_rhs => rw [← List.map_id secrets]
    apply List.map_congr_left
    intro v hv
    exact Int.emod_eq_of_lt (hr v hv).1 (hr v hv).2
  rw [e] at b3
  unfold t0W
  rw [b1, b2, b3]
  ring

end MscPoc
