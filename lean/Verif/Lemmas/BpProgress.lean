import Verif.Lemmas.BpProve
import Verif.Lemmas.IppProgress

/-!
# When `Prove` returns
-/

set_option autoImplicit false

namespace MscPoc

variable {E : Type}

theorem commitVectorGo_isSome {GP : Grp E} : ∀ (n : ℕ) (aL aR : List Int) (g h : List E) (R : E),
    n ≤ aL.length → n ≤ aR.length → n ≤ g.length → n ≤ h.length →
    ∃ C, commitVectorGo GP n aL aR g h R = some C
  | 0, _, _, _, _, R, _, _, _, _ => ⟨R, rfl⟩
  | n + 1, [], _, _, _, R, h1, _, _, _ => by simp at h1
  | n + 1, _ :: _, [], _, _, R, _, h1, _, _ => by simp at h1
  | n + 1, _ :: _, _ :: _, [], _, R, _, _, h1, _ => by simp at h1
  | n + 1, _ :: _, _ :: _, _ :: _, [], R, _, _, _, h1 => by simp at h1
  | n + 1, a :: aL, b :: aR, e :: g, f :: h, R, h1, h2, h3, h4 => by
    obtain ⟨C, hC⟩ := commitVectorGo_isSome (GP := GP) n aL aR g h (GP.add (GP.add R (GP.mul e a)) (GP.mul f b))
      (by simpa using h1) (by simpa using h2) (by simpa using h3) (by simpa using h4)
    exact ⟨C, hC⟩

theorem vectorInnerProduct_isSome (a b : List Int) (N : Int) (h : a.length ≤ b.length) :
    ∃ r, vectorInnerProduct a b N = some r := by
  obtain ⟨r, hr⟩ := vectorInnerProductGo_isSome N a b 0 h
  exact ⟨r % N, by unfold vectorInnerProduct; rw [hr]; rfl⟩

theorem vectorAdd_len {a b : List Int} {N : Int} {n : ℕ} (ha : a.length = n) (hb : b.length = n) :
    (vectorAdd a b N).length = n := by
  rw [vectorAdd_eq (ha.trans hb.symm)]; simp [ha, hb]

theorem vectorMul_len {a b : List Int} {N : Int} {n : ℕ} (ha : a.length = n) (hb : b.length = n) :
    (vectorMul a b N).length = n := by
  rw [vectorMul_eq (ha.trans hb.symm)]; simp [ha, hb]

theorem vectorScalarMul_len {a : List Int} {c N : Int} {n : ℕ} (ha : a.length = n) :
    (vectorScalarMul a c N).length = n := by simp [vectorScalarMul, ha]

theorem vectorAddConst_len {a : List Int} {c N : Int} {n : ℕ} (ha : a.length = n) :
    (vectorAddConst a c N).length = n := by simp [vectorAddConst, ha]

theorem updateGeneratorsGo_len {GP : Grp E} : ∀ (n : ℕ) (hs : List E) (yi e : Int) (r : List E),
    updateGeneratorsGo GP yi hs e n = some r → r.length = n := by
  intro n
  induction n with
  | zero => intro hs yi e r h; cases hs <;> · simp [updateGeneratorsGo] at h; simp [h]
  | succ n ih =>
    intro hs yi e r h
    cases hs with
    | nil => simp [updateGeneratorsGo] at h
    | cons f hs =>
      unfold updateGeneratorsGo at h
      unbind h with rest e1
      simp only [Option.some.injEq] at h
      subst h
      simp [ih _ _ _ _ e1]

theorem updateGenerators_len {GP : Grp E} {Hh hp : List E} {y : Int} {n : ℕ} (h : updateGenerators GP Hh y n = some hp) :
    hp.length = n := by
  cases Hh with
  | nil => cases n <;> simp [updateGenerators] at h
  | cons h0 hs => cases n with
    | zero => simp [updateGenerators] at h
    | succ n => cases n with
      | zero => simp [updateGenerators] at h; simp [← h]
      | succ n =>
        unfold updateGenerators at h
        unbind h with yi e1
        unbind h with rest e2
        simp only [Option.some.injEq] at h
        subst h
        simp [updateGeneratorsGo_len _ _ _ _ _ e2]

/-- a digest usable as a challenge wherever the code inverts it -/
def GoodPair (sha : Bytes → Bytes) (GP : Grp E) (l r : E) : Prop := Int.gcd (roundChallenge sha GP l r) GP.N = 1

/-- `Prove` returns under a hash function whose digests are all invertible, and under any other hash function that
agrees with it on the digests of this run. -/
theorem proveFrom_agree (params : BPParams E) (k : ℕ) (hN : params.N = 2 ^ k) (lenG : params.Gg.length = 2 ^ k)
    (lenH : params.Hh.length = 2 ^ k) (Uu : E) (eU : params.GP.mapToGroup SEEDU = some Uu)
    (sha sha' : Bytes → Bytes) (hgood : ∀ l r : E, GoodPair sha' params.GP l r)
    (rnd : BPRand) (V : E) (aL aR : List Int)
    (lL : aL.length = 2 ^ k) (lR : aR.length = 2 ^ k) (lsL : rnd.sL.length = 2 ^ k) (lsR : rnd.sR.length = 2 ^ k) :
    ∃ pf, proveFrom sha' params rnd V aL aR = some (.ok pf) ∧
      (roundChallenge sha params.GP pf.A pf.S = roundChallenge sha' params.GP pf.A pf.S →
       roundChallenge sha params.GP pf.T1 pf.T2 = roundChallenge sha' params.GP pf.T1 pf.T2 →
       (∀ Cc, pf.InnerProductProof.Cc = some Cc →
         ippChallenge sha params.GP pf.InnerProductProof.Params.Gg pf.InnerProductProof.Params.Hh
          pf.InnerProductProof.P Cc =
         ippChallenge sha' params.GP pf.InnerProductProof.Params.Gg pf.InnerProductProof.Params.Hh
          pf.InnerProductProof.P Cc) →
       (∀ p ∈ List.zip pf.InnerProductProof.L pf.InnerProductProof.R,
         roundChallenge sha params.GP p.1 p.2 = roundChallenge sha' params.GP p.1 p.2) →
       proveFrom sha params rnd V aL aR = some (.ok pf)) := by
  have hpos : 0 < 2 ^ k := Nat.two_pow_pos k
  have hNpos : ¬ ((params.N : Int) ≤ 0) := by omega
  obtain ⟨A, eA⟩ := commitVectorGo_isSome (GP := params.GP) params.N aL aR params.Gg params.Hh
    (params.GP.mul params.H rnd.alpha) (by omega) (by omega) (by omega) (by omega)
  obtain ⟨S, eS⟩ := commitVectorGo_isSome (GP := params.GP) params.N rnd.sL rnd.sR params.Gg params.Hh
    (params.GP.mul params.H rnd.rho) (by omega) (by omega) (by omega) (by omega)
  obtain ⟨y, hy⟩ : ∃ y, roundChallenge sha' params.GP A S = y := ⟨_, rfl⟩
  have c1 : vectorConvertToBig aL params.N = some aL := by
    unfold vectorConvertToBig sliceTo; rw [if_pos (by omega), List.take_of_length_le (by omega)]
  have c2 : vectorConvertToBig aR params.N = some aR := by
    unfold vectorConvertToBig sliceTo; rw [if_pos (by omega), List.take_of_length_le (by omega)]
  obtain ⟨l0, hl0⟩ : ∃ l, vectorAddConst aL (-y) params.GP.N = l := ⟨_, rfl⟩
  have ll0 : l0.length = 2 ^ k := hl0 ▸ vectorAddConst_len lL
  obtain ⟨aRzn, haRzn⟩ : ∃ l, vectorAdd (vectorCopy y params.N) aR params.GP.N = l := ⟨_, rfl⟩
  have laRzn : aRzn.length = 2 ^ k := haRzn ▸ vectorAdd_len (by simp [vectorCopy, hN]) lR
  obtain ⟨yP, hyP⟩ : ∃ l, powerOf y params.N params.GP.N = l := ⟨_, rfl⟩
  have lyP : yP.length = 2 ^ k := by rw [← hyP, powerOf_length, hN]
  obtain ⟨p2, hp2⟩ : ∃ l, vectorScalarMul (powerOf 2 params.N params.GP.N) (y * y) params.GP.N = l := ⟨_, rfl⟩
  have lp2 : p2.length = 2 ^ k := hp2 ▸ vectorScalarMul_len (by rw [powerOf_length, hN])
  obtain ⟨r0, hr0⟩ : ∃ l, vectorAdd (vectorMul yP aRzn params.GP.N) p2 params.GP.N = l := ⟨_, rfl⟩
  have lr0 : r0.length = 2 ^ k := hr0 ▸ vectorAdd_len (vectorMul_len lyP laRzn) lp2
  obtain ⟨r1, hr1⟩ : ∃ l, vectorMul yP rnd.sR params.GP.N = l := ⟨_, rfl⟩
  have lr1 : r1.length = 2 ^ k := hr1 ▸ vectorMul_len lyP lsR
  obtain ⟨t1l, et1l⟩ := vectorInnerProduct_isSome rnd.sL r0 params.GP.N (lsL.trans lr0.symm).le
  obtain ⟨t1r, et1r⟩ := vectorInnerProduct_isSome l0 r1 params.GP.N (ll0.trans lr1.symm).le
  obtain ⟨t2, et2⟩ := vectorInnerProduct_isSome rnd.sL r1 params.GP.N (lsL.trans lr1.symm).le
  obtain ⟨T1, hT1⟩ : ∃ e, pedersenCommit params.GP ((t1l + t1r) % params.GP.N) rnd.tau1 params.H = e := ⟨_, rfl⟩
  obtain ⟨T2, hT2⟩ : ∃ e, pedersenCommit params.GP t2 rnd.tau2 params.H = e := ⟨_, rfl⟩
  obtain ⟨x, hx⟩ : ∃ e, roundChallenge sha' params.GP T1 T2 = e := ⟨_, rfl⟩
  obtain ⟨bl, hbl⟩ : ∃ l, vectorAdd l0 (vectorScalarMul rnd.sL x params.GP.N) params.GP.N = l := ⟨_, rfl⟩
  have lbl : bl.length = 2 ^ k := hbl ▸ vectorAdd_len ll0 (vectorScalarMul_len lsL)
  obtain ⟨br, hbr⟩ : ∃ l, vectorAdd (vectorMul yP (vectorAdd aRzn (vectorScalarMul rnd.sR x params.GP.N) params.GP.N)
    params.GP.N) p2 params.GP.N = l := ⟨_, rfl⟩
  have lbr : br.length = 2 ^ k :=
    hbr ▸ vectorAdd_len (vectorMul_len lyP (vectorAdd_len laRzn (vectorScalarMul_len lsR))) lp2
  obtain ⟨th, eth⟩ : ∃ t, scalarProduct bl br params.GP.N = some t :=
    ⟨scalarProductGo params.GP.N bl br 0, by unfold scalarProduct; rw [if_neg (not_not.mpr (lbl.trans lbr.symm))]⟩
  obtain ⟨hp, ehp⟩ := updateGenerators_isSome (GP := params.GP) (Hh := params.Hh) (y := y) (n := params.N) (hN ▸ hpos)
    (hN.trans lenH.symm).le (fun _ => hy ▸ hgood A S)
  have lhp : hp.length = 2 ^ k := (updateGenerators_len ehp).trans hN
  obtain ⟨ipp, hipp⟩ : ∃ i : IPParams E, i = { Gg := params.Gg, Hh := hp, Uu := Uu, GP := params.GP } := ⟨_, rfl⟩
  have eipp : setupInnerProduct params.GP (some params.Gg) (some hp) params.N = some (.ok ipp) := by
    unfold setupInnerProduct
    rw [if_neg hNpos]
    simp [eU, hipp]
  obtain ⟨gcm, hgcm⟩ := Lawful.vectorExp_isSome (GP := params.GP) (gs := params.Gg) (as := bl) (lenG.trans lbl.symm)
  obtain ⟨hcm, hhcm⟩ := Lawful.vectorExp_isSome (GP := params.GP) (gs := hp) (as := br) (lhp.trans lbr.symm)
  obtain ⟨cm, ecm⟩ : ∃ c, commitInnerProduct params.GP params.Gg hp bl br = some c :=
    ⟨params.GP.add gcm hcm, by unfold commitInnerProduct; simp [hgcm, hhcm]⟩
  obtain ⟨u, hu⟩ : ∃ c, ippChallenge sha' params.GP params.Gg hp cm th = c := ⟨_, rfl⟩
  obtain ⟨pa, pb, Ls, Rs, h1, _, _, h2⟩ := bip_agree (GP := params.GP) sha sha' hgood k bl br params.Gg hp
    (params.GP.mul Uu u) (params.GP.add cm (params.GP.mul (params.GP.mul Uu u) th)) [] [] lbl lbr lenG lhp
  simp only [List.nil_append] at h1 h2
  have pip : ∀ s, ippChallenge s params.GP params.Gg hp cm th = u →
      computeBipRecursive s params.GP bl br params.Gg hp (params.GP.mul Uu u)
        (params.GP.add cm (params.GP.mul (params.GP.mul Uu u) th)) (2 ^ k) [] [] = some (pa, pb, Ls, Rs) →
      proveInnerProduct s bl br cm th ipp = some (.ok { P := cm, Cc := some th, A := some pa, B := some pb, L := Ls, R := Rs, Params := ipp }) := by
    intro s hs hc
    subst hipp
    unfold proveInnerProduct
    rw [if_neg (not_not.mpr (lbl.trans lbr.symm))]
    have e1 : hashIP s params.GP params.Gg hp cm th = some u := by
      rw [hashIP_eq, if_pos (lenG.trans lhp.symm).le, ← hs]
    rw [← lbl] at hc
    runs e1
    runs hc
    rfl
  have run : ∀ s, roundChallenge s params.GP A S = y → roundChallenge s params.GP T1 T2 = x →
      ippChallenge s params.GP params.Gg hp cm th = u →
      computeBipRecursive s params.GP bl br params.Gg hp (params.GP.mul Uu u)
        (params.GP.add cm (params.GP.mul (params.GP.mul Uu u) th)) (2 ^ k) [] [] = some (pa, pb, Ls, Rs) →
      proveFrom s params rnd V aL aR = some (.ok (BulletProof.mk V A S T1 T2
        (some ((rnd.tau2 * (x * x) + rnd.tau1 * x + y * y * rnd.gamma) % params.GP.N))
        (some ((rnd.rho * x + rnd.alpha) % params.GP.N)) (some th)
        { P := cm, Cc := some th, A := some pa, B := some pb, L := Ls, R := Rs, Params := ipp } params)) := by
    intro s hsy hsx hsu hsc
    unfold proveFrom
    runs eA
    runs eS
    simp only [hashBP_fst, hashBP_snd, hsy]
    runs c1
    runs c2
    simp only [hl0, haRzn, hyP, hp2, hr0, hr1]
    runs et1l
    runs et1r
    runs et2
    simp only [hT1, hT2, hsx, hbl, hbr]
    runs eth
    runs ehp
    runs eipp
    runs ecm
    runs pip s hsu hsc
    rfl
  refine ⟨_, run sha' hy hx hu h1, ?_⟩
  intro g1 g2 g3 g4
  exact run sha (g1.trans hy) (g2.trans hx) ((by simpa [hipp] using g3 th rfl : _ = _).trans hu) (h2 g4)

end MscPoc
