import Verif.Spec.Alloc
import Verif.Model.HeapSetup
import Verif.Lemmas.Vec

/-!
# Counting the elements created
-/

set_option autoImplicit false

namespace MscPoc

variable {E E₁ E₂ α β : Type}

namespace Creates

theorem pure {a : α} {K : α → ℕ → Prop} (h : K a 0) : Creates (Pure.pure a : HM E α) K := by
  intro s b s' e
  obtain ⟨rfl, rfl⟩ : a = b ∧ s = s' := by
    have e : some (a, s) = some (b, s') := e
    simpa using e
  exact ⟨0, rfl, h⟩

theorem bind {m : HM E α} {f : α → HM E β} {K : α → ℕ → Prop} {K' : β → ℕ → Prop} (hm : Creates m K)
    (hf : ∀ a d, K a d → Creates (f a) fun b e => K' b (d + e)) : Creates (m >>= f) K' := by
  intro s b s' e
  have e : (match m s with | none => none | some (a, h') => f a h') = some (b, s') := e
  cases h : m s with
  | none => rw [h] at e; cases e
  | some r =>
    obtain ⟨a, s1⟩ := r
    rw [h] at e
    obtain ⟨d, h1, k⟩ := hm s a s1 h
    obtain ⟨d', h2, k'⟩ := hf a d k s1 b s' e
    exact ⟨d + d', by omega, k'⟩

theorem mono {m : HM E α} {K K' : α → ℕ → Prop} (hm : Creates m K) (h : ∀ a d, K a d → K' a d) : Creates m K' := by
  intro s a s' e
  obtain ⟨d, h1, k⟩ := hm s a s' e
  exact ⟨d, h1, h a d k⟩

theorem lift (o : Option α) : Creates (HM.lift o : HM E α) fun a d => d = 0 ∧ o = some a := by
  intro s a s' e
  cases o with
  | none => cases e
  | some b =>
    have e : some (b, s) = some (a, s') := e
    simp only [Option.some.injEq, Prod.mk.injEq] at e
    obtain ⟨rfl, rfl⟩ := e
    exact ⟨0, rfl, rfl, rfl⟩

theorem panic {K : α → ℕ → Prop} : Creates (HM.lift none : HM E α) K := by
  intro s a s' e
  cases e

theorem alloc (v : E) : Creates (HM.alloc v) fun _ d => d = 1 := by
  intro s a s' e
  have e := Option.some.inj e
  simp only [Prod.mk.injEq] at e
  obtain ⟨rfl, rfl⟩ := e
  exact ⟨1, rfl, rfl⟩

theorem write (p : ℕ) (v : E) : Creates (HM.write p v) fun _ d => d = 0 := by
  intro s a s' e
  have e := Option.some.inj e
  simp only [Prod.mk.injEq] at e
  obtain ⟨rfl, rfl⟩ := e
  exact ⟨0, rfl, rfl⟩

theorem read (p : ℕ) : Creates (HM.read p : HM E E) fun _ d => d = 0 := by
  intro s a s' e
  have e := Option.some.inj e
  simp only [Prod.mk.injEq] at e
  obtain ⟨rfl, rfl⟩ := e
  exact ⟨0, rfl, rfl⟩


variable (GP : Grp E)

theorem element : Creates (HM.element GP) fun _ d => d = 1 := alloc _
theorem identity : Creates (HM.identity GP) fun _ d => d = 1 := alloc _

theorem add (e a b : ℕ) : Creates (HM.add GP e a b) fun _ d => d = 0 := by
  unfold HM.add
  refine bind (read a) fun _ _ hd => ?_
  refine bind (read b) fun _ _ hd' => ?_
  exact (write _ _).mono fun _ _ h => by omega

theorem scale (e a : ℕ) (s : Int) : Creates (HM.scale GP e a s) fun _ d => d = 0 := by
  unfold HM.scale
  refine bind (read _) fun _ _ hd => ?_
  refine bind (read _) fun _ _ hd' => ?_
  exact (write _ _).mono fun _ _ h => by omega

theorem baseScale (e : ℕ) (s : Int) : Creates (HM.baseScale GP e s) fun _ d => d = 0 := by
  unfold HM.baseScale
  refine bind (read _) fun _ _ hd => ?_
  exact (write _ _).mono fun _ _ h => by omega

theorem negate (e a : ℕ) : Creates (HM.negate GP e a) fun _ d => d = 0 := by
  unfold HM.negate
  refine bind (read _) fun _ _ hd => ?_
  refine bind (read _) fun _ _ hd' => ?_
  exact (write _ _).mono fun _ _ h => by omega

theorem subtract (e a b : ℕ) : Creates (HM.subtract GP e a b) fun _ d => d = 1 := by
  unfold HM.subtract
  refine bind (identity GP) fun _ _ hd => ?_
  refine bind (negate GP _ _) fun _ _ hd' => ?_
  exact (add GP _ _ _).mono fun _ _ h => by omega

theorem newScale (a : ℕ) (s : Int) : Creates (HM.newScale GP a s) fun _ d => d = 1 := by
  unfold HM.newScale
  refine bind (element GP) fun _ _ hd => ?_
  exact (scale GP _ _ _).mono fun _ _ h => by omega

theorem newBaseScale (s : Int) : Creates (HM.newBaseScale GP s) fun _ d => d = 1 := by
  unfold HM.newBaseScale
  refine bind (element GP) fun _ _ hd => ?_
  exact (baseScale GP _ _).mono fun _ _ h => by omega

theorem newAdd (a b : ℕ) : Creates (HM.newAdd GP a b) fun _ d => d = 1 := by
  unfold HM.newAdd
  refine bind (element GP) fun _ _ hd => ?_
  exact (add GP _ _ _).mono fun _ _ h => by omega

theorem newMap (s : Bytes) : Creates (HM.newMap GP s) fun _ d => d = 1 := by
  unfold HM.newMap
  refine bind (lift _) fun _ _ hd => ?_
  exact (alloc _).mono fun _ _ h => by omega

theorem vectorExpGo (a : List ℕ) : ∀ (b : List Int) (acc : ℕ), a.length = b.length →
    Creates (HM.vectorExpGo GP a b acc) fun _ d => d = 2 * a.length := by
  induction a with
  | nil => intro b acc _; cases b <;> exact pure rfl
  | cons x a ih =>
    intro b acc hl
    cases b with
    | nil => simp at hl
    | cons y b =>
      unfold HM.vectorExpGo
      refine bind (element GP) fun _ _ h1 => ?_
      refine bind (newScale GP _ _) fun _ _ h2 => ?_
      refine bind (add GP _ _ _) fun _ _ h3 => ?_
      exact (ih b _ (by simpa using hl)).mono fun _ _ h => by rw [List.length_cons]; omega

theorem vectorExp (a : List ℕ) (b : List Int) :
    Creates (HM.vectorExp GP a b) fun _ d => d = 1 + 2 * a.length ∧ a.length = b.length := by
  unfold HM.vectorExp
  split
  · exact panic
  · rename_i h
    refine bind (identity GP) fun _ _ h1 => ?_
    exact (vectorExpGo GP a b _ (by omega)).mono fun _ _ h => by omega

theorem mapScale (s : Int) (a : List ℕ) : Creates (HM.mapScale GP s a) fun r d => d = a.length ∧ r.length = a.length := by
  induction a with
  | nil => exact pure ⟨rfl, rfl⟩
  | cons x a ih =>
    unfold HM.mapScale
    refine bind (newScale GP _ _) fun _ _ h1 => ?_
    refine bind ih fun _ _ h2 => ?_
    exact pure (by simp only [List.length_cons]; omega)

theorem vectorScalarExp (a : List ℕ) (b : Option Int) :
    Creates (HM.vectorScalarExp GP a b) fun r d => d = a.length ∧ r.length = a.length := by
  unfold HM.vectorScalarExp
  split
  · exact pure ⟨rfl, rfl⟩
  · exact panic
  · exact mapScale GP _ _

theorem zipAdd (a : List ℕ) : ∀ b : List ℕ, a.length = b.length →
    Creates (HM.zipAdd GP a b) fun r d => d = a.length ∧ r.length = a.length := by
  induction a with
  | nil => intro b _; cases b <;> exact pure ⟨rfl, rfl⟩
  | cons x a ih =>
    intro b hl
    cases b with
    | nil => simp at hl
    | cons y b =>
      unfold HM.zipAdd
      refine bind (newAdd GP _ _) fun _ _ h1 => ?_
      refine bind (ih b (by simpa using hl)) fun _ _ h2 => ?_
      exact pure (by simp only [List.length_cons]; omega)

theorem vectorECAdd (a b : List ℕ) : Creates (HM.vectorECAdd GP a b) fun r d =>
    d = r.length ∧ r.length = if a.length = b.length then a.length else 0 := by
  unfold HM.vectorECAdd
  split
  · rename_i h
    exact pure ⟨rfl, by simp⟩
  · rename_i h
    exact (zipAdd GP a b (by omega)).mono fun r d h' => ⟨by omega, by rw [if_pos (by omega)]; exact h'.2⟩

theorem foldGens (g h : List ℕ) (x : Int) (np : ℕ) : Creates (HM.foldGens GP g h x np) fun r d =>
    np ≤ g.length ∧ np ≤ h.length ∧ d = g.length + r.1.length + (h.length + r.2.length) ∧
    r.1.length = (if g.length = 2 * np then np else 0) ∧ r.2.length = if h.length = 2 * np then np else 0 := by
  have sl : ∀ (l r : List ℕ), sliceTo l np = some r → np ≤ l.length ∧ r.length = np := by
    intro l r e
    unfold sliceTo at e
    split at e
    · obtain rfl := Option.some.inj e
      rename_i h
      exact ⟨by omega, by rw [List.length_take]; omega⟩
    · cases e
  have sf : ∀ (l r : List ℕ), sliceFrom l np = some r → np ≤ l.length ∧ r.length = l.length - np := by
    intro l r e
    unfold sliceFrom at e
    split at e
    · obtain rfl := Option.some.inj e
      rename_i h
      exact ⟨by omega, by rw [List.length_drop]⟩
    · cases e
  unfold HM.foldGens
  dsimp only
  refine bind (lift _) fun gl _ h1 => ?_
  refine bind (vectorScalarExp GP _ _) fun g1 _ h2 => ?_
  refine bind (lift _) fun gh _ h3 => ?_
  refine bind (vectorScalarExp GP _ _) fun g2 _ h4 => ?_
  refine bind (vectorECAdd GP _ _) fun g' _ h5 => ?_
  refine bind (lift _) fun hl _ h6 => ?_
  refine bind (vectorScalarExp GP _ _) fun h1' _ h7 => ?_
  refine bind (lift _) fun hh _ h8 => ?_
  refine bind (vectorScalarExp GP _ _) fun h2' _ h9 => ?_
  refine bind (vectorECAdd GP _ _) fun h' _ h10 => ?_
  refine pure ?_
  have a1 := sl _ _ h1.2
  have a2 := sf _ _ h3.2
  have a3 := sl _ _ h6.2
  have a4 := sf _ _ h8.2
  obtain ⟨e5, f5⟩ := h5
  obtain ⟨e10, f10⟩ := h10
  have u : (if g1.length = g2.length then g1.length else 0) = if g.length = 2 * np then np else 0 := by
    split <;> split <;> omega
  have v : (if h1'.length = h2'.length then h1'.length else 0) = if h.length = 2 * np then np else 0 := by
    split <;> split <;> omega
  rw [u] at f5
  rw [v] at f10
  exact ⟨a1.1, a3.1, by dsimp only; omega, f5, f10⟩

theorem hashBP (sha : Bytes → Bytes) (A S : ℕ) : Creates (HM.hashBP GP sha A S) fun _ d => d = 0 := by
  unfold HM.hashBP
  refine bind (read _) fun _ _ h1 => ?_
  refine bind (read _) fun _ _ h2 => ?_
  exact pure (by omega)

theorem hashIPLoop (g : List ℕ) : ∀ h : List ℕ, Creates (HM.hashIPLoop GP g h) fun _ d => d = 0 := by
  induction g with
  | nil => intro h; exact pure rfl
  | cons x g ih =>
    intro h
    cases h with
    | nil => exact panic
    | cons y h =>
      unfold HM.hashIPLoop
      refine bind (read _) fun _ _ h1 => ?_
      refine bind (read _) fun _ _ h2 => ?_
      refine bind (ih h) fun _ _ h3 => ?_
      exact pure (by omega)

theorem hashIP (sha : Bytes → Bytes) (g h : List ℕ) (P : ℕ) (c : Int) : Creates (HM.hashIP GP sha g h P c) fun _ d => d = 0 := by
  unfold HM.hashIP
  refine bind (hashIPLoop GP g h) fun _ _ h1 => ?_
  refine bind (read _) fun _ _ h2 => ?_
  exact pure (by omega)

/-- any inner-product proof -/
theorem ipVerifyLoop_le (sha : Bytes → Bytes) (L : List ℕ) : ∀ (R g h : List ℕ) (P np : ℕ),
    Creates (HM.ipVerifyLoop GP sha L R g h P np) fun _ d => d ≤ 3 * (g.length + h.length) + 2 * L.length := by
  induction L with
  | nil => intro R g h P np; exact pure (by omega)
  | cons x L ih =>
    intro R g h P np
    cases R with
    | nil => exact panic
    | cons y R =>
      unfold HM.ipVerifyLoop
      dsimp only
      refine bind (hashBP GP _ _ _) fun _ _ h1 => ?_
      refine bind (foldGens GP _ _ _ _) fun gh _ h2 => ?_
      refine bind (newScale GP _ _) fun _ _ h3 => ?_
      refine bind (add GP _ _ _) fun _ _ h4 => ?_
      refine bind (lift _) fun _ _ h5 => ?_
      refine bind (newScale GP _ _) fun _ _ h6 => ?_
      refine bind (add GP _ _ _) fun _ _ h7 => ?_
      refine (ih R gh.1 gh.2 _ _).mono fun _ _ h8 => ?_
      obtain ⟨_, _, hd, l1, l2⟩ := h2
      rw [List.length_cons]
      have c1 : 2 * gh.1.length ≤ g.length := by rw [l1]; split <;> omega
      have c2 : 2 * gh.2.length ≤ h.length := by rw [l2]; split <;> omega
      omega

/-- an inner-product proof of the proper shape -/
theorem ipVerifyLoop_eq (sha : Bytes → Bytes) (L : List ℕ) : ∀ (R g h : List ℕ) (P : ℕ),
    g.length = 2 ^ L.length → h.length = 2 ^ L.length →
    Creates (HM.ipVerifyLoop GP sha L R g h P (2 ^ L.length)) fun _ d => d + 6 = 6 * 2 ^ L.length + 2 * L.length := by
  induction L with
  | nil => intro R g h P _ _; exact pure (by simp)
  | cons x L ih =>
    intro R g h P hg hh
    cases R with
    | nil => exact panic
    | cons y R =>
      unfold HM.ipVerifyLoop
      dsimp only
      rw [List.length_cons, pow_succ] at hg hh
      rw [List.length_cons, pow_succ, Nat.mul_div_cancel _ (by norm_num)]
      refine bind (hashBP GP _ _ _) fun _ _ h1 => ?_
      refine bind (foldGens GP _ _ _ _) fun gh _ h2 => ?_
      refine bind (newScale GP _ _) fun _ _ h3 => ?_
      refine bind (add GP _ _ _) fun _ _ h4 => ?_
      refine bind (lift _) fun _ _ h5 => ?_
      refine bind (newScale GP _ _) fun _ _ h6 => ?_
      refine bind (add GP _ _ _) fun _ _ h7 => ?_
      obtain ⟨_, _, hd, l1, l2⟩ := h2
      rw [if_pos (by omega)] at l1 l2
      refine (ih R gh.1 gh.2 _ l1 l2).mono fun _ _ h8 => ?_
      omega

theorem computePP (P : ℕ) (c x : Int) (Uu : ℕ) : Creates (HM.computePP GP P c x Uu) fun _ d => d = 3 := by
  unfold HM.computePP
  refine bind (newScale GP _ _) fun _ _ h1 => ?_
  refine bind (newScale GP _ _) fun _ _ h2 => ?_
  refine bind (newAdd GP _ _) fun _ _ h3 => ?_
  exact pure (by omega)

theorem ipFinal (A B : Option Int) (g h : List ℕ) (P ux : ℕ) : Creates (HM.ipFinal GP A B g h P ux) fun _ d => d = 6 := by
  unfold HM.ipFinal
  dsimp only
  refine bind (lift _) fun _ _ h1 => ?_
  refine bind (lift _) fun _ _ h2 => ?_
  refine bind (lift _) fun _ _ h3 => ?_
  refine bind (newScale GP _ _) fun _ _ h4 => ?_
  refine bind (lift _) fun _ _ h5 => ?_
  refine bind (newScale GP _ _) fun _ _ h6 => ?_
  refine bind (newAdd GP _ _) fun _ _ h7 => ?_
  refine bind (element GP) fun _ _ h8 => ?_
  refine bind (newScale GP _ _) fun _ _ h9 => ?_
  refine bind (add GP _ _ _) fun _ _ h10 => ?_
  refine bind (element GP) fun _ _ h11 => ?_
  refine bind (negate GP _ _) fun _ _ h12 => ?_
  refine bind (add GP _ _ _) fun _ _ h13 => ?_
  refine bind (read _) fun _ _ h14 => ?_
  exact pure (by omega)

theorem ipVerify_le (sha : Bytes → Bytes) (p : IPProofH) : Creates (p.verify GP sha) fun _ d =>
    d ≤ 3 * (p.Gg.length + p.Hh.length) + 2 * p.L.length + 9 := by
  unfold IPProofH.verify
  refine bind (lift _) fun _ _ h1 => ?_
  refine bind (hashIP GP _ _ _ _ _) fun _ _ h2 => ?_
  refine bind (computePP GP _ _ _ _) fun _ _ h3 => ?_
  refine bind (ipVerifyLoop_le GP _ _ _ _ _ _ _) fun _ _ h4 => ?_
  exact (ipFinal GP _ _ _ _ _ _).mono fun _ _ h => by omega

theorem ipVerify_eq (sha : Bytes → Bytes) (p : IPProofH) (hg : p.Gg.length = 2 ^ p.L.length) (hh : p.Hh.length = 2 ^ p.L.length) :
    Creates (p.verify GP sha) fun _ d => d = 6 * 2 ^ p.L.length + 2 * p.L.length + 3 := by
  unfold IPProofH.verify
  refine bind (lift _) fun _ _ h1 => ?_
  refine bind (hashIP GP _ _ _ _ _) fun _ _ h2 => ?_
  refine bind (computePP GP _ _ _ _) fun _ _ h3 => ?_
  rw [hg]
  refine bind (ipVerifyLoop_eq GP _ _ _ _ _ _ hg hh) fun _ _ h4 => ?_
  exact (ipFinal GP _ _ _ _ _ _).mono fun _ _ h => by omega

theorem updateGeneratorsGo (yInv : Int) (n : ℕ) : ∀ (hs : List ℕ) (y : Int),
    Creates (HM.updateGeneratorsGo GP yInv hs y n) fun r d => d = n ∧ r.length = n := by
  induction n with
  | zero => intro hs y; unfold HM.updateGeneratorsGo; exact pure ⟨rfl, rfl⟩
  | succ n ih =>
    intro hs y
    cases hs with
    | nil => exact panic
    | cons x hs =>
      unfold HM.updateGeneratorsGo
      refine bind (newScale GP _ _) fun _ _ h1 => ?_
      refine bind (ih hs _) fun _ _ h2 => ?_
      exact pure (by rw [List.length_cons]; omega)

theorem updateGenerators (Hh : List ℕ) (y : Int) (N : ℕ) :
    Creates (HM.updateGenerators GP Hh y N) fun r d => d + 1 = N ∧ r.length = N := by
  unfold HM.updateGenerators
  split
  · exact panic
  · exact panic
  · exact pure ⟨rfl, rfl⟩
  · refine bind (lift _) fun _ _ h1 => ?_
    refine bind (updateGeneratorsGo GP _ _ _ _) fun _ _ h2 => ?_
    exact pure (by rw [List.length_cons]; omega)

theorem pedersenCommit (x r : Int) (h : ℕ) : Creates (HM.pedersenCommit GP x r h) fun _ d => d = 3 := by
  unfold HM.pedersenCommit
  refine bind (newBaseScale GP _) fun _ _ h1 => ?_
  refine bind (newScale GP _ _) fun _ _ h2 => ?_
  exact (newAdd GP _ _).mono fun _ _ h => by omega

theorem cond65 (p : BulletProofH) (x y z : Int) : Creates (HM.cond65 GP p x y z) fun _ d => d = 7 := by
  unfold HM.cond65
  dsimp only
  refine bind (lift _) fun _ _ h1 => ?_
  refine bind (lift _) fun _ _ h2 => ?_
  refine bind (pedersenCommit GP _ _ _) fun _ _ h3 => ?_
  refine bind (newScale GP _ _) fun _ _ h4 => ?_
  refine bind (lift _) fun _ _ h5 => ?_
  refine bind (newBaseScale GP _) fun _ _ h6 => ?_
  refine bind (add GP _ _ _) fun _ _ h7 => ?_
  refine bind (newScale GP _ _) fun _ _ h8 => ?_
  refine bind (newScale GP _ _) fun _ _ h9 => ?_
  refine bind (add GP _ _ _) fun _ _ h10 => ?_
  refine bind (add GP _ _ _) fun _ _ h11 => ?_
  refine bind (read _) fun _ _ h12 => ?_
  refine bind (read _) fun _ _ h13 => ?_
  exact pure (by omega)

theorem computeLP (p : BulletProofH) (hp : List ℕ) (x y z : Int) :
    Creates (HM.computeLP GP p hp x y z) fun _ d => d = 5 + 2 * p.N + 2 * hp.length := by
  unfold HM.computeLP
  dsimp only
  refine bind (newScale GP _ _) fun _ _ h1 => ?_
  refine bind (newAdd GP _ _) fun _ _ h2 => ?_
  refine bind (vectorExp GP _ _) fun _ _ h3 => ?_
  refine bind (newAdd GP _ _) fun _ _ h4 => ?_
  refine bind (vectorExp GP _ _) fun _ _ h5 => ?_
  refine (add GP _ _ _).mono fun _ _ h => ?_
  have : (vectorCopy (GP.N - z) p.N).length = p.N := by simp [vectorCopy]
  omega

theorem cond67 (p : BulletProofH) (lP : ℕ) : Creates (HM.cond67 GP p lP) fun _ d => d = 2 := by
  unfold HM.cond67
  refine bind (lift _) fun _ _ h1 => ?_
  refine bind (newScale GP _ _) fun _ _ h2 => ?_
  refine bind (add GP _ _ _) fun _ _ h3 => ?_
  refine bind (subtract GP _ _ _) fun _ _ h4 => ?_
  refine bind (read _) fun _ _ h5 => ?_
  exact pure (by omega)

theorem bpVerify (sha : Bytes → Bytes) (p : BulletProofH) {K : ℕ → Prop} (hK : Creates (p.ip.verify GP sha) fun _ d => K d) :
    Creates (p.verify GP sha) fun _ d => ∃ e, K e ∧ d = 5 * p.N + 13 + e := by
  unfold BulletProofH.verify
  refine bind (hashBP GP _ _ _) fun _ _ h1 => ?_
  refine bind (hashBP GP _ _ _) fun _ _ h2 => ?_
  refine bind (updateGenerators GP _ _ _) fun _ _ h3 => ?_
  refine bind (cond65 GP _ _ _ _) fun _ _ h4 => ?_
  refine bind (computeLP GP _ _ _ _ _) fun _ _ h5 => ?_
  refine bind (cond67 GP _ _) fun _ _ h6 => ?_
  refine bind hK fun _ e h7 => ?_
  exact pure ⟨e, h7, by omega⟩

theorem lift0 (o : Option α) : Creates (HM.lift o : HM E α) fun _ d => d = 0 := (lift o).mono fun _ _ h => h.1

theorem commitVectorGo (n : ℕ) : ∀ (aL aR : List Int) (g h : List ℕ) (R : ℕ),
    Creates (HM.commitVectorGo GP n aL aR g h R) fun _ d => d = 2 * n := by
  induction n with
  | zero => intro aL aR g h R; unfold HM.commitVectorGo; exact pure rfl
  | succ n ih =>
    intro aL aR g h R
    unfold HM.commitVectorGo
    split
    · rename_i heq; simp at heq
    · rename_i n' aL aLs aR aRs g gs h hs heq
      obtain rfl : n = n' := by simpa using heq
      refine bind (newScale GP _ _) fun _ _ h1 => ?_
      refine bind (newScale GP _ _) fun _ _ h2 => ?_
      refine bind (add GP _ _ _) fun _ _ h3 => ?_
      refine bind (add GP _ _ _) fun _ _ h4 => ?_
      exact (ih _ _ _ _ _).mono fun _ _ h => by omega
    · exact panic

theorem commitVector (aL aR : List Int) (al : Int) (H : ℕ) (g h : List ℕ) (n : ℕ) :
    Creates (HM.commitVector GP aL aR al H g h n) fun _ d => d = 1 + 2 * n := by
  unfold HM.commitVector
  refine bind (newScale GP _ _) fun _ _ h1 => ?_
  exact (commitVectorGo GP _ _ _ _ _ _).mono fun _ _ h => by omega

theorem commitVectorBigGo (n : ℕ) : ∀ (aL aR : List Int) (g h : List ℕ) (R : ℕ),
    Creates (HM.commitVectorBigGo GP n aL aR g h R) fun _ d => d = 2 * n := by
  induction n with
  | zero => intro aL aR g h R; unfold HM.commitVectorBigGo; exact pure rfl
  | succ n ih =>
    intro aL aR g h R
    unfold HM.commitVectorBigGo
    split
    · rename_i heq; simp at heq
    · rename_i n' aL aLs aR aRs g gs h hs heq
      obtain rfl : n = n' := by simpa using heq
      refine bind (newScale GP _ _) fun _ _ h1 => ?_
      refine bind (add GP _ _ _) fun _ _ h2 => ?_
      refine bind (newScale GP _ _) fun _ _ h3 => ?_
      refine bind (add GP _ _ _) fun _ _ h4 => ?_
      exact (ih _ _ _ _ _).mono fun _ _ h => by omega
    · exact panic

theorem commitVectorBig (aL aR : List Int) (al : Int) (H : ℕ) (g h : List ℕ) (n : ℕ) :
    Creates (HM.commitVectorBig GP aL aR al H g h n) fun _ d => d = 1 + 2 * n := by
  unfold HM.commitVectorBig
  refine bind (newScale GP _ _) fun _ _ h1 => ?_
  exact (commitVectorBigGo GP _ _ _ _ _ _).mono fun _ _ h => by omega

theorem commitInnerProduct (g h : List ℕ) (a b : List Int) : Creates (HM.commitInnerProduct GP g h a b) fun _ d =>
    d = 3 + 2 * g.length + 2 * h.length ∧ g.length = a.length ∧ h.length = b.length := by
  unfold HM.commitInnerProduct
  refine bind (vectorExp GP _ _) fun _ _ h1 => ?_
  refine bind (vectorExp GP _ _) fun _ _ h2 => ?_
  exact (newAdd GP _ _).mono fun _ _ h => by omega

theorem sliceTo_len {α : Type} {l r : List α} {n : ℕ} (e : sliceTo l n = some r) : n ≤ l.length ∧ r.length = n := by
  unfold sliceTo at e
  split at e
  · obtain rfl := Option.some.inj e
    rename_i h
    exact ⟨by omega, by rw [List.length_take]; omega⟩
  · cases e

theorem sliceFrom_len {α : Type} {l r : List α} {n : ℕ} (e : sliceFrom l n = some r) : n ≤ l.length ∧ r.length = l.length - n := by
  unfold sliceFrom at e
  split at e
  · obtain rfl := Option.some.inj e
    rename_i h
    exact ⟨by omega, by rw [List.length_drop]⟩
  · cases e

theorem vectorExp0 (g : List ℕ) (e : List Int) : Creates (HM.vectorExp GP g e) fun _ d => d = 1 + 2 * g.length :=
  (vectorExp GP g e).mono fun _ _ h => by omega

theorem computeBip (sha : Bytes → Bytes) (k : ℕ) : ∀ (a b : List Int) (g h : List ℕ) (u P : ℕ) (Ls Rs : List ℕ),
    g.length = 2 ^ k → h.length = 2 ^ k →
    Creates (HM.computeBipRecursive GP sha a b g h u P (2 ^ k) Ls Rs) fun r d =>
      d + 14 = 14 * 2 ^ k + 8 * k ∧ r.2.2.1.length = Ls.length + k ∧ r.2.2.2.length = Rs.length + k := by
  induction k with
  | zero =>
    intro a b g h u P Ls Rs _ _
    unfold HM.computeBipRecursive
    rw [if_pos (by norm_num)]
    refine bind (lift0 _) fun _ _ h1 => ?_
    subst h1
    refine bind (lift0 _) fun _ _ h2 => ?_
    subst h2
    exact pure (by simp only [pow_zero]; omega)
  | succ k ih =>
    intro a b g h u P Ls Rs hg hh
    have hp : 0 < 2 ^ k := by positivity
    unfold HM.computeBipRecursive
    rw [if_neg (by rw [pow_succ]; omega), if_neg (by rw [pow_succ]; omega)]
    dsimp only
    rw [pow_succ] at hg hh
    rw [pow_succ, Nat.mul_div_cancel _ (by norm_num)]
    refine bind (lift0 _) fun _ _ h1 => ?_
    subst h1
    refine bind (lift0 _) fun _ _ h2 => ?_
    subst h2
    refine bind (lift0 _) fun _ _ h3 => ?_
    subst h3
    refine bind (lift0 _) fun _ _ h4 => ?_
    subst h4
    refine bind (lift _) fun gLo _ h5 => ?_
    refine bind (lift _) fun gHi _ h6 => ?_
    refine bind (lift _) fun hLo _ h7 => ?_
    refine bind (lift _) fun hHi _ h8 => ?_
    have l5 := (sliceTo_len h5.2).2
    replace h5 := h5.1
    subst h5
    have l6 := (sliceFrom_len h6.2).2
    replace h6 := h6.1
    subst h6
    have l7 := (sliceTo_len h7.2).2
    replace h7 := h7.1
    subst h7
    have l8 := (sliceFrom_len h8.2).2
    replace h8 := h8.1
    subst h8
    refine bind (lift0 _) fun _ _ h9 => ?_
    subst h9
    refine bind (lift0 _) fun _ _ h10 => ?_
    subst h10
    refine bind (vectorExp0 GP _ _) fun _ _ h11 => ?_
    refine bind (vectorExp0 GP _ _) fun _ _ h12 => ?_
    refine bind (add GP _ _ _) fun _ _ h13 => ?_
    refine bind (newScale GP _ _) fun _ _ h14 => ?_
    refine bind (add GP _ _ _) fun _ _ h15 => ?_
    refine bind (vectorExp0 GP _ _) fun _ _ h16 => ?_
    refine bind (vectorExp0 GP _ _) fun _ _ h17 => ?_
    refine bind (add GP _ _ _) fun _ _ h18 => ?_
    refine bind (newScale GP _ _) fun _ _ h19 => ?_
    refine bind (add GP _ _ _) fun _ _ h20 => ?_
    refine bind (hashBP GP _ _ _) fun _ _ h21 => ?_
    refine bind (foldGens GP _ _ _ _) fun gh _ h22 => ?_
    refine bind (lift0 _) fun _ _ h23 => ?_
    subst h23
    refine bind (newScale GP _ _) fun _ _ h24 => ?_
    refine bind (add GP _ _ _) fun _ _ h25 => ?_
    refine bind (newScale GP _ _) fun _ _ h26 => ?_
    refine bind (add GP _ _ _) fun _ _ h27 => ?_
    refine bind (lift0 _) fun _ _ h28 => ?_
    subst h28
    obtain ⟨_, _, hd, e1, e2⟩ := h22
    rw [if_pos (by omega)] at e1 e2
    refine (ih _ _ gh.1 gh.2 _ _ _ _ e1 e2).mono fun r d h29 => ?_
    simp only [List.length_append, List.length_cons, List.length_nil] at h29
    clear ih
    generalize 2 ^ k = K at *
    subst h11 h12 h13 h14 h15 h16 h17 h18 h19 h20 h21 h24 h25 h26 h27 hd
    rw [l5, l6, l7, l8, e1, e2, hg, hh]
    refine ⟨?_, ?_, ?_⟩ <;> omega

/-- the shape of a range proof on parameters with `N = 2^k` -/
structure Shaped (params : BPParamsH) (k : ℕ) (p : BulletProofH) : Prop where
  N : p.N = params.N
  L : p.ip.L.length = k
  Gg : p.ip.Gg = params.Gg
  Hh : p.ip.Hh.length = params.N

theorem proveInnerProduct (sha : Bytes → Bytes) (a b : List Int) (P : ℕ) (c : Int) (Gg Hh : List ℕ) (Uu k : ℕ)
    (ha : a.length = 2 ^ k) (hg : Gg.length = 2 ^ k) (hh : Hh.length = 2 ^ k) :
    Creates (HM.proveInnerProduct GP sha a b P c Gg Hh Uu) fun r d => ∀ p, r = .ok p →
      d + 11 = 14 * 2 ^ k + 8 * k ∧ p.L.length = k ∧ p.Gg = Gg ∧ p.Hh = Hh := by
  unfold HM.proveInnerProduct
  split
  · exact pure fun p h => by cases h
  · rw [ha]
    refine bind (hashIP GP _ _ _ _ _) fun _ _ h1 => ?_
    refine bind (computePP GP _ _ _ _) fun _ _ h2 => ?_
    refine bind (computeBip GP _ _ _ _ _ _ _ _ _ _ hg hh) fun r _ h3 => ?_
    refine pure fun p h => ?_
    obtain rfl := Except.ok.inj h
    simp only [List.length_nil] at h3
    exact ⟨by omega, by dsimp only; omega, rfl, rfl⟩

theorem setupInnerProduct (N : Int) : Creates (HM.setupInnerProduct GP N) fun r d => ∀ U, r = .ok U → d = 1 := by
  unfold HM.setupInnerProduct
  split
  · exact pure fun p h => by cases h
  · refine bind (newMap GP _) fun _ _ h1 => ?_
    exact pure fun _ _ => by omega

theorem proveFrom (sha : Bytes → Bytes) (params : BPParamsH) (rnd : BPRand) (V : ℕ) (aL aR : List Int) (k : ℕ)
    (hN : params.N = 2 ^ k) (hg : params.Gg.length = 2 ^ k) :
    Creates (HM.proveFrom GP sha params rnd V aL aR) fun r d => ∀ p, r = .ok p →
      d = 23 * 2 ^ k + 8 * k ∧ Shaped params k p := by
  unfold HM.proveFrom
  dsimp only
  refine bind (commitVector GP _ _ _ _ _ _ _) fun _ _ h1 => ?_
  refine bind (commitVectorBig GP _ _ _ _ _ _ _) fun _ _ h2 => ?_
  refine bind (hashBP GP _ _ _) fun _ _ h3 => ?_
  refine bind (lift0 _) fun _ _ h4 => ?_
  subst h4
  refine bind (lift0 _) fun _ _ h5 => ?_
  subst h5
  refine bind (lift0 _) fun _ _ h6 => ?_
  subst h6
  refine bind (lift0 _) fun _ _ h7 => ?_
  subst h7
  refine bind (lift0 _) fun _ _ h8 => ?_
  subst h8
  refine bind (pedersenCommit GP _ _ _) fun _ _ h9 => ?_
  refine bind (pedersenCommit GP _ _ _) fun _ _ h10 => ?_
  refine bind (hashBP GP _ _ _) fun _ _ h11 => ?_
  refine bind (lift0 _) fun _ _ h12 => ?_
  subst h12
  refine bind (updateGenerators GP _ _ _) fun hp _ h13 => ?_
  refine bind (setupInnerProduct GP _) fun U _ h14 => ?_
  cases U with
  | error e => exact pure fun p h => by cases h
  | ok U =>
    have h14 := h14 U rfl
    dsimp only
    refine bind (commitInnerProduct GP _ _ _ _) fun _ _ h15 => ?_
    have l15 := h15.2.1.symm.trans hg
    have l13 := h13.2.trans hN
    replace h15 := h15.1
    refine bind (proveInnerProduct GP _ _ _ _ _ _ _ _ k l15 hg l13) fun ip _ h16 => ?_
    cases ip with
    | error e => exact panic
    | ok ip =>
      obtain ⟨h16, l1, l2, l3⟩ := h16 ip rfl
      refine pure fun p h => ?_
      obtain rfl := Except.ok.inj h
      have h13' := h13.1
      have l := h13.2
      clear h13 l15 l13
      subst h1 h2 h3 h9 h10 h11 h14 h15
      refine ⟨?_, ⟨rfl, l1, l2, by rw [l3]; exact l⟩⟩
      rw [l, hg, hN]
      rw [hN] at h13'
      clear hN hg l l1 l2 l3
      generalize 2 ^ k = K at *
      omega

theorem bpProve (sha : Bytes → Bytes) (params : BPParamsH) (rnd : BPRand) (secret : Int) (k : ℕ)
    (hN : params.N = 2 ^ k) (hg : params.Gg.length = 2 ^ k) :
    Creates (HM.bpProve GP sha params rnd secret) fun r d => ∀ p, r = .ok p →
      d = 23 * 2 ^ k + 8 * k + 3 ∧ Shaped params k p.1 := by
  unfold HM.bpProve
  dsimp only
  refine bind (pedersenCommit GP _ _ _) fun _ _ h1 => ?_
  refine bind (proveFrom GP _ _ _ _ _ _ k hN hg) fun r _ h2 => ?_
  cases r with
  | error e => exact pure fun p h => by cases h
  | ok r =>
    refine pure fun p h => ?_
    obtain rfl := Except.ok.inj h
    obtain ⟨h3, h4⟩ := h2 r rfl
    exact ⟨by omega, h4⟩

theorem bpVerify_le (sha : Bytes → Bytes) (p : BulletProofH) : Creates (p.verify GP sha) fun _ d =>
    d ≤ 5 * p.N + 3 * (p.ip.Gg.length + p.ip.Hh.length) + 2 * p.ip.L.length + 22 :=
  (bpVerify GP sha p (ipVerify_le GP sha p.ip)).mono fun _ _ ⟨_, h, h'⟩ => by omega

theorem bpVerify_eq (sha : Bytes → Bytes) (params : BPParamsH) (k : ℕ) (hN : params.N = 2 ^ k) (hg : params.Gg.length = 2 ^ k)
    (p : BulletProofH) (hp : Shaped params k p) : Creates (p.verify GP sha) fun _ d => d = 11 * 2 ^ k + 2 * k + 16 := by
  refine (bpVerify GP sha p (ipVerify_eq GP sha p.ip (by rw [hp.L, hp.Gg, hg]) (by rw [hp.L, hp.Hh, hN]))).mono ?_
  rintro _ _ ⟨e, h, h'⟩
  rw [hp.L] at h
  rw [hp.N, hN] at h'
  omega

theorem vpCommit (m r : Int) (gp : GroupParamsH E) : Creates (HM.vpCommit m r gp) fun _ d => d = 3 := by
  unfold HM.vpCommit
  refine bind (newBaseScale _ _) fun _ _ h1 => ?_
  refine bind (newScale _ _ _) fun _ _ h2 => ?_
  exact (newAdd _ _ _).mono fun _ _ h => by omega

theorem sigmaPedersenCheck (z s c : Int) (k x : ℕ) (gp : GroupParamsH E) :
    Creates (HM.sigmaPedersenCheck z s c k x gp) fun _ d => d = 5 := by
  unfold HM.sigmaPedersenCheck
  refine bind (vpCommit _ _ _) fun _ _ h1 => ?_
  refine bind (newScale _ _ _) fun _ _ h2 => ?_
  refine bind (newAdd _ _ _) fun _ _ h3 => ?_
  refine bind (read _) fun _ _ h4 => ?_
  refine bind (read _) fun _ _ h5 => ?_
  exact pure (by omega)

theorem encryptVote (pk : ℕ) (choice : UInt16) (r : Int) : Creates (HM.encryptVote GP pk choice r) fun _ d => d = 4 := by
  unfold HM.encryptVote
  split
  · exact panic
  · dsimp only
    refine bind (newBaseScale _ _) fun _ _ h1 => ?_
    refine bind (newScale _ _ _) fun _ _ h2 => ?_
    refine bind (newBaseScale _ _) fun _ _ h3 => ?_
    refine bind (newAdd _ _ _) fun _ _ h4 => ?_
    exact pure (by omega)

theorem shiftedCommitments (VL VU : ℕ) (lo hi : UInt16) : Creates (HM.shiftedCommitments GP VL VU lo hi) fun _ d => d = 5 := by
  unfold HM.shiftedCommitments
  refine bind (newBaseScale _ _) fun _ _ h1 => ?_
  refine bind (newAdd _ _ _) fun _ _ h2 => ?_
  refine bind (newBaseScale _ _) fun _ _ h3 => ?_
  refine bind (newScale _ _ _) fun _ _ h4 => ?_
  refine bind (newAdd _ _ _) fun _ _ h5 => ?_
  exact pure (by omega)

end Creates

namespace Creates2

theorem pure {a : α} {K : α → ℕ → ℕ → Prop} (h : K a 0 0) : Creates2 (Pure.pure a : HM2 E₁ E₂ α) K := by
  intro s b s' e
  obtain ⟨rfl, rfl⟩ : a = b ∧ s = s' := by
    have e : some (a, s) = some (b, s') := e
    simpa using e
  exact ⟨0, 0, rfl, rfl, h⟩

theorem bind {m : HM2 E₁ E₂ α} {f : α → HM2 E₁ E₂ β} {K : α → ℕ → ℕ → Prop} {K' : β → ℕ → ℕ → Prop} (hm : Creates2 m K)
    (hf : ∀ a d e, K a d e → Creates2 (f a) fun b d' e' => K' b (d + d') (e + e')) : Creates2 (m >>= f) K' := by
  intro s b s' e
  have e : (match m s with | none => none | some (a, h') => f a h') = some (b, s') := e
  cases h : m s with
  | none => rw [h] at e; cases e
  | some r =>
    obtain ⟨a, s1⟩ := r
    rw [h] at e
    obtain ⟨d, d', h1, h1', k⟩ := hm s a s1 h
    obtain ⟨c, c', h2, h2', k'⟩ := hf a d d' k s1 b s' e
    exact ⟨d + c, d' + c', by omega, by omega, k'⟩

theorem mono {m : HM2 E₁ E₂ α} {K K' : α → ℕ → ℕ → Prop} (hm : Creates2 m K) (h : ∀ a d e, K a d e → K' a d e) : Creates2 m K' := by
  intro s a s' e
  obtain ⟨d, d', h1, h1', k⟩ := hm s a s' e
  exact ⟨d, d', h1, h1', h a d d' k⟩

theorem lift (o : Option α) : Creates2 (HM2.lift o : HM2 E₁ E₂ α) fun a d e => d = 0 ∧ e = 0 ∧ o = some a := by
  intro s a s' e
  cases o with
  | none => cases e
  | some b =>
    have e : some (b, s) = some (a, s') := e
    simp only [Option.some.injEq, Prod.mk.injEq] at e
    obtain ⟨rfl, rfl⟩ := e
    exact ⟨0, 0, rfl, rfl, rfl, rfl, rfl⟩

theorem panic {K : α → ℕ → ℕ → Prop} : Creates2 (HM2.lift none : HM2 E₁ E₂ α) K := by
  intro s a s' e
  cases e

theorem on1 {m : HM E₁ α} {K : α → ℕ → Prop} (hm : Creates m K) :
    Creates2 (HM2.on1 m : HM2 E₁ E₂ α) fun a d e => K a d ∧ e = 0 := by
  intro s a s' e
  unfold HM2.on1 at e
  cases h : m s.1 with
  | none => rw [h] at e; cases e
  | some r =>
    rw [h] at e
    simp only [Option.some.injEq, Prod.mk.injEq] at e
    obtain ⟨rfl, rfl⟩ := e
    obtain ⟨d, h1, k⟩ := hm _ _ _ h
    exact ⟨d, 0, h1, rfl, k, rfl⟩

theorem on2 {m : HM E₂ α} {K : α → ℕ → Prop} (hm : Creates m K) :
    Creates2 (HM2.on2 m : HM2 E₁ E₂ α) fun a d e => K a e ∧ d = 0 := by
  intro s a s' e
  unfold HM2.on2 at e
  cases h : m s.2 with
  | none => rw [h] at e; cases e
  | some r =>
    rw [h] at e
    simp only [Option.some.injEq, Prod.mk.injEq] at e
    obtain ⟨rfl, rfl⟩ := e
    obtain ⟨d, h1, k⟩ := hm _ _ _ h
    exact ⟨0, d, rfl, h1, k, rfl⟩

theorem getFSChallenge (sha : Bytes → Bytes) (G₁ : Grp E₁) (G₂ : Grp E₂) (w Kp Kq1 Kq2 : ℕ) (b : UInt16) :
    Creates2 (HM2.getFSChallenge sha G₁ G₂ w Kp Kq1 Kq2 b) fun _ d e => d = 0 ∧ e = 0 := by
  unfold HM2.getFSChallenge
  refine bind (on1 (.read _)) fun _ _ _ h1 => ?_
  refine bind (on1 (.read _)) fun _ _ _ h2 => ?_
  refine bind (on2 (.read _)) fun _ _ _ h3 => ?_
  refine bind (on2 (.read _)) fun _ _ _ h4 => ?_
  exact (lift _).mono fun _ _ _ h => by omega

theorem sigmaAttempt (sha : Bytes → Bytes) (params : ProofParamsH E₁ E₂) (x rp rq1 rq2 : Int) (s : SigmaSample) :
    Creates2 (HM2.sigmaAttempt sha params x rp rq1 rq2 s) fun _ d e => d = 4 ∧ e = 6 := by
  unfold HM2.sigmaAttempt
  dsimp only
  refine bind (lift _) fun _ _ _ h1 => ?_
  refine bind (lift _) fun _ _ _ h2 => ?_
  refine bind (on1 (.newBaseScale _ _)) fun _ _ _ h3 => ?_
  refine bind (on1 (.vpCommit _ _ _)) fun _ _ _ h4 => ?_
  refine bind (on2 (.vpCommit _ _ _)) fun _ _ _ h5 => ?_
  refine bind (on2 (.vpCommit _ _ _)) fun _ _ _ h6 => ?_
  refine bind (getFSChallenge _ _ _ _ _ _ _ _) fun _ _ _ h7 => ?_
  split <;> exact pure (by omega)

theorem sigmaEqs (p : SigmaProofH E₁ E₂) (comm : VerCommitmentsH) (Z c : Int) :
    Creates2 (HM2.sigmaEqs p comm Z c) fun r d e => (d ≤ 8 ∧ e ≤ 10) ∧ (r = true → d = 8 ∧ e = 10) := by
  unfold HM2.sigmaEqs
  dsimp only
  refine bind (lift _) fun _ _ _ h1 => ?_
  refine bind (on1 (.newBaseScale _ _)) fun _ _ _ h2 => ?_
  refine bind (on1 (.newScale _ _ _)) fun _ _ _ h3 => ?_
  refine bind (on1 (.newAdd _ _ _)) fun _ _ _ h4 => ?_
  refine bind (on1 (.read _)) fun _ _ _ h5 => ?_
  refine bind (on1 (.read _)) fun _ _ _ h6 => ?_
  split
  · exact pure ⟨by omega, by simp⟩
  refine bind (on1 (.sigmaPedersenCheck _ _ _ _ _ _)) fun _ _ _ h7 => ?_
  split
  · exact pure ⟨by omega, by simp⟩
  refine bind (lift _) fun _ _ _ h8 => ?_
  refine bind (on2 (.sigmaPedersenCheck _ _ _ _ _ _)) fun _ _ _ h9 => ?_
  split
  · exact pure ⟨by omega, by simp⟩
  refine bind (lift _) fun _ _ _ h10 => ?_
  refine bind (on2 (.sigmaPedersenCheck _ _ _ _ _ _)) fun _ _ _ h11 => ?_
  split
  · exact pure ⟨by omega, by simp⟩
  · exact pure ⟨by omega, fun _ => by omega⟩

theorem sigmaVerify (sha : Bytes → Bytes) (p : SigmaProofH E₁ E₂) (comm : VerCommitmentsH) :
    Creates2 (HM2.sigmaVerify sha p comm) fun r d e => (d ≤ 8 ∧ e ≤ 10) ∧ (r = true → d = 8 ∧ e = 10) := by
  unfold HM2.sigmaVerify
  dsimp only
  refine bind (lift _) fun _ _ _ h1 => ?_
  split
  · exact pure ⟨by omega, by simp⟩
  refine bind (getFSChallenge _ _ _ _ _ _ _ _) fun _ _ _ h2 => ?_
  refine bind (lift _) fun _ _ _ h3 => ?_
  split
  · exact pure ⟨by omega, by simp⟩
  · refine (sigmaEqs _ _ _ _).mono fun r d e h => ?_
    exact ⟨by omega, fun hr => by have := h.2 hr; omega⟩

theorem verifyVote_le (sha : Bytes → Bytes) (b : BallotDataH E₁ E₂) (rp : ProofParamsH E₁ E₂) :
    Creates2 (HM2.verifyVote sha b rp) fun _ d e => d ≤ 8 ∧
      e ≤ (5 * b.BpLower.N + 3 * (b.BpLower.ip.Gg.length + b.BpLower.ip.Hh.length) + 2 * b.BpLower.ip.L.length + 22) +
        (5 * b.BpUpper.N + 3 * (b.BpUpper.ip.Gg.length + b.BpUpper.ip.Hh.length) + 2 * b.BpUpper.ip.L.length + 22) + 15 := by
  unfold HM2.verifyVote
  refine bind (on2 (Creates.bpVerify_le _ _ _)) fun _ _ _ h1 => ?_
  split
  · exact pure (by omega)
  refine bind (on2 (Creates.bpVerify_le _ _ _)) fun _ _ _ h2 => ?_
  split
  · exact pure (by omega)
  refine bind (on2 (Creates.shiftedCommitments _ _ _ _ _)) fun _ _ _ h3 => ?_
  refine bind (sigmaVerify _ _ _) fun _ _ _ h4 => ?_
  exact pure (by omega)

theorem verifyVote_eq (sha : Bytes → Bytes) (b : BallotDataH E₁ E₂) (rp : ProofParamsH E₁ E₂) (params : BPParamsH) (k : ℕ)
    (hN : params.N = 2 ^ k) (hg : params.Gg.length = 2 ^ k) (h1 : Creates.Shaped params k b.BpLower)
    (h2 : Creates.Shaped params k b.BpUpper) :
    Creates2 (HM2.verifyVote sha b rp) fun r d e => r.result = true → d = 8 ∧ e = 2 * (11 * 2 ^ k + 2 * k + 16) + 15 := by
  unfold HM2.verifyVote
  refine bind (on2 (Creates.bpVerify_eq _ _ params k hN hg _ h1)) fun _ _ _ h1 => ?_
  split
  · exact pure (by simp)
  refine bind (on2 (Creates.bpVerify_eq _ _ params k hN hg _ h2)) fun _ _ _ h2 => ?_
  split
  · exact pure (by simp)
  refine bind (on2 (Creates.shiftedCommitments _ _ _ _ _)) fun _ _ _ h3 => ?_
  refine bind (sigmaVerify _ _ _) fun _ _ _ h4 => ?_
  exact pure fun h => by have := h4.2 h; omega

theorem castHead (sha : Bytes → Bytes) (pp : PublicParamsH E₁ E₂) (rnd : CastRand) (k : ℕ)
    (hN : pp.BPParams.N = 2 ^ k) (hg : pp.BPParams.Gg.length = 2 ^ k) :
    Creates2 (HM2.castHead sha pp rnd) fun r d e => (d = 4 ∧ e = 2 * (23 * 2 ^ k + 8 * k + 3)) ∧
      Creates.Shaped pp.BPParams k r.1.2.2.2.1 ∧ Creates.Shaped pp.BPParams k r.1.2.2.2.2 := by
  unfold HM2.castHead
  split
  · exact panic
  dsimp only
  refine bind (on1 (Creates.encryptVote _ _ _ _)) fun _ _ _ h1 => ?_
  refine bind (on2 (Creates.bpProve _ _ _ _ _ k hN hg)) fun r1 _ _ h2 => ?_
  cases r1 with
  | error e => exact panic
  | ok r1 =>
    obtain ⟨h2, s1⟩ := h2.1 r1 rfl
    rename_i z
    obtain ⟨_, z⟩ := z
    dsimp only
    refine bind (on2 (Creates.bpProve _ _ _ _ _ k hN hg)) fun r2 _ _ h3 => ?_
    have z2 := h3.2
    cases r2 with
    | error e => exact panic
    | ok r2 =>
      obtain ⟨h3, s2⟩ := h3.1 r2 rfl
      dsimp only
      refine bind (lift _) fun _ _ _ h4 => ?_
      exact pure ⟨by omega, s1, s2⟩

end Creates2

theorem sigmaProveH_creates {E₁ E₂ : Type} (sha : Bytes → Bytes) (params : ProofParamsH E₁ E₂) (x rp rq1 rq2 : Int)
    (tape : List SigmaSample) : ∀ (h : HS E₁ × HS E₂) p h', sigmaProveH sha params x rp rq1 rq2 tape h = .done (p, h') →
      h'.1.next = h.1.next + 4 * (sigmaAbortsH sha params x rp rq1 rq2 tape h + 1) ∧
      h'.2.next = h.2.next + 6 * (sigmaAbortsH sha params x rp rq1 rq2 tape h + 1) := by
  induction tape with
  | nil => intro h p h' e; cases e
  | cons s tape ih =>
    intro h p h' e
    unfold sigmaProveH at e
    unfold sigmaAbortsH
    have hc := Creates2.sigmaAttempt sha params x rp rq1 rq2 s h
    generalize HM2.sigmaAttempt sha params x rp rq1 rq2 s h = o at *
    match o, e with
    | some (none, h1), e =>
      dsimp only at e ⊢
      obtain ⟨d, d', e1, e2, k1, k2⟩ := hc _ _ rfl
      obtain ⟨e3, e4⟩ := ih _ _ _ e
      omega
    | some (some q, h1), e =>
      dsimp only at e ⊢
      obtain ⟨d, d', e1, e2, k1, k2⟩ := hc _ _ rfl
      obtain ⟨rfl, rfl⟩ : q = p ∧ h1 = h' := by simpa using e
      omega

theorem castVoteH_creates {E₁ E₂ : Type} (sha : Bytes → Bytes) (pp : PublicParamsH E₁ E₂) (rnd : CastRand) (k : ℕ)
    (hN : pp.BPParams.N = 2 ^ k) (hg : pp.BPParams.Gg.length = 2 ^ k) (h : HS E₁ × HS E₂) b h'
    (e : castVoteH sha pp rnd h = .done (b, h')) :
    h'.1.next = h.1.next + 4 + 4 * (castAbortsH sha pp rnd h + 1) ∧
    h'.2.next = h.2.next + 2 * (23 * 2 ^ k + 8 * k + 3) + 6 * (castAbortsH sha pp rnd h + 1) ∧
    Creates.Shaped pp.BPParams k b.BpLower ∧ Creates.Shaped pp.BPParams k b.BpUpper := by
  unfold castVoteH at e
  unfold castAbortsH
  have hc := Creates2.castHead sha pp rnd k hN hg h
  generalize HM2.castHead sha pp rnd h = o at *
  match o, e with
  | some (((choice, U, V, bp1, bp2), rp, rq1, rq2inv), h1), e =>
    dsimp only at e ⊢
    obtain ⟨d, d', e1, e2, ⟨k1, k2⟩, s1, s2⟩ := hc _ _ rfl
    have hs := sigmaProveH_creates sha pp.RPParams (choice.toNat : Int) rp rq1 rq2inv rnd.tape h1
    generalize sigmaProveH sha pp.RPParams (choice.toNat : Int) rp rq1 rq2inv rnd.tape h1 = o at *
    match o, e with
    | .done (p, h2), e =>
      dsimp only at e
      obtain ⟨rfl, rfl⟩ : _ = b ∧ h2 = h' := by simpa using e
      obtain ⟨e3, e4⟩ := hs p h2 rfl
      exact ⟨by omega, by omega, s1, s2⟩

theorem benchLoopH_false {E₁ E₂ : Type} (sha : Bytes → Bytes) (pp : PublicParamsH E₁ E₂) (rnds : List CastRand) :
    ∀ (h h' : HS E₁ × HS E₂), benchLoopH sha pp rnds false h ≠ .done (true, h') := by
  induction rnds with
  | nil => intro h h' e; simp [benchLoopH] at e
  | cons rnd rnds ih =>
    intro h h' e
    unfold benchLoopH at e
    split at e
    · cases e
    · cases e
    · split at e
      · cases e
      · split at e
        · exact ih _ _ e
        · cases e

theorem benchLoopH_creates {E₁ E₂ : Type} (sha : Bytes → Bytes) (pp : PublicParamsH E₁ E₂) (k : ℕ)
    (hN : pp.BPParams.N = 2 ^ k) (hg : pp.BPParams.Gg.length = 2 ^ k) (rnds : List CastRand) :
    ∀ (b : Bool) (h h' : HS E₁ × HS E₂), benchLoopH sha pp rnds b h = .done (true, h') →
      h'.1.next = h.1.next + 16 * rnds.length + 4 * benchAbortsH sha pp rnds h ∧
      h'.2.next = h.2.next + (68 * 2 ^ k + 20 * k + 59) * rnds.length + 6 * benchAbortsH sha pp rnds h := by
  induction rnds with
  | nil =>
    intro b h h' e
    obtain ⟨rfl, rfl⟩ : b = true ∧ h = h' := by simpa [benchLoopH] using e
    simp [benchAbortsH]
  | cons rnd rnds ih =>
    intro b h h' e
    unfold benchLoopH at e
    unfold benchAbortsH
    have hc := castVoteH_creates sha pp rnd k hN hg h
    generalize castAbortsH sha pp rnd h = A at *
    generalize castVoteH sha pp rnd h = o at *
    match o, e with
    | .done (vote, h1), e =>
      dsimp only at e ⊢
      obtain ⟨c1, c2, s1, s2⟩ := hc vote h1 rfl
      have hv := Creates2.verifyVote_eq sha vote pp.RPParams pp.BPParams k hN hg s1 s2 h1
      generalize HM2.verifyVote sha vote pp.RPParams h1 = o at *
      match o, e with
      | some (out, h2), e =>
        dsimp only at e ⊢
        obtain ⟨d, d', e1, e2, hk⟩ := hv out h2 rfl
        split at e
        · rename_i t0 t1
          have hr : out.result = true := by
            by_contra hr
            rw [show out.result = false by simpa using hr, Bool.and_false] at e
            exact benchLoopH_false sha pp rnds _ _ e
          obtain ⟨k1, k2⟩ := hk hr
          obtain ⟨e3, e4⟩ := ih _ _ _ e
          rw [t0, t1]
          dsimp only
          rw [List.length_cons, Nat.mul_add (68 * 2 ^ k + 20 * k + 59)]
          generalize (68 * 2 ^ k + 20 * k + 59) * rnds.length = W at *
          omega
        · cases e

namespace Creates
variable {E : Type}

theorem seedLoop (SP : Grp E) (is : List ℕ) : Creates (HM.seedLoop SP is) fun r d => d = 2 * is.length ∧ r.1.length = is.length := by
  induction is with
  | nil => unfold HM.seedLoop; exact pure ⟨rfl, rfl⟩
  | cons i is ih =>
    unfold HM.seedLoop
    refine bind (newMap _ _) fun _ _ h1 => ?_
    refine bind (newMap _ _) fun _ _ h2 => ?_
    refine bind ih fun r _ h3 => ?_
    exact pure ⟨by rw [List.length_cons]; omega, by simp [h3.2]⟩

theorem log2_range (nan64 : BitVec 64) : log2Int64 nan64 65536 = 16 := by
  unfold log2Int64
  rw [if_pos (by decide)]
  decide +kernel

theorem bpSetup (nan64 : BitVec 64) (SP : Grp E) : Creates (HM.bpSetup nan64 65536 SP) fun r d => ∀ p, r = .ok p →
    d = 34 ∧ p.N = 16 ∧ p.Gg.length = 16 := by
  unfold HM.bpSetup
  rw [if_neg (by decide)]
  dsimp only
  rw [log2_range]
  refine bind (newBaseScale _ _) fun _ _ h1 => ?_
  refine bind (newMap _ _) fun _ _ h2 => ?_
  rw [if_neg (by decide), if_neg (by decide), if_neg (by decide)]
  refine bind (seedLoop _ _) fun r _ h3 => ?_
  have hl : (List.range (16 : BitVec 64).toNat).length = 16 := by decide
  rw [hl] at h3
  refine pure fun p h => ?_
  obtain rfl := Except.ok.inj h
  exact ⟨by omega, rfl, h3.2⟩

end Creates

theorem Creates2.setup {E : Type} (nan64 : BitVec 64) (C : Grp E) : Creates2 (HM2.setup nan64 C) fun r d e => ∀ pp, r = .ok pp →
    (d = 2 ∧ e = 35) ∧ pp.BPParams.N = 16 ∧ pp.BPParams.Gg.length = 16 := by
  unfold HM2.setup
  generalize newModPGroup "RFC3526ModPGroup3072" rfc3526Hex "2" = o
  refine bind (lift _) fun _ _ _ h1 => ?_
  refine bind (on2 (Creates.bpSetup _ _)) fun bp _ _ h2 => ?_
  cases bp with
  | error e => exact pure fun pp h => by cases h
  | ok bp =>
    have z := h2.2
    obtain ⟨h2, s1, s2⟩ := h2.1 bp rfl
    dsimp only
    refine bind (on1 (Creates.alloc _)) fun _ _ _ h3 => ?_
    refine bind (on1 (Creates.newBaseScale _ _)) fun _ _ _ h4 => ?_
    refine bind (on2 (Creates.alloc _)) fun _ _ _ h5 => ?_
    split
    · exact pure fun pp h => by cases h
    · refine pure fun pp h => ?_
      obtain rfl := Except.ok.inj h
      exact ⟨by omega, s1, s2⟩

end MscPoc
