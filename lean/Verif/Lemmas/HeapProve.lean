import Verif.Model.HeapProve
import Verif.Lemmas.HeapBp

/-!
# Refinement between the heap model and the pure model: proving
-/

set_option autoImplicit false

namespace MscPoc

variable {E : Type}

namespace Spec
variable {α β γ δ : Type} {W : ℕ → Prop} {h : HS E}

theorem bind_panic {m : HM E α} {f : α → HM E γ} (hm : m h = none) : (m >>= f) h = none := by
  show (match m h with | none => none | some (a, h') => f a h') = none
  rw [hm]

/-- what follows may overwrite the cell `e` returned by the first step -/
theorem bindNew {m : HM E ℕ} {o : Option β} {R : HS E → ℕ → β → Prop} {f : ℕ → HM E γ} {g : β → Option δ}
    {S : HS E → γ → δ → Prop} (hm : Spec noW h m o R)
    (hf : ∀ e b h', Fr noW h h' → R h' e b → h.next ≤ e ∧ Spec (One e) h' (f e) (g b) S) : Spec W h (m >>= f) (o >>= g) S := by
  cases o with
  | none =>
    have hm : m h = none := hm
    exact bind_panic hm
  | some b => exact stepNew (o := g b) hm (fun e h' fr r => hf e b h' fr r)

variable (GP : Grp E)

theorem newMap (s : Bytes) :
    Spec noW h (HM.newMap GP s) (GP.mapToGroup s) (fun h' p v => h.next ≤ p ∧ Pt h' p v) := by
  unfold HM.newMap
  cases hv : GP.mapToGroup s with
  | none => rfl
  | some v =>
    refine step (b := v) (lift (o := some v)) ?_
    rintro _ h1 _ ⟨rfl, rfl⟩
    refine (alloc _).conseq ?_
    rintro h2 p v _ ⟨rfl, hp⟩
    exact ⟨le_rfl, hp⟩

/-- the loop overwrites the accumulator only -/
theorem commitVectorGo : ∀ (n : ℕ) (aL aR : List Int) (g hh : List ℕ) (gv hv : List E) (R : ℕ) (r : E) (h : HS E),
    Pts h g gv → Pts h hh hv → Pt h R r → (∀ i ∈ g, i ≠ R) → (∀ i ∈ hh, i ≠ R) →
    Spec (One R) h (HM.commitVectorGo GP n aL aR g hh R) (MscPoc.commitVectorGo GP n aL aR gv hv r)
      (fun h' p v => p = R ∧ Pt h' p v) := by
  intro n
  induction n with
  | zero =>
    intro aL aR g hh gv hv R r h _ _ hR _ _
    unfold HM.commitVectorGo MscPoc.commitVectorGo
    exact pure ⟨rfl, hR⟩
  | succ n ih =>
    intro aL aR g hh gv hv R r h hg hh' hR ng nh
    cases aL with
    | nil => exact panic
    | cons a as =>
      cases aR with
      | nil => exact panic
      | cons b bs =>
        cases hg with
        | nil => exact panic
        | cons pg hg =>
          cases hh' with
          | nil => exact panic
          | cons ph hh' =>
            unfold HM.commitVectorGo MscPoc.commitVectorGo
            refine step (newScale GP pg) ?_
            rintro ga h1 f1 ⟨nga, pga⟩
            refine step (newScale GP (ph.mono f1 noW.not)) ?_
            rintro ha h2 f2 ⟨nha, pha⟩
            have f12 := f1.trans f2 (fun _ _ h => h)
            have hR2 := hR.mono f12 noW.not
            refine stepOne (add GP hR2.1 (One.self _) hR2 (pga.mono f2 noW.not)) ?_
            rintro _ h3 f3 ⟨rfl, hR3⟩
            refine stepOne (add GP hR3.1 (One.self _) hR3
              (pha.mono f3 (lt_of_lt_of_le hR.1 (f1.1.trans nha)).ne')) ?_
            rintro _ h4 f4 ⟨rfl, hR4⟩
            have n1 : ∀ i ∈ _, i ≠ _ := fun i hi => ng i (List.mem_cons_of_mem _ hi)
            have n2 : ∀ i ∈ _, i ≠ _ := fun i hi => nh i (List.mem_cons_of_mem _ hi)
            exact ih _ _ _ _ _ _ _ _ h4
              (((Pts.mono hg f12 (fun _ _ => noW.not)).mono f3 n1).mono f4 n1)
              (((Pts.mono hh' f12 (fun _ _ => noW.not)).mono f3 n2).mono f4 n2) hR4 n1 n2

theorem commitVector {aL aR : List Int} {alpha : Int} {H : ℕ} {g hh : List ℕ} {Hv : E} {gv hv : List E} (n : ℕ)
    (hH : Pt h H Hv) (hg : Pts h g gv) (hh' : Pts h hh hv) :
    Spec noW h (HM.commitVector GP aL aR alpha H g hh n) (MscPoc.commitVector GP aL aR alpha Hv gv hv n)
      (fun h' p v => h.next ≤ p ∧ Pt h' p v) := by
  unfold HM.commitVector MscPoc.commitVector
  refine stepNew (newScale GP hH) ?_
  rintro R h1 f1 ⟨nR, pR⟩
  refine ⟨nR, (commitVectorGo GP n aL aR g hh gv hv R _ h1 (hg.mono f1 (fun _ _ => noW.not))
    (hh'.mono f1 (fun _ _ => noW.not)) pR (fun i hi => (lt_of_lt_of_le (hg.lt i hi) nR).ne)
    (fun i hi => (lt_of_lt_of_le (hh'.lt i hi) nR).ne)).conseq ?_⟩
  rintro h2 _ v _ ⟨rfl, pR2⟩
  exact ⟨nR, pR2⟩

theorem commitVectorBigGo : ∀ (n : ℕ) (aL aR : List Int) (g hh : List ℕ) (gv hv : List E) (R : ℕ) (r : E) (h : HS E),
    Pts h g gv → Pts h hh hv → Pt h R r → (∀ i ∈ g, i ≠ R) → (∀ i ∈ hh, i ≠ R) →
    Spec (One R) h (HM.commitVectorBigGo GP n aL aR g hh R) (MscPoc.commitVectorGo GP n aL aR gv hv r)
      (fun h' p v => p = R ∧ Pt h' p v) := by
  intro n
  induction n with
  | zero =>
    intro aL aR g hh gv hv R r h _ _ hR _ _
    unfold HM.commitVectorBigGo MscPoc.commitVectorGo
    exact pure ⟨rfl, hR⟩
  | succ n ih =>
    intro aL aR g hh gv hv R r h hg hh' hR ng nh
    cases aL with
    | nil => exact panic
    | cons a as =>
      cases aR with
      | nil => exact panic
      | cons b bs =>
        cases hg with
        | nil => exact panic
        | cons pg hg =>
          cases hh' with
          | nil => exact panic
          | cons ph hh' =>
            unfold HM.commitVectorBigGo MscPoc.commitVectorGo
            refine step (newScale GP pg) ?_
            rintro ga h1 f1 ⟨nga, pga⟩
            have hR1 := hR.mono f1 noW.not
            refine stepOne (add GP hR1.1 (One.self _) hR1 pga) ?_
            rintro _ h2 f2 ⟨rfl, hR2⟩
            refine step (newScale GP ((ph.mono f1 noW.not).mono f2 (nh _ (by simp)))) ?_
            rintro ha h3 f3 ⟨nha, pha⟩
            have hR3 := hR2.mono f3 noW.not
            refine stepOne (add GP hR3.1 (One.self _) hR3 pha) ?_
            rintro _ h4 f4 ⟨rfl, hR4⟩
            have n1 : ∀ i ∈ _, i ≠ _ := fun i hi => ng i (List.mem_cons_of_mem _ hi)
            have n2 : ∀ i ∈ _, i ≠ _ := fun i hi => nh i (List.mem_cons_of_mem _ hi)
            exact ih _ _ _ _ _ _ _ _ h4
              ((((Pts.mono hg f1 (fun _ _ => noW.not)).mono f2 n1).mono f3 (fun _ _ => noW.not)).mono f4 n1)
              ((((Pts.mono hh' f1 (fun _ _ => noW.not)).mono f2 n2).mono f3 (fun _ _ => noW.not)).mono f4 n2) hR4 n1 n2

theorem commitVectorBig {aL aR : List Int} {alpha : Int} {H : ℕ} {g hh : List ℕ} {Hv : E} {gv hv : List E} (n : ℕ)
    (hH : Pt h H Hv) (hg : Pts h g gv) (hh' : Pts h hh hv) :
    Spec noW h (HM.commitVectorBig GP aL aR alpha H g hh n) (MscPoc.commitVector GP aL aR alpha Hv gv hv n)
      (fun h' p v => h.next ≤ p ∧ Pt h' p v) := by
  unfold HM.commitVectorBig MscPoc.commitVector
  refine stepNew (newScale GP hH) ?_
  rintro R h1 f1 ⟨nR, pR⟩
  refine ⟨nR, (commitVectorBigGo GP n aL aR g hh gv hv R _ h1 (hg.mono f1 (fun _ _ => noW.not))
    (hh'.mono f1 (fun _ _ => noW.not)) pR (fun i hi => (lt_of_lt_of_le (hg.lt i hi) nR).ne)
    (fun i hi => (lt_of_lt_of_le (hh'.lt i hi) nR).ne)).conseq ?_⟩
  rintro h2 _ v _ ⟨rfl, pR2⟩
  exact ⟨nR, pR2⟩

theorem commitInnerProduct {g hh : List ℕ} {a b : List Int} {gv hv : List E} (hg : Pts h g gv) (hh' : Pts h hh hv) :
    Spec noW h (HM.commitInnerProduct GP g hh a b) (MscPoc.commitInnerProduct GP gv hv a b)
      (fun h' p v => h.next ≤ p ∧ Pt h' p v) := by
  unfold HM.commitInnerProduct MscPoc.commitInnerProduct
  refine bind (vectorExp GP hg) ?_
  rintro ga gav h1 f1 ⟨_, pga⟩
  refine bind (vectorExp GP (hh'.mono f1 (fun _ _ => noW.not))) ?_
  rintro hb hbv h2 f2 ⟨_, phb⟩
  refine (newAdd GP (pga.mono f2 noW.not) phb).conseq ?_
  rintro h3 p v _ ⟨hp, pp⟩
  exact ⟨(f1.1.trans f2.1).trans hp, pp⟩

/-- the recursion writes to new cells only; the elements it adds to `Ls`, `Rs` are new -/
theorem computeBipRecursive (sha : Bytes → Bytes) (n0 : ℕ) : ∀ (n : ℕ) (a b : List Int) (g hh : List ℕ) (gv hv : List E)
    (u P : ℕ) (uv p : E) (Ls Rs : List ℕ) (Lv Rv : List E) (h : HS E), n0 ≤ h.next → Pts h g gv → Pts h hh hv → Pt h u uv →
    Pt h P p → Pts h Ls Lv → Pts h Rs Rv → (∀ i ∈ Ls, n0 ≤ i) → (∀ i ∈ Rs, n0 ≤ i) →
    Spec noW h (HM.computeBipRecursive GP sha a b g hh u P n Ls Rs)
      (MscPoc.computeBipRecursive sha GP a b gv hv uv p n Lv Rv)
      (fun h' r v => r.1 = v.1 ∧ r.2.1 = v.2.1 ∧ Pts h' r.2.2.1 v.2.2.1 ∧ Pts h' r.2.2.2 v.2.2.2 ∧
        (∀ i ∈ r.2.2.1, n0 ≤ i) ∧ ∀ i ∈ r.2.2.2, n0 ≤ i) := by
  intro n
  induction n using Nat.strong_induction_on with
  | _ n ih =>
    intro a b g hh gv hv u P uv p Ls Rs Lv Rv h hn hg hh' hu hP hL hR nL nR
    rw [HM.computeBipRecursive, MscPoc.computeBipRecursive]
    by_cases h1 : n = 1
    · rw [if_pos h1, if_pos h1]
      refine bind lift ?_
      rintro a0 _ h _ ⟨rfl, rfl⟩
      refine bind lift ?_
      rintro b0 _ h _ ⟨rfl, rfl⟩
      exact pure ⟨rfl, rfl, hL, hR, nL, nR⟩
    · rw [if_neg h1, if_neg h1]
      by_cases h0 : n = 0
      · rw [if_pos h0, if_pos h0]; exact panic
      · rw [if_neg h0, if_neg h0]
        dsimp only
        refine bind lift ?_
        rintro aLo _ h _ ⟨rfl, rfl⟩
        refine bind lift ?_
        rintro aHi _ h _ ⟨rfl, rfl⟩
        refine bind lift ?_
        rintro bLo _ h _ ⟨rfl, rfl⟩
        refine bind lift ?_
        rintro bHi _ h _ ⟨rfl, rfl⟩
        refine bind (sliceTo _ hg) ?_
        rintro gLo gLov h _ ⟨rfl, pgLo, _⟩
        refine bind (sliceFrom _ hg) ?_
        rintro gHi gHiv h _ ⟨rfl, pgHi, _⟩
        refine bind (sliceTo _ hh') ?_
        rintro hLo hLov h _ ⟨rfl, phLo, _⟩
        refine bind (sliceFrom _ hh') ?_
        rintro hHi hHiv h _ ⟨rfl, phHi, _⟩
        refine bind lift ?_
        rintro cL _ h _ ⟨rfl, rfl⟩
        refine bind lift ?_
        rintro cR _ h _ ⟨rfl, rfl⟩
        -- L
        refine bindNew (vectorExp GP pgHi) ?_
        rintro L L0v h1 f1 ⟨nL1, pL1⟩
        refine ⟨nL1, ?_⟩
        refine bind (vectorExp GP (phLo.mono f1 (fun _ _ => noW.not))) ?_
        rintro Lh Lhv h2 f2 ⟨nLh, pLh⟩
        have pL2 := pL1.mono f2 noW.not
        refine stepOne (add GP pL2.1 (One.self _) pL2 pLh) ?_
        rintro _ h3 f3 ⟨rfl, pL3⟩
        have k03 : ∀ {q : ℕ} {v : E}, Pt h q v → Pt h3 q v := fun a =>
          ((a.mono f1 noW.not).mono f2 noW.not).mono f3 (lt_of_lt_of_le a.1 nL1).ne
        refine step (newScale GP (k03 hu)) ?_
        rintro t h4 f4 ⟨nt, pt⟩
        have pL4 := pL3.mono f4 noW.not
        refine stepOne (add GP pL4.1 (One.self _) pL4 pt) ?_
        rintro _ h5 f5 ⟨rfl, pL5⟩
        have k05 : ∀ {q : ℕ} {v : E}, Pt h q v → Pt h5 q v := fun a =>
          ((k03 a).mono f4 noW.not).mono f5 (lt_of_lt_of_le a.1 nL1).ne
        have ks05 : ∀ {q : List ℕ} {v : List E}, Pts h q v → Pts h5 q v := fun a => List.Forall₂.imp (fun _ _ => k05) a
        -- R
        refine bindNew (vectorExp GP (ks05 pgLo)) ?_
        rintro R R0v h6 f6 ⟨nR6, pR6⟩
        refine ⟨nR6, ?_⟩
        refine bind (vectorExp GP ((ks05 phHi).mono f6 (fun _ _ => noW.not))) ?_
        rintro Rh Rhv h7 f7 ⟨nRh, pRh⟩
        have pR7 := pR6.mono f7 noW.not
        refine stepOne (add GP pR7.1 (One.self _) pR7 pRh) ?_
        rintro _ h8 f8 ⟨rfl, pR8⟩
        have k58 : ∀ {q : ℕ} {v : E}, Pt h5 q v → Pt h8 q v := fun a =>
          ((a.mono f6 noW.not).mono f7 noW.not).mono f8 (lt_of_lt_of_le a.1 nR6).ne
        refine step (newScale GP (k58 (k05 hu))) ?_
        rintro t2 h9 f9 ⟨nt2, pt2⟩
        have pR9 := pR8.mono f9 noW.not
        refine stepOne (add GP pR9.1 (One.self _) pR9 pt2) ?_
        rintro _ h10 f10 ⟨rfl, pR10⟩
        have k510 : ∀ {q : ℕ} {v : E}, Pt h5 q v → Pt h10 q v := fun a =>
          ((k58 a).mono f9 noW.not).mono f10 (lt_of_lt_of_le a.1 nR6).ne
        have ks010 : ∀ {q : List ℕ} {v : List E}, Pts h q v → Pts h10 q v := fun a =>
          List.Forall₂.imp (fun _ _ a => k510 (k05 a)) a
        have pL10 := k510 pL5
        refine step (hashBP GP sha pL10 pR10) ?_
        rintro xs h10 _ ⟨rfl, rfl⟩
        refine bind (foldGens GP _ _ (ks010 hg) (ks010 hh')) ?_
        rintro gh ghv h11 f11 ⟨⟨pg11, _⟩, ph11, _⟩
        obtain ⟨gpv, hpv⟩ := ghv
        dsimp only at pg11 ph11 ⊢
        refine bind lift ?_
        rintro x2inv _ h11 _ ⟨rfl, rfl⟩
        -- P'
        refine stepNew (newScale GP (pL10.mono f11 noW.not)) ?_
        rintro P' h12 f12 ⟨nP', pP'⟩
        refine ⟨nP', ?_⟩
        have k1012 : ∀ {q : ℕ} {v : E}, Pt h10 q v → Pt h12 q v := fun a => (a.mono f11 noW.not).mono f12 noW.not
        refine stepOne (add GP pP'.1 (One.self _) pP' (k1012 (k510 (k05 hP)))) ?_
        rintro _ h13 f13 ⟨rfl, pP13⟩
        have neq : ∀ {q : ℕ} {v : E}, Pt h11 q v → q ≠ _ := fun a => (lt_of_lt_of_le a.1 nP').ne
        refine step (newScale GP ((k1012 pR10).mono f13 (neq (pR10.mono f11 noW.not)))) ?_
        rintro t3 h14 f14 ⟨nt3, pt3⟩
        have pP14 := pP13.mono f14 noW.not
        refine stepOne (add GP pP14.1 (One.self _) pP14 pt3) ?_
        rintro _ h15 f15 ⟨rfl, pP15⟩
        have k1115 : ∀ {q : ℕ} {v : E}, Pt h11 q v → Pt h15 q v := fun a =>
          (((a.mono f12 noW.not).mono f13 (neq a)).mono f14 noW.not).mono f15 (neq a)
        have k1015 : ∀ {q : ℕ} {v : E}, Pt h10 q v → Pt h15 q v := fun a => k1115 (a.mono f11 noW.not)
        have ks015 : ∀ {q : List ℕ} {v : List E}, Pts h q v → Pts h15 q v := fun a =>
          List.Forall₂.imp (fun _ _ a => k1015 (k510 (k05 a))) a
        have ks1115 : ∀ {q : List ℕ} {v : List E}, Pts h11 q v → Pts h15 q v := fun a =>
          List.Forall₂.imp (fun _ _ a => k1115 a) a
        refine bind lift ?_
        rintro xinv _ h15 _ ⟨rfl, rfl⟩
        have nn : n0 ≤ h15.next := by
          have := f1.1; have := f2.1; have := f3.1; have := f4.1; have := f5.1; have := f6.1; have := f7.1; have := f8.1
          have := f9.1; have := f10.1; have := f11.1; have := f12.1; have := f13.1; have := f14.1; have := f15.1
          omega
        refine any (ih (n / 2) (by omega) _ _ _ _ _ _ _ _ _ _ _ _ _ _ h15 nn (ks1115 pg11) (ks1115 ph11)
          (k1015 (k510 (k05 hu))) pP15 ?_ ?_ ?_ ?_)
        · exact List.rel_append (ks015 hL) (.cons (k1015 pL10) .nil)
        · exact List.rel_append (ks015 hR) (.cons (k1015 pR10) .nil)
        · intro i hi
          rcases List.mem_append.mp hi with hi | hi
          · exact nL i hi
          · rw [List.mem_singleton.mp hi]; exact hn.trans nL1
        · intro i hi
          rcases List.mem_append.mp hi with hi | hi
          · exact nR i hi
          · rw [List.mem_singleton.mp hi]
            have := f1.1; have := f2.1; have := f3.1; have := f4.1; have := f5.1
            omega

theorem updateGeneratorsGo' (yInv : Int) : ∀ (hs : List ℕ) (yExp : Int) (n : ℕ) (vs : List E) (h : HS E), Pts h hs vs →
    Spec noW h (HM.updateGeneratorsGo GP yInv hs yExp n) (MscPoc.updateGeneratorsGo GP yInv vs yExp n)
      (fun h' ps vs => Pts h' ps vs ∧ ∀ p ∈ ps, h.next ≤ p) := by
  intro hs
  induction hs with
  | nil =>
    intro yExp n vs h hl
    cases hl
    cases n with
    | zero => exact pure ⟨.nil, by simp⟩
    | succ n => exact panic
  | cons a as ih =>
    intro yExp n vs h hl
    cases hl with
    | cons ha hl =>
      cases n with
      | zero => exact pure ⟨.nil, by simp⟩
      | succ n =>
        unfold HM.updateGeneratorsGo MscPoc.updateGeneratorsGo
        refine step (newScale GP ha) ?_
        rintro e h1 f1 ⟨ne, pe⟩
        refine bind (ih (yExp * yInv) n _ h1 (Pts.mono hl f1 (fun _ _ => noW.not))) ?_
        rintro rs rsv h2 f2 ⟨prs, nrs⟩
        refine pure ⟨.cons (pe.mono f2 noW.not) prs, ?_⟩
        simp only [List.mem_cons, forall_eq_or_imp]
        exact ⟨ne, fun p hp => f1.1.trans (nrs p hp)⟩

theorem updateGenerators' {Hh : List ℕ} {vs : List E} (y : Int) (N : ℕ) (hl : Pts h Hh vs) :
    Spec noW h (HM.updateGenerators GP Hh y N) (MscPoc.updateGenerators GP vs y N)
      (fun h' ps vs => Pts h' ps vs ∧ ps.head? = Hh.head? ∧ ∀ p ∈ ps.tail, h.next ≤ p) := by
  cases hl with
  | nil => cases N <;> exact panic
  | cons ha hl =>
    match N with
    | 0 => exact panic
    | 1 => exact pure ⟨.cons ha .nil, rfl, by simp⟩
    | n + 2 =>
      unfold HM.updateGenerators MscPoc.updateGenerators
      refine bind lift ?_
      rintro yInv _ h _ ⟨rfl, rfl⟩
      refine bind (updateGeneratorsGo' GP yInv _ _ _ _ h hl) ?_
      rintro rs rsv h2 f2 ⟨prs, nrs⟩
      exact pure ⟨.cons (ha.mono f2 noW.not) prs, rfl, nrs⟩

/-- how a proof made on the heap is related to the pure one; `n0`: the proof's own elements are not below -/
structure _root_.MscPoc.IPRel (GP : Grp E) (n0 : ℕ) (Gg Hh : List ℕ) (P Uu : ℕ) (h' : HS E) (p : IPProofH) (v : IPProof E) : Prop where
  deref : p.deref GP h' = v
  lt : ∀ q ∈ p.ptrs, q < h'.next
  Gg : p.Gg = Gg
  Hh : p.Hh = Hh
  P : p.P = P
  Uu : p.Uu = Uu
  L : ∀ q ∈ p.L, n0 ≤ q
  R : ∀ q ∈ p.R, n0 ≤ q

/-- related results with an error component -/
def _root_.MscPoc.ExceptRel {α β : Type} (R : α → β → Prop) : Except String α → Except String β → Prop
  | .error e, .error e' => e = e'
  | .ok a, .ok b => R a b
  | _, _ => False

theorem _root_.MscPoc.Pts.map_eq {ps : List ℕ} {vs : List E} (a : Pts h ps vs) : ps.map h.el = vs := by
  induction a with
  | nil => rfl
  | cons x xs ih => rw [List.map_cons, ih, x.2]

theorem proveInnerProduct (sha : Bytes → Bytes) (a b : List Int) (P : ℕ) (c : Int) (Gg Hh : List ℕ) (Uu : ℕ) {p : E}
    {params : IPParams E} (hGP : params.GP = GP) (hP : Pt h P p) (hg : Pts h Gg params.Gg) (hh' : Pts h Hh params.Hh)
    (hu : Pt h Uu params.Uu) :
    Spec noW h (HM.proveInnerProduct GP sha a b P c Gg Hh Uu) (MscPoc.proveInnerProduct sha a b p c params)
      (fun h' => ExceptRel (IPRel GP h.next Gg Hh P Uu h')) := by
  unfold HM.proveInnerProduct MscPoc.proveInnerProduct
  split
  · exact pure rfl
  · rw [hGP]
    refine bind (hashIP GP sha c hg hh' hP) ?_
    rintro x _ h _ ⟨rfl, rfl⟩
    refine step (computePP GP hGP c x hP hu) ?_
    rintro pp h1 f1 ⟨⟨nPP, pPP⟩, pux, hne⟩
    have hrec := computeBipRecursive GP sha h.next a.length a b Gg Hh _ _ pp.2 pp.1 _ _ [] [] [] [] h1 f1.1
      (hg.mono f1 (fun _ _ => noW.not)) (hh'.mono f1 (fun _ _ => noW.not)) pux pPP .nil .nil (by simp) (by simp)
    refine bind hrec ?_
    rintro ⟨r1, r2, r3, r4⟩ ⟨v1, v2, v3, v4⟩ h2 f2 ⟨rfl, rfl, pL, pR, nL, nR⟩
    have f12 := f1.trans f2 (fun _ _ h => h)
    have hP2 := hP.mono f12 noW.not
    have hu2 := hu.mono f12 noW.not
    have hg2 := hg.mono f12 (fun _ _ => noW.not)
    have hh2 := hh'.mono f12 (fun _ _ => noW.not)
    refine pure (show IPRel GP h.next Gg Hh P Uu h2 _ _ from ⟨?_, ?_, rfl, rfl, rfl, rfl, nL, nR⟩)
    · unfold IPProofH.deref
      dsimp only at pL pR ⊢
      rw [hP2.2, hu2.2, pL.map_eq, pR.map_eq, hg2.map_eq, hh2.map_eq]
      cases params; cases hGP; rfl
    · intro q hq
      simp only [IPProofH.ptrs, List.mem_cons, List.mem_append] at hq
      rcases hq with rfl | rfl | ((hq | hq) | hq) | hq
      · exact hP2.1
      · exact hu2.1
      · exact pL.lt q hq
      · exact pR.lt q hq
      · exact hg2.lt q hq
      · exact hh2.lt q hq

/-- how a range proof made on the heap is related to the pure one -/
structure _root_.MscPoc.BPRel (GP : Grp E) (h : HS E) (params : BPParamsH) (h' : HS E) (p : BulletProofH) (v : BulletProof E) :
    Prop where
  deref : p.deref GP h' = v
  lt : ∀ q ∈ p.ptrs, q < h'.next
  new : ∀ q ∈ p.V :: p.A :: p.S :: p.T1 :: p.T2 :: p.ip.P :: p.ip.Uu :: (p.ip.L ++ p.ip.R ++ p.ip.Hh.tail), h.next ≤ q
  N : p.N = params.N
  G : p.G = params.G
  H : p.H = params.H
  Gg : p.Gg = params.Gg
  Hh : p.Hh = params.Hh
  ipGg : p.ip.Gg = params.Gg
  ipHh : p.ip.Hh.head? = params.Hh.head?

theorem bpProve (sha : Bytes → Bytes) (params : BPParamsH) (rnd : BPRand) (secret : Int) (hl : ∀ p ∈ params.ptrs, p < h.next) :
    Spec noW h (HM.bpProve GP sha params rnd secret) (MscPoc.bpProve sha (params.deref GP h) rnd secret)
      (fun h' => ExceptRel (fun a b => BPRel GP h params h' a.1 b.1 ∧ a.2 = b.2)) := by
  have hH : Pt h params.H (h.el params.H) := ⟨hl _ (by simp [BPParamsH.ptrs]), rfl⟩
  have hG : Pt h params.G (h.el params.G) := ⟨hl _ (by simp [BPParamsH.ptrs]), rfl⟩
  have hGg : Pts h params.Gg (params.Gg.map h.el) := Pts.of_map (fun p hp => hl p (by simp [BPParamsH.ptrs, hp]))
  have hHh : Pts h params.Hh (params.Hh.map h.el) := Pts.of_map (fun p hp => hl p (by simp [BPParamsH.ptrs, hp]))
  unfold HM.bpProve MscPoc.bpProve
  dsimp only [BPParamsH.deref]
  refine step (pedersenCommit GP secret rnd.gamma hH) ?_
  rintro V h1 f1 ⟨nV, pV⟩
  have key : Spec noW h1 (HM.proveFrom GP sha params rnd V (decompose secret 2 params.N) (computeAR (decompose secret 2 params.N)))
      (MscPoc.proveFrom sha (params.deref GP h) rnd (MscPoc.pedersenCommit GP secret rnd.gamma (h.el params.H))
        (decompose secret 2 params.N) (computeAR (decompose secret 2 params.N)))
      (fun h' => ExceptRel (BPRel GP h params h')) := by
    generalize decompose secret 2 params.N = aL
    generalize computeAR aL = aR
    unfold HM.proveFrom MscPoc.proveFrom
    dsimp only [BPParamsH.deref]
    refine bind (commitVector GP params.N (hH.mono f1 noW.not) (hGg.mono f1 (fun _ _ => noW.not))
      (hHh.mono f1 (fun _ _ => noW.not))) ?_
    rintro A Av h2 f2 ⟨nA, pA⟩
    have f02 := f1.trans f2 (fun _ _ h => h)
    refine bind (commitVectorBig GP params.N (hH.mono f02 noW.not) (hGg.mono f02 (fun _ _ => noW.not))
      (hHh.mono f02 (fun _ _ => noW.not))) ?_
    rintro S Sv h3 f3 ⟨nS, pS⟩
    have f03 := f02.trans f3 (fun _ _ h => h)
    refine step (hashBP GP sha (pA.mono f3 noW.not) pS) ?_
    rintro yz h3 _ ⟨rfl, rfl⟩
    refine bind lift ?_
    rintro aLb _ h3 _ ⟨rfl, rfl⟩
    refine bind lift ?_
    rintro aRb _ h3 _ ⟨rfl, rfl⟩
    refine bind lift ?_
    rintro t1l _ h3 _ ⟨rfl, rfl⟩
    refine bind lift ?_
    rintro t1r _ h3 _ ⟨rfl, rfl⟩
    refine bind lift ?_
    rintro t2 _ h3 _ ⟨rfl, rfl⟩
    refine step (pedersenCommit GP _ rnd.tau1 (hH.mono f03 noW.not)) ?_
    rintro T1 h4 f4 ⟨nT1, pT1⟩
    have f04 := f03.trans f4 (fun _ _ h => h)
    refine step (pedersenCommit GP _ rnd.tau2 (hH.mono f04 noW.not)) ?_
    rintro T2 h5 f5 ⟨nT2, pT2⟩
    have f05 := f04.trans f5 (fun _ _ h => h)
    refine step (hashBP GP sha (pT1.mono f5 noW.not) pT2) ?_
    rintro xs h5 _ ⟨rfl, rfl⟩
    refine bind lift ?_
    rintro th _ h5 _ ⟨rfl, rfl⟩
    refine bind (updateGenerators' GP _ _ (hHh.mono f05 (fun _ _ => noW.not))) ?_
    rintro hp hpv h6 f6 ⟨php, hhd, htl⟩
    have f06 := f05.trans f6 (fun _ _ h => h)
    unfold HM.setupInnerProduct MscPoc.setupInnerProduct
    by_cases hN : (params.N : Int) ≤ 0
    · rw [if_pos hN, if_pos hN]
      exact pure rfl
    · rw [if_neg hN, if_neg hN]
      cases hU : GP.mapToGroup SEEDU with
      | none =>
        have : (HM.newMap GP SEEDU : HM E ℕ) h6 = none := by
          have := newMap (h := h6) GP SEEDU
          rw [hU] at this
          exact this
        exact bind_panic (bind_panic this)
      | some u =>
        have hm := newMap (h := h6) GP SEEDU
        rw [hU] at hm
        have hm' : Spec noW h6 (do let Uu ← HM.newMap GP SEEDU; (Pure.pure (Except.ok Uu) : HM E (Except String ℕ))) (some u)
            (fun h' r v => ∃ p, r = .ok p ∧ h6.next ≤ p ∧ Pt h' p v) := by
          refine step hm ?_
          rintro Uu h7 f7 ⟨nU, pU⟩
          exact pure ⟨Uu, rfl, nU, pU⟩
        refine step hm' ?_
        rintro _ h7 f7 ⟨Uu, rfl, nU, pU⟩
        dsimp only [Option.bind_eq_bind, Option.bind_some]
        have f07 := f06.trans f7 (fun _ _ h => h)
        refine bind (commitInnerProduct GP (hGg.mono f07 (fun _ _ => noW.not)) (php.mono f7 (fun _ _ => noW.not))) ?_
        rintro cm cmv h8 f8 ⟨ncm, pcm⟩
        have f08 := f07.trans f8 (fun _ _ h => h)
        have f68 := f7.trans f8 (fun _ _ h => h)
        refine bind (proveInnerProduct GP sha _ _ cm th params.Gg hp Uu
          (params := { Gg := params.Gg.map h.el, Hh := hpv, Uu := u, GP := GP }) rfl pcm (hGg.mono f08 (fun _ _ => noW.not))
          (php.mono f68 (fun _ _ => noW.not)) (pU.mono f8 noW.not)) ?_
        rintro ip ipv h9 f9 hip
        cases ip with
        | error e =>
          cases ipv with
          | error e' => exact panic
          | ok v => exact hip.elim
        | ok ip =>
          cases ipv with
          | error e' => exact hip.elim
          | ok v =>
            have hip : IPRel GP h8.next params.Gg hp cm Uu h9 ip v := hip
            have f09 := f08.trans f9 (fun _ _ h => h)
            have g1 := f1.1; have g2 := f2.1; have g3 := f3.1; have g4 := f4.1; have g5 := f5.1; have g6 := f6.1
            have g7 := f7.1; have g8 := f8.1; have g9 := f9.1
            have f59 := ((f6.trans f7 (fun _ _ h => h)).trans f8 (fun _ _ h => h)).trans f9 (fun _ _ h => h)
            have f49 := f5.trans f59 (fun _ _ h => h)
            have f39 := f4.trans f49 (fun _ _ h => h)
            have f29 := f3.trans f39 (fun _ _ h => h)
            have f19 := f2.trans f29 (fun _ _ h => h)
            have qV := pV.mono f19 noW.not
            have qA := pA.mono f29 noW.not
            have qS := pS.mono f39 noW.not
            have qT1 := pT1.mono f49 noW.not
            have qT2 := pT2.mono f59 noW.not
            have qG := hG.mono f09 noW.not
            have qH := hH.mono f09 noW.not
            have qGg := hGg.mono f09 (fun _ _ => noW.not)
            have qHh := hHh.mono f09 (fun _ _ => noW.not)
            refine pure (show BPRel GP h params h9 _ _ from
              ⟨?_, ?_, ?_, rfl, rfl, rfl, rfl, rfl, hip.Gg, by rw [hip.Hh]; exact hhd⟩)
            · unfold BulletProofH.deref
              dsimp only
              rw [qV.2, qA.2, qS.2, qT1.2, qT2.2, qG.2, qH.2, qGg.map_eq, qHh.map_eq, hip.deref]
            · intro q hq
              simp only [BulletProofH.ptrs, List.mem_cons, List.mem_append] at hq
              rcases hq with rfl | rfl | rfl | rfl | rfl | rfl | rfl | (hq | hq) | hq
              · exact qV.1
              · exact qA.1
              · exact qS.1
              · exact qT1.1
              · exact qT2.1
              · exact qG.1
              · exact qH.1
              · exact hip.lt q hq
              · exact qGg.lt q hq
              · exact qHh.lt q hq
            · intro q hq
              simp only [List.mem_cons, List.mem_append] at hq
              rcases hq with rfl | rfl | rfl | rfl | rfl | rfl | rfl | (hq | hq) | hq
              · exact nV
              · omega
              · omega
              · omega
              · omega
              · rw [hip.P]; omega
              · rw [hip.Uu]; omega
              · have := hip.L q hq; omega
              · have := hip.R q hq; omega
              · rw [hip.Hh] at hq
                have := htl q hq; omega
  refine bind key ?_
  rintro r rv h2 f2 hr
  cases r with
  | error e =>
    cases rv with
    | error e' => exact pure hr
    | ok v => exact hr.elim
  | ok p =>
    cases rv with
    | error e' => exact hr.elim
    | ok v => exact pure (show BPRel GP h params h2 p v ∧ _ from ⟨hr, rfl⟩)

end Spec

end MscPoc
