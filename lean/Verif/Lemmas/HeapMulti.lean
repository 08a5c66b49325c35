import Verif.Model.HeapMulti
import Verif.Lemmas.HeapVote

/-!
# Refinement between the heap model and the model on values: aggregated proofs
-/

set_option autoImplicit false

namespace MscPoc

variable {E : Type}

/-- bulletproofs/multibp.go:248-270 on values, as a separate function -/
def multiCond65Pure (pf : MultiBulletProof E) (x y z : Int) : Option Bool := do
  let GP := pf.Params.GP
  let Tprime ← pf.Tprime
  let Taux ← pf.Taux
  let dlt ← deltaMul pf.Params.N GP.N y z pf.Vs.length
  some (GP.isEqual (GP.add (GP.add (GP.add ((List.zip pf.Vs (powerOf z pf.Vs.length GP.N)).foldl (fun rhs (vp : E × Int) =>
      GP.add rhs (GP.mul vp.1 (z * z % GP.N * vp.2))) GP.identity) (GP.mulGen dlt)) (GP.mul pf.T1 x))
    (GP.mul pf.T2 (x * x % GP.N))) (pedersenCommit GP Tprime Taux pf.Params.H))

/-- bulletproofs/multibp.go:276-307 on values, as a separate function -/
def multiLPPure (pf : MultiBulletProof E) (hp : List E) (x y z : Int) : Option E := do
  let GP := pf.Params.GP
  let mod := GP.N
  let bits := pf.Params.N / pf.Vs.length
  let gpmz ← vectorExp GP pf.Params.Gg (vectorCopy (mod - z) pf.Params.N)
  let hpExp ← vectorExp GP hp (vectorMul (powerOf y pf.Params.N mod) (vectorCopy z pf.Params.N) mod)
  let prod ← multiSlides GP hp (powerOf 2 bits mod) z bits (List.range pf.Vs.length) GP.identity
  some (GP.add (GP.add (GP.add pf.A (GP.mul pf.S x)) gpmz) (GP.add hpExp prod))

/-- bulletproofs/multibp.go:311-317 on values, as a separate function -/
def multiCond67Pure (pf : MultiBulletProof E) (lP : E) : Option Bool := do
  let GP := pf.Params.GP
  let Mu ← pf.Mu
  some (GP.isIdentity (GP.sub (GP.add (GP.mul pf.Params.H Mu) pf.InnerProductProof.P) lP))

theorem multi_checks_split (sha : Bytes → Bytes) (pf : MultiBulletProof E) : pf.checks sha =
    if pf.Vs.length = 0 then none else (do
    let GP := pf.Params.GP
    let xs := hashBP sha GP pf.T1 pf.T2
    let yz := hashBP sha GP pf.A pf.S
    let hp ← updateGenerators GP pf.Params.Hh yz.1 pf.Params.N
    let c65 ← multiCond65Pure pf xs.1 yz.1 yz.2
    let lP ← multiLPPure pf hp xs.1 yz.1 yz.2
    let c67 ← multiCond67Pure pf lP
    let ok ← pf.InnerProductProof.verify sha
    some { c65 := c65, c67 := c67, c68 := ok }) := by
  unfold MultiBulletProof.checks multiCond65Pure multiLPPure multiCond67Pure
  simp only [Option.bind_eq_bind, Option.bind_assoc, Option.bind_some]

namespace Spec
variable {h : HS E} (GP : Grp E)

theorem commitAll {H : ℕ} {v : E} : ∀ (ss gs : List Int) (h : HS E), Pt h H v →
    Spec noW h (HM.commitAll GP H ss gs) (some (List.zipWith (fun s g => MscPoc.pedersenCommit GP s g v) ss gs))
      (fun h' ps vs => Pts h' ps vs ∧ ∀ p ∈ ps, h.next ≤ p) := by
  intro ss
  induction ss with
  | nil => intro gs h _; exact pure ⟨.nil, by simp⟩
  | cons s ss ih =>
    intro gs h hH
    cases gs with
    | nil => exact pure ⟨.nil, by simp⟩
    | cons g gs =>
      unfold HM.commitAll
      refine step (pedersenCommit GP s g hH) ?_
      rintro c h1 f1 ⟨nc, pc⟩
      refine step (ih gs h1 (hH.mono f1 noW.not)) ?_
      rintro cs h2 f2 ⟨pcs, ncs⟩
      refine pure ⟨.cons (pc.mono f2 noW.not) pcs, ?_⟩
      simp only [List.mem_cons, forall_eq_or_imp]
      exact ⟨nc, fun p hp => f1.1.trans (ncs p hp)⟩

theorem multiRhs (zs : Int) : ∀ (vs : List ℕ) (ps : List Int) (rhs : ℕ) (vv : List E) (r : E) (h : HS E), Pts h vs vv → Pt h rhs r →
    (∀ i ∈ vs, i ≠ rhs) →
    Spec (One rhs) h (HM.multiRhs GP zs vs ps rhs)
      (some ((List.zip vv ps).foldl (fun rhs (vp : E × Int) => GP.add rhs (GP.mul vp.1 (zs * vp.2))) r))
      (fun h' p v => p = rhs ∧ Pt h' p v) := by
  intro vs
  induction vs with
  | nil => intro ps rhs vv r h hl hr _; cases hl; exact pure ⟨rfl, hr⟩
  | cons v vs ih =>
    intro ps rhs vv r h hl hr hne
    cases hl with
    | cons hv hl =>
      cases ps with
      | nil => exact pure ⟨rfl, hr⟩
      | cons p ps =>
        unfold HM.multiRhs
        refine step (newScale GP hv) ?_
        rintro t h1 f1 ⟨_, pt⟩
        refine stepOne (add GP (hr.mono f1 noW.not).1 (One.self _) (hr.mono f1 noW.not) pt) ?_
        rintro _ h2 f2 ⟨rfl, hr2⟩
        have n2 : ∀ i ∈ vs, i ≠ _ := fun i hi => hne i (by simp [hi])
        exact ih ps _ _ _ h2 ((Pts.mono hl f1 (fun _ _ => noW.not)).mono f2 n2) hr2 n2

theorem multiCond65 (pf : MultiProofH) (h0 h : HS E) (f0 : Fr noW h0 h) (hl : ∀ p ∈ pf.ptrs, p < h0.next) (x y z : Int) :
    Spec noW h (HM.multiCond65 GP pf x y z) (multiCond65Pure (pf.deref GP h0) x y z) (fun _ a b => a = b) := by
  have old : ∀ p ∈ pf.ptrs, Pt h p (h0.el p) := fun p hp => Pt.mono (h := h0) ⟨hl p hp, rfl⟩ f0 noW.not
  have hV : Pts h pf.Vs (pf.Vs.map h0.el) :=
    (Pts.of_map (h := h0) (fun p hp => hl p (by simp [MultiProofH.ptrs, hp]))).mono f0 (fun _ _ => noW.not)
  have el : (pf.deref GP h0).Vs.length = pf.Vs.length := by simp [MultiProofH.deref]
  unfold HM.multiCond65 multiCond65Pure
  rw [el]
  refine bind lift ?_
  rintro Tprime _ h _ ⟨rfl, rfl⟩
  refine bind lift ?_
  rintro Taux _ h _ ⟨rfl, rfl⟩
  refine step (pedersenCommit GP Tprime Taux (old pf.Params.H (by simp [MultiProofH.ptrs, BPParamsH.ptrs]))) ?_
  rintro lhs h1 f1 ⟨_, plhs⟩
  unfold HM.identity
  refine stepNew (alloc _) ?_
  rintro rhs h2 f2 ⟨nr, prhs⟩
  have nrhs : h1.next ≤ rhs := nr.ge
  refine ⟨nrhs, ?_⟩
  have f12 := f1.trans f2 (fun _ _ h => h)
  refine stepOne (multiRhs GP _ pf.Vs _ rhs _ _ h2 (hV.mono f12 (fun _ _ => noW.not)) prhs
    (fun i hi => (lt_of_lt_of_le (hV.lt i hi) (f1.1.trans nrhs)).ne)) ?_
  rintro _ h2' f2' ⟨rfl, prhs⟩
  refine bind lift ?_
  rintro dlt _ h2' _ ⟨rfl, rfl⟩
  refine step (newBaseScale GP) ?_
  rintro gD h3 f3 ⟨_, pgD⟩
  refine stepOne (add GP (prhs.mono f3 noW.not).1 (One.self _) (prhs.mono f3 noW.not) pgD) ?_
  rintro _ h4 f4 ⟨rfl, prhs4⟩
  have keep : ∀ {p : ℕ} {v : E}, Pt h1 p v → Pt h4 p v := fun a =>
    (((a.mono f2 noW.not).mono f2' (lt_of_lt_of_le a.1 nrhs).ne).mono f3 noW.not).mono f4 (lt_of_lt_of_le a.1 nrhs).ne
  refine step (newScale GP (keep ((old pf.T1 (by simp [MultiProofH.ptrs])).mono f1 noW.not))) ?_
  rintro T1x h5 f5 ⟨nT1, pT1⟩
  refine step (newScale GP ((keep ((old pf.T2 (by simp [MultiProofH.ptrs])).mono f1 noW.not)).mono f5 noW.not)) ?_
  rintro T2x h6 f6 ⟨nT2, pT2⟩
  have prhs6 := (prhs4.mono f5 noW.not).mono f6 noW.not
  refine stepOne (add GP prhs6.1 (One.self _) prhs6 (pT1.mono f6 noW.not)) ?_
  rintro _ h7 f7 ⟨rfl, prhs7⟩
  refine stepOne (add GP prhs7.1 (One.self _) prhs7 (pT2.mono f7 (lt_of_lt_of_le prhs4.1 (f5.1.trans nT2)).ne')) ?_
  rintro _ h8 f8 ⟨rfl, prhs8⟩
  refine step (read prhs8) ?_
  rintro _ h8 _ ⟨rfl, rfl⟩
  have hne := (lt_of_lt_of_le plhs.1 nrhs).ne
  refine step (read (((((keep plhs).mono f5 noW.not).mono f6 noW.not).mono f7 hne).mono f8 hne)) ?_
  rintro _ h8 _ ⟨rfl, rfl⟩
  exact pure rfl

theorem multiSlides {hp : List ℕ} {hpv : List E} (p2 : List Int) (z : Int) (bits : ℕ) :
    ∀ (js : List ℕ) (prod : ℕ) (r : E) (h : HS E), Pts h hp hpv → Pt h prod r → (∀ i ∈ hp, i ≠ prod) →
    Spec (One prod) h (HM.multiSlides GP hp p2 z bits js prod) (MscPoc.multiSlides GP hpv p2 z bits js r)
      (fun h' p v => p = prod ∧ Pt h' p v) := by
  intro js
  induction js with
  | nil => intro prod r h _ hr _; exact pure ⟨rfl, hr⟩
  | cons j js ih =>
    intro prod r h hl hr hne
    unfold HM.multiSlides MscPoc.multiSlides
    refine bind (sliceTo _ hl) ?_
    rintro up upv h1 f1 ⟨rfl, pup, _⟩
    refine bind (sliceFrom _ pup) ?_
    rintro sl slv h1 f1 ⟨rfl, psl, _⟩
    refine bind (vectorExp GP psl) ?_
    rintro val valv h2 f2 ⟨_, pval⟩
    refine stepOne (add GP (hr.mono f2 noW.not).1 (One.self _) (hr.mono f2 noW.not) pval) ?_
    rintro _ h3 f3 ⟨rfl, hr3⟩
    exact ih _ _ h3 ((Pts.mono hl f2 (fun _ _ => noW.not)).mono f3 hne) hr3 hne

theorem multiLP (pf : MultiProofH) (h0 h : HS E) (f0 : Fr noW h0 h) (hl : ∀ p ∈ pf.ptrs, p < h0.next) {hp : List ℕ}
    {hpv : List E} (php : Pts h hp hpv) (x y z : Int) :
    Spec noW h (HM.multiLP GP pf hp x y z) (multiLPPure (pf.deref GP h0) hpv x y z) (fun h' p v => Pt h' p v) := by
  have old : ∀ p ∈ pf.ptrs, Pt h p (h0.el p) := fun p hp => Pt.mono (h := h0) ⟨hl p hp, rfl⟩ f0 noW.not
  have hG : Pts h pf.Params.Gg (pf.Params.Gg.map h0.el) :=
    (Pts.of_map (h := h0) (fun p hp => hl p (by simp [MultiProofH.ptrs, BPParamsH.ptrs, hp]))).mono f0 (fun _ _ => noW.not)
  have el : (pf.deref GP h0).Vs.length = pf.Vs.length := by simp [MultiProofH.deref]
  unfold HM.multiLP multiLPPure
  rw [el]
  refine step (newScale GP (old pf.S (by simp [MultiProofH.ptrs]))) ?_
  rintro Sx h1 f1 ⟨_, pSx⟩
  refine step (newAdd GP ((old pf.A (by simp [MultiProofH.ptrs])).mono f1 noW.not) pSx) ?_
  rintro ASx h2 f2 ⟨_, pASx⟩
  have f12 := f1.trans f2 (fun _ _ h => h)
  refine bind (vectorExp GP (Pts.mono hG f12 (fun _ _ => noW.not))) ?_
  rintro gpmz gpv h3 f3 ⟨_, pgp⟩
  have f13 := f12.trans f3 (fun _ _ h => h)
  refine bind (vectorExp GP (Pts.mono php f13 (fun _ _ => noW.not))) ?_
  rintro hpE hpEv h4 f4 ⟨_, phE⟩
  have f14 := f13.trans f4 (fun _ _ h => h)
  unfold HM.identity
  refine stepNew (alloc _) ?_
  rintro prod h5 f5 ⟨nr, pprod⟩
  have nprod : h4.next ≤ prod := nr.ge
  refine ⟨nprod, ?_⟩
  have f15 := f14.trans f5 (fun _ _ h => h)
  have lts : ∀ {p v}, Pt h4 p v → p ≠ prod := fun a => (lt_of_lt_of_le a.1 nprod).ne
  refine bind' (W₁ := One prod) (W₂ := One prod) (multiSlides GP _ _ _ _ prod _ h5 (php.mono f15 (fun _ _ => noW.not)) pprod
    (fun i hi => (lt_of_lt_of_le (php.lt i hi) (f14.1.trans nprod)).ne)) (fun _ _ h => h) (fun _ _ h => h) ?_
  rintro _ prodv h6 f6 ⟨rfl, pprod6⟩
  have k46 : ∀ {p v}, Pt h4 p v → Pt h6 p v := fun a => (a.mono f5 noW.not).mono f6 (lts a)
  refine any ?_
  refine step (newAdd GP (k46 phE) pprod6) ?_
  rintro tl h7 f7 ⟨_, ptl⟩
  refine stepNew (newAdd GP ((k46 ((pASx.mono f3 noW.not).mono f4 noW.not)).mono f7 noW.not)
    ((k46 (pgp.mono f4 noW.not)).mono f7 noW.not)) ?_
  rintro lP h8 f8 ⟨nlP, plP⟩
  refine ⟨nlP, ?_⟩
  refine (add GP plP.1 (One.self _) plP (ptl.mono f8 noW.not)).conseq ?_
  rintro h9 _ _ _ ⟨rfl, hp⟩
  exact hp

theorem multiCond67 (pf : MultiProofH) (h0 h : HS E) (f0 : Fr noW h0 h) (hl : ∀ p ∈ pf.ptrs, p < h0.next) {lP : ℕ}
    {lPv : E} (plP : Pt h lP lPv) :
    Spec noW h (HM.multiCond67 GP pf lP) (multiCond67Pure (pf.deref GP h0) lPv) (fun _ a b => a = b) := by
  have old : ∀ p ∈ pf.ptrs, Pt h p (h0.el p) := fun p hp => Pt.mono (h := h0) ⟨hl p hp, rfl⟩ f0 noW.not
  unfold HM.multiCond67 multiCond67Pure
  refine bind lift ?_
  rintro Mu _ h _ ⟨rfl, rfl⟩
  refine stepNew (newScale GP (old pf.Params.H (by simp [MultiProofH.ptrs, BPParamsH.ptrs]))) ?_
  rintro rP h1 f1 ⟨nrP, prP⟩
  refine ⟨nrP, ?_⟩
  refine stepOne (add GP prP.1 (One.self _) prP ((old pf.ip.P (by simp [MultiProofH.ptrs, IPProofH.ptrs])).mono f1 noW.not)) ?_
  rintro _ h2 f2 ⟨rfl, prP2⟩
  refine stepOne (subtract GP prP2.1 (One.self _) prP2 ((plP.mono f1 noW.not).mono f2 (lt_of_lt_of_le plP.1 nrP).ne)) ?_
  rintro _ h3 f3 ⟨rfl, prP3⟩
  refine step (read prP3) ?_
  rintro _ h3 _ ⟨rfl, rfl⟩
  exact pure rfl

end Spec

theorem MultiProofH.deref_frame (GP : Grp E) (pf : MultiProofH) {h h' : HS E} (f : Fr noW h h')
    (hl : ∀ p ∈ pf.ptrs, p < h.next) : pf.deref GP h' = pf.deref GP h := by
  have key : ∀ p ∈ pf.ptrs, h'.el p = h.el p := fun p hp => f.2 p (hl p hp) noW.not
  have keyL : ∀ l : List ℕ, (∀ p ∈ l, p ∈ pf.ptrs) → l.map h'.el = l.map h.el := fun l hl' =>
    List.map_congr_left (fun p hp => key p (hl' p hp))
  unfold MultiProofH.deref
  rw [keyL pf.Vs (by simp +contextual [ptrs]), key pf.A (by simp [ptrs]), key pf.S (by simp [ptrs]), key pf.T1 (by simp [ptrs]),
    key pf.T2 (by simp [ptrs]), pf.ip.deref_frame GP f (fun p hp => hl p (by simp [ptrs, hp])),
    pf.Params.deref_frame GP f (fun p hp => hl p (by simp [ptrs, hp]))]

theorem multiChecks_refines (GP : Grp E) (sha : Bytes → Bytes) (pf : MultiProofH) (h : HS E) (hl : ∀ p ∈ pf.ptrs, p < h.next) :
    Spec noW h (pf.checks GP sha) ((pf.deref GP h).checks sha) (fun _ a b => a = b) := by
  have old : ∀ p ∈ pf.ptrs, Pt h p (h.el p) := fun p hp => ⟨hl p hp, rfl⟩
  have hH : Pts h pf.Params.Hh (pf.Params.Hh.map h.el) :=
    Pts.of_map (fun p hp => hl p (by simp [MultiProofH.ptrs, BPParamsH.ptrs, hp]))
  have el : (pf.deref GP h).Vs.length = pf.Vs.length := by simp [MultiProofH.deref]
  rw [multi_checks_split, el]
  unfold MultiProofH.checks
  split
  · exact Spec.panic
  refine Spec.step (Spec.hashBP GP sha (old pf.T1 (by simp [MultiProofH.ptrs])) (old pf.T2 (by simp [MultiProofH.ptrs]))) ?_
  rintro xs h _ ⟨rfl, rfl⟩
  refine Spec.step (Spec.hashBP GP sha (old pf.A (by simp [MultiProofH.ptrs])) (old pf.S (by simp [MultiProofH.ptrs]))) ?_
  rintro yz h _ ⟨rfl, rfl⟩
  refine Spec.bind (Spec.updateGenerators GP _ _ hH) ?_
  rintro hp hpv h1 f1 php
  refine Spec.bind (Spec.multiCond65 GP pf h h1 f1 hl _ _ _) ?_
  rintro c65 _ h2 f2 rfl
  have f12 := f1.trans f2 (fun _ _ h => h)
  refine Spec.bind (Spec.multiLP GP pf h h2 f12 hl (php.mono f2 (fun _ _ => noW.not)) _ _ _) ?_
  rintro lP lPv h3 f3 plP
  have f13 := f12.trans f3 (fun _ _ h => h)
  refine Spec.bind (Spec.multiCond67 GP pf h h3 f13 hl plP) ?_
  rintro c67 _ h4 f4 rfl
  have f14 := f13.trans f4 (fun _ _ h => h)
  have hip : ∀ p ∈ pf.ip.ptrs, p < h.next := fun p hp => hl p (by simp [MultiProofH.ptrs, hp])
  have e : (pf.deref GP h).InnerProductProof = pf.ip.deref GP h4 := (pf.ip.deref_frame GP f14 hip).symm
  rw [e]
  refine Spec.bind (ipVerify_refines GP sha pf.ip h4 (fun p hp => lt_of_lt_of_le (hip p hp) f14.1)) ?_
  rintro ok _ h5 f5 rfl
  exact Spec.pure rfl

theorem multiVerify_refines (GP : Grp E) (sha : Bytes → Bytes) (pf : MultiProofH) (h : HS E) (hl : ∀ p ∈ pf.ptrs, p < h.next) :
    Spec noW h (pf.verify GP sha) ((pf.deref GP h).verify sha) (fun _ a b => a = b) := by
  unfold MultiProofH.verify MultiBulletProof.verify
  refine Spec.bind (multiChecks_refines GP sha pf h hl) ?_
  rintro c _ h1 f1 rfl
  exact Spec.pure rfl

/-- how an aggregated proof made on the heap is related to the one on values -/
structure MultiRel (GP : Grp E) (h : HS E) (params : BPParamsH) (h' : HS E) (p : MultiProofH) (v : MultiBulletProof E) : Prop where
  deref : p.deref GP h' = v
  lt : ∀ q ∈ p.ptrs, q < h'.next
  new : ∀ q ∈ p.A :: p.S :: p.T1 :: p.T2 :: p.ip.P :: p.ip.Uu :: (p.Vs ++ p.ip.L ++ p.ip.R ++ p.ip.Hh.tail), h.next ≤ q
  Params : p.Params = params
  ipGg : p.ip.Gg = params.Gg
  ipHh : p.ip.Hh.head? = params.Hh.head?

namespace Spec
variable {h : HS E} (GP : Grp E)

theorem multiProve (sha : Bytes → Bytes) (params : BPParamsH) (rnd : MultiRand) (secrets : List Int)
    (hl : ∀ p ∈ params.ptrs, p < h.next) :
    Spec noW h (HM.multiProve GP sha params rnd secrets) (MscPoc.multiProve sha (params.deref GP h) rnd secrets)
      (fun h' => ExceptRel (fun a b => MultiRel GP h params h' a.1 b.1 ∧ a.2 = b.2)) := by
  have hH : Pt h params.H (h.el params.H) := ⟨hl _ (by simp [BPParamsH.ptrs]), rfl⟩
  have hG : Pt h params.G (h.el params.G) := ⟨hl _ (by simp [BPParamsH.ptrs]), rfl⟩
  have hGg : Pts h params.Gg (params.Gg.map h.el) := Pts.of_map (fun p hp => hl p (by simp [BPParamsH.ptrs, hp]))
  have hHh : Pts h params.Hh (params.Hh.map h.el) := Pts.of_map (fun p hp => hl p (by simp [BPParamsH.ptrs, hp]))
  unfold HM.multiProve MscPoc.multiProve
  dsimp only [BPParamsH.deref]
  split
  · exact panic
  refine step (commitAll GP secrets rnd.gammas h hH) ?_
  rintro Vs h1 f1 ⟨pV, nV⟩
  generalize concatPad params.N (secrets.map fun s => decompose s 2 (params.N / secrets.length)) = aL
  generalize concatPad params.N ((secrets.map fun s => decompose s 2 (params.N / secrets.length)).map computeAR) = aR
  refine bind (commitVector GP params.N (hH.mono f1 noW.not) (hGg.mono f1 (fun _ _ => noW.not))
    (hHh.mono f1 (fun _ _ => noW.not))) ?_
  rintro A Av h2 f2 ⟨nA, pA⟩
  have f02 := f1.trans f2 (fun _ _ h => h)
  refine bind (commitVectorBig GP params.N (hH.mono f02 noW.not) (hGg.mono f02 (fun _ _ => noW.not))
    (hHh.mono f02 (fun _ _ => noW.not))) ?_
  rintro S Sv h3 f3 ⟨nS, pS⟩
  have f03 := f02.trans f3 (fun _ _ h => h)
  refine step (hashBP GP sha (pA.mono f3 noW.not) pS) ?_
  rintro yz h3 _ ⟨rfl, rfl⟩
  refine bind lift ?_
  rintro z2v _ h3 _ ⟨rfl, rfl⟩
  refine bind lift ?_
  rintro aLb _ h3 _ ⟨rfl, rfl⟩
  refine bind lift ?_
  rintro aRb _ h3 _ ⟨rfl, rfl⟩
  refine bind lift ?_
  rintro t1l _ h3 _ ⟨rfl, rfl⟩
  refine bind lift ?_
  rintro t1r _ h3 _ ⟨rfl, rfl⟩
  refine bind lift ?_
  rintro t2 _ h3 _ ⟨rfl, rfl⟩
  refine step (pedersenCommit GP _ rnd.tau1 (hH.mono f03 noW.not)) ?_
  rintro T1 h4 f4 ⟨nT1, pT1⟩
  have f04 := f03.trans f4 (fun _ _ h => h)
  refine step (pedersenCommit GP _ rnd.tau2 (hH.mono f04 noW.not)) ?_
  rintro T2 h5 f5 ⟨nT2, pT2⟩
  have f05 := f04.trans f5 (fun _ _ h => h)
  refine step (hashBP GP sha (pT1.mono f5 noW.not) pT2) ?_
  rintro xs h5 _ ⟨rfl, rfl⟩
  refine bind lift ?_
  rintro th _ h5 _ ⟨rfl, rfl⟩
  refine bind (updateGenerators' GP _ _ (hHh.mono f05 (fun _ _ => noW.not))) ?_
  rintro hp hpv h6 f6 ⟨php, hhd, htl⟩
  have f06 := f05.trans f6 (fun _ _ h => h)
  unfold HM.setupInnerProduct MscPoc.setupInnerProduct
  by_cases hN : (params.N : Int) ≤ 0
  · rw [if_pos hN, if_pos hN]
    exact pure rfl
  · rw [if_neg hN, if_neg hN]
    cases hU : GP.mapToGroup SEEDU with
    | none =>
      have : (HM.newMap GP SEEDU : HM E ℕ) h6 = none := by
        have := newMap (h := h6) GP SEEDU
        rw [hU] at this
        exact this
      exact bind_panic (bind_panic this)
    | some u =>
      have hm := newMap (h := h6) GP SEEDU
      rw [hU] at hm
      have hm' : Spec noW h6 (do let Uu ← HM.newMap GP SEEDU; (Pure.pure (Except.ok Uu) : HM E (Except String ℕ))) (some u)
          (fun h' r v => ∃ p, r = .ok p ∧ h6.next ≤ p ∧ Pt h' p v) := by
        refine step hm ?_
        rintro Uu h7 f7 ⟨nU, pU⟩
        exact pure ⟨Uu, rfl, nU, pU⟩
      refine step hm' ?_
      rintro _ h7 f7 ⟨Uu, rfl, nU, pU⟩
      dsimp only [Option.bind_eq_bind, Option.bind_some]
      have f07 := f06.trans f7 (fun _ _ h => h)
      refine bind (commitInnerProduct GP (hGg.mono f07 (fun _ _ => noW.not)) (php.mono f7 (fun _ _ => noW.not))) ?_
      rintro cm cmv h8 f8 ⟨ncm, pcm⟩
      have f08 := f07.trans f8 (fun _ _ h => h)
      have f68 := f7.trans f8 (fun _ _ h => h)
      refine bind (proveInnerProduct GP sha _ _ cm th params.Gg hp Uu
        (params := { Gg := params.Gg.map h.el, Hh := hpv, Uu := u, GP := GP }) rfl pcm (hGg.mono f08 (fun _ _ => noW.not))
        (php.mono f68 (fun _ _ => noW.not)) (pU.mono f8 noW.not)) ?_
      rintro ip ipv h9 f9 hip
      cases ip with
      | error e =>
        cases ipv with
        | error e' => exact panic
        | ok v => exact hip.elim
      | ok ip =>
        cases ipv with
        | error e' => exact hip.elim
        | ok v =>
          have hip : IPRel GP h8.next params.Gg hp cm Uu h9 ip v := hip
          have f09 := f08.trans f9 (fun _ _ h => h)
          have g1 := f1.1; have g2 := f2.1; have g3 := f3.1; have g4 := f4.1; have g5 := f5.1; have g6 := f6.1
          have g7 := f7.1; have g8 := f8.1; have g9 := f9.1
          have f59 := ((f6.trans f7 (fun _ _ h => h)).trans f8 (fun _ _ h => h)).trans f9 (fun _ _ h => h)
          have f49 := f5.trans f59 (fun _ _ h => h)
          have f39 := f4.trans f49 (fun _ _ h => h)
          have f29 := f3.trans f39 (fun _ _ h => h)
          have f19 := f2.trans f29 (fun _ _ h => h)
          have qV := pV.mono f19 (fun _ _ => noW.not)
          have qA := pA.mono f29 noW.not
          have qS := pS.mono f39 noW.not
          have qT1 := pT1.mono f49 noW.not
          have qT2 := pT2.mono f59 noW.not
          refine pure (show MultiRel GP h params h9 _ _ ∧ _ from
            ⟨⟨?_, ?_, ?_, rfl, hip.Gg, by rw [hip.Hh]; exact hhd⟩, rfl⟩)
          · unfold MultiProofH.deref
            dsimp only
            rw [qV.map_eq, qA.2, qS.2, qT1.2, qT2.2, params.deref_frame GP f09 hl, hip.deref]
            rfl
          · intro q hq
            simp only [MultiProofH.ptrs, List.mem_cons, List.mem_append] at hq
            rcases hq with rfl | rfl | rfl | rfl | (hq | hq) | hq
            · exact qA.1
            · exact qS.1
            · exact qT1.1
            · exact qT2.1
            · exact qV.lt q hq
            · exact hip.lt q hq
            · exact lt_of_lt_of_le (hl q hq) f09.1
          · intro q hq
            simp only [List.mem_cons, List.mem_append] at hq
            rcases hq with rfl | rfl | rfl | rfl | rfl | rfl | ((hq | hq) | hq) | hq
            · omega
            · omega
            · omega
            · omega
            · rw [hip.P]; omega
            · rw [hip.Uu]; omega
            · exact nV q hq
            · have := hip.L q hq; omega
            · have := hip.R q hq; omega
            · rw [hip.Hh] at hq
              have := htl q hq; omega

end Spec

end MscPoc
