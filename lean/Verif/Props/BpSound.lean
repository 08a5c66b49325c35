import Mathlib.Data.List.ReduceOption
import Verif.Lemmas.BpLeaf

/-!
# C62 — what the range proof proves
-/

set_option autoImplicit false

namespace MscPoc

variable {E M : Type} {q : ℕ} [AddCommGroup M] [Module (ZMod q) M]

/-! ## Trees of accepted range proofs -/

/-- the proof object for a transcript: the tree's first move, the answers at a leaf and one transcript of the inner-product
argument; the embedded inner-product parameters are the ones the honest prover uses (`hp` the updated generators) and its inner
product is `Tprime` — the verifier checks neither -/
def BpTree.proof {k : ℕ} (T : BpTree E (ZMod q) k) (params : BPParams E) (Uu : E) (hp : List E) (nd : BpNode E (ZMod q) k)
    (lf : BpLeaf E (ZMod q) k) (p : IPPath E (ZMod q)) : BulletProof E where
  V := T.V
  A := T.A
  S := T.S
  T1 := nd.T1
  T2 := nd.T2
  Taux := some lf.Taux
  Mu := some lf.Mu
  Tprime := some lf.Tprime
  InnerProductProof := p.proof { Gg := params.Gg, Hh := hp, Uu := Uu, GP := params.GP } lf.P lf.Tprime
  Params := params

/-- a transcript is accepted by `BulletProof.Verify` under some digest function that gives its challenges -/
def BpTree.PathOk {k : ℕ} (T : BpTree E (ZMod q) k) (params : BPParams E) (Uu : E) (hp : List E) (nd : BpNode E (ZMod q) k)
    (lf : BpLeaf E (ZMod q) k) (c : ZMod q) (p : IPPath E (ZMod q)) : Prop :=
  ∃ sha : Bytes → Bytes, roundChallenge sha params.GP T.A T.S = nd.y ∧
    (roundChallenge sha params.GP nd.T1 nd.T2 : ZMod q) = lf.x ∧
    (ippChallenge sha params.GP params.Gg hp lf.P lf.Tprime : ZMod q) = c ∧
    (∀ r ∈ p.rounds, (roundChallenge sha params.GP r.1 r.2.1 : ZMod q) = r.2.2) ∧
    (T.proof params Uu hp nd lf p).verify sha = some true

/-- all transcripts of the tree are accepted -/
def BpTree.Accepted {k : ℕ} (T : BpTree E (ZMod q) k) (params : BPParams E) (Uu : E) : Prop :=
  ∀ j, ∃ hp, updateGenerators params.GP params.Hh (T.node j).y params.N = some hp ∧
    ∀ i p, (((T.node j).leaf i).t.Mem p → T.PathOk params Uu hp (T.node j) ((T.node j).leaf i) ((T.node j).leaf i).c p) ∧
      (((T.node j).leaf i).t'.Mem p → T.PathOk params Uu hp (T.node j) ((T.node j).leaf i) ((T.node j).leaf i).c' p)

/-- the challenges are different where they have to be, and not zero -/
structure BpTree.Distinct {k : ℕ} [Fact q.Prime] (T : BpTree E (ZMod q) k) : Prop where
  y : ∀ j, ((T.node j).y : ZMod q) ≠ 0
  yy : ∀ j j', ((T.node j).y : ZMod q) = ((T.node j').y : ZMod q) → j = j'
  xx : ∀ j i i', ((T.node j).leaf i).x = ((T.node j).leaf i').x → i = i'
  c : ∀ j i, ((T.node j).leaf i).c ≠ 0 ∧ ((T.node j).leaf i).c' ≠ 0 ∧ ((T.node j).leaf i).c ≠ ((T.node j).leaf i).c'
  ip : ∀ j i, ((T.node j).leaf i).t.Good ∧ ((T.node j).leaf i).t'.Good

/-- all elements are legal -/
structure BpTree.Legal {k : ℕ} {params : BPParams E} (T : BpTree E (ZMod q) k) (L : Lawful params.GP q M) : Prop where
  V : L.V T.V
  A : L.V T.A
  S : L.V T.S
  com : ∀ j, L.V (T.node j).T1 ∧ L.V (T.node j).T2
  P : ∀ j i, L.V ((T.node j).leaf i).P
  ip : ∀ j i p, ((T.node j).leaf i).t.Mem p ∨ ((T.node j).leaf i).t'.Mem p → ∀ r ∈ p.rounds, L.V r.1 ∧ L.V r.2.1

theorem verify_ip {pf : BulletProof E} {sha : Bytes → Bytes} {v : Bool} (h : pf.verify sha = some v) :
    ∃ b, pf.InnerProductProof.verify sha = some b := by
  unfold BulletProof.verify at h
  dsimp only at h
  unbind h with hp e1
  unbind h with tp e2
  unbind h with tx e3
  unbind h with dl e4
  unbind h with gp e5
  unbind h with he e6
  unbind h with mu e7
  unbind h with ok e8
  exact ⟨ok, e8⟩

section
variable [Fact q.Prime] {params : BPParams E} (L : Lawful params.GP q M)
include L

variable {k : ℕ} (T : BpTree E (ZMod q) k)

/-- equation (65) at a leaf -/
def BpTree.Eq65 (j : Fin (2 ^ k + 2)) (i : Fin 3) : Prop :=
  (((T.node j).leaf i).Tprime : ZMod q) • L.g + (((T.node j).leaf i).Taux : ZMod q) • L.den params.H =
    ((T.node j).y : ZMod q) ^ 2 • L.den T.V + deltaSpec params.N ((T.node j).y : ZMod q) (T.node j).y • L.g +
      ((T.node j).leaf i).x • L.den (T.node j).T1 + ((T.node j).leaf i).x ^ 2 • L.den (T.node j).T2

/-- equation (67) at a leaf -/
def BpTree.Eq67 (j : Fin (2 ^ k + 2)) (i : Fin 3) : Prop :=
  (((T.node j).leaf i).Mu : ZMod q) • L.den params.H + L.den ((T.node j).leaf i).P =
    L.den T.A + ((T.node j).leaf i).x • L.den T.S - ((T.node j).y : ZMod q) • (L.denV params.Gg).sum +
      msm ((List.zipWith (fun (i : ℕ) m => (((T.node j).y : ZMod q)⁻¹ ^ i) • m) (List.range params.N) (L.denV params.Hh)))
        ((List.range params.N).map (fun i => ((T.node j).y : ZMod q) * (T.node j).y ^ i + ((T.node j).y : ZMod q) ^ 2 * 2 ^ i))

variable (hO : ParamsOK params L k) (Uu : E) (vU : L.V Uu) (hL : T.Legal L) (hd : T.Distinct)
  (hacc : T.Accepted params Uu)
include hO hL hd hacc

/-- the two equations of the verifier at a leaf, and acceptance of the inner-product transcripts -/
theorem BpTree.leaf_eqs (j : Fin (2 ^ k + 2)) :
    ∃ hp, updateGenerators params.GP params.Hh (T.node j).y params.N = some hp ∧ ∀ i,
    (∀ p, (((T.node j).leaf i).t.Mem p → PathAccepted q { Gg := params.Gg, Hh := hp, Uu := Uu, GP := params.GP }
        ((T.node j).leaf i).P ((T.node j).leaf i).Tprime ((T.node j).leaf i).c p) ∧
      (((T.node j).leaf i).t'.Mem p → PathAccepted q { Gg := params.Gg, Hh := hp, Uu := Uu, GP := params.GP }
        ((T.node j).leaf i).P ((T.node j).leaf i).Tprime ((T.node j).leaf i).c' p)) ∧ T.Eq65 L j i ∧ T.Eq67 L j i := by
  obtain ⟨hp, hhp, hok⟩ := hacc j
  refine ⟨hp, hhp, fun i => ?_⟩
  have eqs : ∀ (c : ZMod q) (p : IPPath E (ZMod q)), T.PathOk params Uu hp (T.node j) ((T.node j).leaf i) c p →
      PathAccepted q { Gg := params.Gg, Hh := hp, Uu := Uu, GP := params.GP } ((T.node j).leaf i).P
        ((T.node j).leaf i).Tprime c p ∧ T.Eq65 L j i ∧ T.Eq67 L j i := by
    rintro c p ⟨sha, h1, h2, h3, h4, h5⟩
    have hV : BPValid (T.proof params Uu hp (T.node j) ((T.node j).leaf i) p) L :=
      { V := hL.V, A := hL.A, S := hL.S, T1 := (hL.com j).1, T2 := (hL.com j).2, H := hO.H, Gg := hO.Gg, Hh := hO.Hh,
        P := hL.P j i, lenG := hO.lenG.trans hO.N.symm, lenH := hO.lenH.trans hO.N.symm }
    obtain ⟨b, hb⟩ := verify_ip h5
    obtain ⟨v, hv, hiff⟩ := C20_bp_verify_equations (T.proof params Uu hp (T.node j) ((T.node j).leaf i) p) L hV sha
      ((T.node j).leaf i).Tprime ((T.node j).leaf i).Taux ((T.node j).leaf i).Mu b
      (by change 0 < params.N; rw [hO.N]; positivity) rfl rfl rfl hb ((T.node j).y : ZMod q) ((T.node j).y : ZMod q)
      ((T.node j).leaf i).x (by rw [← h1]; rfl) rfl (by rw [← h2]; rfl) (hd.y j)
    rw [h5] at hv
    obtain ⟨e1, e2, e3⟩ := hiff.mp (Option.some.inj hv).symm
    refine ⟨⟨sha, h3, h4, ?_⟩, e1, e2⟩
    rw [← e3]; exact hb
  obtain ⟨p, hp'⟩ := ((T.node j).leaf i).t.exists_mem
  obtain ⟨_, e1, e2⟩ := eqs _ p ((hok i p).1 hp')
  exact ⟨fun p => ⟨fun h => (eqs _ p ((hok i p).1 h)).1, fun h => (eqs _ p ((hok i p).2 h)).1⟩, e1, e2⟩

include vU

/-- what the inner-product extractor gives at a leaf -/
theorem BpTree.leaf_ip (j : Fin (2 ^ k + 2)) (i : Fin 3) (g h : ℕ → M) (hg : g = fun m => (L.denV params.Gg).getD m 0)
    (hh : h = fun m => (L.denV params.Hh).getD m 0) :
    (∀ w, ((T.node j).leaf i).rel ((T.node j).y : ZMod q) = some w →
      ¬w.Zero (2 ^ k) ∧ w.val (2 ^ k) L.g (L.den params.H) (L.den Uu) g h = 0) ∧
    (((T.node j).leaf i).rel ((T.node j).y : ZMod q) = none →
      (((T.node j).leaf i).ans.comb ((T.node j).y : ZMod q) ((T.node j).y : ZMod q)).val (2 ^ k) L.g (L.den params.H) (L.den Uu) g h =
        L.den T.A + ((T.node j).leaf i).x • L.den T.S ∧
      (((T.node j).leaf i).Tprime : ZMod q) =
        ∑ m ∈ Finset.range (2 ^ k), ((T.node j).leaf i).ans.l m * ((T.node j).leaf i).ans.r m) := by
  obtain ⟨hp, hhp, hall⟩ := T.leaf_eqs L hO Uu hL hd hacc j
  obtain ⟨hpa, _, e67⟩ := hall i
  exact bpLeaf_ip L hO Uu vU ((T.node j).leaf i) (T.node j).y ((T.node j).y : ZMod q) (L.den T.A) (L.den T.S) hhp (hd.y j) (hL.P j i)
    (hd.c j i) (hd.ip j i) (hL.ip j i) hpa e67 g h hg hh

end

/-- **C62** From a tree of accepted range proofs for one commitment `V` and one first move `A`, `S` — `N + 2` different non-zero first
challenges, three different second challenges for each, and for each of those two trees for the inner-product argument — with the
honest inner-product parameters, `BpTree.extract` computes either a non-trivial relation between the generators, or an opening of
`V` to a value which together with the vectors in `A` satisfies `WeakRange`. -/
theorem C62_extract [Fact q.Prime] (params : BPParams E) (L : Lawful params.GP q M) (k : ℕ) (hO : ParamsOK params L k) (Uu : E)
    (vU : L.V Uu) (T : BpTree E (ZMod q) k) (hL : T.Legal L) (hd : T.Distinct) (hacc : T.Accepted params Uu) :
    match T.extract with
    | .opening v γ α aL aR =>
        L.den T.V = v • L.g + γ • L.den params.H ∧ WeakRange (2 ^ k) v aL aR ∧
        L.den T.A = α • L.den params.H + msm (L.denV params.Gg) (firstN (2 ^ k) aL) + msm (L.denV params.Hh) (firstN (2 ^ k) aR)
    | .relation w =>
        (w.1.1 ≠ 0 ∨ w.1.2.1 ≠ 0 ∨ w.1.2.2 ≠ 0 ∨ (∃ i < 2 ^ k, w.2.1 i ≠ 0) ∨ ∃ i < 2 ^ k, w.2.2 i ≠ 0) ∧
        w.1.1 • L.g + w.1.2.1 • L.den params.H + w.1.2.2 • L.den Uu +
          msm (L.denV params.Gg) (firstN (2 ^ k) w.2.1) + msm (L.denV params.Hh) (firstN (2 ^ k) w.2.2) = 0 := by
  have lg : (L.denV params.Gg).length = 2 ^ k := by simp [hO.lenG]
  have lh : (L.denV params.Hh).length = 2 ^ k := by simp [hO.lenH]
  simp only [firstN, msm_firstN _ _ _ lg, msm_firstN _ _ _ lh]
  have hip := fun j i => T.leaf_ip L hO Uu vU hL hd hacc j i (fun m => (L.denV params.Gg).getD m 0)
    (fun m => (L.denV params.Hh).getD m 0) rfl rfl
  have he65 := fun j => (T.leaf_eqs L hO Uu hL hd hacc j)
  have nz : ∀ w : GComb (ZMod q), ¬w.Zero (2 ^ k) →
      (w.1.1 ≠ 0 ∨ w.1.2.1 ≠ 0 ∨ w.1.2.2 ≠ 0 ∨ (∃ i < 2 ^ k, w.2.1 i ≠ 0) ∨ ∃ i < 2 ^ k, w.2.2 i ≠ 0) := by
    intro w hw
    by_contra hcon
    simp only [not_or, not_exists, not_and, not_not] at hcon
    exact hw hcon
  unfold BpTree.extract
  cases hl : T.leafRels.head? with
  | some w =>
    have hmem : w ∈ T.leafRels := List.mem_of_mem_head? hl
    unfold BpTree.leafRels at hmem
    rw [List.mem_flatten] at hmem
    obtain ⟨l, hl1, hl2⟩ := hmem
    rw [List.mem_ofFn] at hl1
    obtain ⟨j, rfl⟩ := hl1
    rw [List.reduceOption_mem_iff, List.mem_ofFn] at hl2
    obtain ⟨i, hi⟩ := hl2
    obtain ⟨h1, h2⟩ := (hip j i).1 w hi
    exact ⟨nz w h1, h2⟩
  | none =>
    have hnone : ∀ j i, ((T.node j).leaf i).rel ((T.node j).y : ZMod q) = none := by
      intro j i
      cases hr : ((T.node j).leaf i).rel ((T.node j).y : ZMod q) with
      | none => rfl
      | some w =>
        exfalso
        have : w ∈ T.leafRels := by
          unfold BpTree.leafRels
          rw [List.mem_flatten]
          refine ⟨_, (List.mem_ofFn).mpr ⟨j, rfl⟩, ?_⟩
          rw [List.reduceOption_mem_iff, List.mem_ofFn]
          exact ⟨i, hr⟩
        rw [List.head?_eq_none_iff] at hl
        rw [hl] at this
        simp at this
    have hcomb := fun j i => ((hip j i).2 (hnone j i)).1
    have htp := fun j i => ((hip j i).2 (hnone j i)).2
    have h65 : ∀ j i, (((T.node j).leaf i).ans.tp) • L.g + ((T.node j).leaf i).ans.tx • L.den params.H =
        ((T.node j).y : ZMod q) ^ 2 • L.den T.V + deltaSpec (2 ^ k) ((T.node j).y : ZMod q) (T.node j).y • L.g +
        ((T.node j).leaf i).ans.x • L.den (T.node j).T1 + ((T.node j).leaf i).ans.x ^ 2 • L.den (T.node j).T2 := by
      intro j i
      obtain ⟨_, _, hall⟩ := he65 j
      have := (hall i).2.1
      unfold BpTree.Eq65 at this
      rw [hO.N] at this
      exact this
    have hvals : ∀ j, ∀ w ∈ nodeRels (2 ^ k) ((T.node 0).y : ZMod q) ((T.node 0).y : ZMod q) (fun i => ((T.node 0).leaf i).ans)
        ((T.node j).y : ZMod q) ((T.node j).y : ZMod q) (fun i => ((T.node j).leaf i).ans), w.val (2 ^ k) L.g (L.den params.H) (L.den Uu)
          (fun m => (L.denV params.Gg).getD m 0) (fun m => (L.denV params.Hh).getD m 0) = 0 := fun j =>
      nodeRels_val (2 ^ k) L.g (L.den params.H) (L.den Uu) _ _ (hd.y 0) (hd.y j) (fun i i' h => hd.xx 0 i i' h)
        (fun i i' h => hd.xx j i i' h) (hcomb 0) (hcomb j) (h65 0) (h65 j)
    dsimp only
    cases hf : T.rels.find? (fun w => !decide (w.Zero (2 ^ k))) with
    | some w =>
      have h1 := List.find?_some hf
      have h2 := List.mem_of_find?_eq_some hf
      simp only [Bool.not_eq_true', decide_eq_false_iff_not] at h1
      unfold BpTree.rels at h2
      rw [List.mem_flatten] at h2
      obtain ⟨l, hl1, hl2⟩ := h2
      rw [List.mem_ofFn] at hl1
      obtain ⟨j, rfl⟩ := hl1
      exact ⟨nz w h1, hvals j w hl2⟩
    | none =>
      have hzero : ∀ j, ∀ w ∈ nodeRels (2 ^ k) ((T.node 0).y : ZMod q) ((T.node 0).y : ZMod q) (fun i => ((T.node 0).leaf i).ans)
          ((T.node j).y : ZMod q) ((T.node j).y : ZMod q) (fun i => ((T.node j).leaf i).ans), w.Zero (2 ^ k) := by
        intro j w hw
        have := List.find?_eq_none.mp hf w (by
          unfold BpTree.rels
          rw [List.mem_flatten]
          exact ⟨_, (List.mem_ofFn).mpr ⟨j, rfl⟩, hw⟩)
        simpa using this
      dsimp only
      refine ⟨?_, ?_, ?_⟩
      · exact (openV_val (2 ^ k) L.g (L.den params.H) (hd.y 0) (fun i i' h => hd.xx 0 i i' h) (h65 0)).symm
      · exact weakRange_of_eval (by positivity) (by simp) (fun j => ((T.node j).y : ZMod q)) (fun j j' h => hd.yy j j' h)
          fun j => (weakPoly_eval _ _ _ _ _).trans <| node_eval (hd.y j) (hd.y j) (fun i i' h => hd.xx j i i' h) (hzero j) (htp j)
      · have := combA_val (2 ^ k) L.g (L.den params.H) (L.den Uu) (fun m => (L.denV params.Gg).getD m 0)
          (fun m => (L.denV params.Hh).getD m 0) (fun h => absurd (hd.xx 0 0 1 h) (by decide)) (hcomb 0 0) (hcomb 0 1)
        rw [← this]
        simp [GComb.val, combA, BpAns.comb]

end MscPoc
