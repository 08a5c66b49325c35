import Mathlib.Data.List.ReduceOption
import Verif.Lemmas.BpSoundC
import Verif.Props.BpTight
import Verif.Props.BpRepaired

/-!
# C80 — with all repairs, a range proof proves the range
-/

set_option autoImplicit false

namespace MscPoc

variable {E M : Type} {q : ℕ} [AddCommGroup M] [Module (ZMod q) M]

/-- the proof object for a transcript: the tree's commitment and first move, the answers at a leaf and one transcript of the
inner-product argument, with any inner-product parameters `ip` and claim `Cc` -/
def BpTreeC.proof {k : ℕ} (T : BpTreeC E (ZMod q) k) (params : BPParams E) (ip : IPParams E) (Cc : Int) (nd : BpNodeC E (ZMod q) k)
    (lf : BpLeaf E (ZMod q) k) (p : IPPath E (ZMod q)) : BulletProof E where
  V := T.V
  A := T.A
  S := T.S
  T1 := nd.T1
  T2 := nd.T2
  Taux := some lf.Taux
  Mu := some lf.Mu
  Tprime := some lf.Tprime
  InnerProductProof := p.proof ip lf.P Cc
  Params := params

/-- a transcript is accepted by the repaired verifier under some challenges that are those of the transcript -/
def BpTreeC.PathOk {k : ℕ} (T : BpTreeC E (ZMod q) k) (params : BPParams E) (nd : BpNodeC E (ZMod q) k)
    (lf : BpLeaf E (ZMod q) k) (c : ZMod q) (p : IPPath E (ZMod q)) : Prop :=
  ∃ (ch : Challenges E) (sha : Bytes → Bytes) (ip : IPParams E) (Cc : Int),
    ch.y T.A T.S = nd.y ∧ ch.z T.A T.S = nd.z ∧ (ch.x nd.T1 nd.T2 : ZMod q) = lf.x ∧
    (ippChallenge sha ip.GP ip.Gg ip.Hh lf.P Cc : ZMod q) = c ∧
    (∀ r ∈ p.rounds, (roundChallenge sha ip.GP r.1 r.2.1 : ZMod q) = r.2.2) ∧
    (T.proof params ip Cc nd lf p).AcceptedC ch sha

/-- all transcripts of the tree are accepted -/
def BpTreeC.Accepted {k : ℕ} (T : BpTreeC E (ZMod q) k) (params : BPParams E) : Prop :=
  ∀ j l i p, (((T.node j l).leaf i).t.Mem p → T.PathOk params (T.node j l) ((T.node j l).leaf i) ((T.node j l).leaf i).c p) ∧
    (((T.node j l).leaf i).t'.Mem p → T.PathOk params (T.node j l) ((T.node j l).leaf i) ((T.node j l).leaf i).c' p)

/-- the challenges are different where they have to be, and not zero: `N` challenges `y`, three challenges `z` for each, three
challenges `x` for each of those, and so on -/
structure BpTreeC.Distinct {k : ℕ} [Fact q.Prime] (T : BpTreeC E (ZMod q) k) : Prop where
  y : ∀ j l, ((T.node j l).y : ZMod q) ≠ 0
  z : ∀ j l, ((T.node j l).z : ZMod q) ≠ 0
  same : ∀ j l, ((T.node j l).y : ZMod q) = (T.node j 0).y
  yy : ∀ j j', ((T.node j 0).y : ZMod q) = ((T.node j' 0).y : ZMod q) → j = j'
  zz : ∀ j l l', ((T.node j l).z : ZMod q) = ((T.node j l').z : ZMod q) → l = l'
  xx : ∀ j l i i', ((T.node j l).leaf i).x = ((T.node j l).leaf i').x → i = i'
  c : ∀ j l i, ((T.node j l).leaf i).c ≠ 0 ∧ ((T.node j l).leaf i).c' ≠ 0 ∧ ((T.node j l).leaf i).c ≠ ((T.node j l).leaf i).c'
  ip : ∀ j l i, ((T.node j l).leaf i).t.Good ∧ ((T.node j l).leaf i).t'.Good

/-- all elements are legal -/
structure BpTreeC.Legal {k : ℕ} {params : BPParams E} (T : BpTreeC E (ZMod q) k) (L : Lawful params.GP q M) : Prop where
  V : L.V T.V
  A : L.V T.A
  S : L.V T.S
  com : ∀ j l, L.V (T.node j l).T1 ∧ L.V (T.node j l).T2
  P : ∀ j l i, L.V ((T.node j l).leaf i).P
  ip : ∀ j l i p, ((T.node j l).leaf i).t.Mem p ∨ ((T.node j l).leaf i).t'.Mem p → ∀ r ∈ p.rounds, L.V r.1 ∧ L.V r.2.1

section
variable [Fact q.Prime] {params : BPParams E} (L : Lawful params.GP q M) {k : ℕ} (T : BpTreeC E (ZMod q) k)
  (hO : ParamsOK params L k) (Uu : E) (hU : params.GP.mapToGroup SEEDU = some Uu) (hL : T.Legal L)
  (hacc : T.Accepted params)
include hO hU hL

theorem BpTreeC.path_eqs (j : Fin (2 ^ k)) (l i : Fin 3) (c : ZMod q) (p : IPPath E (ZMod q))
    (h : T.PathOk params (T.node j l) ((T.node j l).leaf i) c p) :
    ∃ hp, updateGenerators params.GP params.Hh (T.node j l).y params.N = some hp ∧
      PathAccepted q { Gg := params.Gg, Hh := hp, Uu := Uu, GP := params.GP } ((T.node j l).leaf i).P
        ((T.node j l).leaf i).Tprime c p ∧
      ((((T.node j l).leaf i).Tprime : ZMod q) • L.g + (((T.node j l).leaf i).Taux : ZMod q) • L.den params.H =
        ((T.node j l).z : ZMod q) ^ 2 • L.den T.V + deltaSpec params.N ((T.node j l).y : ZMod q) (T.node j l).z • L.g +
          ((T.node j l).leaf i).x • L.den (T.node j l).T1 + ((T.node j l).leaf i).x ^ 2 • L.den (T.node j l).T2) ∧
      ((((T.node j l).leaf i).Mu : ZMod q) • L.den params.H + L.den ((T.node j l).leaf i).P =
        L.den T.A + ((T.node j l).leaf i).x • L.den T.S - ((T.node j l).z : ZMod q) • (L.denV params.Gg).sum +
          msm ((List.zipWith (fun (i : ℕ) m => (((T.node j l).y : ZMod q)⁻¹ ^ i) • m) (List.range params.N) (L.denV params.Hh)))
            ((List.range params.N).map (fun i => ((T.node j l).z : ZMod q) * (T.node j l).y ^ i +
              ((T.node j l).z : ZMod q) ^ 2 * 2 ^ i))) := by
  obtain ⟨ch, sha, ip, Cc, h1, h2, h3, h4, h5, ⟨k1, k2, k3, k4, k5⟩, h7⟩ := h
  have hV : BPValid (T.proof params ip Cc (T.node j l) ((T.node j l).leaf i) p) L :=
    { V := hL.V, A := hL.A, S := hL.S, T1 := (hL.com j l).1, T2 := (hL.com j l).2, H := hO.H, Gg := hO.Gg, Hh := hO.Hh,
      P := hL.P j l i, lenG := hO.lenG.trans hO.N.symm, lenH := hO.lenH.trans hO.N.symm }
  obtain ⟨e1, e2, e3⟩ := verifyC_true (T.proof params ip Cc (T.node j l) ((T.node j l).leaf i) p) L hV ch sha
    ((T.node j l).leaf i).Tprime ((T.node j l).leaf i).Taux ((T.node j l).leaf i).Mu rfl rfl rfl ((T.node j l).y : ZMod q)
    ((T.node j l).z : ZMod q) ((T.node j l).leaf i).x (by rw [← h1]; rfl) (by rw [← h2]; rfl) (by rw [← h3]; rfl) h7
  change some ip.Hh = updateGenerators params.GP params.Hh (ch.y T.A T.S) params.N at k4
  change some ip.Uu = params.GP.mapToGroup SEEDU at k5
  change ip.GP = params.GP at k2
  change ip.Gg = params.Gg at k3
  have k1 : Cc = ((T.node j l).leaf i).Tprime := Option.some.inj k1
  rw [hU] at k5
  rw [h1] at k4
  refine ⟨ip.Hh, k4.symm, ?_, e1, e2⟩
  have hip : ip = { Gg := params.Gg, Hh := ip.Hh, Uu := Uu, GP := params.GP } := by
    rw [← Option.some.inj k5, ← k2, ← k3]
  rw [← hip]
  exact ⟨sha, k1 ▸ h4, h5, k1 ▸ e3⟩

include hacc

theorem BpTreeC.leaf_eqs (j : Fin (2 ^ k)) (l : Fin 3) :
    ∃ hp, updateGenerators params.GP params.Hh (T.node j l).y params.N = some hp ∧ ∀ i,
    (∀ p, (((T.node j l).leaf i).t.Mem p → PathAccepted q { Gg := params.Gg, Hh := hp, Uu := Uu, GP := params.GP }
        ((T.node j l).leaf i).P ((T.node j l).leaf i).Tprime ((T.node j l).leaf i).c p) ∧
      (((T.node j l).leaf i).t'.Mem p → PathAccepted q { Gg := params.Gg, Hh := hp, Uu := Uu, GP := params.GP }
        ((T.node j l).leaf i).P ((T.node j l).leaf i).Tprime ((T.node j l).leaf i).c' p)) ∧
      ((((T.node j l).leaf i).Tprime : ZMod q) • L.g + (((T.node j l).leaf i).Taux : ZMod q) • L.den params.H =
        ((T.node j l).z : ZMod q) ^ 2 • L.den T.V + deltaSpec params.N ((T.node j l).y : ZMod q) (T.node j l).z • L.g +
          ((T.node j l).leaf i).x • L.den (T.node j l).T1 + ((T.node j l).leaf i).x ^ 2 • L.den (T.node j l).T2) ∧
      ((((T.node j l).leaf i).Mu : ZMod q) • L.den params.H + L.den ((T.node j l).leaf i).P =
        L.den T.A + ((T.node j l).leaf i).x • L.den T.S - ((T.node j l).z : ZMod q) • (L.denV params.Gg).sum +
          msm ((List.zipWith (fun (i : ℕ) m => (((T.node j l).y : ZMod q)⁻¹ ^ i) • m) (List.range params.N) (L.denV params.Hh)))
            ((List.range params.N).map (fun i => ((T.node j l).z : ZMod q) * (T.node j l).y ^ i +
              ((T.node j l).z : ZMod q) ^ 2 * 2 ^ i))) := by
  have some_path : ∀ i, ∃ c p, T.PathOk params (T.node j l) ((T.node j l).leaf i) c p := fun i => by
    obtain ⟨p, hp'⟩ := ((T.node j l).leaf i).t.exists_mem
    exact ⟨_, p, (hacc j l i p).1 hp'⟩
  obtain ⟨c, p, h0⟩ := some_path 0
  obtain ⟨hp, hhp, _⟩ := T.path_eqs L hO Uu hU hL j l 0 c p h0
  have go : ∀ i c p, T.PathOk params (T.node j l) ((T.node j l).leaf i) c p →
      PathAccepted q { Gg := params.Gg, Hh := hp, Uu := Uu, GP := params.GP } ((T.node j l).leaf i).P
        ((T.node j l).leaf i).Tprime c p := by
    intro i c p h
    obtain ⟨hp', hhp', h', _⟩ := T.path_eqs L hO Uu hU hL j l i c p h
    rw [hhp] at hhp'
    rw [Option.some.inj hhp']
    exact h'
  refine ⟨hp, hhp, fun i => ⟨fun p => ⟨fun h => go i _ p ((hacc j l i p).1 h), fun h => go i _ p ((hacc j l i p).2 h)⟩, ?_⟩⟩
  obtain ⟨c, p, h⟩ := some_path i
  obtain ⟨_, _, _, e⟩ := T.path_eqs L hO Uu hU hL j l i c p h
  exact e

end

/-- **C80** From a tree of range proofs for one commitment `V` and one first move `A`, `S` that the repaired verifier accepts — `N`
different first challenges `y`, with three different `z` for each, three different `x` for each of those, and for each of those two
trees for the inner-product argument — `BpTreeC.extract` computes either a non-trivial relation between the generators, or an
opening of `V` to the number whose bits are in `A`.  How challenges are derived does not matter. -/
theorem C80_extract [Fact q.Prime] (params : BPParams E) (L : Lawful params.GP q M) (k : ℕ) (hO : ParamsOK params L k) (Uu : E)
    (hU : params.GP.mapToGroup SEEDU = some Uu) (T : BpTreeC E (ZMod q) k) (hL : T.Legal L) (hd : T.Distinct)
    (hacc : T.Accepted params) :
    match T.extract with
    | .opening v γ α aL aR =>
        L.den T.V = v • L.g + γ • L.den params.H ∧ Bits (2 ^ k) v aL aR ∧
        L.den T.A = α • L.den params.H + msm (L.denV params.Gg) (firstN (2 ^ k) aL) + msm (L.denV params.Hh) (firstN (2 ^ k) aR)
    | .relation w =>
        (w.1.1 ≠ 0 ∨ w.1.2.1 ≠ 0 ∨ w.1.2.2 ≠ 0 ∨ (∃ i < 2 ^ k, w.2.1 i ≠ 0) ∨ ∃ i < 2 ^ k, w.2.2 i ≠ 0) ∧
        w.1.1 • L.g + w.1.2.1 • L.den params.H + w.1.2.2 • L.den Uu +
          msm (L.denV params.Gg) (firstN (2 ^ k) w.2.1) + msm (L.denV params.Hh) (firstN (2 ^ k) w.2.2) = 0 := by
  have lg : (L.denV params.Gg).length = 2 ^ k := by simp [hO.lenG]
  have lh : (L.denV params.Hh).length = 2 ^ k := by simp [hO.lenH]
  simp only [firstN, msm_firstN _ _ _ lg, msm_firstN _ _ _ lh]
  have heq := T.leaf_eqs L hO Uu hU hL hacc
  have hip := fun j l i =>
    bpLeaf_ip L hO Uu (hO.U _ hU) ((T.node j l).leaf i) (T.node j l).y ((T.node j l).z : ZMod q) (L.den T.A) (L.den T.S)
      (heq j l).choose_spec.1 (hd.y j l) (hL.P j l i) (hd.c j l i) (hd.ip j l i) (hL.ip j l i) ((heq j l).choose_spec.2 i).1
      ((heq j l).choose_spec.2 i).2.2 (fun m => (L.denV params.Gg).getD m 0) (fun m => (L.denV params.Hh).getD m 0) rfl rfl
  have nz : ∀ w : GComb (ZMod q), ¬w.Zero (2 ^ k) →
      (w.1.1 ≠ 0 ∨ w.1.2.1 ≠ 0 ∨ w.1.2.2 ≠ 0 ∨ (∃ i < 2 ^ k, w.2.1 i ≠ 0) ∨ ∃ i < 2 ^ k, w.2.2 i ≠ 0) := by
    intro w hw
    by_contra hcon
    simp only [not_or, not_exists, not_and, not_not] at hcon
    exact hw hcon
  unfold BpTreeC.extract
  cases hl : T.leafRels.head? with
  | some w =>
    have hmem : w ∈ T.leafRels := List.mem_of_mem_head? hl
    unfold BpTreeC.leafRels at hmem
    rw [List.mem_flatten] at hmem
    obtain ⟨l₁, hl1, hl2⟩ := hmem
    rw [List.mem_ofFn] at hl1
    obtain ⟨j, rfl⟩ := hl1
    rw [List.mem_flatten] at hl2
    obtain ⟨l₂, hl1, hl2⟩ := hl2
    rw [List.mem_ofFn] at hl1
    obtain ⟨l, rfl⟩ := hl1
    rw [List.reduceOption_mem_iff, List.mem_ofFn] at hl2
    obtain ⟨i, hi⟩ := hl2
    obtain ⟨h1, h2⟩ := (hip j l i).1 w hi
    exact ⟨nz w h1, h2⟩
  | none =>
    have hnone : ∀ j l i, ((T.node j l).leaf i).rel ((T.node j l).y : ZMod q) = none := by
      intro j l i
      cases hr : ((T.node j l).leaf i).rel ((T.node j l).y : ZMod q) with
      | none => rfl
      | some w =>
        exfalso
        have : w ∈ T.leafRels := by
          unfold BpTreeC.leafRels
          rw [List.mem_flatten]
          refine ⟨_, (List.mem_ofFn).mpr ⟨j, rfl⟩, ?_⟩
          rw [List.mem_flatten]
          refine ⟨_, (List.mem_ofFn).mpr ⟨l, rfl⟩, ?_⟩
          rw [List.reduceOption_mem_iff, List.mem_ofFn]
          exact ⟨i, hr⟩
        rw [List.head?_eq_none_iff] at hl
        rw [hl] at this
        simp at this
    have hcomb := fun j l i => ((hip j l i).2 (hnone j l i)).1
    have htp := fun j l i => ((hip j l i).2 (hnone j l i)).2
    have h65 : ∀ j l i, (((T.node j l).leaf i).ans.tp) • L.g + ((T.node j l).leaf i).ans.tx • L.den params.H =
        ((T.node j l).z : ZMod q) ^ 2 • L.den T.V + deltaSpec (2 ^ k) ((T.node j l).y : ZMod q) (T.node j l).z • L.g +
        ((T.node j l).leaf i).ans.x • L.den (T.node j l).T1 + ((T.node j l).leaf i).ans.x ^ 2 • L.den (T.node j l).T2 := by
      intro j l i
      obtain ⟨_, _, hall⟩ := heq j l
      have := (hall i).2.1
      rw [hO.N] at this
      exact this
    have hvals : ∀ j l, ∀ w ∈ nodeRels (2 ^ k) ((T.node 0 0).y : ZMod q) ((T.node 0 0).z : ZMod q)
        (fun i => ((T.node 0 0).leaf i).ans) ((T.node j l).y : ZMod q) ((T.node j l).z : ZMod q)
        (fun i => ((T.node j l).leaf i).ans), w.val (2 ^ k) L.g (L.den params.H) (L.den Uu)
          (fun m => (L.denV params.Gg).getD m 0) (fun m => (L.denV params.Hh).getD m 0) = 0 := fun j l =>
      nodeRels_val (2 ^ k) L.g (L.den params.H) (L.den Uu) _ _ (hd.z 0 0) (hd.z j l) (fun i i' h => hd.xx 0 0 i i' h)
        (fun i i' h => hd.xx j l i i' h) (hcomb 0 0) (hcomb j l) (h65 0 0) (h65 j l)
    have hmem : ∀ w, w ∈ T.rels ↔ ∃ j l, w ∈ nodeRels (2 ^ k) ((T.node 0 0).y : ZMod q) ((T.node 0 0).z : ZMod q)
        (fun i => ((T.node 0 0).leaf i).ans) ((T.node j l).y : ZMod q) ((T.node j l).z : ZMod q)
        (fun i => ((T.node j l).leaf i).ans) := by
      intro w
      unfold BpTreeC.rels
      simp only [List.mem_flatten, List.mem_ofFn]
      constructor
      · rintro ⟨_, ⟨j, rfl⟩, h⟩
        rw [List.mem_flatten] at h
        obtain ⟨_, h1, h2⟩ := h
        rw [List.mem_ofFn] at h1
        obtain ⟨l, rfl⟩ := h1
        exact ⟨j, l, h2⟩
      · rintro ⟨j, l, h⟩
        exact ⟨_, ⟨j, rfl⟩, List.mem_flatten.mpr ⟨_, List.mem_ofFn.mpr ⟨l, rfl⟩, h⟩⟩
    dsimp only
    cases hf : T.rels.find? (fun w => !decide (w.Zero (2 ^ k))) with
    | some w =>
      have h1 := List.find?_some hf
      have h2 := List.mem_of_find?_eq_some hf
      simp only [Bool.not_eq_true', decide_eq_false_iff_not] at h1
      obtain ⟨j, l, h2⟩ := (hmem w).mp h2
      exact ⟨nz w h1, hvals j l w h2⟩
    | none =>
      have hzero : ∀ j l, ∀ w ∈ nodeRels (2 ^ k) ((T.node 0 0).y : ZMod q) ((T.node 0 0).z : ZMod q)
          (fun i => ((T.node 0 0).leaf i).ans) ((T.node j l).y : ZMod q) ((T.node j l).z : ZMod q)
          (fun i => ((T.node j l).leaf i).ans), w.Zero (2 ^ k) := by
        intro j l w hw
        simpa using List.find?_eq_none.mp hf w ((hmem w).mpr ⟨j, l, hw⟩)
      dsimp only
      refine ⟨?_, ?_, ?_⟩
      · exact (openV_val (2 ^ k) L.g (L.den params.H) (hd.z 0 0) (fun i i' h => hd.xx 0 0 i i' h) (h65 0 0)).symm
      · refine bits_of_nodes (by positivity) (fun j => ((T.node j 0).y : ZMod q)) (fun j j' h => hd.yy j j' h)
          (fun j l => ((T.node j l).z : ZMod q)) (fun j l l' h => hd.zz j l l' h) fun j l => ?_
        have := node_eval (hd.y j l) (hd.z j l) (fun i i' h => hd.xx j l i i' h) (hzero j l) (htp j l)
        rw [hd.same j l] at this
        exact this
      · have := combA_val (2 ^ k) L.g (L.den params.H) (L.den Uu) (fun m => (L.denV params.Gg).getD m 0)
          (fun m => (L.denV params.Hh).getD m 0) (fun h => absurd (hd.xx 0 0 0 1 h) (by decide)) (hcomb 0 0 0) (hcomb 0 0 1)
        rw [← this]
        simp [GComb.val, combA, BpAns.comb]

/-- **C80** In particular: `V` opens to a number below `2^N`, or there is a relation between the generators. -/
theorem C80_range [Fact q.Prime] (params : BPParams E) (L : Lawful params.GP q M) (k : ℕ) (hO : ParamsOK params L k) (Uu : E)
    (hU : params.GP.mapToGroup SEEDU = some Uu) (T : BpTreeC E (ZMod q) k) (hL : T.Legal L) (hd : T.Distinct)
    (hacc : T.Accepted params) :
    (∃ (u : ℕ) (γ : ZMod q), u < 2 ^ params.N ∧ L.den T.V = (u : ZMod q) • L.g + γ • L.den params.H) ∨
    ∃ (a b c : ZMod q) (g h : List (ZMod q)), g.length = params.N ∧ h.length = params.N ∧
      (a ≠ 0 ∨ b ≠ 0 ∨ c ≠ 0 ∨ (∃ s ∈ g, s ≠ 0) ∨ ∃ s ∈ h, s ≠ 0) ∧
      a • L.g + b • L.den params.H + c • L.den Uu + msm (L.denV params.Gg) g + msm (L.denV params.Hh) h = 0 := by
  have h := C80_extract params L k hO Uu hU T hL hd hacc
  cases he : T.extract with
  | opening v γ α aL aR =>
    rw [he] at h
    obtain ⟨h1, h2, _⟩ := h
    obtain ⟨u, hu, rfl⟩ := h2.nat
    exact .inl ⟨u, γ, by rw [hO.N]; exact hu, h1⟩
  | relation w =>
    rw [he] at h
    obtain ⟨h1, h2⟩ := h
    refine .inr ⟨w.1.1, w.1.2.1, w.1.2.2, _, _, by simp [firstN, hO.N], by simp [firstN, hO.N], ?_, h2⟩
    simp only [firstN, List.mem_map, List.mem_range]
    rcases h1 with h | h | h | ⟨i, hi, h⟩ | ⟨i, hi, h⟩
    · exact .inl h
    · exact .inr (.inl h)
    · exact .inr (.inr (.inl h))
    · exact .inr (.inr (.inr (.inl ⟨_, ⟨i, hi, rfl⟩, h⟩)))
    · exact .inr (.inr (.inr (.inr ⟨_, ⟨i, hi, rfl⟩, h⟩)))

/-- **C80** For the program's own challenges there are no such trees, since `z = y`. -/
theorem C80_not_program [Fact q.Prime] (GP : Grp E) (k : ℕ) (T : BpTreeC E (ZMod q) k) (hd : T.Distinct) :
    ¬∀ j l, ∃ sha, (programChallenges sha GP).y T.A T.S = (T.node j l).y ∧ (programChallenges sha GP).z T.A T.S = (T.node j l).z := by
  intro h
  have hz : ∀ l, (T.node 0 l).z = (T.node 0 l).y := fun l => by
    obtain ⟨sha, h1, h2⟩ := h 0 l
    rw [← h1, ← h2]
    rfl
  have := hd.zz 0 0 1 (by rw [hz, hz, hd.same 0 1])
  exact absurd this (by decide)

/-- **C80** For the parameters that `setup` makes on each of the four curves: `V` opens to a number below 65536, or there is a
relation between the 35 generators. -/
theorem C80_deployed {E : Type} (nan64 : BitVec 64) (C : Grp E)
    (N bits : ℕ) (Bb : Int) (hr : (N, bits, Bb) ∈ curveTable) [Fact N.Prime] {M : Type} [AddCommGroup M] [Module (ZMod N) M]
    (L₂ : Lawful C N M) (hmap : ∀ s, SetupSeed 16 s → ∃ e, C.mapToGroup s = some e ∧ L₂.V e) :
    ∃ (D : Election Int E) (L : Lawful D.EC N M), setup nan64 C = some (.ok D.pp) ∧
      ∃ Uu, D.EC.mapToGroup SEEDU = some Uu ∧
      ∀ T : BpTreeC E (ZMod N) 4, BpTreeC.Legal (params := D.pp.BPParams) T L → T.Distinct → T.Accepted D.pp.BPParams →
      (∃ (u : ℕ) (γ : ZMod N), u < 65536 ∧ L.den T.V = (u : ZMod N) • L.g + γ • L.den D.pp.BPParams.H) ∨
      ∃ (a b c : ZMod N) (g h : List (ZMod N)), g.length = 16 ∧ h.length = 16 ∧
        (a ≠ 0 ∨ b ≠ 0 ∨ c ≠ 0 ∨ (∃ s ∈ g, s ≠ 0) ∨ ∃ s ∈ h, s ≠ 0) ∧
        a • L.g + b • L.den D.pp.BPParams.H + c • L.den Uu + msm (L.denV D.pp.BPParams.Gg) g +
          msm (L.denV D.pp.BPParams.Hh) h = 0 := by
  obtain ⟨D, L₁, L, hD, dep, ok⟩ := C47_legal nan64 C N bits Bb hr L₂ hmap
  obtain ⟨Uu, hU, _⟩ := hmap SEEDU (.inr (.inl rfl))
  rw [← dep.EC] at hU
  refine ⟨D, L, hD, Uu, hU, fun T hL hd hacc => ?_⟩
  have hN : D.bp.N = 16 := ok.bp.N
  have := C80_range D.bp L 4 ok.bp Uu hU T hL hd hacc
  rw [hN] at this
  exact this

/-! ## Concrete trees

Two bits.  All 144 transcripts of a tree come from the honest prover. -/

/-- parameters, random numbers, commitment and vectors of the honest prover; strings longer than `cut` are hashed for the first step of
the inner-product argument only -/
structure HonestC where
  params : BPParams Int
  rnd : BPRand
  V : Int
  aL : List Int
  aR : List Int
  cut : Nat

def exChC (y z x : Nat) : Challenges Int := { y := fun _ _ => y, z := fun _ _ => z, x := fun _ _ => x }

namespace HonestC
variable (q : ℕ) (H : HonestC)

def sha (c r : Nat) : Bytes → Bytes := fun b => if H.cut < b.length then [UInt8.ofNat c] else [UInt8.ofNat r]
def pf (y z x c r : Nat) : Option (BulletProof Int) :=
  match proveC (exChC y z x) (H.sha c r) H.params H.rnd 0 (fun _ _ => H.V) H.aL H.aR with
  | some (.ok pf) => some pf
  | _ => none
def ipt (y z x c : Nat) : IPTree Int (ZMod q) 1 :=
  .node (((H.pf y z x c 2).map fun p => p.InnerProductProof.L.headD 0).getD 0)
    (((H.pf y z x c 2).map fun p => p.InnerProductProof.R.headD 0).getD 0)
    ![2, 3, 4, 5] (fun i => .leaf (((H.pf y z x c (i + 2)).bind fun p => p.InnerProductProof.A).getD 0)
      (((H.pf y z x c (i + 2)).bind fun p => p.InnerProductProof.B).getD 0))
def leaf (y z x : Nat) : BpLeaf Int (ZMod q) 1 :=
  let o := H.pf y z x 6 2
  { x := x, Tprime := (o.bind (·.Tprime)).getD 0, Taux := (o.bind (·.Taux)).getD 0, Mu := (o.bind (·.Mu)).getD 0
    P := (o.map (·.InnerProductProof.P)).getD 0, c := 6, c' := 11, t := H.ipt q y z x 6, t' := H.ipt q y z x 11 }
def tree : BpTreeC Int (ZMod q) 1 where
  V := H.V
  A := ((H.pf 2 3 7 6 2).map (·.A)).getD 0
  S := ((H.pf 2 3 7 6 2).map (·.S)).getD 0
  node j l := { y := (j : Nat) + 2, z := (l : Nat) + 3, T1 := ((H.pf (j + 2) (l + 3) 7 6 2).map (·.T1)).getD 0,
                T2 := ((H.pf (j + 2) (l + 3) 7 6 2).map (·.T2)).getD 0, leaf := fun i => H.leaf q (j + 2) (l + 3) (i + 7) }

def path (j : Fin 2) (l i : Fin 3) (c : Nat) (m : Fin 4) : IPPath Int (ZMod q) :=
  { rounds := [((((H.pf (j + 2) (l + 3) (i + 7) c 2).map fun p => p.InnerProductProof.L.headD 0)).getD 0,
      (((H.pf (j + 2) (l + 3) (i + 7) c 2).map fun p => p.InnerProductProof.R.headD 0)).getD 0, ![2, 3, 4, 5] m)]
    A := ((H.pf (j + 2) (l + 3) (i + 7) c (m + 2)).bind fun p => p.InnerProductProof.A).getD 0
    B := ((H.pf (j + 2) (l + 3) (i + 7) c (m + 2)).bind fun p => p.InnerProductProof.B).getD 0 }

theorem ipt_mem (j : Fin 2) (l i : Fin 3) (c : Nat) (p : IPPath Int (ZMod q))
    (h : (H.ipt q (j + 2) (l + 3) (i + 7) c).Mem p) : ∃ m, p = H.path q j l i c m := by
  obtain ⟨m, t, ht, rfl⟩ := h
  rw [show t = _ from ht]
  exact ⟨m, rfl⟩

def ip (j : Fin 2) : IPParams Int :=
  { Gg := H.params.Gg, Hh := (updateGenerators H.params.GP H.params.Hh ((j : Nat) + 2 : Nat) H.params.N).getD [],
    Uu := (H.params.GP.mapToGroup SEEDU).getD 0, GP := H.params.GP }

/-- acceptance of one transcript -/
def check (j : Fin 2) (l i : Fin 3) (c : Nat) (m : Fin 4) : Bool :=
  let sha := H.sha c (m + 2)
  let nd := (H.tree q).node j l
  let lf := nd.leaf i
  let p := H.path q j l i c m
  decide ((ippChallenge sha H.params.GP (H.ip j).Gg (H.ip j).Hh lf.P lf.Tprime : ZMod q) = c) &&
    decide (∀ r ∈ p.rounds, (roundChallenge sha H.params.GP r.1 r.2.1 : ZMod q) = r.2.2) &&
    decide (((H.tree q).proof H.params (H.ip j) lf.Tprime nd lf p).verifyC (exChC (j + 2) (l + 3) (i + 7)) sha = some true)

/-- acceptance of all -/
def checks : Prop := (∀ j l i m, H.check q j l i 6 m = true ∧ H.check q j l i 11 m = true) ∧
  (∀ j : Fin 2, (updateGenerators H.params.GP H.params.Hh ((j : Nat) + 2 : Nat) H.params.N).isSome = true) ∧
  (H.params.GP.mapToGroup SEEDU).isSome = true

instance : Decidable (H.checks q) := by unfold checks; infer_instance

theorem check_spec (hc : H.checks q) {j : Fin 2} {l i : Fin 3} {c : Nat} {m : Fin 4} (h : H.check q j l i c m = true) :
    (H.tree q).PathOk H.params ((H.tree q).node j l) (((H.tree q).node j l).leaf i) c (H.path q j l i c m) := by
  unfold check at h
  simp only [Bool.and_eq_true, decide_eq_true_eq] at h
  obtain ⟨⟨h1, h2⟩, h3⟩ := h
  refine ⟨exChC (j + 2) (l + 3) (i + 7), H.sha c (m + 2), H.ip j, (((H.tree q).node j l).leaf i).Tprime, rfl, rfl, ?_, h1, h2,
    ⟨rfl, rfl, rfl, ?_, ?_⟩, h3⟩
  · change (((i : Nat) + 7 : Nat) : Int) = (((i : Nat) + 7 : Nat) : ZMod q)
    rw [Int.cast_natCast]
  · change some (H.ip j).Hh = updateGenerators H.params.GP H.params.Hh ((j : Nat) + 2 : Nat) H.params.N
    unfold ip
    obtain ⟨x, hx⟩ := Option.isSome_iff_exists.mp (hc.2.1 j)
    rw [hx]
    rfl
  · change some (H.ip j).Uu = H.params.GP.mapToGroup SEEDU
    unfold ip
    obtain ⟨x, hx⟩ := Option.isSome_iff_exists.mp hc.2.2
    rw [hx]
    rfl

theorem accepted (hc : H.checks q) : (H.tree q).Accepted H.params := by
  intro j l i p
  refine ⟨fun h => ?_, fun h => ?_⟩
  · obtain ⟨m, rfl⟩ := H.ipt_mem q j l i 6 p h
    exact H.check_spec q hc (hc.1 j l i m).1
  · obtain ⟨m, rfl⟩ := H.ipt_mem q j l i 11 p h
    exact H.check_spec q hc (hc.1 j l i m).2

end HonestC

def exHonestC : HonestC :=
  { params := exB1, rnd := exR1, V := pedersenCommit (toyGrp 101) 2 17 7, aL := [0, 1], aR := [-1, 0], cut := 5 }

/-- C80: a tree that meets all hypotheses; the extractor returns the opening 2, 17 with the bits of 2. -/
example : (exHonestC.tree 101).Distinct ∧ (exHonestC.tree 101).Accepted exB1 ∧
    (exHonestC.tree 101).Legal (params := exB1) (toyLawful 101) ∧
    ParamsOK exB1 (toyLawful 101) 1 ∧ (exB1.GP.mapToGroup SEEDU).isSome ∧
    (match (exHonestC.tree 101).extract with
     | .opening v γ α aL aR => v == 2 && γ == 17 && α == 5 && firstN 2 aL == [0, 1] && firstN 2 aR == [-1, 0]
     | .relation _ => false) = true := by
  refine ⟨⟨by decide +kernel, by decide +kernel, by decide +kernel, by decide +kernel, by decide +kernel, by decide +kernel,
    by decide +kernel, fun j l i => ⟨⟨by decide, by decide, fun _ => trivial⟩, ⟨by decide, by decide, fun _ => trivial⟩⟩⟩,
    exHonestC.accepted 101 (by decide +kernel), ?_, exB1_ok, by decide +kernel, by decide +kernel⟩
  have key : ∀ j l i m, (∀ r ∈ (exHonestC.path 101 j l i 6 m).rounds, (toyLawful 101).V r.1 ∧ (toyLawful 101).V r.2.1) ∧
      ∀ r ∈ (exHonestC.path 101 j l i 11 m).rounds, (toyLawful 101).V r.1 ∧ (toyLawful 101).V r.2.1 := by
    unfold toyLawful; decide +kernel
  refine ⟨by unfold toyLawful; decide +kernel, by unfold toyLawful; decide +kernel, by unfold toyLawful; decide +kernel,
    by unfold toyLawful; decide +kernel, by unfold toyLawful; decide +kernel, fun j l i p hp => ?_⟩
  rcases hp with hp | hp
  · obtain ⟨m, rfl⟩ := exHonestC.ipt_mem 101 j l i 6 p hp
    exact (key j l i m).1
  · obtain ⟨m, rfl⟩ := exHonestC.ipt_mem 101 j l i 11 p hp
    exact (key j l i m).2

end MscPoc
