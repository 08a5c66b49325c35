import Mathlib.Data.List.ReduceOption
import Verif.Lemmas.MultiSound
import Verif.Props.BpSoundC
import Verif.Props.MultiRepair

/-!
# C101 — with all repairs, an aggregated range proof proves the range of every value
-/

set_option autoImplicit false

namespace MscPoc

variable {E M : Type} {q : ℕ} [AddCommGroup M] [Module (ZMod q) M]

/-- the proof object for a transcript: the tree's commitments and first move, the answers at a leaf and one transcript of the
inner-product argument, with any inner-product parameters `ip` and claim `Cc` -/
def MultiTree.proof {k m : ℕ} (T : MultiTree E (ZMod q) k m) (params : BPParams E) (ip : IPParams E) (Cc : Int) (nd : BpNodeC E (ZMod q) k)
    (lf : BpLeaf E (ZMod q) k) (p : IPPath E (ZMod q)) : MultiBulletProof E where
  Vs := List.ofFn T.Vs
  A := T.A
  S := T.S
  T1 := nd.T1
  T2 := nd.T2
  Taux := some lf.Taux
  Mu := some lf.Mu
  Tprime := some lf.Tprime
  InnerProductProof := p.proof ip lf.P Cc
  Params := params

/-- a transcript is accepted by the repaired verifier under some challenges that are those of the transcript -/
def MultiTree.PathOk {k m : ℕ} (T : MultiTree E (ZMod q) k m) (params : BPParams E) (nd : BpNodeC E (ZMod q) k)
    (lf : BpLeaf E (ZMod q) k) (c : ZMod q) (p : IPPath E (ZMod q)) : Prop :=
  ∃ (ch : Challenges E) (sha : Bytes → Bytes) (ip : IPParams E) (Cc : Int),
    ch.y T.A T.S = nd.y ∧ ch.z T.A T.S = nd.z ∧ (ch.x nd.T1 nd.T2 : ZMod q) = lf.x ∧
    (ippChallenge sha ip.GP ip.Gg ip.Hh lf.P Cc : ZMod q) = c ∧
    (∀ r ∈ p.rounds, (roundChallenge sha ip.GP r.1 r.2.1 : ZMod q) = r.2.2) ∧
    (T.proof params ip Cc nd lf p).AcceptedC ch sha

/-- all transcripts of the tree are accepted -/
def MultiTree.Accepted {k m : ℕ} (T : MultiTree E (ZMod q) k m) (params : BPParams E) : Prop :=
  ∀ j l i p, (((T.node j l).leaf i).t.Mem p → T.PathOk params (T.node j l) ((T.node j l).leaf i) ((T.node j l).leaf i).c p) ∧
    (((T.node j l).leaf i).t'.Mem p → T.PathOk params (T.node j l) ((T.node j l).leaf i) ((T.node j l).leaf i).c' p)

/-- the challenges are different where they have to be, and not zero: `N` challenges `y`, `m + 2` challenges `z` for each, three
challenges `x` for each of those, and so on -/
structure MultiTree.Distinct {k m : ℕ} [Fact q.Prime] (T : MultiTree E (ZMod q) k m) : Prop where
  y : ∀ j l, ((T.node j l).y : ZMod q) ≠ 0
  z : ∀ j l, ((T.node j l).z : ZMod q) ≠ 0
  same : ∀ j l, ((T.node j l).y : ZMod q) = (T.node j 0).y
  yy : ∀ j j', ((T.node j 0).y : ZMod q) = ((T.node j' 0).y : ZMod q) → j = j'
  zz : ∀ j l l', ((T.node j l).z : ZMod q) = ((T.node j l').z : ZMod q) → l = l'
  xx : ∀ j l i i', ((T.node j l).leaf i).x = ((T.node j l).leaf i').x → i = i'
  c : ∀ j l i, ((T.node j l).leaf i).c ≠ 0 ∧ ((T.node j l).leaf i).c' ≠ 0 ∧ ((T.node j l).leaf i).c ≠ ((T.node j l).leaf i).c'
  ip : ∀ j l i, ((T.node j l).leaf i).t.Good ∧ ((T.node j l).leaf i).t'.Good

/-- all elements are legal -/
structure MultiTree.Legal {k m : ℕ} {params : BPParams E} (T : MultiTree E (ZMod q) k m) (L : Lawful params.GP q M) : Prop where
  Vs : ∀ i, L.V (T.Vs i)
  A : L.V T.A
  S : L.V T.S
  com : ∀ j l, L.V (T.node j l).T1 ∧ L.V (T.node j l).T2
  P : ∀ j l i, L.V ((T.node j l).leaf i).P
  ip : ∀ j l i p, ((T.node j l).leaf i).t.Mem p ∨ ((T.node j l).leaf i).t'.Mem p → ∀ r ∈ p.rounds, L.V r.1 ∧ L.V r.2.1

section
variable [Fact q.Prime] {params : BPParams E} (L : Lawful params.GP q M) {k m : ℕ} (T : MultiTree E (ZMod q) k m)
  (hO : ParamsOK params L k) (Uu : E) (hU : params.GP.mapToGroup SEEDU = some Uu) (hL : T.Legal L)
  (hacc : T.Accepted params)
include hO hU hL

theorem MultiTree.path_eqs (j : Fin (2 ^ k)) (l : Fin (m + 2)) (i : Fin 3) (c : ZMod q) (p : IPPath E (ZMod q))
    (h : T.PathOk params (T.node j l) ((T.node j l).leaf i) c p) :
    ∃ hp, updateGenerators params.GP params.Hh (T.node j l).y params.N = some hp ∧
      PathAccepted q { Gg := params.Gg, Hh := hp, Uu := Uu, GP := params.GP } ((T.node j l).leaf i).P
        ((T.node j l).leaf i).Tprime c p ∧
      ((((T.node j l).leaf i).Tprime : ZMod q) • L.g + (((T.node j l).leaf i).Taux : ZMod q) • L.den params.H =
        ∑ t ∈ Finset.range m, ((T.node j l).z : ZMod q) ^ (t + 2) • (L.denV (List.ofFn T.Vs)).getD t 0 +
          deltaM params.N m (params.N / m) ((T.node j l).y : ZMod q) (T.node j l).z • L.g +
          ((T.node j l).leaf i).x • L.den (T.node j l).T1 + ((T.node j l).leaf i).x ^ 2 • L.den (T.node j l).T2) ∧
      ((((T.node j l).leaf i).Mu : ZMod q) • L.den params.H + L.den ((T.node j l).leaf i).P =
        (L.den T.A + ∑ t ∈ Finset.range params.N, ((((T.node j l).y : ZMod q) ^ t)⁻¹ *
          (wAt m (params.N / m) ((T.node j l).z : ZMod q) t - ((T.node j l).z : ZMod q) ^ 2 * 2 ^ t)) •
            (L.denV params.Hh).getD t 0) + ((T.node j l).leaf i).x • L.den T.S - ((T.node j l).z : ZMod q) • (L.denV params.Gg).sum +
          msm ((List.zipWith (fun (i : ℕ) m => (((T.node j l).y : ZMod q)⁻¹ ^ i) • m) (List.range params.N) (L.denV params.Hh)))
            ((List.range params.N).map (fun i => ((T.node j l).z : ZMod q) * (T.node j l).y ^ i +
              ((T.node j l).z : ZMod q) ^ 2 * 2 ^ i))) := by
  obtain ⟨ch, sha, ip, Cc, h1, h2, h3, h4, h5, ⟨k1, k2, k3, k4, k5⟩, h7⟩ := h
  have hV : MultiValid (T.proof params ip Cc (T.node j l) ((T.node j l).leaf i) p) L :=
    { Vs := fun v hv => by obtain ⟨i, rfl⟩ := List.mem_ofFn.mp hv; exact hL.Vs i
      A := hL.A, S := hL.S, T1 := (hL.com j l).1, T2 := (hL.com j l).2, H := hO.H, Gg := hO.Gg, Hh := hO.Hh,
      P := hL.P j l i, lenG := hO.lenG.trans hO.N.symm, lenH := hO.lenH.trans hO.N.symm }
  obtain ⟨_, e1, e2, e3⟩ := multiVerifyC_true (T.proof params ip Cc (T.node j l) ((T.node j l).leaf i) p) L hV ch sha
    ((T.node j l).leaf i).Tprime ((T.node j l).leaf i).Taux ((T.node j l).leaf i).Mu rfl rfl rfl ((T.node j l).y : ZMod q)
    ((T.node j l).z : ZMod q) ((T.node j l).leaf i).x (by rw [← h1]; rfl) (by rw [← h2]; rfl) (by rw [← h3]; rfl)
    m (params.N / m) (by simp [MultiTree.proof]) rfl h7
  change some ip.Hh = updateGenerators params.GP params.Hh (ch.y T.A T.S) params.N at k4
  change some ip.Uu = params.GP.mapToGroup SEEDU at k5
  change ip.GP = params.GP at k2
  change ip.Gg = params.Gg at k3
  have k1 : Cc = ((T.node j l).leaf i).Tprime := Option.some.inj k1
  rw [hU] at k5
  rw [h1] at k4
  refine ⟨ip.Hh, k4.symm, ?_, e1, e2⟩
  have hip : ip = { Gg := params.Gg, Hh := ip.Hh, Uu := Uu, GP := params.GP } := by
    rw [← Option.some.inj k5, ← k2, ← k3]
  rw [← hip]
  exact ⟨sha, k1 ▸ h4, h5, k1 ▸ e3⟩

include hacc

theorem MultiTree.leaf_eqs (j : Fin (2 ^ k)) (l : Fin (m + 2)) :
    ∃ hp, updateGenerators params.GP params.Hh (T.node j l).y params.N = some hp ∧ ∀ i,
    (∀ p, (((T.node j l).leaf i).t.Mem p → PathAccepted q { Gg := params.Gg, Hh := hp, Uu := Uu, GP := params.GP }
        ((T.node j l).leaf i).P ((T.node j l).leaf i).Tprime ((T.node j l).leaf i).c p) ∧
      (((T.node j l).leaf i).t'.Mem p → PathAccepted q { Gg := params.Gg, Hh := hp, Uu := Uu, GP := params.GP }
        ((T.node j l).leaf i).P ((T.node j l).leaf i).Tprime ((T.node j l).leaf i).c' p)) ∧
      ((((T.node j l).leaf i).Tprime : ZMod q) • L.g + (((T.node j l).leaf i).Taux : ZMod q) • L.den params.H =
        ∑ t ∈ Finset.range m, ((T.node j l).z : ZMod q) ^ (t + 2) • (L.denV (List.ofFn T.Vs)).getD t 0 +
          deltaM params.N m (params.N / m) ((T.node j l).y : ZMod q) (T.node j l).z • L.g +
          ((T.node j l).leaf i).x • L.den (T.node j l).T1 + ((T.node j l).leaf i).x ^ 2 • L.den (T.node j l).T2) ∧
      ((((T.node j l).leaf i).Mu : ZMod q) • L.den params.H + L.den ((T.node j l).leaf i).P =
        (L.den T.A + ∑ t ∈ Finset.range params.N, ((((T.node j l).y : ZMod q) ^ t)⁻¹ *
          (wAt m (params.N / m) ((T.node j l).z : ZMod q) t - ((T.node j l).z : ZMod q) ^ 2 * 2 ^ t)) •
            (L.denV params.Hh).getD t 0) + ((T.node j l).leaf i).x • L.den T.S - ((T.node j l).z : ZMod q) • (L.denV params.Gg).sum +
          msm ((List.zipWith (fun (i : ℕ) m => (((T.node j l).y : ZMod q)⁻¹ ^ i) • m) (List.range params.N) (L.denV params.Hh)))
            ((List.range params.N).map (fun i => ((T.node j l).z : ZMod q) * (T.node j l).y ^ i +
              ((T.node j l).z : ZMod q) ^ 2 * 2 ^ i))) := by
  have some_path : ∀ i, ∃ c p, T.PathOk params (T.node j l) ((T.node j l).leaf i) c p := fun i => by
    obtain ⟨p, hp'⟩ := ((T.node j l).leaf i).t.exists_mem
    exact ⟨_, p, (hacc j l i p).1 hp'⟩
  obtain ⟨c, p, h0⟩ := some_path 0
  obtain ⟨hp, hhp, _⟩ := T.path_eqs L hO Uu hU hL j l 0 c p h0
  have go : ∀ i c p, T.PathOk params (T.node j l) ((T.node j l).leaf i) c p →
      PathAccepted q { Gg := params.Gg, Hh := hp, Uu := Uu, GP := params.GP } ((T.node j l).leaf i).P
        ((T.node j l).leaf i).Tprime c p := by
    intro i c p h
    obtain ⟨hp', hhp', h', _⟩ := T.path_eqs L hO Uu hU hL j l i c p h
    rw [hhp] at hhp'
    rw [Option.some.inj hhp']
    exact h'
  refine ⟨hp, hhp, fun i => ⟨fun p => ⟨fun h => go i _ p ((hacc j l i p).1 h), fun h => go i _ p ((hacc j l i p).2 h)⟩, ?_⟩⟩
  obtain ⟨c, p, h⟩ := some_path i
  obtain ⟨_, _, _, e⟩ := T.path_eqs L hO Uu hU hL j l i c p h
  exact e

end

/-- the openings open the commitments -/
theorem MultiTree.opens_val {F : Type} [Field F] [DecidableEq F] [Module F M] {k m : ℕ} (T : MultiTree E F k m) (G H : M) (V : ℕ → M)
    (hz : ∀ l, ((T.node 0 l).z : F) ≠ 0) (hzz : ∀ l l', ((T.node 0 l).z : F) = ((T.node 0 l').z : F) → l = l')
    (hxx : ∀ l i i', ((T.node 0 l).leaf i).ans.x = ((T.node 0 l).leaf i').ans.x → i = i') {T1 T2 : Fin (m + 2) → M}
    (h65 : ∀ l i, ((T.node 0 l).leaf i).ans.tp • G + ((T.node 0 l).leaf i).ans.tx • H =
      ∑ t ∈ Finset.range m, ((T.node 0 l).z : F) ^ (t + 2) • V t + deltaM (2 ^ k) m (2 ^ k / m) ((T.node 0 l).y : F) (T.node 0 l).z • G +
        ((T.node 0 l).leaf i).ans.x • T1 l + ((T.node 0 l).leaf i).ans.x ^ 2 • T2 l) (j : ℕ) (hj : j < m) :
    (T.opens j).1 • G + (T.opens j).2 • H = V j := by
  let f : F × F →ₗ[F] M := (LinearMap.toSpanSingleton F M G).coprod (LinearMap.toSpanSingleton F M H)
  have hf : ∀ p : F × F, f p = p.1 • G + p.2 • H := fun p => by simp [f]
  have hl : ∀ t < m, ((Fin.ofNat (m + 2) t : Fin (m + 2)) : ℕ) = t := fun t ht => Nat.mod_eq_of_lt (by omega)
  unfold MultiTree.opens
  dsimp only
  obtain ⟨p, hp⟩ : ∃ p : ℕ → F × F × F, p = fun l => (((T.node 0 (Fin.ofNat (m + 2) l)).z : F),
      (((T.node 0 (Fin.ofNat (m + 2) l)).z : F) ^ 2)⁻¹ • openSum (2 ^ k) m (2 ^ k / m) ((T.node 0 (Fin.ofNat (m + 2) l)).y : F)
        ((T.node 0 (Fin.ofNat (m + 2) l)).z : F) fun i => ((T.node 0 (Fin.ofNat (m + 2) l)).leaf i).ans) := ⟨_, rfl⟩
  rw [← hp, ← hf]
  have hmap : (newton m p).map f = (List.range m).map V := by
    rw [newton_map]
    refine newton_unique m _ _ (by simp) (fun i hi i' hi' h => ?_) fun i hi => ?_
    · rw [hp] at h
      rw [← hl i hi, ← hl i' hi', hzz _ _ h]
    · dsimp only
      rw [evalV_ofFn, hp]
      dsimp only
      rw [map_smul, hf, openSum_val G H (hxx (Fin.ofNat (m + 2) i)) (h65 (Fin.ofNat (m + 2) i)), Finset.smul_sum]
      refine Finset.sum_congr rfl fun t _ => ?_
      rw [smul_smul, pow_add, mul_comm, mul_assoc, mul_inv_cancel₀ (pow_ne_zero 2 (hz _)), mul_one]
  have := congrArg (fun l => l.getD j 0) hmap
  rw [List.getD_eq_getElem?_getD, List.getElem?_map, List.getD_eq_getElem?_getD, List.getElem?_map, List.getElem?_range hj,
    List.getElem?_eq_getElem (by rw [newton_length]; exact hj)] at this
  rw [List.getD_eq_getElem?_getD, List.getElem?_eq_getElem (by rw [newton_length]; exact hj)]
  exact this

/-- **C101** From a tree of aggregated range proofs for `m` commitments and one first move `A`, `S` that the repaired verifier accepts —
`N` different first challenges `y`, with `m + 2` different `z` for each, three different `x` for each of those, and for each of those two
trees for the inner-product argument — `MultiTree.extract` computes either a non-trivial relation between the generators, or openings of
all commitments to the numbers whose bits are in the blocks of `A`.  `m` need not divide `N`; a value has `N / m` bits, rounded down.
How challenges are derived does not matter. -/
theorem C101_extract [Fact q.Prime] (params : BPParams E) (L : Lawful params.GP q M) (k m : ℕ) (hO : ParamsOK params L k) (Uu : E)
    (hU : params.GP.mapToGroup SEEDU = some Uu) (T : MultiTree E (ZMod q) k m) (hL : T.Legal L) (hd : T.Distinct)
    (hacc : T.Accepted params) :
    match T.extract with
    | .openings v γ α aL aR =>
        (∀ t : Fin m, L.den (T.Vs t) = v t • L.g + γ t • L.den params.H) ∧ MultiBits (2 ^ k) m (2 ^ k / m) v aL aR ∧
        L.den T.A = α • L.den params.H + msm (L.denV params.Gg) (firstN (2 ^ k) aL) + msm (L.denV params.Hh) (firstN (2 ^ k) aR)
    | .relation w =>
        (w.1.1 ≠ 0 ∨ w.1.2.1 ≠ 0 ∨ w.1.2.2 ≠ 0 ∨ (∃ i < 2 ^ k, w.2.1 i ≠ 0) ∨ ∃ i < 2 ^ k, w.2.2 i ≠ 0) ∧
        w.1.1 • L.g + w.1.2.1 • L.den params.H + w.1.2.2 • L.den Uu +
          msm (L.denV params.Gg) (firstN (2 ^ k) w.2.1) + msm (L.denV params.Hh) (firstN (2 ^ k) w.2.2) = 0 := by
  have lg : (L.denV params.Gg).length = 2 ^ k := by simp [hO.lenG]
  have lh : (L.denV params.Hh).length = 2 ^ k := by simp [hO.lenH]
  simp only [firstN, msm_firstN _ _ _ lg, msm_firstN _ _ _ lh]
  have heq := T.leaf_eqs L hO Uu hU hL hacc
  have hip := fun j l i =>
    bpLeaf_ip L hO Uu (hO.U _ hU) ((T.node j l).leaf i) (T.node j l).y ((T.node j l).z : ZMod q)
      (L.den T.A + ∑ t ∈ Finset.range params.N, ((((T.node j l).y : ZMod q) ^ t)⁻¹ *
          (wAt m (params.N / m) ((T.node j l).z : ZMod q) t - ((T.node j l).z : ZMod q) ^ 2 * 2 ^ t)) •
            (L.denV params.Hh).getD t 0) (L.den T.S)
      (heq j l).choose_spec.1 (hd.y j l) (hL.P j l i) (hd.c j l i) (hd.ip j l i) (hL.ip j l i) ((heq j l).choose_spec.2 i).1
      ((heq j l).choose_spec.2 i).2.2 (fun m => (L.denV params.Gg).getD m 0) (fun m => (L.denV params.Hh).getD m 0) rfl rfl
  have nz : ∀ w : GComb (ZMod q), ¬w.Zero (2 ^ k) →
      (w.1.1 ≠ 0 ∨ w.1.2.1 ≠ 0 ∨ w.1.2.2 ≠ 0 ∨ (∃ i < 2 ^ k, w.2.1 i ≠ 0) ∨ ∃ i < 2 ^ k, w.2.2 i ≠ 0) := by
    intro w hw
    by_contra hcon
    simp only [not_or, not_exists, not_and, not_not] at hcon
    exact hw hcon
  unfold MultiTree.extract
  cases hl : T.leafRels.head? with
  | some w =>
    have hmem : w ∈ T.leafRels := List.mem_of_mem_head? hl
    unfold MultiTree.leafRels at hmem
    rw [List.mem_flatten] at hmem
    obtain ⟨l₁, hl1, hl2⟩ := hmem
    rw [List.mem_ofFn] at hl1
    obtain ⟨j, rfl⟩ := hl1
    rw [List.mem_flatten] at hl2
    obtain ⟨l₂, hl1, hl2⟩ := hl2
    rw [List.mem_ofFn] at hl1
    obtain ⟨l, rfl⟩ := hl1
    rw [List.reduceOption_mem_iff, List.mem_ofFn] at hl2
    obtain ⟨i, hi⟩ := hl2
    obtain ⟨h1, h2⟩ := (hip j l i).1 w hi
    exact ⟨nz w h1, h2⟩
  | none =>
    have hnone : ∀ j l i, ((T.node j l).leaf i).rel ((T.node j l).y : ZMod q) = none := by
      intro j l i
      cases hr : ((T.node j l).leaf i).rel ((T.node j l).y : ZMod q) with
      | none => rfl
      | some w =>
        exfalso
        have : w ∈ T.leafRels := by
          unfold MultiTree.leafRels
          rw [List.mem_flatten]
          refine ⟨_, (List.mem_ofFn).mpr ⟨j, rfl⟩, ?_⟩
          rw [List.mem_flatten]
          refine ⟨_, (List.mem_ofFn).mpr ⟨l, rfl⟩, ?_⟩
          rw [List.reduceOption_mem_iff, List.mem_ofFn]
          exact ⟨i, hr⟩
        rw [List.head?_eq_none_iff] at hl
        rw [hl] at this
        simp at this
    have hcomb : ∀ j l i, ((((T.node j l).leaf i).ans.asOne m (2 ^ k / m) ((T.node j l).z : ZMod q)).comb ((T.node j l).y : ZMod q)
        ((T.node j l).z : ZMod q)).val (2 ^ k) L.g (L.den params.H) (L.den Uu) (fun t => (L.denV params.Gg).getD t 0)
        (fun t => (L.denV params.Hh).getD t 0) = L.den T.A + ((T.node j l).leaf i).ans.x • L.den T.S := fun j l i => by
      have := ((hip j l i).2 (hnone j l i)).1
      rw [hO.N] at this
      exact asOne_comb_val _ _ _ _ _ this
    have htp := fun j l i => ((hip j l i).2 (hnone j l i)).2
    have h65 : ∀ j l i, (((T.node j l).leaf i).ans.tp) • L.g + ((T.node j l).leaf i).ans.tx • L.den params.H =
        ∑ t ∈ Finset.range m, ((T.node j l).z : ZMod q) ^ (t + 2) • (L.denV (List.ofFn T.Vs)).getD t 0 +
        deltaM (2 ^ k) m (2 ^ k / m) ((T.node j l).y : ZMod q) (T.node j l).z • L.g +
        ((T.node j l).leaf i).ans.x • L.den (T.node j l).T1 + ((T.node j l).leaf i).ans.x ^ 2 • L.den (T.node j l).T2 := by
      intro j l i
      obtain ⟨_, _, hall⟩ := heq j l
      have := (hall i).2.1
      rw [hO.N] at this
      exact this
    have hopen := T.opens_val L.g (L.den params.H) (fun t => (L.denV (List.ofFn T.Vs)).getD t 0) (hd.z 0) (fun l l' h => hd.zz 0 l l' h)
      (fun l i i' h => hd.xx 0 l i i' h) (h65 0)
    have hvals : ∀ j l, ∀ w ∈ nodeRelsM (2 ^ k) m (2 ^ k / m) T.opens ((T.node 0 0).y : ZMod q) ((T.node 0 0).z : ZMod q)
        (fun i => ((T.node 0 0).leaf i).ans) ((T.node j l).y : ZMod q) ((T.node j l).z : ZMod q)
        (fun i => ((T.node j l).leaf i).ans), w.val (2 ^ k) L.g (L.den params.H) (L.den Uu)
          (fun m => (L.denV params.Gg).getD m 0) (fun m => (L.denV params.Hh).getD m 0) = 0 := fun j l =>
      nodeRelsM_val L.g (L.den params.H) (L.den Uu) _ _ (fun i i' h => hd.xx 0 0 i i' h) (fun i i' h => hd.xx j l i i' h) hopen
        (hcomb 0 0) (hcomb j l) (h65 j l)
    have hmem : ∀ w, w ∈ T.rels ↔ ∃ j l, w ∈ nodeRelsM (2 ^ k) m (2 ^ k / m) T.opens ((T.node 0 0).y : ZMod q) ((T.node 0 0).z : ZMod q)
        (fun i => ((T.node 0 0).leaf i).ans) ((T.node j l).y : ZMod q) ((T.node j l).z : ZMod q)
        (fun i => ((T.node j l).leaf i).ans) := by
      intro w
      unfold MultiTree.rels
      simp only [List.mem_flatten, List.mem_ofFn]
      constructor
      · rintro ⟨_, ⟨j, rfl⟩, h⟩
        rw [List.mem_flatten] at h
        obtain ⟨_, h1, h2⟩ := h
        rw [List.mem_ofFn] at h1
        obtain ⟨l, rfl⟩ := h1
        exact ⟨j, l, h2⟩
      · rintro ⟨j, l, h⟩
        exact ⟨_, ⟨j, rfl⟩, List.mem_flatten.mpr ⟨_, List.mem_ofFn.mpr ⟨l, rfl⟩, h⟩⟩
    dsimp only
    cases hf : T.rels.find? (fun w => !decide (w.Zero (2 ^ k))) with
    | some w =>
      have h1 := List.find?_some hf
      have h2 := List.mem_of_find?_eq_some hf
      simp only [Bool.not_eq_true', decide_eq_false_iff_not] at h1
      obtain ⟨j, l, h2⟩ := (hmem w).mp h2
      exact ⟨nz w h1, hvals j l w h2⟩
    | none =>
      have hzero : ∀ j l, ∀ w ∈ nodeRelsM (2 ^ k) m (2 ^ k / m) T.opens ((T.node 0 0).y : ZMod q) ((T.node 0 0).z : ZMod q)
          (fun i => ((T.node 0 0).leaf i).ans) ((T.node j l).y : ZMod q) ((T.node j l).z : ZMod q)
          (fun i => ((T.node j l).leaf i).ans), w.Zero (2 ^ k) := by
        intro j l w hw
        simpa using List.find?_eq_none.mp hf w ((hmem w).mpr ⟨j, l, hw⟩)
      dsimp only
      refine ⟨?_, ?_, ?_⟩
      · intro t
        rw [hopen t t.isLt]
        simp [Lawful.denV]
      · refine multiBits_of_nodes (by positivity) (fun j => ((T.node j 0).y : ZMod q)) (fun j j' h => hd.yy j j' h)
          (fun j l => ((T.node j l).z : ZMod q)) (fun j l l' h => hd.zz j l l' h) fun j l => ?_
        have := node_evalM (Nat.mul_div_le (2 ^ k) m) (hd.y j l) (fun i i' h => hd.xx j l i i' h) (hzero j l) (htp j l)
        rw [hd.same j l] at this
        exact this
      · have := combA_val (2 ^ k) L.g (L.den params.H) (L.den Uu) (fun m => (L.denV params.Gg).getD m 0)
          (fun m => (L.denV params.Hh).getD m 0) (fun h => absurd (hd.xx 0 0 0 1 h) (by decide)) (hcomb 0 0 0) (hcomb 0 0 1)
        rw [← this]
        simp [GComb.val, combA, BpAns.comb, BpAns.asOne]

/-- **C101** In particular: every commitment opens to a number below `2^(N/m)`, or there is a relation between the generators. -/
theorem C101_range [Fact q.Prime] (params : BPParams E) (L : Lawful params.GP q M) (k m : ℕ) (hO : ParamsOK params L k) (Uu : E)
    (hU : params.GP.mapToGroup SEEDU = some Uu) (T : MultiTree E (ZMod q) k m) (hL : T.Legal L) (hd : T.Distinct)
    (hacc : T.Accepted params) :
    match T.extract with
    | .openings v γ _ _ _ => ∀ t : Fin m, L.den (T.Vs t) = v t • L.g + γ t • L.den params.H ∧
        ∃ u : ℕ, u < 2 ^ (params.N / m) ∧ v t = (u : ZMod q)
    | .relation w =>
        (w.1.1 ≠ 0 ∨ w.1.2.1 ≠ 0 ∨ w.1.2.2 ≠ 0 ∨ (∃ i < params.N, w.2.1 i ≠ 0) ∨ ∃ i < params.N, w.2.2 i ≠ 0) ∧
        w.1.1 • L.g + w.1.2.1 • L.den params.H + w.1.2.2 • L.den Uu +
          msm (L.denV params.Gg) (firstN params.N w.2.1) + msm (L.denV params.Hh) (firstN params.N w.2.2) = 0 := by
  have h := C101_extract params L k m hO Uu hU T hL hd hacc
  rw [hO.N]
  cases he : T.extract with
  | openings v γ α aL aR =>
    rw [he] at h
    exact fun t => ⟨h.1 t, h.2.1.nat (Nat.mul_div_le _ _) t t.isLt⟩
  | relation w =>
    rw [he] at h
    exact h

/-- the repaired prover returns a proof if the challenges are invertible -/
theorem multiProveC_returns (ch : Challenges E) (params : BPParams E) (k : ℕ) (hN : params.N = 2 ^ k)
    (lenG : params.Gg.length = 2 ^ k) (lenH : params.Hh.length = 2 ^ k) (Uu : E) (eU : params.GP.mapToGroup SEEDU = some Uu)
    (hy0 : ∀ l r : E, Int.gcd (ch.y l r) params.GP.N = 1)
    (sha : Bytes → Bytes) (hgood : ∀ l r : E, Int.gcd (roundChallenge sha params.GP l r) params.GP.N = 1) (rnd : MultiRand)
    (secrets : List Int) (lsL : rnd.sL.length = 2 ^ k) (lsR : rnd.sR.length = 2 ^ k) (hm : secrets ≠ [])
    (hdv : secrets.length ∣ params.N) : ∃ pf, multiProveC ch sha params rnd secrets = some (.ok (pf, rnd.gammas)) := by
  have hm : secrets.length ≠ 0 := by simpa using hm
  have hpos : 0 < 2 ^ k := Nat.two_pow_pos k
  have hNpos : ¬ ((params.N : Int) ≤ 0) := by omega
  have hmul : secrets.length * (params.N / secrets.length) = params.N := Nat.mul_div_cancel' hdv
  unfold multiProveC
  dsimp only
  rw [if_neg hm]
  obtain ⟨aL, haL⟩ : ∃ l, concatPad params.N (secrets.map fun s => decompose s 2 (params.N / secrets.length)) = l := ⟨_, rfl⟩
  obtain ⟨aR, haR⟩ : ∃ l, concatPad params.N ((secrets.map fun s => decompose s 2 (params.N / secrets.length)).map computeAR) = l :=
    ⟨_, rfl⟩
  have lL : aL.length = 2 ^ k := by
    rw [← haL, concatPad_full _ _ (by rw [digits_length, hmul]), digits_length, hmul, hN]
  have lR : aR.length = 2 ^ k := by
    have : (((secrets.map fun s => decompose s 2 (params.N / secrets.length)).map computeAR).flatten).length = params.N := by
      rw [digits_AR, List.length_map, digits_length, hmul]
    rw [← haR, concatPad_full _ _ this, this, hN]
  rw [haL, haR]
  obtain ⟨A, eA⟩ : ∃ A, commitVector params.GP aL aR rnd.alpha params.H params.Gg params.Hh params.N = some A :=
    commitVectorGo_isSome (GP := params.GP) params.N _ aR params.Gg params.Hh
      (params.GP.mul params.H rnd.alpha) (by omega) (by omega) (by omega) (by omega)
  obtain ⟨S, eS⟩ : ∃ S, commitVector params.GP rnd.sL rnd.sR rnd.rho params.H params.Gg params.Hh params.N = some S :=
    commitVectorGo_isSome (GP := params.GP) params.N rnd.sL rnd.sR params.Gg params.Hh
      (params.GP.mul params.H rnd.rho) (by omega) (by omega) (by omega) (by omega)
  steps eA
  steps eS
  obtain ⟨y, hy⟩ : ∃ y, ch.y A S = y := ⟨_, rfl⟩
  obtain ⟨z, hz⟩ : ∃ z, ch.z A S = z := ⟨_, rfl⟩
  simp only [hy, hz]
  obtain ⟨z2v, ez, lz⟩ := zPowersTimesTwo_isSome z params.GP.N hmul
  rw [hN] at lz
  steps ez
  have c1 : vectorConvertToBig aL params.N = some aL := by
    unfold vectorConvertToBig sliceTo; rw [if_pos (by omega), List.take_of_length_le (by omega)]
  have c2 : vectorConvertToBig aR params.N = some aR := by
    unfold vectorConvertToBig sliceTo; rw [if_pos (by omega), List.take_of_length_le (by omega)]
  steps c1
  steps c2
  obtain ⟨l0, hl0⟩ : ∃ l, vectorAddConst aL (-z) params.GP.N = l := ⟨_, rfl⟩
  have ll0 : l0.length = 2 ^ k := hl0 ▸ vectorAddConst_len lL
  obtain ⟨aRzn, haRzn⟩ : ∃ l, vectorAdd (vectorCopy z params.N) aR params.GP.N = l := ⟨_, rfl⟩
  have laRzn : aRzn.length = 2 ^ k := haRzn ▸ vectorAdd_len (by simp [vectorCopy, hN]) lR
  obtain ⟨yP, hyP⟩ : ∃ l, powerOf y params.N params.GP.N = l := ⟨_, rfl⟩
  have lyP : yP.length = 2 ^ k := by rw [← hyP, powerOf_length, hN]
  simp only [hl0, haRzn, hyP]
  obtain ⟨r0, hr0⟩ : ∃ l, vectorAdd (vectorMul yP aRzn params.GP.N) z2v params.GP.N = l := ⟨_, rfl⟩
  have lr0 : r0.length = 2 ^ k := hr0 ▸ vectorAdd_len (vectorMul_len lyP laRzn) lz
  obtain ⟨r1, hr1⟩ : ∃ l, vectorMul yP rnd.sR params.GP.N = l := ⟨_, rfl⟩
  have lr1 : r1.length = 2 ^ k := hr1 ▸ vectorMul_len lyP lsR
  simp only [hr0, hr1]
  obtain ⟨t1l, et1l⟩ := vectorInnerProduct_isSome rnd.sL r0 params.GP.N (lsL.trans lr0.symm).le
  obtain ⟨t1r, et1r⟩ := vectorInnerProduct_isSome l0 r1 params.GP.N (ll0.trans lr1.symm).le
  obtain ⟨t2, et2⟩ := vectorInnerProduct_isSome rnd.sL r1 params.GP.N (lsL.trans lr1.symm).le
  steps et1l
  steps et1r
  steps et2
  obtain ⟨T1, hT1⟩ : ∃ e, pedersenCommit params.GP ((t1l + t1r) % params.GP.N) rnd.tau1 params.H = e := ⟨_, rfl⟩
  obtain ⟨T2, hT2⟩ : ∃ e, pedersenCommit params.GP t2 rnd.tau2 params.H = e := ⟨_, rfl⟩
  obtain ⟨x, hx⟩ : ∃ e, ch.x T1 T2 = e := ⟨_, rfl⟩
  simp only [hT1, hT2, hx]
  obtain ⟨bl, hbl⟩ : ∃ l, vectorAdd l0 (vectorScalarMul rnd.sL x params.GP.N) params.GP.N = l := ⟨_, rfl⟩
  have lbl : bl.length = 2 ^ k := hbl ▸ vectorAdd_len ll0 (vectorScalarMul_len lsL)
  obtain ⟨br, hbr⟩ : ∃ l, vectorAdd (vectorMul yP (vectorAdd aRzn (vectorScalarMul rnd.sR x params.GP.N) params.GP.N)
    params.GP.N) z2v params.GP.N = l := ⟨_, rfl⟩
  have lbr : br.length = 2 ^ k :=
    hbr ▸ vectorAdd_len (vectorMul_len lyP (vectorAdd_len laRzn (vectorScalarMul_len lsR))) lz
  simp only [hbl, hbr]
  obtain ⟨th, eth⟩ : ∃ t, scalarProduct bl br params.GP.N = some t :=
    ⟨scalarProductGo params.GP.N bl br 0, by unfold scalarProduct; rw [if_neg (not_not.mpr (lbl.trans lbr.symm))]⟩
  steps eth
  obtain ⟨hp, ehp⟩ := updateGenerators_isSome (GP := params.GP) (Hh := params.Hh) (y := y) (n := params.N) (hN ▸ hpos)
    (hN.trans lenH.symm).le (fun _ => hy ▸ hy0 A S)
  have lhp : hp.length = 2 ^ k := (updateGenerators_len ehp).trans hN
  steps ehp
  have eipp : setupInnerProduct params.GP (some params.Gg) (some hp) params.N =
      some (.ok { Gg := params.Gg, Hh := hp, Uu := Uu, GP := params.GP }) := by
    unfold setupInnerProduct
    rw [if_neg hNpos]
    simp [eU]
  steps eipp
  obtain ⟨gcm, hgcm⟩ := Lawful.vectorExp_isSome (GP := params.GP) (gs := params.Gg) (as := bl) (lenG.trans lbl.symm)
  obtain ⟨hcm, hhcm⟩ := Lawful.vectorExp_isSome (GP := params.GP) (gs := hp) (as := br) (lhp.trans lbr.symm)
  obtain ⟨cm, ecm⟩ : ∃ c, commitInnerProduct params.GP params.Gg hp bl br = some c :=
    ⟨params.GP.add gcm hcm, by unfold commitInnerProduct; simp [hgcm, hhcm]⟩
  steps ecm
  obtain ⟨u, hu⟩ : ∃ c, ippChallenge sha params.GP params.Gg hp cm th = c := ⟨_, rfl⟩
  obtain ⟨pa, pb, Ls, Rs, h1, _, _, _⟩ := bip_agree (GP := params.GP) sha sha hgood k bl br params.Gg hp
    (params.GP.mul Uu u) (params.GP.add cm (params.GP.mul (params.GP.mul Uu u) th)) [] [] lbl lbr lenG lhp
  have pip : ∃ pr, proveInnerProduct sha bl br cm th { Gg := params.Gg, Hh := hp, Uu := Uu, GP := params.GP } = some (.ok pr) := by
    unfold proveInnerProduct
    rw [if_neg (not_not.mpr (lbl.trans lbr.symm))]
    have e1 : hashIP sha params.GP params.Gg hp cm th = some u := by
      rw [hashIP_eq, if_pos (lenG.trans lhp.symm).le, ← hu]
    rw [← lbl] at h1
    steps e1
    steps h1
    exact ⟨_, rfl⟩
  obtain ⟨pr, pip⟩ := pip
  steps pip
  exact ⟨_, rfl⟩

/-- **C101** With the program's challenges, prover and verifier are those of C95 with both edits. -/
theorem C101_same (sha : Bytes → Bytes) (params : BPParams E) (rnd : MultiRand) (secrets : List Int) (pf : MultiBulletProof E) :
    multiProveC (programChallenges sha params.GP) sha params rnd secrets = multiProveR true sha params rnd secrets ∧
    pf.verifyC (programChallenges sha pf.Params.GP) sha = pf.verifyR true sha := ⟨rfl, rfl⟩

/-- **C101** The repaired verifier accepts the repaired prover's proofs of values in range, whatever the challenges; and proofs are
made if `m` divides `N` and the challenges are invertible. -/
theorem C101_complete (params : BPParams E) (L : Lawful params.GP q M) (k : ℕ) (hO : ParamsOK params L k) (ch : Challenges E)
    (sha : Bytes → Bytes) (rnd : MultiRand) (secrets : List Int) (lg : rnd.gammas.length = secrets.length)
    (lsL : rnd.sL.length = 2 ^ k) (lsR : rnd.sR.length = 2 ^ k)
    (hr : ∀ v ∈ secrets, 0 ≤ v ∧ v < 2 ^ (params.N / secrets.length)) :
    (∀ pf gs, multiProveC ch sha params rnd secrets = some (.ok (pf, gs)) → pf.AcceptedC ch sha ∧
      pf.Vs = List.zipWith (fun s g => pedersenCommit params.GP s g params.H) secrets rnd.gammas) ∧
    ((params.GP.mapToGroup SEEDU).isSome → (∀ l r : E, Int.gcd (ch.y l r) params.GP.N = 1) →
      (∀ l r : E, Int.gcd (roundChallenge sha params.GP l r) params.GP.N = 1) → secrets ≠ [] → secrets.length ∣ params.N →
      ∃ pf, multiProveC ch sha params rnd secrets = some (.ok (pf, rnd.gammas))) := by
  refine ⟨fun pf gs h => ?_, fun hU hy hs hm hdv => ?_⟩
  · obtain ⟨_, _, hV, hc, hv⟩ := multiProveC_exact params L k hO ch sha rnd secrets pf gs lg lsL lsR h
    obtain ⟨b, hb, hiff⟩ := hv _ rfl
    refine ⟨⟨hc, ?_⟩, hV⟩
    rw [hb, hiff.mpr ?_]
    have : secrets.map (fun v => v - v % 2 ^ (params.N / secrets.length)) = secrets.map fun _ => 0 :=
      List.map_congr_left fun v hv => by rw [Int.emod_eq_of_lt (hr v hv).1 (hr v hv).2, sub_self]
    rw [this]
    have : ∀ (l : List Int) (cs : List (ZMod q)), dot (castV q (l.map fun _ => 0)) cs = 0 := by
      intro l
      induction l with
      | nil => intro cs; simp
      | cons a l ih =>
        intro cs
        cases cs with
        | nil => simp
        | cons c cs => simpa [castV] using ih cs
    rw [this, zero_smul]
  · obtain ⟨Uu, eU⟩ := Option.isSome_iff_exists.mp hU
    exact multiProveC_returns ch params k hO.N hO.lenG hO.lenH Uu eU hy sha hs rnd secrets lsL lsR hm hdv

/-- **C101** For the program's own challenges there are no such trees, since `z = y`. -/
theorem C101_not_program [Fact q.Prime] (GP : Grp E) (k m : ℕ) (T : MultiTree E (ZMod q) k m) (hd : T.Distinct) :
    ¬∀ j l, ∃ sha, (programChallenges sha GP).y T.A T.S = (T.node j l).y ∧ (programChallenges sha GP).z T.A T.S = (T.node j l).z := by
  intro h
  have hz : ∀ l, (T.node 0 l).z = (T.node 0 l).y := fun l => by
    obtain ⟨sha, h1, h2⟩ := h 0 l
    rw [← h1, ← h2]
    rfl
  have := hd.zz 0 0 1 (by rw [hz, hz, hd.same 0 1])
  exact absurd (congrArg Fin.val this) (by simp)

/-- **C101** For the parameters that `setup` makes on each of the four curves: `m` commitments open to numbers below `2^(16/m)`, or there
is a relation between the 35 generators. -/
theorem C101_deployed {E : Type} (nan64 : BitVec 64) (C : Grp E)
    (N bits : ℕ) (Bb : Int) (hr : (N, bits, Bb) ∈ curveTable) [Fact N.Prime] {M : Type} [AddCommGroup M] [Module (ZMod N) M]
    (L₂ : Lawful C N M) (hmap : ∀ s, SetupSeed 16 s → ∃ e, C.mapToGroup s = some e ∧ L₂.V e) :
    ∃ (D : Election Int E) (L : Lawful D.EC N M), setup nan64 C = some (.ok D.pp) ∧
      ∃ Uu, D.EC.mapToGroup SEEDU = some Uu ∧
      ∀ (m : ℕ) (T : MultiTree E (ZMod N) 4 m), MultiTree.Legal (params := D.pp.BPParams) T L → T.Distinct →
      T.Accepted D.pp.BPParams →
      match T.extract with
      | .openings v γ _ _ _ => ∀ t : Fin m, L.den (T.Vs t) = v t • L.g + γ t • L.den D.pp.BPParams.H ∧
          ∃ u : ℕ, u < 2 ^ (16 / m) ∧ v t = (u : ZMod N)
      | .relation w =>
          (w.1.1 ≠ 0 ∨ w.1.2.1 ≠ 0 ∨ w.1.2.2 ≠ 0 ∨ (∃ i < 16, w.2.1 i ≠ 0) ∨ ∃ i < 16, w.2.2 i ≠ 0) ∧
          w.1.1 • L.g + w.1.2.1 • L.den D.pp.BPParams.H + w.1.2.2 • L.den Uu +
            msm (L.denV D.pp.BPParams.Gg) (firstN 16 w.2.1) + msm (L.denV D.pp.BPParams.Hh) (firstN 16 w.2.2) = 0 := by
  obtain ⟨D, L₁, L, hD, dep, ok⟩ := C47_legal nan64 C N bits Bb hr L₂ hmap
  obtain ⟨Uu, hU, _⟩ := hmap SEEDU (.inr (.inl rfl))
  rw [← dep.EC] at hU
  refine ⟨D, L, hD, Uu, hU, fun m T hL hd hacc => ?_⟩
  have hN : D.bp.N = 16 := ok.bp.N
  have := C101_range D.bp L 4 m ok.bp Uu hU T hL hd hacc
  rw [hN] at this
  exact this

/-! ## Concrete trees

Two values of one bit.  All 192 transcripts of a tree come from the honest prover. -/

/-- parameters, random numbers and values of the honest prover; strings longer than `cut` are hashed for the first step of
the inner-product argument only -/
structure HonestM where
  params : BPParams Int
  rnd : MultiRand
  vs : List Int
  cut : Nat

namespace HonestM
variable (q : ℕ) (H : HonestM)

def sha (c r : Nat) : Bytes → Bytes := fun b => if H.cut < b.length then [UInt8.ofNat c] else [UInt8.ofNat r]
def pf (y z x c r : Nat) : Option (MultiBulletProof Int) :=
  match multiProveC (exChC y z x) (H.sha c r) H.params H.rnd H.vs with
  | some (.ok (pf, _)) => some pf
  | _ => none
def ipt (y z x c : Nat) : IPTree Int (ZMod q) 1 :=
  .node (((H.pf y z x c 2).map fun p => p.InnerProductProof.L.headD 0).getD 0)
    (((H.pf y z x c 2).map fun p => p.InnerProductProof.R.headD 0).getD 0)
    ![2, 3, 4, 5] (fun i => .leaf (((H.pf y z x c (i + 2)).bind fun p => p.InnerProductProof.A).getD 0)
      (((H.pf y z x c (i + 2)).bind fun p => p.InnerProductProof.B).getD 0))
def leaf (y z x : Nat) : BpLeaf Int (ZMod q) 1 :=
  let o := H.pf y z x 6 2
  { x := x, Tprime := (o.bind (·.Tprime)).getD 0, Taux := (o.bind (·.Taux)).getD 0, Mu := (o.bind (·.Mu)).getD 0
    P := (o.map (·.InnerProductProof.P)).getD 0, c := 6, c' := 11, t := H.ipt q y z x 6, t' := H.ipt q y z x 11 }
def tree : MultiTree Int (ZMod q) 1 2 where
  Vs t := ((H.pf 2 3 7 6 2).map fun p => p.Vs.getD t 0).getD 0
  A := ((H.pf 2 3 7 6 2).map (·.A)).getD 0
  S := ((H.pf 2 3 7 6 2).map (·.S)).getD 0
  node j l := { y := (j : Nat) + 2, z := (l : Nat) + 3, T1 := ((H.pf (j + 2) (l + 3) 7 6 2).map (·.T1)).getD 0,
                T2 := ((H.pf (j + 2) (l + 3) 7 6 2).map (·.T2)).getD 0, leaf := fun i => H.leaf q (j + 2) (l + 3) (i + 7) }

def path (j : Fin 2) (l : Fin 4) (i : Fin 3) (c : Nat) (m : Fin 4) : IPPath Int (ZMod q) :=
  { rounds := [((((H.pf (j + 2) (l + 3) (i + 7) c 2).map fun p => p.InnerProductProof.L.headD 0)).getD 0,
      (((H.pf (j + 2) (l + 3) (i + 7) c 2).map fun p => p.InnerProductProof.R.headD 0)).getD 0, ![2, 3, 4, 5] m)]
    A := ((H.pf (j + 2) (l + 3) (i + 7) c (m + 2)).bind fun p => p.InnerProductProof.A).getD 0
    B := ((H.pf (j + 2) (l + 3) (i + 7) c (m + 2)).bind fun p => p.InnerProductProof.B).getD 0 }

theorem ipt_mem (j : Fin 2) (l : Fin 4) (i : Fin 3) (c : Nat) (p : IPPath Int (ZMod q))
    (h : (H.ipt q (j + 2) (l + 3) (i + 7) c).Mem p) : ∃ m, p = H.path q j l i c m := by
  obtain ⟨m, t, ht, rfl⟩ := h
  rw [show t = _ from ht]
  exact ⟨m, rfl⟩

def ip (j : Fin 2) : IPParams Int :=
  { Gg := H.params.Gg, Hh := (updateGenerators H.params.GP H.params.Hh ((j : Nat) + 2 : Nat) H.params.N).getD [],
    Uu := (H.params.GP.mapToGroup SEEDU).getD 0, GP := H.params.GP }

/-- acceptance of one transcript -/
def check (j : Fin 2) (l : Fin 4) (i : Fin 3) (c : Nat) (m : Fin 4) : Bool :=
  let sha := H.sha c (m + 2)
  let nd := (H.tree q).node j l
  let lf := nd.leaf i
  let p := H.path q j l i c m
  decide ((ippChallenge sha H.params.GP (H.ip j).Gg (H.ip j).Hh lf.P lf.Tprime : ZMod q) = c) &&
    decide (∀ r ∈ p.rounds, (roundChallenge sha H.params.GP r.1 r.2.1 : ZMod q) = r.2.2) &&
    decide (((H.tree q).proof H.params (H.ip j) lf.Tprime nd lf p).verifyC (exChC (j + 2) (l + 3) (i + 7)) sha = some true)

/-- acceptance of all -/
def checks : Prop := (∀ j l i m, H.check q j l i 6 m = true ∧ H.check q j l i 11 m = true) ∧
  (∀ j : Fin 2, (updateGenerators H.params.GP H.params.Hh ((j : Nat) + 2 : Nat) H.params.N).isSome = true) ∧
  (H.params.GP.mapToGroup SEEDU).isSome = true

instance : Decidable (H.checks q) := by unfold checks; infer_instance

theorem check_spec (hc : H.checks q) {j : Fin 2} {l : Fin 4} {i : Fin 3} {c : Nat} {m : Fin 4} (h : H.check q j l i c m = true) :
    (H.tree q).PathOk H.params ((H.tree q).node j l) (((H.tree q).node j l).leaf i) c (H.path q j l i c m) := by
  unfold check at h
  simp only [Bool.and_eq_true, decide_eq_true_eq] at h
  obtain ⟨⟨h1, h2⟩, h3⟩ := h
  refine ⟨exChC (j + 2) (l + 3) (i + 7), H.sha c (m + 2), H.ip j, (((H.tree q).node j l).leaf i).Tprime, rfl, rfl, ?_, h1, h2,
    ⟨rfl, rfl, rfl, ?_, ?_⟩, h3⟩
  · change (((i : Nat) + 7 : Nat) : Int) = (((i : Nat) + 7 : Nat) : ZMod q)
    rw [Int.cast_natCast]
  · change some (H.ip j).Hh = updateGenerators H.params.GP H.params.Hh ((j : Nat) + 2 : Nat) H.params.N
    unfold ip
    obtain ⟨x, hx⟩ := Option.isSome_iff_exists.mp (hc.2.1 j)
    rw [hx]
    rfl
  · change some (H.ip j).Uu = H.params.GP.mapToGroup SEEDU
    unfold ip
    obtain ⟨x, hx⟩ := Option.isSome_iff_exists.mp hc.2.2
    rw [hx]
    rfl

theorem accepted (hc : H.checks q) : (H.tree q).Accepted H.params := by
  intro j l i p
  refine ⟨fun h => ?_, fun h => ?_⟩
  · obtain ⟨m, rfl⟩ := H.ipt_mem q j l i 6 p h
    exact H.check_spec q hc (hc.1 j l i m).1
  · obtain ⟨m, rfl⟩ := H.ipt_mem q j l i 11 p h
    exact H.check_spec q hc (hc.1 j l i m).2

end HonestM

def exHonestM : HonestM :=
  { params := exB1, vs := [1, 0], cut := 5
    rnd := { gammas := [17, 4], alpha := 5, sL := [1, 20], sR := [9, 8], rho := 3, tau1 := 2, tau2 := 90 } }

/-- C101: a tree that meets all hypotheses; the extractor returns the openings 1, 17 and 0, 4 with their bits. -/
example : (exHonestM.tree 101).Distinct ∧ (exHonestM.tree 101).Accepted exB1 ∧
    (exHonestM.tree 101).Legal (params := exB1) (toyLawful 101) ∧
    ParamsOK exB1 (toyLawful 101) 1 ∧ (exB1.GP.mapToGroup SEEDU).isSome ∧
    (match (exHonestM.tree 101).extract with
     | .openings v γ α aL aR => firstN 2 v == [1, 0] && firstN 2 γ == [17, 4] && α == 5 && firstN 2 aL == [1, 0] &&
         firstN 2 aR == [0, -1]
     | .relation _ => false) = true := by
  refine ⟨⟨by decide +kernel, by decide +kernel, by decide +kernel, by decide +kernel, by decide +kernel, by decide +kernel,
    by decide +kernel, fun j l i => ⟨⟨by decide, by decide, fun _ => trivial⟩, ⟨by decide, by decide, fun _ => trivial⟩⟩⟩,
    exHonestM.accepted 101 (by decide +kernel), ?_, exB1_ok, by decide +kernel, by decide +kernel⟩
  have key : ∀ j l i m, (∀ r ∈ (exHonestM.path 101 j l i 6 m).rounds, (toyLawful 101).V r.1 ∧ (toyLawful 101).V r.2.1) ∧
      ∀ r ∈ (exHonestM.path 101 j l i 11 m).rounds, (toyLawful 101).V r.1 ∧ (toyLawful 101).V r.2.1 := by
    unfold toyLawful; decide +kernel
  refine ⟨by unfold toyLawful; decide +kernel, by unfold toyLawful; decide +kernel, by unfold toyLawful; decide +kernel,
    by unfold toyLawful; decide +kernel, by unfold toyLawful; decide +kernel, fun j l i p hp => ?_⟩
  rcases hp with hp | hp
  · obtain ⟨m, rfl⟩ := exHonestM.ipt_mem 101 j l i 6 p hp
    exact (key j l i m).1
  · obtain ⟨m, rfl⟩ := exHonestM.ipt_mem 101 j l i 11 p hp
    exact (key j l i m).2

end MscPoc
