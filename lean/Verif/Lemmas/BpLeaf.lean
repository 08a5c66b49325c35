import Verif.Lemmas.BpSound
import Verif.Props.Bp
import Verif.Props.IppSound

/-!
# What the inner-product extractor gives at a leaf of a tree of range proofs
-/

set_option autoImplicit false

namespace MscPoc

variable {E M : Type} {q : ℕ} [AddCommGroup M] [Module (ZMod q) M]

theorem IPTree.exists_mem {F : Type} : ∀ {k : ℕ} (t : IPTree E F k), ∃ p, t.Mem p
  | _, .leaf A B => ⟨_, rfl⟩
  | _, .node _ _ _ sub => by
    obtain ⟨p, hp⟩ := exists_mem (sub 0)
    exact ⟨_, 0, p, hp, rfl⟩

section
variable [Fact q.Prime] {params : BPParams E} (L : Lawful params.GP q M)
include L

theorem denV_updated {hp : List E} {y : Int} {n : ℕ} (hl : params.Hh.length = n) (hv : ∀ x ∈ params.Hh, L.V x)
    (h : updateGenerators params.GP params.Hh y n = some hp) (i : ℕ) (hi : i < n) :
    (L.denV hp).getD i 0 = (((y : ZMod q)) ^ i)⁻¹ • (L.denV params.Hh).getD i 0 := by
  obtain ⟨_, _, _, yi, hyi, hden⟩ := L.updateGenerators_spec hl hv h
  have hlen : (L.denV params.Hh).length = n := by simp [hl]
  rw [hden]
  have e : (List.zipWith (fun c m => c • m) (pows yi n) (L.denV params.Hh)).getD i 0 = yi ^ i • (L.denV params.Hh).getD i 0 := by
    have h1 : i < (L.denV params.Hh).length := by omega
    simp only [List.getD, List.getElem?_zipWith, pows, List.getElem?_map, List.getElem?_range hi,
      List.getElem?_eq_getElem h1, Option.map_some, Option.getD_some]
  rw [e]
  cases i with
  | zero => simp
  | succ i =>
    rw [eq_inv_of_mul_eq_one_right (hyi (by omega)), inv_pow]

theorem bpLeaf_ip {k : ℕ} (hO : ParamsOK params L k) (Uu : E) (vU : L.V Uu) (lf : BpLeaf E (ZMod q) k) (yI : Int) (z : ZMod q)
    (A S : M) {hp : List E} (hhp : updateGenerators params.GP params.Hh yI params.N = some hp) (hyne : (yI : ZMod q) ≠ 0)
    (vP : L.V lf.P) (hc : lf.c ≠ 0 ∧ lf.c' ≠ 0 ∧ lf.c ≠ lf.c') (hgd : lf.t.Good ∧ lf.t'.Good)
    (hip : ∀ p, lf.t.Mem p ∨ lf.t'.Mem p → ∀ r ∈ p.rounds, L.V r.1 ∧ L.V r.2.1)
    (hpa : ∀ p, (lf.t.Mem p → PathAccepted q { Gg := params.Gg, Hh := hp, Uu := Uu, GP := params.GP } lf.P lf.Tprime lf.c p) ∧
      (lf.t'.Mem p → PathAccepted q { Gg := params.Gg, Hh := hp, Uu := Uu, GP := params.GP } lf.P lf.Tprime lf.c' p))
    (e67 : (lf.Mu : ZMod q) • L.den params.H + L.den lf.P = A + lf.x • S - z • (L.denV params.Gg).sum +
      msm ((List.zipWith (fun (i : ℕ) m => ((yI : ZMod q)⁻¹ ^ i) • m) (List.range params.N) (L.denV params.Hh)))
        ((List.range params.N).map (fun i => z * (yI : ZMod q) ^ i + z ^ 2 * 2 ^ i)))
    (g h : ℕ → M) (hg : g = fun m => (L.denV params.Gg).getD m 0) (hh : h = fun m => (L.denV params.Hh).getD m 0) :
    (∀ w, lf.rel (yI : ZMod q) = some w → ¬w.Zero (2 ^ k) ∧ w.val (2 ^ k) L.g (L.den params.H) (L.den Uu) g h = 0) ∧
    (lf.rel (yI : ZMod q) = none →
      (lf.ans.comb (yI : ZMod q) z).val (2 ^ k) L.g (L.den params.H) (L.den Uu) g h = A + lf.x • S ∧
      (lf.Tprime : ZMod q) = ∑ m ∈ Finset.range (2 ^ k), lf.ans.l m * lf.ans.r m) := by
  rw [hO.N] at hhp e67
  obtain ⟨_, lhp, vhp, _⟩ := L.updateGenerators_spec hO.lenH hO.Hh hhp
  set y : ZMod q := (yI : ZMod q) with hydef
  have hhpd : ∀ m < 2 ^ k, (L.denV hp).getD m 0 = (y ^ m)⁻¹ • h m := fun m hm => by
    rw [hh]; exact denV_updated L hO.lenH hO.Hh hhp m hm
  have hex := C50_extract { Gg := params.Gg, Hh := hp, Uu := Uu, GP := params.GP } L k lf.P
    lf.Tprime hO.lenG lhp hO.Gg vhp vU vP lf.c lf.c' hc.1
    hc.2.1 hc.2.2 lf.t lf.t' hgd.1 hgd.2 hip
    (fun p => (hpa p).1) (fun p => (hpa p).2)
  have lg : (L.denV params.Gg).length = 2 ^ k := by simp [hO.lenG]
  have lh : (L.denV hp).length = 2 ^ k := by simp [lhp]
  have sumh : ∀ f : ℕ → ZMod q, ∑ m ∈ Finset.range (2 ^ k), f m • (L.denV hp).getD m 0 =
      ∑ m ∈ Finset.range (2 ^ k), ((y ^ m)⁻¹ * f m) • h m := fun f =>
    Finset.sum_congr rfl fun m hm => by rw [hhpd m (Finset.mem_range.mp hm), smul_smul, mul_comm]
  unfold BpLeaf.rel BpLeaf.ans BpLeaf.ip
  cases he : ipExtract (lf.Tprime : ZMod q) lf.c lf.c'
      lf.t lf.t' with
  | relation w =>
    rw [he] at hex
    simp only [firstN, msm_firstN _ _ _ lg, msm_firstN _ _ _ lh] at hex
    refine ⟨fun w' hw' => ?_, fun h0 => absurd h0 (by simp)⟩
    simp only [Option.some.injEq] at hw'
    subst hw'
    obtain ⟨h1, h2⟩ := hex
    refine ⟨fun hz => ?_, ?_⟩
    · obtain ⟨_, _, z3, z4, z5⟩ := hz
      rcases h1 with ⟨m, hm, h1⟩ | ⟨m, hm, h1⟩ | h1
      · exact h1 (z4 m hm)
      · have := z5 m hm
        dsimp only at this
        rcases mul_eq_zero.mp this with h3 | h3
        · exact inv_ne_zero (pow_ne_zero m hyne) h3
        · exact h1 h3
      · exact h1 z3
    · rw [sumh] at h2
      simp only [GComb.val, zero_smul, zero_add]
      rw [← h2, hg]
      abel
  | opening w =>
    rw [he] at hex
    simp only [firstN, msm_firstN _ _ _ lg, msm_firstN _ _ _ lh, dot_firstN] at hex
    obtain ⟨h1, h2⟩ := hex
    refine ⟨fun w' hw' => absurd hw' (by simp), fun _ => ⟨?_, h2⟩⟩
    rw [sumh] at h1
    rw [h1] at e67
    have s1 : (L.denV params.Gg).sum = ∑ m ∈ Finset.range (2 ^ k), g m := by
      rw [hg, Finset.sum_range, ← List.sum_ofFn]
      congr 1
      apply List.ext_getElem
      · simp [hO.lenG]
      · intro m h1 h2
        simp [List.getD, List.getElem?_eq_getElem h1]
    have s2 : msm ((List.zipWith (fun (i : ℕ) m => (y⁻¹ ^ i) • m) (List.range (2 ^ k)) (L.denV params.Hh)))
        ((List.range (2 ^ k)).map (fun i => z * y ^ i + z ^ 2 * 2 ^ i)) =
        ∑ m ∈ Finset.range (2 ^ k), (z + (y ^ m)⁻¹ * (z ^ 2 * 2 ^ m)) • h m := by
      rw [msm_firstN _ _ _ (by simp [hO.lenH])]
      refine Finset.sum_congr rfl fun m hm => ?_
      have hm' := Finset.mem_range.mp hm
      have hml : m < (L.denV params.Hh).length := by simp [hO.lenH, hm']
      have : (List.zipWith (fun (i : ℕ) m => (y⁻¹ ^ i) • m) (List.range (2 ^ k)) (L.denV params.Hh)).getD m 0 =
          (y ^ m)⁻¹ • h m := by
        rw [hh]
        simp only [List.getD, List.getElem?_zipWith, List.getElem?_range hm', List.getElem?_eq_getElem hml,
          Option.getD_some, inv_pow]
      rw [this, smul_smul]
      congr 1
      have hpz : y ^ m ≠ 0 := pow_ne_zero m hyne
      field_simp
    rw [s1, s2] at e67
    have e : A + lf.x • S =
        ((lf.Mu : ZMod q) • L.den params.H +
          ((∑ m ∈ Finset.range (2 ^ k), w.1 m • (L.denV params.Gg).getD m 0) +
            ∑ m ∈ Finset.range (2 ^ k), ((y ^ m)⁻¹ * w.2.1 m) • h m)) +
        z • ∑ m ∈ Finset.range (2 ^ k), g m - ∑ m ∈ Finset.range (2 ^ k), (z + (y ^ m)⁻¹ * (z ^ 2 * 2 ^ m)) • h m := by
      rw [e67]; abel
    rw [e]
    simp only [GComb.val, BpAns.comb, zero_smul, zero_add, add_zero, hg, Finset.smul_sum]
    have a1 : ∑ x ∈ Finset.range (2 ^ k), (w.1 x + z) • (L.denV params.Gg).getD x 0 =
        (∑ x ∈ Finset.range (2 ^ k), w.1 x • (L.denV params.Gg).getD x 0) +
          ∑ x ∈ Finset.range (2 ^ k), z • (L.denV params.Gg).getD x 0 := by
      rw [← Finset.sum_add_distrib]; exact Finset.sum_congr rfl fun m _ => add_smul _ _ _
    have a2 : ∑ x ∈ Finset.range (2 ^ k), ((y ^ x)⁻¹ * (w.2.1 x - z ^ 2 * 2 ^ x) - z) • h x =
        (∑ x ∈ Finset.range (2 ^ k), ((y ^ x)⁻¹ * w.2.1 x) • h x) -
          ∑ x ∈ Finset.range (2 ^ k), (z + (y ^ x)⁻¹ * (z ^ 2 * 2 ^ x)) • h x := by
      rw [← Finset.sum_sub_distrib]
      exact Finset.sum_congr rfl fun m _ => by rw [← sub_smul]; congr 1; ring
    rw [a1, a2]
    abel

end

end MscPoc
