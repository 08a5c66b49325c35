import Mathlib.LinearAlgebra.Vandermonde
import Verif.Lemmas.BpLeaf
import Verif.Lemmas.BpRepaired
import Verif.Spec.BpExtractC

/-!
# Special soundness of the repaired range proof: the algebra
-/

set_option autoImplicit false

namespace MscPoc

section
variable {F : Type} [Field F]

theorem coeffs_zero (n : ℕ) (c : ℕ → F) (y : Fin n → F) (hy : Function.Injective y)
    (h : ∀ j, ∑ i ∈ Finset.range n, c i * y j ^ i = 0) : ∀ i < n, c i = 0 := by
  have := Matrix.eq_zero_of_forall_index_sum_pow_mul_eq_zero (v := fun i : Fin n => c i) hy (fun j => by
    rw [← h j, Finset.sum_range]
    exact Finset.sum_congr rfl fun i _ => mul_comm _ _)
  exact fun i hi => congrFun this ⟨i, hi⟩

theorem quadratic_zero {a b c : F} (z : Fin 3 → F) (hz : Function.Injective z) (h : ∀ l, a + z l * b + z l ^ 2 * c = 0) :
    a = 0 ∧ b = 0 ∧ c = 0 := by
  have := coeffs_zero 3 (fun i => if i = 0 then a else if i = 1 then b else c) z hz (fun l => by
    rw [← h l]
    simp [Finset.sum_range_succ]
    ring)
  exact ⟨by simpa using this 0, by simpa using this 1, by simpa using this 2⟩

theorem bits_of_nodes {n : ℕ} (hn : 0 < n) {v : F} {aL aR : ℕ → F} (y : Fin n → F) (hy : Function.Injective y)
    (z : Fin n → Fin 3 → F) (hz : ∀ j, Function.Injective (z j)) (h : ∀ j l, nodeEq n v aL aR (y j) (z j l) = 0) : Bits n v aL aR := by
  have q := fun j => quadratic_zero (z j) (hz j) (h j)
  have h1 := coeffs_zero n _ y hy (fun j => (q j).1)
  have h2 := coeffs_zero n _ y hy (fun j => (q j).2.1)
  have hc : ∀ i < n, aR i = aL i - 1 := fun i hi => by linear_combination -h2 i hi
  refine ⟨fun i hi => ?_, hc, ?_⟩
  · have := h1 i hi
    rw [hc i hi] at this
    rcases mul_eq_zero.mp this with h | h
    · exact .inl h
    · exact .inr (by linear_combination h)
  · linear_combination -(q ⟨0, hn⟩).2.2

theorem Bits.nat {n : ℕ} {v : F} {aL aR : ℕ → F} (h : Bits n v aL aR) : ∃ u : ℕ, u < 2 ^ n ∧ v = (u : F) := by
  obtain ⟨hb, hc, rfl⟩ := h
  clear hc aR
  induction n with
  | zero => exact ⟨0, by simp, by simp⟩
  | succ n ih =>
    obtain ⟨u, hu, e⟩ := ih fun i hi => hb i (by omega)
    rw [Finset.sum_range_succ, e]
    rcases hb n (by omega) with h | h
    · exact ⟨u, by rw [pow_succ]; omega, by rw [h]; simp⟩
    · exact ⟨u + 2 ^ n, by rw [pow_succ]; omega, by rw [h]; push_cast; ring⟩

end

section
variable {E M : Type} {q : ℕ} [AddCommGroup M] [Module (ZMod q) M]

/-- what an accepted proof says, in equations -/
theorem verifyC_true [Fact q.Prime] (pf : BulletProof E) (L : Lawful pf.Params.GP q M) (hV : BPValid pf L) (ch : Challenges E)
    (sha : Bytes → Bytes) (tp tx mu : Int) (h2 : pf.Tprime = some tp) (h3 : pf.Taux = some tx) (h4 : pf.Mu = some mu)
    (y z x : ZMod q) (hy : y = ((ch.y pf.A pf.S) : Int)) (hz : z = ((ch.z pf.A pf.S) : Int))
    (hx : x = ((ch.x pf.T1 pf.T2) : Int)) (h : pf.verifyC ch sha = some true) :
    ((tp : ZMod q) • L.g + (tx : ZMod q) • L.den pf.Params.H =
      z ^ 2 • L.den pf.V + deltaSpec pf.Params.N y z • L.g + x • L.den pf.T1 + x ^ 2 • L.den pf.T2) ∧
    ((mu : ZMod q) • L.den pf.Params.H + L.den pf.InnerProductProof.P =
      L.den pf.A + x • L.den pf.S - z • (L.denV pf.Params.Gg).sum +
        msm ((List.zipWith (fun (i : ℕ) m => (y⁻¹ ^ i) • m) (List.range pf.Params.N) (L.denV pf.Params.Hh)))
          ((List.range pf.Params.N).map (fun i => z * y ^ i + z ^ 2 * 2 ^ i))) ∧
    pf.InnerProductProof.verify sha = some true := by
  have hs := h
  unfold BulletProof.verifyC at h
  dsimp only at h
  unbind h with hp e1
  unbind h with tp' e2
  unbind h with tx' e3
  unbind h with dl e4
  unbind h with gp e5
  unbind h with he e6
  unbind h with mu' e7
  unbind h with ok e8
  clear h
  obtain ⟨v, hv1, hv2⟩ := Lawful.verifyC_core pf L hV ch sha hp tp tx mu ok e1 h2 h3 h4 e8 y z x hy hz hx
  rw [hs] at hv1
  obtain ⟨c1, c2, c3⟩ := hv2.mp (Option.some.inj hv1).symm
  obtain ⟨npos, _, _, yi, hyi, hden⟩ := L.updateGenerators_spec hV.lenH hV.Hh e1
  refine ⟨c1, ?_, by rw [e8, c3]⟩
  have e1 : (List.zipWith (fun c m => c • m) (pows yi pf.Params.N) (L.denV pf.Params.Hh)) =
      List.zipWith (fun (i : ℕ) m => (y⁻¹ ^ i) • m) (List.range pf.Params.N) (L.denV pf.Params.Hh) := by
    unfold pows
    rw [List.zipWith_map_left]
    rcases Nat.lt_or_ge pf.Params.N 2 with hlt | hge
    · have : pf.Params.N = 1 := by omega
      rw [this]
      cases L.denV pf.Params.Hh <;> simp
    · have : yi = y⁻¹ := by
        have := hyi hge
        rw [← hy] at this
        exact eq_inv_of_mul_eq_one_right this
      rw [this]
  have e2 : (List.zipWith (· + ·)
            (List.zipWith (· * ·) (pows y pf.Params.N) (List.replicate pf.Params.N z))
            ((pows 2 pf.Params.N).map (· * (z * z)))) =
      (List.range pf.Params.N).map (fun i => z * y ^ i + z ^ 2 * 2 ^ i) := by
    apply List.ext_getElem
    · simp [pows]
    · intro i h1 h2
      simp [pows]
      ring
  rw [c2, hden, e1, e2]

end

end MscPoc
