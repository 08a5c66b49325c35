import Verif.Lemmas.Vec
import Verif.Spec.Bp

/-!
# Vector algebra behind the range proof
-/

set_option autoImplicit false

namespace MscPoc

section alg
variable {F M : Type} [CommRing F] [AddCommGroup M] [Module F M]

theorem pows_length (y : F) (n : ℕ) : (pows y n).length = n := by simp [pows]

theorem pows_succ (y : F) (n : ℕ) : pows y (n + 1) = 1 :: (pows y n).map (y * ·) := by
  simp [pows, List.range_succ_eq_map, Function.comp_def, pow_succ']

/-- the constant coefficient `⟨l₀,r₀⟩` -/
theorem bp_scalar (z : F) : ∀ (aL aR y w : List F), aL.length = aR.length → aL.length = y.length →
    aL.length = w.length →
    dot (aL.map (· + -z)) (List.zipWith (· + ·) (List.zipWith (· * ·) y (aR.map (z + ·))) (w.map (· * (z * z)))) =
      dot aL (List.zipWith (· * ·) y aR) + z * (dot aL y - dot y aR - y.sum) + z ^ 2 * dot aL w
        + (z - z ^ 2) * y.sum - z ^ 3 * w.sum
  | [], aR, y, w, h1, h2, h3 => by
    have e1 : y = [] := List.length_eq_zero_iff.mp h2.symm
    have e2 : w = [] := List.length_eq_zero_iff.mp h3.symm
    simp [e1, e2]
  | a :: aL, [], _, _, h1, _, _ => by simp at h1
  | a :: aL, _ :: _, [], _, _, h2, _ => by simp at h2
  | a :: aL, _ :: _, _ :: _, [], _, _, h3 => by simp at h3
  | a :: aL, b :: aR, c :: y, d :: w, h1, h2, h3 => by
    have ih := bp_scalar z aL aR y w (by simpa using h1) (by simpa using h2) (by simpa using h3)
    simp only [List.map_cons, List.zipWith_cons_cons, dot_cons, List.sum_cons, ih]
    ring

/-- expansion of `⟨l₀ + x·s_L, r₀ + x·r₁⟩` -/
theorem dot_expand (x : F) (l0 sL r0 r1 : List F) (h1 : l0.length = sL.length) (h2 : r0.length = r1.length) :
    dot (List.zipWith (· + ·) l0 (sL.map (· * x))) (List.zipWith (· + ·) r0 (r1.map (· * x))) =
      dot l0 r0 + x * (dot sL r0 + dot l0 r1) + x ^ 2 * dot sL r1 := by
  rw [dot_add_left _ _ _ (by simpa using h1), dot_add_right _ _ _ (by simpa using h2),
    dot_add_right _ _ _ (by simpa using h2), dot_map_mul_left, dot_map_mul_right, dot_map_mul_left,
    dot_map_mul_right]
  ring

/-- the shape of `r` used by the prover equals `r₀ + x·(yⁿ∘s_R)` -/
theorem br_shape (x : F) : ∀ (y ar sR w : List F), y.length = ar.length → y.length = sR.length → y.length = w.length →
    List.zipWith (· + ·) (List.zipWith (· * ·) y (List.zipWith (· + ·) ar (sR.map (· * x)))) w =
      List.zipWith (· + ·) (List.zipWith (· + ·) (List.zipWith (· * ·) y ar) w)
        ((List.zipWith (· * ·) y sR).map (· * x))
  | [], _, _, _, _, _, _ => by simp
  | _ :: _, [], _, _, h, _, _ => by simp at h
  | _ :: _, _ :: _, [], _, _, h, _ => by simp at h
  | _ :: _, _ :: _, _ :: _, [], _, _, h => by simp at h
  | c :: y, b :: ar, s :: sR, d :: w, h1, h2, h3 => by
    have ih := br_shape x y ar sR w (by simpa using h1) (by simpa using h2) (by simpa using h3)
    simp only [List.map_cons, List.zipWith_cons_cons, ih]
    congr 1
    ring

theorem msm_replicate (c : F) (g : List M) : msm g (List.replicate g.length c) = c • g.sum := by
  induction g with
  | nil => simp
  | cons x g ih => simp [List.replicate_succ, ih]

/-- `g^{l}` for `l = a - z + x·s` -/
theorem msm_l (z x : F) (g : List M) (a s : List F) (h1 : g.length = a.length) (h2 : g.length = s.length) :
    msm g (List.zipWith (· + ·) (a.map (· + -z)) (s.map (· * x))) = msm g a - z • g.sum + x • msm g s := by
  induction g generalizing a s with
  | nil => simp
  | cons e g ih => cases a with
    | nil => simp at h1
    | cons a0 a => cases s with
      | nil => simp at h2
      | cons s0 s =>
        simp only [List.map_cons, List.zipWith_cons_cons, msm_cons, ih a s (by simpa using h1) (by simpa using h2),
          List.sum_cons]
        module

theorem msm_mul_pows_sum : ∀ (h' h : List M) (y : List F),
    (∀ b : List F, b.length = h.length → msm h' (List.zipWith (· * ·) y b) = msm h b) →
    msm h' (List.zipWith (· * ·) y (List.replicate h.length 1)) = h.sum := by
  intro h' h y hy
  rw [hy _ (by simp), msm_replicate, one_smul]

end alg
end MscPoc
