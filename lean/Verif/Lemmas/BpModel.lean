import Verif.Lemmas.BpAlg
import Verif.Lemmas.Ipp2
import Verif.Model.Bp

/-!
# What the range-proof helper functions compute
-/

set_option autoImplicit false

namespace MscPoc

theorem powerOfGo_length (x N : Int) : ∀ (n : ℕ) (c : Int), (powerOfGo x N n c).length = n
  | 0, _ => rfl
  | n + 1, c => by simp [powerOfGo, powerOfGo_length x N n]

theorem powerOf_length (x N : Int) (n : ℕ) : (powerOf x n N).length = n := powerOfGo_length x N n 1

theorem powerOfGo_cast (q : ℕ) (x : Int) : ∀ (n : ℕ) (c : Int),
    castV q (powerOfGo x q n c) = (pows (x : ZMod q) n).map ((c : ZMod q) * ·)
  | 0, c => by simp [powerOfGo, pows]
  | n + 1, c => by
    rw [powerOfGo, castV, List.map_cons, ← castV, powerOfGo_cast q x n, pows_succ]
    simp only [List.map_cons, List.map_map, mul_one, cast_emod]
    congr 1
    apply List.map_congr_left
    intro a _
    simp [mul_assoc]

theorem powerOf_cast (q : ℕ) (x : Int) (n : ℕ) : castV q (powerOf x n q) = pows (x : ZMod q) n := by
  rw [powerOf, powerOfGo_cast]; simp

theorem castV_replicate (q n : ℕ) (a : Int) : castV q (vectorCopy a n) = List.replicate n (a : ZMod q) := by
  simp [vectorCopy]

section
variable {E : Type} {GP : Grp E} {q : ℕ} {M : Type} [AddCommGroup M] [Module (ZMod q) M]

theorem Lawful.commitVectorGo_spec (L : Lawful GP q M) : ∀ (n : ℕ) (aL aR : List Int) (g h : List E) (R : E),
    aL.length = n → aR.length = n → g.length = n → h.length = n →
    (∀ e ∈ g, L.V e) → (∀ e ∈ h, L.V e) → L.V R →
    ∃ C, commitVectorGo GP n aL aR g h R = some C ∧ L.V C ∧
      L.den C = L.den R + msm (L.denV g) (castV q aL) + msm (L.denV h) (castV q aR)
  | 0, aL, aR, g, h, R, h1, h2, h3, h4, _, _, vR => by
    have e1 := List.length_eq_zero_iff.mp h1
    have e2 := List.length_eq_zero_iff.mp h2
    refine ⟨R, rfl, vR, ?_⟩
    simp [e1, e2]
  | n + 1, [], _, _, _, R, h1, _, _, _, _, _, _ => by simp at h1
  | n + 1, _ :: _, [], _, _, R, _, h1, _, _, _, _, _ => by simp at h1
  | n + 1, _ :: _, _ :: _, [], _, R, _, _, h1, _, _, _, _ => by simp at h1
  | n + 1, _ :: _, _ :: _, _ :: _, [], R, _, _, _, h1, _, _, _ => by simp at h1
  | n + 1, a :: aL, b :: aR, e :: g, f :: h, R, h1, h2, h3, h4, vg, vh, vR => by
    have ve := vg e (by simp)
    have vf := vh f (by simp)
    have v1 := L.V_add vR (L.V_mul a ve)
    obtain ⟨C, hC, vC, dC⟩ := L.commitVectorGo_spec n aL aR g h (GP.add (GP.add R (GP.mul e a)) (GP.mul f b))
      (by simpa using h1) (by simpa using h2) (by simpa using h3) (by simpa using h4)
      (fun x hx => vg x (by simp [hx])) (fun x hx => vh x (by simp [hx])) (L.V_add v1 (L.V_mul b vf))
    refine ⟨C, hC, vC, ?_⟩
    rw [dC, L.den_add v1 (L.V_mul b vf), L.den_add vR (L.V_mul a ve), L.den_mul a ve, L.den_mul b vf]
    simp only [Lawful.denV_cons, List.map_cons, msm_cons]
    abel

theorem Lawful.commitVector_spec (L : Lawful GP q M) {n : ℕ} {aL aR : List Int} {g h : List E} {H : E} {al : Int}
    {C : E} (h1 : aL.length = n) (h2 : aR.length = n) (h3 : g.length = n) (h4 : h.length = n)
    (vg : ∀ e ∈ g, L.V e) (vh : ∀ e ∈ h, L.V e) (vH : L.V H)
    (hc : commitVector GP aL aR al H g h n = some C) :
    L.V C ∧ L.den C = (al : ZMod q) • L.den H + msm (L.denV g) (castV q aL) + msm (L.denV h) (castV q aR) := by
  obtain ⟨C', hC, vC, dC⟩ := L.commitVectorGo_spec n aL aR g h (GP.mul H al) h1 h2 h3 h4 vg vh (L.V_mul al vH)
  unfold commitVector at hc
  rw [hC] at hc
  cases hc
  exact ⟨vC, by rw [dC, L.den_mul al vH]⟩

theorem delta_spec {N : ℕ} {y z r : Int} (h : delta N q y z = some r) :
    (r : ZMod q) = deltaSpec N (y : ZMod q) (z : ZMod q) := by
  unfold delta at h
  unbind h with t2 e2
  unbind h with t3 e3
  simp only [Option.some.injEq] at h
  subst h
  have d2 := (scalarProduct_spec e2).2
  have d3 := (scalarProduct_spec e3).2
  have hs : ∀ (l : List (ZMod q)), dot (List.replicate l.length (1 : ZMod q)) l = l.sum := by
    intro l
    induction l with
    | nil => simp
    | cons a l ih => simp [List.replicate_succ, ih]
  have hs2 : ∀ (c : ZMod q), dot (List.replicate N (1 : ZMod q)) (pows c N) = (pows c N).sum := by
    intro c
    have := hs (pows c N)
    rwa [pows_length] at this
  rw [castV_replicate, powerOf_cast, Int.cast_one, hs2] at d2 d3
  simp only [cast_emod, Int.cast_sub, Int.cast_mul, d2, d3, deltaSpec]
  push_cast
  ring

theorem delta_isSome (N : ℕ) (m y z : Int) : ∃ r, delta N m y z = some r := by
  unfold delta scalarProduct
  simp [vectorCopy, powerOf_length]

/-- `updateGenerators` never fails when `n ≥ 1`, the generators suffice and `y` is invertible (`n ≥ 2`). -/
theorem updateGeneratorsGo_isSome (yInv : Int) : ∀ (n : ℕ) (hs : List E) (e : Int), n ≤ hs.length →
    ∃ r, updateGeneratorsGo GP yInv hs e n = some r
  | 0, hs, e, _ => by cases hs <;> exact ⟨[], rfl⟩
  | n + 1, [], e, h => by simp at h
  | n + 1, f :: hs, e, h => by
    obtain ⟨r, hr⟩ := updateGeneratorsGo_isSome yInv n hs (e * yInv) (by simpa using h)
    exact ⟨GP.mul f e :: r, by simp [updateGeneratorsGo, hr]⟩

theorem Lawful.updateGeneratorsGo_spec (L : Lawful GP q M) (yInv : Int) : ∀ (n : ℕ) (hs : List E) (e : Int) (r : List E),
    hs.length = n → (∀ x ∈ hs, L.V x) → updateGeneratorsGo GP yInv hs e n = some r →
    r.length = n ∧ (∀ x ∈ r, L.V x) ∧
      L.denV r = List.zipWith (fun c m => c • m) ((pows (yInv : ZMod q) n).map ((e : ZMod q) * ·)) (L.denV hs)
  | 0, hs, e, r, hl, _, h => by
    have : hs = [] := List.length_eq_zero_iff.mp hl
    subst this
    simp [updateGeneratorsGo] at h
    subst h
    simp [pows]
  | n + 1, [], e, r, hl, _, h => by simp at hl
  | n + 1, f :: hs, e, r, hl, hv, h => by
    unfold updateGeneratorsGo at h
    unbind h with rest e1
    simp only [Option.some.injEq] at h
    subst h
    have vf := hv f (by simp)
    obtain ⟨h1, h2, h3⟩ := L.updateGeneratorsGo_spec yInv n hs _ rest (by simpa using hl)
      (fun x hx => hv x (by simp [hx])) e1
    refine ⟨by simp [h1], ?_, ?_⟩
    · intro x hx
      rcases List.mem_cons.mp hx with rfl | hx
      · exact L.V_mul e vf
      · exact h2 x hx
    · rw [Lawful.denV_cons, h3, L.den_mul e vf, pows_succ, Lawful.denV_cons]
      simp only [List.map_cons, List.map_map, List.zipWith_cons_cons, mul_one, Int.cast_mul]
      congr 3
      funext a
      simp [mul_assoc]

/-- meaning of `h'`: `h'ᵢ = y⁻ⁱ hᵢ`; for a single generator nothing is inverted. -/
theorem Lawful.updateGenerators_spec (L : Lawful GP q M) {Hh hp : List E} {y : Int} {n : ℕ} (hl : Hh.length = n)
    (hv : ∀ x ∈ Hh, L.V x) (h : updateGenerators GP Hh y n = some hp) :
    0 < n ∧ hp.length = n ∧ (∀ x ∈ hp, L.V x) ∧ ∃ yi : ZMod q, (2 ≤ n → (y : ZMod q) * yi = 1) ∧
      L.denV hp = List.zipWith (fun c m => c • m) (pows yi n) (L.denV Hh) := by
  cases Hh with
  | nil => simp at hl; subst hl; simp [updateGenerators] at h
  | cons h0 hs => cases n with
    | zero => simp at hl
    | succ n => cases n with
      | zero =>
        have : hs = [] := List.length_eq_zero_iff.mp (by simpa using hl)
        subst this
        simp [updateGenerators] at h
        subst h
        exact ⟨by omega, rfl, hv, 1, by omega, by simp [pows]⟩
      | succ n =>
        unfold updateGenerators at h
        unbind h with yInv e1
        unbind h with rest e2
        simp only [Option.some.injEq] at h
        subst h
        rw [L.N_eq] at e1
        obtain ⟨h1, h2, h3⟩ := L.updateGeneratorsGo_spec yInv (n + 1) hs yInv rest (by simpa using hl)
          (fun x hx => hv x (by simp [hx])) e2
        refine ⟨by omega, by simp [h1], ?_, yInv, fun _ => modInverse_spec e1, ?_⟩
        · intro x hx
          rcases List.mem_cons.mp hx with rfl | hx
          · exact hv x (by simp)
          · exact h2 x hx
        · rw [Lawful.denV_cons, h3, pows_succ (yInv : ZMod q) (n + 1), Lawful.denV_cons]
          simp

theorem updateGenerators_isSome {Hh : List E} {y : Int} {n : ℕ} (hn : 0 < n) (hl : n ≤ Hh.length)
    (hy : 2 ≤ n → Int.gcd y GP.N = 1) : ∃ hp, updateGenerators GP Hh y n = some hp := by
  cases Hh with
  | nil => simp at hl; omega
  | cons h0 hs => cases n with
    | zero => omega
    | succ n => cases n with
      | zero => exact ⟨[h0], by simp [updateGenerators]⟩
      | succ n =>
        obtain ⟨r, hr⟩ := updateGeneratorsGo_isSome (GP := GP) (Int.gcdA (y % GP.N) GP.N % GP.N) (n + 1) hs
          (Int.gcdA (y % GP.N) GP.N % GP.N) (by simpa using hl)
        refine ⟨h0 :: r, ?_⟩
        unfold updateGenerators modInverse
        rw [if_pos (hy (by omega))]
        simp [hr]

end

section alg2
variable {F M : Type} [CommRing F] [AddCommGroup M] [Module F M]

theorem msm_zip_smul : ∀ (p y b : List F) (h : List M), (∀ c ∈ List.zip p y, c.2 * c.1 = 1) →
    p.length = h.length → y.length = h.length → b.length = h.length →
    msm (List.zipWith (fun c m => c • m) p h) (List.zipWith (· * ·) y b) = msm h b
  | _, _, _, [], _, _, _, _ => by simp
  | [], _, _, _ :: _, _, h, _, _ => by simp at h
  | _ :: _, [], _, _ :: _, _, _, h, _ => by simp at h
  | _ :: _, _ :: _, [], _ :: _, _, _, _, h => by simp at h
  | c :: p, d :: y, e :: b, m :: h, hc, h1, h2, h3 => by
    have ih := msm_zip_smul p y b h (fun c' hc' => hc c' (by simp [hc'])) (by simpa using h1) (by simpa using h2)
      (by simpa using h3)
    have h0 := hc (c, d) (by simp)
    simp only at h0
    simp only [List.zipWith_cons_cons, msm_cons, ih, smul_smul]
    rw [show d * e * c = e * (d * c) by ring, h0, mul_one]

/-- `h'^{yⁿ∘b} = h^b` -/
theorem msm_scaled (y yi : F) (n : ℕ) (h : List M) (b : List F) (hy : 2 ≤ n → y * yi = 1)
    (hh : h.length = n) (hb : b.length = n) :
    msm (List.zipWith (fun c m => c • m) (pows yi n) h) (List.zipWith (· * ·) (pows y n) b) = msm h b := by
  apply msm_zip_smul
  · intro c hc
    simp only [pows, List.zip_map', List.mem_map, List.mem_range] at hc
    obtain ⟨i, hi, rfl⟩ := hc
    simp only
    rcases Nat.eq_zero_or_pos i with rfl | hp
    · simp
    · rw [← mul_pow, hy (by omega), one_pow]
  · simp [pows_length, hh]
  · simp [pows_length, hh]
  · omega

end alg2
end MscPoc
