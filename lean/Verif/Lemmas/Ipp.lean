import Verif.Lemmas.Vec
import Verif.Model.Bip
import Mathlib.Tactic.LinearCombination

/-!
# Lemmas on the inner-product argument
-/

set_option autoImplicit false

namespace MscPoc

section algebra
variable {F M : Type} [CommRing F] [AddCommGroup M] [Module F M]

/-- One halving step preserves `⟨a,g⟩ + ⟨b,h⟩ + ⟨a,b⟩u` up to the cross terms. -/
theorem fold_step (x xi : F) (hx : x * xi = 1) (n : ℕ) (aLo aHi bLo bHi : List F) (gLo gHi hLo hHi : List M) (u : M)
    (h1 : aLo.length = n) (h2 : aHi.length = n) (h3 : bLo.length = n) (h4 : bHi.length = n)
    (h5 : gLo.length = n) (h6 : gHi.length = n) (h7 : hLo.length = n) (h8 : hHi.length = n) :
    msm (List.zipWith (· + ·) (gLo.map (xi • ·)) (gHi.map (x • ·)))
        (List.zipWith (· + ·) (aLo.map (· * x)) (aHi.map (· * xi))) +
      msm (List.zipWith (· + ·) (hLo.map (x • ·)) (hHi.map (xi • ·)))
        (List.zipWith (· + ·) (bLo.map (· * xi)) (bHi.map (· * x))) +
      dot (List.zipWith (· + ·) (aLo.map (· * x)) (aHi.map (· * xi)))
        (List.zipWith (· + ·) (bLo.map (· * xi)) (bHi.map (· * x))) • u =
    (msm gLo aLo + msm gHi aHi) + (msm hLo bLo + msm hHi bHi) + (dot aLo bLo + dot aHi bHi) • u +
      (x * x) • (msm gHi aLo + msm hLo bHi + dot aLo bHi • u) +
      (xi * xi) • (msm gLo aHi + msm hHi bLo + dot aHi bLo • u) := by
  rw [msm_add_left _ _ _ (by simp [h5, h6]), msm_add_left _ _ _ (by simp [h7, h8]),
    dot_add_left _ _ _ (by simp [h1, h2])]
  simp only [msm_map_smul, dot_map_mul_left]
  rw [msm_add_right _ _ _ (by simp [h1, h2]), msm_add_right _ _ _ (by simp [h1, h2]),
    msm_add_right _ _ _ (by simp [h3, h4]), msm_add_right _ _ _ (by simp [h3, h4]),
    dot_add_right _ _ _ (by simp [h3, h4]), dot_add_right _ _ _ (by simp [h3, h4])]
  simp only [msm_map_mul, dot_map_mul_right]
  linear_combination (norm := module) hx • (msm gLo aLo + msm gHi aHi + msm hLo bLo + msm hHi bHi +
    (dot aLo bLo + dot aHi bHi) • u)

end algebra

section
variable {E : Type} {GP : Grp E} {q : ℕ} {M : Type} [AddCommGroup M] [Module (ZMod q) M]
variable (L : Lawful GP q M)

theorem vectorScalarExp_some {a : List E} {s : Int} :
    vectorScalarExp GP a (some s) = some (a.map (fun x => GP.mul x s)) := by
  cases a <;> rfl

theorem Lawful.denV_mul (L : Lawful GP q M) (a : List E) (s : Int) (ha : ∀ x ∈ a, L.V x) :
    L.denV (a.map (fun x => GP.mul x s)) = (L.denV a).map ((s : ZMod q) • ·) := by
  induction a with
  | nil => rfl
  | cons x a ih =>
    simp only [List.map_cons, Lawful.denV_cons]
    rw [L.den_mul s (ha x (by simp)), ih (fun y hy => ha y (by simp [hy]))]

theorem Lawful.denV_add (L : Lawful GP q M) (a b : List E) (ha : ∀ x ∈ a, L.V x) (hb : ∀ x ∈ b, L.V x) :
    L.denV (List.zipWith GP.add a b) = List.zipWith (· + ·) (L.denV a) (L.denV b) := by
  induction a generalizing b with
  | nil => rfl
  | cons x a ih => cases b with
    | nil => rfl
    | cons y b =>
      simp only [List.zipWith_cons_cons, Lawful.denV_cons]
      rw [L.den_add (ha x (by simp)) (hb y (by simp)),
        ih b (fun z hz => ha z (by simp [hz])) (fun z hz => hb z (by simp [hz]))]

theorem Lawful.V_zipAdd (L : Lawful GP q M) (a b : List E) (ha : ∀ x ∈ a, L.V x) (hb : ∀ x ∈ b, L.V x) :
    ∀ x ∈ List.zipWith GP.add a b, L.V x := by
  induction a generalizing b with
  | nil => simp
  | cons x a ih => cases b with
    | nil => simp
    | cons y b =>
      intro z hz
      simp only [List.zipWith_cons_cons, List.mem_cons] at hz
      rcases hz with rfl | hz
      · exact L.V_add (ha x (by simp)) (hb y (by simp))
      · exact ih b (fun z hz => ha z (by simp [hz])) (fun z hz => hb z (by simp [hz])) z hz

theorem Lawful.V_mapMul (L : Lawful GP q M) (a : List E) (s : Int) (ha : ∀ x ∈ a, L.V x) :
    ∀ x ∈ a.map (fun x => GP.mul x s), L.V x := by
  intro x hx
  simp only [List.mem_map] at hx
  obtain ⟨y, hy, rfl⟩ := hx
  exact L.V_mul s (ha y hy)

/-- The halving step, explicitly, when the challenge is invertible. -/
theorem foldGens_eq {g h : List E} {x xi : Int} {n : ℕ} (hi : modInverse x GP.N = some xi)
    (hg : g.length = 2 * n) (hh : h.length = 2 * n) :
    foldGens GP g h x n = some
      (List.zipWith GP.add ((g.take n).map (fun e => GP.mul e xi)) ((g.drop n).map (fun e => GP.mul e x)),
       List.zipWith GP.add ((h.take n).map (fun e => GP.mul e x)) ((h.drop n).map (fun e => GP.mul e xi))) := by
  have h1 : sliceTo g n = some (g.take n) := by unfold sliceTo; rw [if_pos (by omega)]
  have h2 : sliceFrom g n = some (g.drop n) := by unfold sliceFrom; rw [if_pos (by omega)]
  have h3 : sliceTo h n = some (h.take n) := by unfold sliceTo; rw [if_pos (by omega)]
  have h4 : sliceFrom h n = some (h.drop n) := by unfold sliceFrom; rw [if_pos (by omega)]
  unfold foldGens
  simp only [h1, h2, h3, h4, hi, vectorScalarExp_some, Option.bind_eq_bind, Option.bind_some]
  congr 2
  · unfold vectorECAdd vectorECAddE
    rw [if_neg (by simp; omega)]; rfl
  · unfold vectorECAdd vectorECAddE
    rw [if_neg (by simp; omega)]; rfl

/-- A halving step of non-empty halves needs an invertible challenge. -/
theorem foldGens_inv {g h g' h' : List E} {x : Int} {n : ℕ} (hn : 0 < n)
    (hf : foldGens GP g h x n = some (g', h')) : ∃ xi, modInverse x GP.N = some xi := by
  cases hi : modInverse x GP.N with
  | some xi => exact ⟨xi, rfl⟩
  | none =>
    unfold foldGens at hf
    simp only [hi, Option.bind_eq_bind, Option.bind_eq_some_iff] at hf
    obtain ⟨s, hs, s2, hs2, _⟩ := hf
    obtain ⟨hl, rfl⟩ := sliceTo_spec hs
    cases hg : g.take n with
    | nil =>
      have := congrArg List.length hg
      simp only [List.length_take, List.length_nil] at this; omega
    | cons y ys => rw [hg] at hs2; simp [vectorScalarExp] at hs2

theorem Lawful.foldGens_spec (L : Lawful GP q M) {g h g' h' : List E} {x : Int} {n : ℕ} (hn : 0 < n)
    (hg : g.length = 2 * n) (hh : h.length = 2 * n) (vg : ∀ e ∈ g, L.V e) (vh : ∀ e ∈ h, L.V e)
    (hf : foldGens GP g h x n = some (g', h')) :
    ∃ xi : Int, modInverse x GP.N = some xi ∧ (x : ZMod q) * (xi : ZMod q) = 1 ∧
      g'.length = n ∧ h'.length = n ∧ (∀ e ∈ g', L.V e) ∧ (∀ e ∈ h', L.V e) ∧
      L.denV g' = List.zipWith (· + ·) (((L.denV g).take n).map ((xi : ZMod q) • ·))
        (((L.denV g).drop n).map ((x : ZMod q) • ·)) ∧
      L.denV h' = List.zipWith (· + ·) (((L.denV h).take n).map ((x : ZMod q) • ·))
        (((L.denV h).drop n).map ((xi : ZMod q) • ·)) := by
  obtain ⟨xi, hi⟩ := foldGens_inv hn hf
  rw [foldGens_eq hi hg hh] at hf
  simp only [Option.some.injEq, Prod.mk.injEq] at hf
  obtain ⟨rfl, rfl⟩ := hf
  have vg1 : ∀ e ∈ g.take n, L.V e := fun e he => vg e (List.mem_of_mem_take he)
  have vg2 : ∀ e ∈ g.drop n, L.V e := fun e he => vg e (List.mem_of_mem_drop he)
  have vh1 : ∀ e ∈ h.take n, L.V e := fun e he => vh e (List.mem_of_mem_take he)
  have vh2 : ∀ e ∈ h.drop n, L.V e := fun e he => vh e (List.mem_of_mem_drop he)
  refine ⟨xi, hi, modInverse_spec (by rw [← L.N_eq]; exact hi), ?_, ?_, ?_, ?_, ?_, ?_⟩
  · simp; omega
  · simp; omega
  · exact L.V_zipAdd _ _ (L.V_mapMul _ _ vg1) (L.V_mapMul _ _ vg2)
  · exact L.V_zipAdd _ _ (L.V_mapMul _ _ vh1) (L.V_mapMul _ _ vh2)
  · rw [L.denV_add _ _ (L.V_mapMul _ _ vg1) (L.V_mapMul _ _ vg2), L.denV_mul _ _ vg1, L.denV_mul _ _ vg2,
      L.denV_take, L.denV_drop]
  · rw [L.denV_add _ _ (L.V_mapMul _ _ vh1) (L.V_mapMul _ _ vh2), L.denV_mul _ _ vh1, L.denV_mul _ _ vh2,
      L.denV_take, L.denV_drop]

/-- The verifier's target element after all rounds, for an honest prover, relative to the start. -/
theorem Lawful.bip_complete (L : Lawful GP q M) (sha : Bytes → Bytes) (k : ℕ) :
    ∀ (a b : List Int) (g h : List E) (u P Pv : E) (Ls Rs : List E) (pa pb : Int) (LL RR : List E),
    a.length = 2 ^ k → b.length = 2 ^ k → g.length = 2 ^ k → h.length = 2 ^ k →
    (∀ e ∈ g, L.V e) → (∀ e ∈ h, L.V e) → L.V u → L.V Pv →
    computeBipRecursive sha GP a b g h u P (2 ^ k) Ls Rs = some (pa, pb, LL, RR) →
    ∃ Ls' Rs' : List E, LL = Ls ++ Ls' ∧ RR = Rs ++ Rs' ∧ Ls'.length = k ∧ Rs'.length = k ∧
      (∀ e ∈ Ls', L.V e) ∧ (∀ e ∈ Rs', L.V e) ∧
      ∃ (g0 h0 P' : E), ipVerifyLoop sha GP Ls' Rs' g h Pv (2 ^ k) = some ([g0], [h0], P') ∧
        L.V g0 ∧ L.V h0 ∧ L.V P' ∧
        L.den P' = L.den Pv +
          ((pa : ZMod q) • L.den g0 + (pb : ZMod q) • L.den h0 + ((pa : ZMod q) * pb) • L.den u) -
          (msm (L.denV g) (castV q a) + msm (L.denV h) (castV q b) + dot (castV q a) (castV q b) • L.den u) := by
  induction k with
  | zero =>
    intro a b g h u P Pv Ls Rs pa pb LL RR ha hb hg hh vg vh vu vP hc
    obtain ⟨a0, rfl⟩ := List.length_eq_one_iff.mp ha
    obtain ⟨b0, rfl⟩ := List.length_eq_one_iff.mp hb
    obtain ⟨g0, rfl⟩ := List.length_eq_one_iff.mp hg
    obtain ⟨h0, rfl⟩ := List.length_eq_one_iff.mp hh
    unfold computeBipRecursive at hc
    simp only [pow_zero, ↓reduceIte, List.getElem?_cons_zero, Option.bind_eq_bind, Option.bind_some,
      Option.some.injEq, Prod.mk.injEq] at hc
    obtain ⟨rfl, rfl, rfl, rfl⟩ := hc
    refine ⟨[], [], by simp, by simp, rfl, rfl, by simp, by simp, g0, h0, Pv, rfl, vg g0 (by simp),
      vh h0 (by simp), vP, ?_⟩
    simp
  | succ k ih =>
    intro a b g h u P Pv Ls Rs pa pb LL RR ha hb hg hh vg vh vu vP hc
    have hpos : 0 < 2 ^ k := Nat.two_pow_pos k
    have h2 : 2 ^ (k + 1) = 2 * 2 ^ k := by rw [pow_succ]; ring
    rw [h2] at ha hb hg hh hc
    have hhalf : 2 * 2 ^ k / 2 = 2 ^ k := by omega
    unfold computeBipRecursive at hc
    rw [if_neg (by omega), if_neg (by omega)] at hc
    unbind hc with aLo e1
    unbind hc with aHi e2
    unbind hc with bLo e3
    unbind hc with bHi e4
    unbind hc with gLo e5
    unbind hc with gHi e6
    unbind hc with hLo e7
    unbind hc with hHi e8
    unbind hc with cL hcL
    unbind hc with cR hcR
    unbind hc with L0 hL0
    unbind hc with Lh hLh
    unbind hc with R0 hR0
    unbind hc with Rh hRh
    unbind hc with pp hfold
    obtain ⟨g', h'⟩ := pp
    unbind hc with x2inv hx2
    unbind hc with xinv hxi
    rw [hhalf] at e1 e2 e3 e4 e5 e6 e7 e8 hfold
    have hrec := hc
    simp only [hhalf] at hrec
    obtain ⟨_, rfl⟩ := sliceTo_spec e1
    obtain ⟨_, rfl⟩ := sliceFrom_spec e2
    obtain ⟨_, rfl⟩ := sliceTo_spec e3
    obtain ⟨_, rfl⟩ := sliceFrom_spec e4
    obtain ⟨_, rfl⟩ := sliceTo_spec e5
    obtain ⟨_, rfl⟩ := sliceFrom_spec e6
    obtain ⟨_, rfl⟩ := sliceTo_spec e7
    obtain ⟨_, rfl⟩ := sliceFrom_spec e8
    have vg1 : ∀ e ∈ g.take (2 ^ k), L.V e := fun e he => vg e (List.mem_of_mem_take he)
    have vg2 : ∀ e ∈ g.drop (2 ^ k), L.V e := fun e he => vg e (List.mem_of_mem_drop he)
    have vh1 : ∀ e ∈ h.take (2 ^ k), L.V e := fun e he => vh e (List.mem_of_mem_take he)
    have vh2 : ∀ e ∈ h.drop (2 ^ k), L.V e := fun e he => vh e (List.mem_of_mem_drop he)
    obtain ⟨_, vL0, dL0⟩ := L.vectorExp_spec vg2 hL0
    obtain ⟨_, vLh, dLh⟩ := L.vectorExp_spec vh1 hLh
    obtain ⟨_, vR0, dR0⟩ := L.vectorExp_spec vg1 hR0
    obtain ⟨_, vRh, dRh⟩ := L.vectorExp_spec vh2 hRh
    rw [L.N_eq] at hcL hcR
    obtain ⟨_, dcL⟩ := scalarProduct_spec hcL
    obtain ⟨_, dcR⟩ := scalarProduct_spec hcR
    set LE := GP.add (GP.add L0 Lh) (GP.mul u cL) with hLE
    set RE := GP.add (GP.add R0 Rh) (GP.mul u cR) with hRE
    have vL : L.V LE := L.V_add (L.V_add vL0 vLh) (L.V_mul _ vu)
    have vR : L.V RE := L.V_add (L.V_add vR0 vRh) (L.V_mul _ vu)
    set x := (hashBP sha GP LE RE).1 with hx
    obtain ⟨xi, hi, hxxi, lg', lh', vg', vh', dg', dh'⟩ := L.foldGens_spec hpos hg hh vg vh hfold
    rw [hi] at hxi
    obtain rfl := Option.some.inj hxi
    have hx2' : (x : ZMod q) * x * (x2inv : ZMod q) = 1 := by
      have := modInverse_spec (q := q) (by rw [← L.N_eq]; exact hx2)
      rw [L.cast_modN] at this
      push_cast at this; exact this
    have hx2e : (x2inv : ZMod q) = (xi : ZMod q) * xi := by
      linear_combination ((xi : ZMod q)^2) * hx2' - ((x : ZMod q) * xi * x2inv + x2inv) * hxxi
    have vPv' : L.V (GP.add (GP.add Pv (GP.mul LE (x * x % GP.N))) (GP.mul RE x2inv)) :=
      L.V_add (L.V_add vP (L.V_mul _ vL)) (L.V_mul _ vR)
    have la1 : (vectorScalarMul (a.take (2^k)) x GP.N).length = 2 ^ k := by simp [vectorScalarMul]; omega
    have la2 : (vectorScalarMul (a.drop (2^k)) xi GP.N).length = 2 ^ k := by simp [vectorScalarMul]; omega
    have lb1 : (vectorScalarMul (b.take (2^k)) xi GP.N).length = 2 ^ k := by simp [vectorScalarMul]; omega
    have lb2 : (vectorScalarMul (b.drop (2^k)) x GP.N).length = 2 ^ k := by simp [vectorScalarMul]; omega
    obtain ⟨Ls', Rs', hLL, hRR, lL, lR, vLs, vRs, g0, h0, P', hloop, vg0, vh0, vP', hden⟩ :=
      ih _ _ g' h' u _ (GP.add (GP.add Pv (GP.mul LE (x * x % GP.N))) (GP.mul RE x2inv)) _ _ pa pb LL RR
        (by rw [vectorAdd_eq (by omega)]; simp; omega) (by rw [vectorAdd_eq (by omega)]; simp; omega)
        lg' lh' vg' vh' vu vPv' hrec
    refine ⟨LE :: Ls', RE :: Rs', by simp [hLL], by simp [hRR], by simp [lL], by simp [lR], ?_, ?_,
      g0, h0, P', ?_, vg0, vh0, vP', ?_⟩
    · intro e he
      rcases List.mem_cons.mp he with rfl | he
      · exact vL
      · exact vLs e he
    · intro e he
      rcases List.mem_cons.mp he with rfl | he
      · exact vR
      · exact vRs e he
    · rw [h2]
      unfold ipVerifyLoop
      simp only [hhalf, ← hx, hfold, Option.bind_eq_bind, Option.bind_some, hx2]
      exact hloop
    · rw [hden, dg', dh', L.den_add (L.V_add vP (L.V_mul _ vL)) (L.V_mul _ vR),
        L.den_add vP (L.V_mul _ vL), L.den_mul _ vL, L.den_mul _ vR, hx2e, L.cast_modN, hLE, hRE,
        L.den_add (L.V_add vL0 vLh) (L.V_mul _ vu), L.den_add vL0 vLh,
        L.den_add (L.V_add vR0 vRh) (L.V_mul _ vu), L.den_add vR0 vRh, dL0, dLh, dR0, dRh,
        L.den_mul _ vu, L.den_mul _ vu, dcL, dcR, L.N_eq,
        cast_vectorAdd (by rw [← L.N_eq]; omega), cast_vectorAdd (by rw [← L.N_eq]; omega)]
      simp only [cast_vectorScalarMul]
      rw [fold_step (x : ZMod q) (xi : ZMod q) hxxi (2 ^ k) _ _ _ _ _ _ _ _ _ (by simp; omega) (by simp; omega)
        (by simp; omega) (by simp; omega) (by simp; omega) (by simp; omega) (by simp; omega) (by simp; omega)]
      have ga : msm (L.denV g) (castV q a) = msm ((L.denV g).take (2^k)) ((castV q a).take (2^k)) +
          msm ((L.denV g).drop (2^k)) ((castV q a).drop (2^k)) := by
        rw [← msm_append _ _ _ _ (by simp; omega), List.take_append_drop, List.take_append_drop]
      have hb' : msm (L.denV h) (castV q b) = msm ((L.denV h).take (2^k)) ((castV q b).take (2^k)) +
          msm ((L.denV h).drop (2^k)) ((castV q b).drop (2^k)) := by
        rw [← msm_append _ _ _ _ (by simp; omega), List.take_append_drop, List.take_append_drop]
      have hab : dot (castV q a) (castV q b) = dot ((castV q a).take (2^k)) ((castV q b).take (2^k)) +
          dot ((castV q a).drop (2^k)) ((castV q b).drop (2^k)) := by
        rw [← dot_append _ _ _ _ (by simp; omega), List.take_append_drop, List.take_append_drop]
      rw [ga, hb', hab]
      simp only [L.denV_take, L.denV_drop, castV, List.map_take, List.map_drop]
      push_cast
      module

end

end MscPoc
