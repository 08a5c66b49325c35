import Verif.Lemmas.IppSound

/-!
# Special soundness of the inner-product argument: from the code to the algebra
-/

set_option autoImplicit false

namespace MscPoc

section lists
variable {F M : Type} [Field F] [AddCommGroup M] [Module F M]

theorem msm_eq_sum (g : List M) (a : List F) (n : ℕ) (hg : g.length = n) (ha : a.length = n) :
    msm g a = ∑ i ∈ Finset.range n, a.getD i 0 • g.getD i 0 := by
  subst hg
  induction g generalizing a with
  | nil => simp
  | cons x g ih =>
    cases a with
    | nil => simp at ha
    | cons y a =>
      rw [List.length_cons, Finset.sum_range_succ', msm_cons, ih a (by simpa using ha)]
      simp [add_comm]

theorem dot_eq_sum (a b : List F) (n : ℕ) (ha : a.length = n) (hb : b.length = n) :
    dot a b = ∑ i ∈ Finset.range n, a.getD i 0 * b.getD i 0 := by
  subst ha
  induction a generalizing b with
  | nil => simp
  | cons x a ih =>
    cases b with
    | nil => simp at hb
    | cons y b =>
      rw [List.length_cons, Finset.sum_range_succ', dot_cons, ih b (by simpa using hb)]
      simp [add_comm]

theorem getD_range_map (f : ℕ → F) (n i : ℕ) (h : i < n) : ((List.range n).map f).getD i 0 = f i := by
  simp [List.getD, List.getElem?_range h]

theorem msm_firstN (g : List M) (f : ℕ → F) (n : ℕ) (hg : g.length = n) :
    msm g ((List.range n).map f) = ∑ i ∈ Finset.range n, f i • g.getD i 0 := by
  rw [msm_eq_sum g _ n hg (by simp)]
  apply Finset.sum_congr rfl
  intro i hi
  rw [getD_range_map f n i (Finset.mem_range.mp hi)]

theorem dot_firstN (f f' : ℕ → F) (n : ℕ) :
    dot ((List.range n).map f) ((List.range n).map f') = ∑ i ∈ Finset.range n, f i * f' i := by
  rw [dot_eq_sum _ _ n (by simp) (by simp)]
  apply Finset.sum_congr rfl
  intro i hi
  rw [getD_range_map f n i (Finset.mem_range.mp hi), getD_range_map f' n i (Finset.mem_range.mp hi)]

theorem getD_fold (g : List M) (n : ℕ) (hg : g.length = 2 * n) (a b : F) (i : ℕ) (hi : i < n) :
    (List.zipWith (· + ·) ((g.take n).map (a • ·)) ((g.drop n).map (b • ·))).getD i 0 =
      foldG n a b (fun j => g.getD j 0) i := by
  have h1 : i < g.length := by omega
  have h2 : n + i < g.length := by omega
  simp only [foldG, List.getD, List.getElem?_zipWith, List.getElem?_map, List.getElem?_take, if_pos hi,
    List.getElem?_drop, List.getElem?_eq_getElem h1, List.getElem?_eq_getElem h2, Option.map_some, Option.getD_some]

theorem RoundsHold_congr (u : M) (A B : F) (t : List (M × M × F)) (g g' h h' : ℕ → M) (P : M)
    (eg : ∀ i < 2 ^ t.length, g i = g' i) (eh : ∀ i < 2 ^ t.length, h i = h' i) (hr : RoundsHold u A B t g h P) :
    RoundsHold u A B t g' h' P := by
  induction t generalizing g g' h h' P with
  | nil =>
    simp only [RoundsHold] at hr ⊢
    rw [← eg 0 (by simp), ← eh 0 (by simp)]; exact hr
  | cons r t ih =>
    obtain ⟨L, R, x⟩ := r
    simp only [RoundsHold] at hr ⊢
    have hpow : 2 ^ ((L, R, x) :: t).length = 2 ^ t.length + 2 ^ t.length := by rw [List.length_cons, pow_succ]; ring
    rw [hpow] at eg eh
    refine ih _ _ _ _ _ ?_ ?_ hr
    · intro i hi
      simp only [foldG]; rw [eg i (by omega), eg (2 ^ t.length + i) (by omega)]
    · intro i hi
      simp only [foldG]; rw [eh i (by omega), eh (2 ^ t.length + i) (by omega)]

theorem Comb.val_congr (n : ℕ) (g g' h h' : ℕ → M) (u : M) (w : Comb F) (eg : ∀ i < n, g i = g' i) (eh : ∀ i < n, h i = h' i) :
    w.val n g h u = w.val n g' h' u := by
  unfold Comb.val
  have e1 : ∑ i ∈ Finset.range n, w.1 i • g i = ∑ i ∈ Finset.range n, w.1 i • g' i :=
    Finset.sum_congr rfl (fun i hi => by rw [eg i (Finset.mem_range.mp hi)])
  have e2 : ∑ i ∈ Finset.range n, w.2.1 i • h i = ∑ i ∈ Finset.range n, w.2.1 i • h' i :=
    Finset.sum_congr rfl (fun i hi => by rw [eh i (Finset.mem_range.mp hi)])
  rw [e1, e2]

end lists

section code
variable {E : Type} {GP : Grp E} {q : ℕ} {M : Type} [AddCommGroup M] [Module (ZMod q) M]

theorem Lawful.loop_rounds [Fact q.Prime] (L : Lawful GP q M) (sha : Bytes → Bytes) (u : M) (A B : ZMod q)
    (rs : List (E × E × ZMod q)) :
    ∀ (g h : List E) (P g0 h0 : E) (P' : E) (gs hs : List E), g.length = 2 ^ rs.length → h.length = 2 ^ rs.length →
    (∀ e ∈ g, L.V e) → (∀ e ∈ h, L.V e) → (∀ r ∈ rs, L.V r.1 ∧ L.V r.2.1) → L.V P →
    (∀ r ∈ rs, (roundChallenge sha GP r.1 r.2.1 : ZMod q) = r.2.2) →
    ipVerifyLoop sha GP (rs.map (fun r => r.1)) (rs.map (fun r => r.2.1)) g h P (2 ^ rs.length) =
      some (g0 :: gs, h0 :: hs, P') →
    L.den P' = A • L.den g0 + B • L.den h0 + (A * B) • u →
    RoundsHold u A B (rs.map (fun r => (L.den r.1, L.den r.2.1, r.2.2))) (fun i => (L.denV g).getD i 0)
      (fun i => (L.denV h).getD i 0) (L.den P) := by
  induction rs with
  | nil =>
    intro g h P g0 h0 P' gs hs hg hh vg vh vR vP hc hr he
    simp only [List.map_nil, ipVerifyLoop, Option.some.injEq, Prod.mk.injEq] at hr
    obtain ⟨rfl, rfl, rfl⟩ := hr
    simp only [List.map_nil, RoundsHold]
    simpa using he
  | cons r rs ih =>
    obtain ⟨Le, Re, x⟩ := r
    intro g h P g0 h0 P' gs hs hg hh vg vh vR vP hc hr he
    obtain ⟨vLe, vRe⟩ := vR (Le, Re, x) (by simp)
    have hcx := hc (Le, Re, x) (by simp)
    dsimp only at vLe vRe hcx
    have hpow : 2 ^ ((Le, Re, x) :: rs).length = 2 * 2 ^ rs.length := by rw [List.length_cons, pow_succ]; ring
    have hhalf : 2 ^ ((Le, Re, x) :: rs).length / 2 = 2 ^ rs.length := by omega
    have hpos : 0 < 2 ^ rs.length := Nat.two_pow_pos _
    simp only [List.map_cons] at hr
    unfold ipVerifyLoop at hr
    unbind hr with gh hf
    obtain ⟨g', h'⟩ := gh
    unbind hr with x2i hx2i
    rw [hhalf] at hf hr
    rw [hpow] at hg hh
    obtain ⟨xi, hxi, hxx, lg', lh', vg', vh', dg', dh'⟩ := L.foldGens_spec hpos hg hh vg vh hf
    have vP1 : L.V (GP.add P (GP.mul Le ((hashBP sha GP Le Re).1 * (hashBP sha GP Le Re).1 % GP.N))) :=
      L.V_add vP (L.V_mul _ vLe)
    have hrec := ih g' h' _ g0 h0 P' gs hs lg' lh' vg' vh' (fun r hr => vR r (by simp [hr]))
      (L.V_add vP1 (L.V_mul _ vRe)) (fun r hr => hc r (by simp [hr])) hr he
    rw [hashBP_fst] at *
    have hinv : ((xi : Int) : ZMod q) = x⁻¹ := by rw [← hcx]; exact eq_inv_of_mul_eq_one_right hxx
    have hx2 := modInverse_spec (q := q) (by rw [← L.N_eq]; exact hx2i)
    rw [L.cast_modN] at hx2
    have hx2' : ((x2i : Int) : ZMod q) = x⁻¹ ^ 2 := by
      push_cast at hx2
      rw [hcx] at hx2
      rw [eq_inv_of_mul_eq_one_right hx2, inv_pow, pow_two]
    rw [hinv, hcx] at dg' dh'
    simp only [List.map_cons, RoundsHold, List.length_map]
    rw [L.den_add vP1 (L.V_mul _ vRe), L.den_add vP (L.V_mul _ vLe), L.den_mul _ vLe, L.den_mul _ vRe, hx2',
      L.cast_modN] at hrec
    push_cast at hrec
    rw [hcx, ← pow_two] at hrec
    refine RoundsHold_congr _ _ _ _ _ _ _ _ _ ?_ ?_ hrec
    · intro i hi
      rw [List.length_map] at hi
      rw [dg', getD_fold _ _ (by simp [hg]) _ _ i hi]
    · intro i hi
      rw [List.length_map] at hi
      rw [dh', getD_fold _ _ (by simp [hh]) _ _ i hi]

/-- An accepted inner-product proof satisfies the abstract check. -/
theorem Lawful.rounds_of_verify [Fact q.Prime] (L : Lawful GP q M) (sha : Bytes → Bytes) (params : IPParams E)
    (hGP : params.GP = GP) (P : E) (Cc : Int) (p : IPPath E (ZMod q))
    (hg : params.Gg.length = 2 ^ p.rounds.length) (hh : params.Hh.length = 2 ^ p.rounds.length)
    (vg : ∀ e ∈ params.Gg, L.V e) (vh : ∀ e ∈ params.Hh, L.V e) (vu : L.V params.Uu) (vP : L.V P)
    (vR : ∀ r ∈ p.rounds, L.V r.1 ∧ L.V r.2.1)
    (hc : ∀ r ∈ p.rounds, (roundChallenge sha GP r.1 r.2.1 : ZMod q) = r.2.2) (y : ZMod q)
    (hy : (ippChallenge sha GP params.Gg params.Hh P Cc : ZMod q) = y)
    (hv : (p.proof params P Cc).verify sha = some true) :
    RoundsHold (y • L.den params.Uu) (p.A : ZMod q) p.B (p.rounds.map (fun r => (L.den r.1, L.den r.2.1, r.2.2)))
      (fun i => (L.denV params.Gg).getD i 0) (fun i => (L.denV params.Hh).getD i 0) (L.den P + (y * Cc) • L.den params.Uu) := by
  subst hGP
  have hv' := hv
  unfold IPProof.verify at hv
  simp only [IPPath.proof, hashIP_eq, hg, hh, le_refl, if_true, Option.bind_eq_bind, Option.bind_some, computePP] at hv
  unbind hv with r hl
  obtain ⟨g', h', P'⟩ := r
  unbind hv with g0 hg0
  unbind hv with h0 hh0
  cases g' with
  | nil => simp at hg0
  | cons g1 gs =>
  cases h' with
  | nil => simp at hh0
  | cons h1 hs =>
  have vux := L.V_mul (ippChallenge sha params.GP params.Gg params.Hh P Cc) vu
  have vPP := L.V_add vP (L.V_mul Cc vux)
  obtain ⟨v0, v1, v2, _⟩ := L.ipVerifyLoop_value sha (p.rounds.map (fun r => r.1)) (p.rounds.map (fun r => r.2.1))
    params.Gg params.Hh _ g1 h1 P' gs hs (by simpa using hg) (by simpa using hh) vg vh
    (by intro e he; obtain ⟨r, hr, rfl⟩ := List.mem_map.mp he; exact (vR r hr).1)
    (by intro e he; obtain ⟨r, hr, rfl⟩ := List.mem_map.mp he; exact (vR r hr).2) vPP (by simpa using hl)
  obtain ⟨b, e1, e2⟩ := L.ipVerify_core sha (p.proof params P Cc) rfl Cc p.A p.B rfl rfl rfl vP vu
    (by simp [IPPath.proof, hg, hh]) _ rfl g1 h1 P' gs hs v0 v1 v2 (by simp only [IPPath.proof]; rw [hg]; exact hl)
  rw [hv', Option.some.injEq] at e1
  have e3 := e2.mp e1.symm
  simp only [IPPath.proof] at e3
  rw [hy] at e3
  have := L.loop_rounds sha (y • L.den params.Uu) (p.A : ZMod q) p.B p.rounds params.Gg params.Hh _ g1 h1 P' gs hs hg hh
    vg vh vR vPP hc hl (by rw [e3, smul_smul, mul_comm y])
  rw [L.den_add vP (L.V_mul Cc vux), L.den_mul _ vux, L.den_mul _ vu, hy, smul_smul, mul_comm _ y] at this
  exact this

end code

end MscPoc
