import Verif.Spec.MultiOpen
import Verif.Props.MultiSound

/-!
# C102 — what accepted aggregated proofs prove: openings of the commitments, and no more
-/

set_option autoImplicit false

namespace MscPoc

section
variable {F V : Type} [Field F] [AddCommGroup V] [Module F V]

theorem sum_window {n a m : ℕ} (h : a + m ≤ n) (f : ℕ → F) (y : F) :
    ∑ i ∈ Finset.range n, (if a ≤ i ∧ i < a + m then f (i - a) else 0) * y ^ i = ∑ j ∈ Finset.range m, f j * y ^ (j + a) := by
  obtain ⟨r, rfl⟩ := Nat.exists_eq_add_of_le h
  rw [Finset.sum_range_add, Finset.sum_range_add]
  have e1 : ∑ i ∈ Finset.range a, (if a ≤ i ∧ i < a + m then f (i - a) else 0) * y ^ i = 0 :=
    Finset.sum_eq_zero fun i hi => by
      rw [if_neg (by have := Finset.mem_range.mp hi; omega), zero_mul]
  have e2 : ∑ i ∈ Finset.range r, (if a ≤ a + m + i ∧ a + m + i < a + m then f (a + m + i - a) else 0) * y ^ (a + m + i) = 0 :=
    Finset.sum_eq_zero fun i _ => by
      rw [if_neg (by omega), zero_mul]
  rw [e1, e2, zero_add, add_zero]
  refine Finset.sum_congr rfl fun j hj => ?_
  rw [if_pos (by have := Finset.mem_range.mp hj; omega), Nat.add_sub_cancel_left, Nat.add_comm a j]

theorem sum_blocks {n m bits : ℕ} (hb : m * bits ≤ n) (w : ℕ → F) (c : ℕ → ℕ → F)
    (hw : ∀ i, w i = if i < m * bits then c (i / bits) (i % bits) else 0) (f : ℕ → V) :
    ∑ i ∈ Finset.range n, w i • f i = ∑ j ∈ Finset.range m, ∑ i ∈ Finset.range bits, c j i • f (j * bits + i) := by
  have h1 : ∑ i ∈ Finset.range n, w i • f i = ∑ i ∈ Finset.range (m * bits), w i • f i := by
    refine (Finset.sum_subset (Finset.range_subset_range.mpr hb) fun i _ h => ?_).symm
    rw [hw, if_neg (by simpa using h), zero_smul]
  have h2 : ∀ (g : ℕ → V) (r : ℕ), ∑ i ∈ Finset.range (r * bits), g i =
      ∑ j ∈ Finset.range r, ∑ i ∈ Finset.range bits, g (j * bits + i) := by
    intro g r
    induction r with
    | zero => simp
    | succ r ih => rw [Nat.succ_mul, Finset.sum_range_add, ih, Finset.sum_range_succ]
  rw [h1, h2]
  refine Finset.sum_congr rfl fun j hj => Finset.sum_congr rfl fun i hi => ?_
  have hi := Finset.mem_range.mp hi
  have h0 : 0 < bits := by omega
  have e1 : (j * bits + i) / bits = j := by rw [Nat.mul_comm, Nat.mul_add_div h0, Nat.div_eq_of_lt hi, Nat.add_zero]
  have e2 : (j * bits + i) % bits = i := by rw [Nat.mul_comm, Nat.mul_add_mod, Nat.mod_eq_of_lt hi]
  rw [hw, if_pos, e1, e2]
  calc j * bits + i < (j + 1) * bits := by rw [Nat.succ_mul]; omega
    _ ≤ m * bits := Nat.mul_le_mul_right _ (Finset.mem_range.mp hj)

theorem sum_two_pow (b : ℕ) : ∑ i ∈ Finset.range b, (2 : F) ^ i = 2 ^ b - 1 := by
  induction b with
  | zero => simp
  | succ b ih => rw [Finset.sum_range_succ, ih]; ring

/-- the inner product of the forger's vectors is the right one, whatever the challenge -/
theorem forge_product {n m bits : ℕ} (hb : m * bits ≤ n) (hn : m < n) (hn2 : m + 2 ≤ n ∨ bits = 1) (vs : List Int) (y : Int) :
    ∑ i ∈ Finset.range n, (-(y : F)) * ((y : F) ^ i * (-1 - (forgeU m bits vs i : F) + y) + (wSum m bits y i : F)) =
      ∑ j ∈ Finset.range m, (y : F) ^ (j + 2) * ((vs.getD j 0 : Int) : F) + deltaM n m bits (y : F) y := by
  have hw := sum_blocks (V := F) hb (fun i => (wSum m bits y i : F)) (fun j i => 2 ^ i + (y : F) ^ (j + 2))
    (fun i => by unfold wSum; split <;> simp) fun _ => 1
  simp only [smul_eq_mul, mul_one, Finset.sum_add_distrib, Finset.sum_const, Finset.card_range, nsmul_eq_mul,
    sum_two_pow] at hw
  have w1 := sum_window (F := F) (n := n) (a := 0) (m := 1) (by omega) (fun _ => (m : F) * (2 ^ bits - 1)) y
  have w2 := sum_window (F := F) (n := n) (a := 1) (m := m) (by omega) (fun j => ((vs.getD j 0 : Int) : F)) y
  have w3 : ∑ i ∈ Finset.range n, (if 2 ≤ i ∧ i < 2 + m then (bits : F) - (2 ^ bits - 1) else 0) * y ^ i =
      ∑ j ∈ Finset.range m, ((bits : F) - (2 ^ bits - 1)) * (y : F) ^ (j + 2) := by
    rcases hn2 with h | rfl
    · exact sum_window (F := F) (n := n) (a := 2) (m := m) (by omega) (fun _ => (bits : F) - (2 ^ bits - 1)) y
    · norm_num
  have hu : ∑ i ∈ Finset.range n, (forgeU m bits vs i : F) * (y : F) ^ i = (m : F) * (2 ^ bits - 1) +
      ∑ j ∈ Finset.range m, ((vs.getD j 0 : Int) : F) * (y : F) ^ (j + 1) +
      ∑ j ∈ Finset.range m, ((bits : F) - (2 ^ bits - 1)) * (y : F) ^ (j + 2) := by
    rw [← w2, ← w3]
    simp only [Finset.range_one, Finset.sum_singleton, Nat.add_zero, pow_zero, mul_one] at w1
    rw [← w1, ← Finset.sum_add_distrib, ← Finset.sum_add_distrib]
    refine Finset.sum_congr rfl fun i _ => ?_
    rw [← add_mul, ← add_mul]
    congr 1
    unfold forgeU
    push_cast
    simp
  have e : ∑ i ∈ Finset.range n, (-(y : F)) * ((y : F) ^ i * (-1 - (forgeU m bits vs i : F) + y) + (wSum m bits y i : F)) =
      ((y : F) - y ^ 2) * (∑ i ∈ Finset.range n, (y : F) ^ i) + y * (∑ i ∈ Finset.range n, (forgeU m bits vs i : F) * (y : F) ^ i) -
        y * ∑ i ∈ Finset.range n, (wSum m bits y i : F) := by
    simp only [Finset.mul_sum, ← Finset.sum_add_distrib, ← Finset.sum_sub_distrib]
    exact Finset.sum_congr rfl fun i _ => by ring
  rw [e, hu, hw]
  unfold deltaM
  rw [sum_two_pow]
  simp only [← Finset.mul_sum, ← Finset.sum_mul]
  have s1 : ∑ j ∈ Finset.range m, ((vs.getD j 0 : Int) : F) * (y : F) ^ (j + 1) * y =
      ∑ j ∈ Finset.range m, (y : F) ^ (j + 2) * ((vs.getD j 0 : Int) : F) := Finset.sum_congr rfl fun j _ => by ring
  have s2 : ∑ j ∈ Finset.range m, (y : F) ^ (j + 3) = (∑ j ∈ Finset.range m, (y : F) ^ (j + 2)) * y := by
    rw [Finset.sum_mul]
    exact Finset.sum_congr rfl fun j _ => by ring
  rw [← s1, s2, ← Finset.sum_mul]
  ring

/-- the same with as many values as bits -/
theorem full_product {n : ℕ} (hn : 4 ≤ n) (vs : List Int) (y : F) (L R : ℕ → F) (hL : ∀ i, L i = (fullL n vs i : F))
    (hR : ∀ i, R i = ((if i = 0 then -(n : Int) else fullRev n vs (n - 1 - i) : Int) : F)) :
    ∑ i ∈ Finset.range n, (L i - y) * (y ^ i * (R i + y) + (1 + y ^ (i + 2))) =
      ∑ j ∈ Finset.range n, y ^ (j + 2) * ((vs.getD j 0 : Int) : F) + deltaM n n 1 y y := by
  obtain ⟨r, rfl⟩ : ∃ r, n = r + 3 := ⟨n - 3, by omega⟩
  have hstep : ∀ k, k < r + 1 → L (k + 2) * R (k + 2) + (L (k + 1) - R (k + 1) - 1) + (L k - ((vs.getD k 0 : Int) : F)) = 0 := by
    intro k hk
    rw [hR (k + 1), hR (k + 2), if_neg (by omega), if_neg (by omega), show r + 3 - 1 - (k + 1) = (r - k) + 1 by omega,
      show r + 3 - 1 - (k + 2) = r - k by omega, fullRev, show r + 3 - 2 - (r - k) = k + 1 by omega,
      show r + 3 - 1 - (r - k) = k + 2 by omega, show r + 3 - 3 - (r - k) = k by omega, hL, hL, hL]
    push_cast
    ring
  have hlast : (L (r + 2) - R (r + 2) - 1) + (L (r + 1) - ((vs.getD (r + 1) 0 : Int) : F)) = 0 := by
    rw [hR, if_neg (by omega), show r + 3 - 1 - (r + 2) = 0 by omega, fullRev, show r + 3 - 1 = r + 2 by omega,
      show r + 3 - 2 = r + 1 by omega, hL, hL]
    push_cast
    ring
  have h0 : L 0 = 1 := by rw [hL]; simp [fullL]
  have h1 : L 1 = 0 := by rw [hL, fullL, if_neg (by omega), if_neg (by omega), if_neg (by omega)]; simp
  have hr0 : R 0 = -((r : F) + 3) := by rw [hR, if_pos rfl]; push_cast; ring
  have htop : L (r + 2) = ((vs.getD (r + 2) 0 : Int) : F) := by
    rw [hL, fullL, if_neg (by omega), if_neg (by omega), if_pos (by omega)]
    rfl
  have hsum : ∑ i ∈ Finset.range (r + 3), L i = (r : F) + 3 := by
    have hz : ∀ i ∈ Finset.range (r + 3), i ∉ ({0, 2, r + 2} : Finset ℕ) → L i = 0 := by
      intro i hi h
      simp only [Finset.mem_insert, Finset.mem_singleton, not_or] at h
      rw [hL, fullL, if_neg h.1, if_neg h.2.1, if_neg (by omega), Int.cast_zero]
    rw [← Finset.sum_subset (s₁ := {0, 2, r + 2}) (fun i hi => by
      simp only [Finset.mem_insert, Finset.mem_singleton] at hi
      rw [Finset.mem_range]
      omega) hz, Finset.sum_insert (by simp), Finset.sum_insert (by simp; omega), Finset.sum_singleton, h0, htop, hL, fullL,
      if_neg (by omega), if_pos rfl, show r + 3 - 1 = r + 2 by omega]
    push_cast
    ring
  have e : ∑ i ∈ Finset.range (r + 3), (L i - y) * (y ^ i * (R i + y) + (1 + y ^ (i + 2))) -
      (∑ j ∈ Finset.range (r + 3), y ^ (j + 2) * ((vs.getD j 0 : Int) : F) + deltaM (r + 3) (r + 3) 1 y y) =
      ∑ i ∈ Finset.range (r + 3), L i * R i * y ^ i + ∑ i ∈ Finset.range (r + 3), (L i - R i - 1) * y ^ (i + 1) +
        ∑ i ∈ Finset.range (r + 3), (L i - ((vs.getD i 0 : Int) : F)) * y ^ (i + 2) + ∑ i ∈ Finset.range (r + 3), L i - ((r : F) + 3) * y := by
    have hc : ∑ i ∈ Finset.range (r + 3), y = ((r : F) + 3) * y := by
      rw [Finset.sum_const, Finset.card_range, nsmul_eq_mul]; push_cast; ring
    rw [← hc]
    unfold deltaM
    simp only [sum_two_pow, Finset.mul_sum, pow_one]
    simp only [← Finset.sum_add_distrib, ← Finset.sum_sub_distrib]
    refine Finset.sum_congr rfl fun i _ => ?_
    ring
  have e1 : ∑ i ∈ Finset.range (r + 3), L i * R i * y ^ i = L 0 * R 0 + L 1 * R 1 * y + ∑ k ∈ Finset.range (r + 1), L (k + 2) * R (k + 2) * y ^ (k + 2) := by
    rw [Finset.sum_range_succ', Finset.sum_range_succ']
    ring
  have e2 : ∑ i ∈ Finset.range (r + 3), (L i - R i - 1) * y ^ (i + 1) = (L 0 - R 0 - 1) * y +
      ∑ k ∈ Finset.range (r + 1), (L (k + 1) - R (k + 1) - 1) * y ^ (k + 2) + (L (r + 2) - R (r + 2) - 1) * y ^ (r + 3) := by
    rw [Finset.sum_range_succ, Finset.sum_range_succ']
    ring
  have e3 : ∑ i ∈ Finset.range (r + 3), (L i - ((vs.getD i 0 : Int) : F)) * y ^ (i + 2) =
      ∑ k ∈ Finset.range (r + 1), (L k - ((vs.getD k 0 : Int) : F)) * y ^ (k + 2) + (L (r + 1) - ((vs.getD (r + 1) 0 : Int) : F)) * y ^ (r + 3) +
        (L (r + 2) - ((vs.getD (r + 2) 0 : Int) : F)) * y ^ (r + 4) := by
    rw [Finset.sum_range_succ, Finset.sum_range_succ]
  have e4 : ∑ k ∈ Finset.range (r + 1), L (k + 2) * R (k + 2) * y ^ (k + 2) + ∑ k ∈ Finset.range (r + 1), (L (k + 1) - R (k + 1) - 1) * y ^ (k + 2) +
      ∑ k ∈ Finset.range (r + 1), (L k - ((vs.getD k 0 : Int) : F)) * y ^ (k + 2) = 0 := by
    rw [← Finset.sum_add_distrib, ← Finset.sum_add_distrib]
    refine Finset.sum_eq_zero fun k hk => ?_
    rw [← add_mul, ← add_mul, hstep k (Finset.mem_range.mp hk), zero_mul]
  rw [← sub_eq_zero, e, e1, e2, e3, hsum, h0, h1, hr0]
  linear_combination e4 + y ^ (r + 3) * hlast + y ^ (r + 4) * htop

end

variable {E M : Type} {q : ℕ} [AddCommGroup M] [Module (ZMod q) M]

/-- the first condition of the verifier, as an equation -/
theorem multi_c65 [Fact q.Prime] (params : BPParams E) (L : Lawful params.GP q M) (vH : L.V params.H)
    (vG : ∀ e ∈ params.Gg, L.V e) (vHh : ∀ e ∈ params.Hh, L.V e) (lenG : params.Gg.length = params.N)
    (lenH : params.Hh.length = params.N) (pf : MultiBulletProof E) (hp : pf.Params = params)
    (hV : ∀ e ∈ pf.Vs ++ [pf.A, pf.S, pf.T1, pf.T2, pf.InnerProductProof.P], L.V e) (sha : Bytes → Bytes) (c : MultiChecks)
    (h : pf.checks sha = some c) (h65 : c.c65 = true) (y x : ZMod q) (tp tx : Int)
    (hy : ((roundChallenge sha params.GP pf.A pf.S : Int) : ZMod q) = y) (hy0 : y ≠ 0)
    (hx : ((roundChallenge sha params.GP pf.T1 pf.T2 : Int) : ZMod q) = x) (h2 : pf.Tprime = some tp) (h3 : pf.Taux = some tx) :
    pf.Vs.length ≠ 0 ∧ (tp : ZMod q) • L.g + (tx : ZMod q) • L.den params.H =
      ∑ j ∈ Finset.range pf.Vs.length, y ^ (j + 2) • (pf.Vs.map L.den).getD j 0 +
        deltaM params.N pf.Vs.length (params.N / pf.Vs.length) y y • L.g + x • L.den pf.T1 + x ^ 2 • L.den pf.T2 := by
  subst hp
  have hs := h
  unfold MultiBulletProof.checks at hs
  dsimp only at hs
  split at hs
  · cases hs
  rename_i hm
  unbind hs with hp ehp
  unbind hs with tp' etp
  unbind hs with tx' etx
  unbind hs with dlt ed
  unbind hs with gm egm
  unbind hs with he ehe
  unbind hs with pr epr
  unbind hs with mu emu
  unbind hs with ok eok
  have vV : MultiValid pf L :=
    { Vs := fun v hv => hV v (by simp [hv]), A := hV _ (by simp), S := hV _ (by simp), T1 := hV _ (by simp), T2 := hV _ (by simp),
      H := vH, Gg := vG, Hh := vHh, P := hV _ (by simp), lenG := lenG, lenH := lenH }
  obtain ⟨npos, _⟩ := L.updateGenerators_spec lenH vHh ehp
  obtain ⟨c', hc', _, h65', _⟩ := C56_equations pf L vV sha tp tx mu ok (by omega) h2 h3 emu eok y y x hy.symm rfl hx.symm hy0
    pf.Params.N pf.Vs.length _ rfl rfl hm rfl
  rw [h] at hc'
  obtain rfl := Option.some.inj hc'
  exact ⟨hm, h65'.mp h65⟩

/-- **C102** Aggregated proofs that pass the first of the three checks of the verifier — with `m` different first challenges, three
different second challenges for each, the same commitments `Vs` throughout and the same `T1`, `T2` for the same first challenge — give
openings of all `m` commitments.  Nothing is asked of the inner-product proofs or of `A` and `S`, and there is no exception. -/
theorem C102_openings [Fact q.Prime] (params : BPParams E) (L : Lawful params.GP q M) (vH : L.V params.H)
    (vG : ∀ e ∈ params.Gg, L.V e) (vHh : ∀ e ∈ params.Hh, L.V e) (lenG : params.Gg.length = params.N)
    (lenH : params.Hh.length = params.N) (Vs : List E) (T1 T2 : ℕ → E) (pf : ℕ → Fin 3 → MultiBulletProof E)
    (sha : ℕ → Fin 3 → Bytes → Bytes) (y : ℕ → ZMod q) (x : ℕ → Fin 3 → ZMod q) (tp tx : ℕ → Fin 3 → Int)
    (hpf : ∀ l < Vs.length, ∀ i, (pf l i).Vs = Vs ∧ (pf l i).Params = params ∧ (pf l i).T1 = T1 l ∧ (pf l i).T2 = T2 l ∧
      (pf l i).Tprime = some (tp l i) ∧ (pf l i).Taux = some (tx l i))
    (hV : ∀ l < Vs.length, ∀ i, ∀ e ∈ (pf l i).Vs ++ [(pf l i).A, (pf l i).S, (pf l i).T1, (pf l i).T2, (pf l i).InnerProductProof.P],
      L.V e)
    (hy : ∀ l < Vs.length, ∀ i, ((roundChallenge (sha l i) params.GP (pf l i).A (pf l i).S : Int) : ZMod q) = y l)
    (hx : ∀ l < Vs.length, ∀ i, ((roundChallenge (sha l i) params.GP (T1 l) (T2 l) : Int) : ZMod q) = x l i)
    (hy0 : ∀ l < Vs.length, y l ≠ 0) (hyd : ∀ l < Vs.length, ∀ l' < Vs.length, y l = y l' → l = l')
    (hxd : ∀ l < Vs.length, ∀ i i', x l i = x l i' → i = i')
    (hacc : ∀ l < Vs.length, ∀ i, ∃ c, (pf l i).checks (sha l i) = some c ∧ c.c65 = true) (j : Fin Vs.length) :
    let o := openAll params.N Vs.length (params.N / Vs.length) y fun l i => (x l i, (tp l i : ZMod q), (tx l i : ZMod q))
    L.den Vs[j] = (o j).1 • L.g + (o j).2 • L.den params.H := by
  intro o
  let f : ZMod q × ZMod q →ₗ[ZMod q] M := (LinearMap.toSpanSingleton _ M L.g).coprod (LinearMap.toSpanSingleton _ M (L.den params.H))
  have hf : ∀ p : ZMod q × ZMod q, f p = p.1 • L.g + p.2 • L.den params.H := fun p => by simp [f]
  obtain ⟨p, hp⟩ : ∃ p : ℕ → ZMod q × ZMod q × ZMod q, p = fun l => (y l, (y l ^ 2)⁻¹ •
    openSum params.N Vs.length (params.N / Vs.length) (y l) (y l) fun i => ⟨x l i, (tp l i : ZMod q), (tx l i : ZMod q), 0, 0, 0⟩) :=
    ⟨_, rfl⟩
  have ho : o = fun j => (newton Vs.length p).getD j 0 := by
    rw [hp]
    rfl
  rw [← hf, ho]
  have hmap : (newton Vs.length p).map f = (List.range Vs.length).map fun j => (Vs.map L.den).getD j 0 := by
    rw [newton_map]
    refine newton_unique _ _ _ (by simp) (fun i hi i' hi' h => ?_) fun l hl => ?_
    · rw [hp] at h
      exact hyd i hi i' hi' h
    · dsimp only
      rw [evalV_ofFn, hp]
      dsimp only
      have h65 : ∀ i, (tp l i : ZMod q) • L.g + (tx l i : ZMod q) • L.den params.H =
          ∑ j ∈ Finset.range Vs.length, y l ^ (j + 2) • (Vs.map L.den).getD j 0 +
            deltaM params.N Vs.length (params.N / Vs.length) (y l) (y l) • L.g + x l i • L.den (T1 l) + x l i ^ 2 • L.den (T2 l) := by
        intro i
        obtain ⟨k1, k2, k3, k4, k5, k6⟩ := hpf l hl i
        obtain ⟨c, hc, hc65⟩ := hacc l hl i
        have := (multi_c65 params L vH vG vHh lenG lenH (pf l i) k2 (hV l hl i) (sha l i) c hc hc65 (y l) (x l i) (tp l i) (tx l i)
          (hy l hl i) (hy0 l hl) (by rw [k3, k4]; exact hx l hl i) k5 k6).2
        rw [k1, k3, k4] at this
        exact this
      rw [map_smul, hf, openSum_val (a := fun i => ⟨x l i, (tp l i : ZMod q), (tx l i : ZMod q), 0, 0, 0⟩) L.g (L.den params.H)
        (fun i i' h => hxd l hl i i' h) h65, Finset.smul_sum]
      refine Finset.sum_congr rfl fun t _ => ?_
      rw [smul_smul, pow_add, mul_comm, mul_assoc, mul_inv_cancel₀ (pow_ne_zero 2 (hy0 l hl)), mul_one]
  have := congrArg (fun l => l.getD (j : ℕ) 0) hmap
  rw [List.getD_eq_getElem?_getD, List.getElem?_map, List.getD_eq_getElem?_getD, List.getElem?_map, List.getElem?_range j.isLt,
    List.getElem?_eq_getElem (by rw [newton_length]; exact j.isLt)] at this
  dsimp only
  rw [List.getD_eq_getElem?_getD, List.getElem?_eq_getElem (by rw [newton_length]; exact j.isLt)]
  refine (this.trans ?_).symm
  simp

/-- **C102** The same for one commitment: three accepted range proofs with one first challenge, one `V`, `T1`, `T2`, and three different
second challenges give an opening of `V`.  `A` and `S` may differ, and the inner-product proofs may be for other generators. -/
theorem C102_one [Fact q.Prime] (params : BPParams E) (L : Lawful params.GP q M) (vH : L.V params.H)
    (vG : ∀ e ∈ params.Gg, L.V e) (vHh : ∀ e ∈ params.Hh, L.V e) (lenG : params.Gg.length = params.N)
    (lenH : params.Hh.length = params.N) (V T1 T2 : E) (pf : Fin 3 → BulletProof E) (sha : Fin 3 → Bytes → Bytes) (y : ZMod q)
    (x : Fin 3 → ZMod q) (tp tx : Fin 3 → Int)
    (hpf : ∀ i, (pf i).V = V ∧ (pf i).Params = params ∧ (pf i).T1 = T1 ∧ (pf i).T2 = T2 ∧ (pf i).Tprime = some (tp i) ∧
      (pf i).Taux = some (tx i))
    (hV : ∀ i, ∀ e ∈ [V, (pf i).A, (pf i).S, T1, T2, (pf i).InnerProductProof.P], L.V e)
    (hy : ∀ i, ((roundChallenge (sha i) params.GP (pf i).A (pf i).S : Int) : ZMod q) = y)
    (hx : ∀ i, ((roundChallenge (sha i) params.GP T1 T2 : Int) : ZMod q) = x i) (hy0 : y ≠ 0)
    (hxd : ∀ i i', x i = x i' → i = i') (hacc : ∀ i, (pf i).verify (sha i) = some true) :
    let o := openV params.N y y fun i => ⟨x i, (tp i : ZMod q), (tx i : ZMod q), 0, 0, 0⟩
    L.den V = o.1 • L.g + o.2 • L.den params.H := by
  intro o
  have h65 : ∀ i, (tp i : ZMod q) • L.g + (tx i : ZMod q) • L.den params.H =
      y ^ 2 • L.den V + deltaSpec params.N y y • L.g + x i • L.den T1 + x i ^ 2 • L.den T2 := by
    intro i
    obtain ⟨k1, k2, k3, k4, k5, k6⟩ := hpf i
    have h5 := hacc i
    have hvi := hV i
    have hyi := hy i
    have hxi := hx i
    generalize pf i = p at *
    subst k1 k2 k3 k4
    have hv : BPValid p L :=
      { V := hvi _ (by simp), A := hvi _ (by simp), S := hvi _ (by simp), T1 := hvi _ (by simp), T2 := hvi _ (by simp), H := vH,
        Gg := vG, Hh := vHh, P := hvi _ (by simp), lenG := lenG, lenH := lenH }
    obtain ⟨b, hb⟩ := verify_ip h5
    have hs := h5
    unfold BulletProof.verify at hs
    dsimp only at hs
    unbind hs with hp ehp
    unbind hs with tp' etp
    unbind hs with tx' etx
    have hn := (L.updateGenerators_spec lenH vHh ehp).1
    obtain ⟨mu, hmu⟩ : ∃ mu, p.Mu = some mu := by
      cases hm : p.Mu with
      | some mu => exact ⟨mu, rfl⟩
      | none => simp [hm] at hs
    obtain ⟨v, hv', hiff⟩ := C20_bp_verify_equations p L hv (sha i) (tp i) (tx i) mu b (by omega) k5 k6 hmu hb y y (x i) hyi.symm rfl
      hxi.symm hy0
    rw [h5] at hv'
    exact (hiff.mp (Option.some.inj hv').symm).1
  have h01 : x 0 ≠ x 1 := fun h => absurd (hxd _ _ h) (by decide)
  have h02 : x 0 ≠ x 2 := fun h => absurd (hxd _ _ h) (by decide)
  have h12 : x 1 ≠ x 2 := fun h => absurd (hxd _ _ h) (by decide)
  have he := atZero_smul L.g (L.den params.H) h01 h02 h12 (h65 0) (h65 1) (h65 2)
  have hy2 : y ^ 2 ≠ 0 := pow_ne_zero 2 hy0
  have : L.den V = (y ^ 2)⁻¹ • (y ^ 2 • L.den V) := by rw [smul_smul, inv_mul_cancel₀ hy2, one_smul]
  rw [this, ← add_sub_cancel_right (y ^ 2 • L.den V) (deltaSpec params.N y y • L.g), ← he]
  simp only [o, openV]
  module

/-- the forger's vectors have the right inner product -/
theorem forge_any [Fact q.Prime] {n m bits : ℕ} (hn : 4 ≤ n) (h0 : 0 < m) (hm : m ≤ n) (hb : n / m = bits) (vs : List Int) (y : Int) :
    ∑ i ∈ Finset.range n, (((forgeL n m vs i : Int) : ZMod q) - y) * ((y : ZMod q) ^ i * (((forgeR n m bits vs i : Int) : ZMod q) + y) +
        (wSum m bits y i : ZMod q)) =
      ∑ j ∈ Finset.range m, (y : ZMod q) ^ (j + 2) * ((vs.getD j 0 : Int) : ZMod q) + deltaM n m bits (y : ZMod q) y := by
  rcases Nat.lt_or_eq_of_le hm with h | rfl
  · have hm2 : m + 2 ≤ n ∨ bits = 1 := by
      rcases Nat.lt_or_ge n (m + 2) with h2 | h2
      · exact .inr (by rw [← hb]; exact Nat.div_eq_of_lt_le (by omega) (by omega))
      · exact .inl h2
    rw [← forge_product (hb ▸ Nat.mul_div_le _ _) h hm2 vs y]
    refine Finset.sum_congr rfl fun i _ => ?_
    rw [forgeL, forgeR, if_pos h, if_pos h]
    push_cast
    ring
  · rw [Nat.div_self h0] at hb
    subst hb
    rw [← full_product hn vs (y : ZMod q) (fun i => ((fullL m vs i : Int) : ZMod q)) _ (fun _ => rfl) fun _ => rfl]
    refine Finset.sum_congr rfl fun i hi => ?_
    have hw : wSum m 1 y i = 1 + y ^ (i + 2) := by
      rw [wSum, if_pos (by rw [mul_one]; exact Finset.mem_range.mp hi), Nat.mod_one, Nat.div_one, pow_zero]
    rw [forgeL, forgeR, if_neg (lt_irrefl _), if_neg (lt_irrefl _), hw]
    push_cast
    ring

/-- **C102** And no more: for any `m ≤ N` values (`N` at least 4) and any opening randomness, a proof that `multiForge` makes is one that
the verifier accepts, whatever the digest function and the random numbers; its inner-product proof is for `Tprime` and for the
generators that the verifier derives, so it passes the comparisons that the verifier leaves out, too. -/
theorem C102_any [Fact q.Prime] (params : BPParams E) (L : Lawful params.GP q M) (k : ℕ) (hO : ParamsOK params L k)
    (sha : Bytes → Bytes) (alpha rho tau1 tau2 : Int) (vs gs : List Int)
    (hl : vs.length = gs.length) (hne : vs ≠ []) (hm : vs.length ≤ params.N) (hN3 : 4 ≤ params.N) (pf : MultiBulletProof E)
    (h : multiForge sha params alpha rho tau1 tau2 vs gs = some pf) :
    pf.verify sha = some true ∧ pf.Consistent (programChallenges sha params.GP) ∧ pf.Params = params ∧
      pf.Vs = List.zipWith (fun v g => pedersenCommit params.GP v g params.H) vs gs := by
  have hN := hO.N
  have lenG : params.Gg.length = params.N := hO.lenG.trans hN.symm
  have lenH : params.Hh.length = params.N := hO.lenH.trans hN.symm
  have hb : vs.length * (params.N / vs.length) ≤ params.N := Nat.mul_div_le _ _
  obtain ⟨bits, hbt⟩ : ∃ b, params.N / vs.length = b := ⟨_, rfl⟩
  have hid := forge_any (q := q) hN3 (List.length_pos_iff.mpr hne) hm hbt vs
  rw [hbt] at hb
  unfold multiForge at h
  dsimp only at h
  rw [hbt] at h
  generalize forgeL params.N vs.length vs = aLf at h hid
  generalize forgeR params.N vs.length bits vs = aRf at h hid
  obtain ⟨aL, haL⟩ : ∃ l, (List.range params.N).map aLf = l := ⟨_, rfl⟩
  obtain ⟨aR, haR⟩ : ∃ l, (List.range params.N).map aRf = l := ⟨_, rfl⟩
  rw [haL, haR] at h
  unbind h with A0 eA0
  obtain ⟨vA0, dA0⟩ : L.V A0 ∧ L.den A0 = msm (L.denV params.Gg) (castV q aL) + msm (L.denV params.Hh) (castV q aR) := by
    unfold commitInnerProduct at eA0
    unbind eA0 with c1 f1
    unbind eA0 with c2 f2
    simp only [Option.some.injEq] at eA0
    obtain ⟨_, v1, d1⟩ := L.vectorExp_spec hO.Gg f1
    obtain ⟨_, v2, d2⟩ := L.vectorExp_spec hO.Hh f2
    rw [← eA0]
    exact ⟨L.V_add v1 v2, by rw [L.den_add v1 v2, d1, d2]⟩
  have vHa := L.V_mul alpha hO.H
  obtain ⟨A, hA⟩ : ∃ e, params.GP.add (params.GP.mul params.H alpha) A0 = e := ⟨_, rfl⟩
  obtain ⟨S, hS⟩ : ∃ e, params.GP.mul params.H rho = e := ⟨_, rfl⟩
  obtain ⟨T1, hT1⟩ : ∃ e, params.GP.mul params.H tau1 = e := ⟨_, rfl⟩
  obtain ⟨T2, hT2⟩ : ∃ e, params.GP.mul params.H tau2 = e := ⟨_, rfl⟩
  have vA : L.V A := hA ▸ L.V_add vHa vA0
  have vS : L.V S := hS ▸ L.V_mul rho hO.H
  have vT1 : L.V T1 := hT1 ▸ L.V_mul tau1 hO.H
  have vT2 : L.V T2 := hT2 ▸ L.V_mul tau2 hO.H
  have dA : L.den A = (alpha : ZMod q) • L.den params.H +
      (msm (L.denV params.Gg) (castV q aL) + msm (L.denV params.Hh) (castV q aR)) := by
    rw [← hA, L.den_add vHa vA0, L.den_mul _ hO.H, dA0]
  have dS : L.den S = (rho : ZMod q) • L.den params.H := by rw [← hS, L.den_mul _ hO.H]
  have dT1 : L.den T1 = (tau1 : ZMod q) • L.den params.H := by rw [← hT1, L.den_mul _ hO.H]
  have dT2 : L.den T2 = (tau2 : ZMod q) • L.den params.H := by rw [← hT2, L.den_mul _ hO.H]
  simp only [hA, hS, hT1, hT2, hashBP_fst] at h
  obtain ⟨yi, hyi⟩ : ∃ y, roundChallenge sha params.GP A S = y := ⟨_, rfl⟩
  obtain ⟨xi, hxi⟩ : ∃ x, roundChallenge sha params.GP T1 T2 = x := ⟨_, rfl⟩
  simp only [hyi, hxi] at h
  obtain ⟨l, hll⟩ : ∃ l, (List.range params.N).map (fun i => aLf i - yi) = l := ⟨_, rfl⟩
  obtain ⟨r, hr⟩ : ∃ r, (List.range params.N).map (fun i => (yi ^ i * (aRf i + yi) +
    wSum vs.length bits yi i) % params.GP.N) = r := ⟨_, rfl⟩
  simp only [hll, hr] at h
  have ll : l.length = params.N := by rw [← hll]; simp
  have lr : r.length = params.N := by rw [← hr]; simp
  have cl : castV q l = (List.range' 0 params.N).map (fun i => (aLf i : ZMod q) - yi) := by
    rw [← hll, ← List.range_eq_range', castV, List.map_map]
    refine List.map_congr_left fun i _ => ?_
    dsimp only [Function.comp]
    push_cast
    rfl
  have cr : castV q r = (List.range' 0 params.N).map (fun i => (yi : ZMod q) ^ i * ((aRf i : ZMod q) + yi) +
      (wSum vs.length bits yi i : ZMod q)) := by
    rw [← hr, ← List.range_eq_range', castV, List.map_map]
    refine List.map_congr_left fun i _ => ?_
    dsimp only [Function.comp]
    rw [L.cast_modN]
    push_cast
    rfl
  have cL : castV q aL = (List.range' 0 params.N).map (fun i => (aLf i : ZMod q)) := by
    rw [← haL, ← List.range_eq_range', castV, List.map_map]
    rfl
  have cR : castV q aR = (List.range' 0 params.N).map (fun i => (aRf i : ZMod q)) := by
    rw [← haR, ← List.range_eq_range', castV, List.map_map]
    rfl
  obtain ⟨th, hth⟩ : ∃ t, (List.zipWith (· * ·) l r).sum % params.GP.N = t := ⟨_, rfl⟩
  obtain ⟨tx, htx⟩ : ∃ t, (tau1 * xi + tau2 * (xi * xi) + (gs.zipIdx.map fun g => g.1 * yi ^ (g.2 + 2)).sum) % params.GP.N = t := ⟨_, rfl⟩
  simp only [hth, htx] at h
  have cth : (th : ZMod q) = dot (castV q l) (castV q r) := by
    rw [← hth, L.cast_modN]
    have : ∀ a b : List Int, (((List.zipWith (· * ·) a b).sum : Int) : ZMod q) = dot (castV q a) (castV q b) := by
      intro a
      induction a with
      | nil => intro b; simp
      | cons x a ih =>
        intro b
        cases b with
        | nil => simp
        | cons z b =>
          have := ih b
          simp only [List.zipWith_cons_cons, List.sum_cons, castV, List.map_cons, dot_cons, Int.cast_add, Int.cast_mul] at this ⊢
          rw [this]
    exact this l r
  have eth : (th : ZMod q) = ∑ j ∈ Finset.range vs.length, (yi : ZMod q) ^ (j + 2) * ((vs.getD j 0 : Int) : ZMod q) +
      deltaM params.N vs.length bits (yi : ZMod q) yi := by
    rw [cth, ← hid yi, cl, cr, dot_eq_sum _ _ params.N (by simp) (by simp)]
    refine Finset.sum_congr rfl fun i hi => ?_
    have hi := Finset.mem_range.mp hi
    rw [← List.range_eq_range']
    simp [List.getD, hi]
  unbind h with hp ehp
  obtain ⟨_, lhp, vhp, yv, hyv, dhp⟩ := L.updateGenerators_spec lenH hO.Hh ehp
  have hy0 : (yi : ZMod q) ≠ 0 := left_ne_zero_of_mul_eq_one (hyv (by omega))
  have hyv : yv = (yi : ZMod q)⁻¹ := eq_inv_of_mul_eq_one_right (hyv (by omega))
  rw [hyv] at dhp
  unbind h with Uu eU
  obtain ⟨gcm, hgcm⟩ := Lawful.vectorExp_isSome (GP := params.GP) (gs := params.Gg) (as := l) (lenG.trans ll.symm)
  obtain ⟨hcm, hhcm⟩ := Lawful.vectorExp_isSome (GP := params.GP) (gs := hp) (as := r) (lhp.trans lr.symm)
  obtain ⟨_, vg, dg⟩ := L.vectorExp_spec hO.Gg hgcm
  obtain ⟨_, vh, dh⟩ := L.vectorExp_spec vhp hhcm
  obtain ⟨P, hP⟩ : ∃ e, params.GP.add gcm hcm = e := ⟨_, rfl⟩
  have ecm : commitInnerProduct params.GP params.Gg hp l r = some P := by
    unfold commitInnerProduct; simp [hgcm, hhcm, hP]
  have vP : L.V P := hP ▸ L.V_add vg vh
  have dP : L.den P = msm (L.denV params.Gg) (castV q l) + msm (L.denV hp) (castV q r) := by
    rw [← hP, L.den_add vg vh, dg, dh]
  simp only [ecm, Option.bind_eq_bind, Option.bind_some] at h
  have ll' : l.length = 2 ^ k := ll.trans hN
  have lr' : r.length = 2 ^ k := lr.trans hN
  have lhp' : hp.length = 2 ^ k := lhp.trans hN
  unbind h with rip pip
  rcases rip with e | ip
  · exact absurd h (by simp)
  simp only [Option.some.injEq] at h
  subst h
  obtain ⟨p1, p2, p3, _, _, _⟩ := ipp_honest_exact L sha k l r P th _ ip rfl ll' lr' hO.lenG lhp' hO.Gg vhp (hO.U _ eU) vP pip
  obtain ⟨ipOK, _, _⟩ := C16_ipp_complete L sha k l r P th _ ip rfl ll' lr' hO.lenG lhp' hO.Gg vhp (hO.U _ eU) vP dP cth pip
  refine ⟨?_, ⟨by rw [p2], by rw [p3], by rw [p3], ?_, by rw [p3]; exact eU.symm⟩, rfl, rfl⟩
  case refine_2 =>
    rw [p3]
    simp only [programChallenges, hashBP_fst, hyi]
    exact ehp.symm
  have lVs : (List.zipWith (fun v g => pedersenCommit params.GP v g params.H) vs gs).length = vs.length := by simp [hl]
  have vVs : ∀ v ∈ List.zipWith (fun v g => pedersenCommit params.GP v g params.H) vs gs, L.V v := by
    intro v hv
    rw [List.mem_iff_getElem] at hv
    obtain ⟨i, hi, rfl⟩ := hv
    rw [List.getElem_zipWith]
    exact L.V_pedersen hO.H _ _
  obtain ⟨Vs, hVs⟩ : ∃ l, List.zipWith (fun v g => pedersenCommit params.GP v g params.H) vs gs = l := ⟨_, rfl⟩
  have dVs : ∀ j < vs.length, (Vs.map L.den).getD j 0 =
      ((vs.getD j 0 : Int) : ZMod q) • L.g + ((gs.getD j 0 : Int) : ZMod q) • L.den params.H := by
    intro j hj
    have hj' : j < gs.length := hl ▸ hj
    rw [← hVs]
    simp only [List.getD_eq_getElem?_getD, List.getElem?_map, List.getElem?_zipWith, List.getElem?_eq_getElem hj,
      List.getElem?_eq_getElem hj', Option.map_some, Option.getD_some]
    exact L.den_pedersen hO.H _ _
  rw [hVs] at lVs vVs ⊢
  obtain ⟨c, hc, hv, h65, h67⟩ := C56_equations (q := q) (M := M) (MultiBulletProof.mk Vs A S T1 T2 (some tx)
      (some ((rho * xi + alpha) % params.GP.N)) (some th) ip params) L
    ⟨vVs, vA, vS, vT1, vT2, hO.H, hO.Gg, hO.Hh, by simpa [p1] using vP, lenG, lenH⟩ sha th tx _ true (by change 0 < params.N; omega)
    rfl rfl rfl ipOK (yi : ZMod q) (yi : ZMod q) (xi : ZMod q) (by simp only [hyi]) rfl (by simp only [hxi]) hy0
    params.N vs.length bits rfl lVs.symm (by simpa using hne) hbt.symm
  have k65 : c.c65 = true := by
    refine h65.mpr ?_
    change (th : ZMod q) • L.g + (tx : ZMod q) • L.den params.H = ∑ j ∈ Finset.range vs.length, (yi : ZMod q) ^ (j + 2) • (Vs.map L.den).getD j 0 +
      deltaM params.N vs.length bits (yi : ZMod q) yi • L.g + (xi : ZMod q) • L.den T1 + (xi : ZMod q) ^ 2 • L.den T2
    have etx : (tx : ZMod q) = tau1 * xi + tau2 * (xi * xi) +
        ∑ j ∈ Finset.range vs.length, (yi : ZMod q) ^ (j + 2) * ((gs.getD j 0 : Int) : ZMod q) := by
      rw [← htx, L.cast_modN]
      push_cast
      congr 1
      rw [hl]
      have : gs.zipIdx.map (fun g => g.1 * yi ^ (g.2 + 2)) = (List.range gs.length).map fun j => gs.getD j 0 * yi ^ (j + 2) := by
        apply List.ext_getElem
        · simp
        · intro i h1 h2
          have : i < gs.length := by simpa using h1
          simp [List.getD, List.getElem?_eq_getElem this]
      rw [this, List.map_map, sum_map_range]
      exact Finset.sum_congr rfl fun j _ => by dsimp only [Function.comp]; push_cast; exact mul_comm _ _
    have es : ∑ j ∈ Finset.range vs.length, (yi : ZMod q) ^ (j + 2) • (Vs.map L.den).getD j 0 =
        (∑ j ∈ Finset.range vs.length, (yi : ZMod q) ^ (j + 2) * ((vs.getD j 0 : Int) : ZMod q)) • L.g +
        (∑ j ∈ Finset.range vs.length, (yi : ZMod q) ^ (j + 2) * ((gs.getD j 0 : Int) : ZMod q)) • L.den params.H := by
      rw [Finset.sum_smul, Finset.sum_smul, ← Finset.sum_add_distrib]
      refine Finset.sum_congr rfl fun j hj => ?_
      rw [dVs j (Finset.mem_range.mp hj)]
      module
    rw [eth, etx, es, dT1, dT2]
    module
  have k67 : c.c67 = true := by
    refine h67.mpr ?_
    change (((rho * xi + alpha) % params.GP.N : Int) : ZMod q) • L.den params.H + L.den ip.P =
      L.den A + (xi : ZMod q) • L.den S - (yi : ZMod q) • (L.denV params.Gg).sum +
          ∑ i ∈ Finset.range params.N, ((yi : ZMod q) * yi ^ i) • (yi : ZMod q)⁻¹ ^ i • (L.denV params.Hh).getD i 0 +
          ∑ j ∈ Finset.range vs.length, ∑ i ∈ Finset.range bits,
            (2 ^ i + (yi : ZMod q) ^ (j + 2)) • (yi : ZMod q)⁻¹ ^ (j * bits + i) • (L.denV params.Hh).getD (j * bits + i) 0
    have hH : (L.denV params.Hh).length = params.N := by simp [lenH]
    have hlen : (L.denV hp).length = params.N := by simp [lhp]
    have hG : (L.denV params.Gg).length = params.N := by simp [lenG]
    have eg : msm (L.denV params.Gg) (castV q l) = msm (L.denV params.Gg) (castV q aL) - (yi : ZMod q) • (L.denV params.Gg).sum := by
      have e1 : msm (L.denV params.Gg) (List.replicate (L.denV params.Gg).length (yi : ZMod q)) =
          ∑ i ∈ Finset.range params.N, (yi : ZMod q) • (L.denV params.Gg).getD i 0 := by
        have : List.replicate (L.denV params.Gg).length (yi : ZMod q) = (List.range' 0 params.N).map fun _ => (yi : ZMod q) := by
          rw [hG, List.map_const', List.length_range']
        simp only [this, msm_range _ _ _ _ hG.ge]
      rw [← msm_replicate, e1, cl, cL, msm_range _ _ _ _ hG.ge, msm_range _ _ _ _ hG.ge, ← Finset.sum_sub_distrib]
      simp only [Nat.zero_add, sub_smul]
    have eh : msm (L.denV hp) (castV q r) = ∑ i ∈ Finset.range params.N, ((yi : ZMod q) ^ i *
        ((aRf i : ZMod q) + yi) + (wSum vs.length bits yi i : ZMod q)) • (yi : ZMod q)⁻¹ ^ i •
          (L.denV params.Hh).getD i 0 := by
      rw [cr, msm_range _ _ _ _ hlen.ge, dhp]
      simp only [Nat.zero_add, getD_scaled _ _ _ hH]
    have ea : msm (L.denV params.Hh) (castV q aR) = ∑ i ∈ Finset.range params.N, (aRf i : ZMod q) •
          (L.denV params.Hh).getD i 0 := by
      rw [cR, msm_range _ _ _ _ hH.ge]
      simp only [Nat.zero_add]
    have hw := sum_blocks hb (fun i => (wSum vs.length bits yi i : ZMod q)) (fun j i => 2 ^ i + (yi : ZMod q) ^ (j + 2))
      (fun i => by unfold wSum; split <;> simp) fun i => (yi : ZMod q)⁻¹ ^ i • (L.denV params.Hh).getD i 0
    have key : ∑ i ∈ Finset.range params.N, ((yi : ZMod q) ^ i *
        ((aRf i : ZMod q) + yi) + (wSum vs.length bits yi i : ZMod q)) • (yi : ZMod q)⁻¹ ^ i •
          (L.denV params.Hh).getD i 0 =
        ∑ i ∈ Finset.range params.N, (aRf i : ZMod q) • (L.denV params.Hh).getD i 0 +
        ∑ i ∈ Finset.range params.N, ((yi : ZMod q) * yi ^ i) • (yi : ZMod q)⁻¹ ^ i • (L.denV params.Hh).getD i 0 +
        ∑ i ∈ Finset.range params.N, (wSum vs.length bits yi i : ZMod q) • (yi : ZMod q)⁻¹ ^ i • (L.denV params.Hh).getD i 0 := by
      rw [← Finset.sum_add_distrib, ← Finset.sum_add_distrib]
      refine Finset.sum_congr rfl fun i _ => ?_
      have e1 : (yi : ZMod q) ^ i * (yi : ZMod q)⁻¹ ^ i = 1 := by rw [← mul_pow, mul_inv_cancel₀ hy0, one_pow]
      have e2 : (L.denV params.Hh).getD i 0 = ((yi : ZMod q) ^ i * (yi : ZMod q)⁻¹ ^ i) • (L.denV params.Hh).getD i 0 := by
        rw [e1, one_smul]
      nth_rewrite 2 [e2]
      module
    rw [p1, dP, eg, eh, key, hw, dA, ea, dS, L.cast_modN]
    push_cast
    module
  rw [hv, k65, k67]
  rfl

/-- **C102** `multiForge` does make one when the challenges are invertible. -/
theorem C102_made [Fact q.Prime] (params : BPParams E) (L : Lawful params.GP q M) (k : ℕ) (hO : ParamsOK params L k) (Uu : E)
    (eU : params.GP.mapToGroup SEEDU = some Uu) (sha : Bytes → Bytes)
    (hgood : ∀ l r : E, Int.gcd (roundChallenge sha params.GP l r) params.GP.N = 1) (alpha rho tau1 tau2 : Int) (vs gs : List Int) :
    ∃ pf, multiForge sha params alpha rho tau1 tau2 vs gs = some pf := by
  have hN := hO.N
  have lenG : params.Gg.length = params.N := hO.lenG.trans hN.symm
  have lenH : params.Hh.length = params.N := hO.lenH.trans hN.symm
  have com : ∀ (g h : List E) (a b : List Int), g.length = a.length → h.length = b.length → ∃ P, commitInnerProduct params.GP g h a b = some P := by
    intro g h a b h1 h2
    obtain ⟨gcm, hgcm⟩ := Lawful.vectorExp_isSome (GP := params.GP) h1
    obtain ⟨hcm, hhcm⟩ := Lawful.vectorExp_isSome (GP := params.GP) h2
    exact ⟨params.GP.add gcm hcm, by unfold commitInnerProduct; simp [hgcm, hhcm]⟩
  unfold multiForge
  dsimp only
  obtain ⟨A0, eA0⟩ := com params.Gg params.Hh ((List.range params.N).map (forgeL params.N vs.length vs))
    ((List.range params.N).map (forgeR params.N vs.length (params.N / vs.length) vs)) (by simp [lenG]) (by simp [lenH])
  simp only [eA0, Option.bind_eq_bind, Option.bind_some, hashBP_fst]
  obtain ⟨yi, hyi⟩ : ∃ y, roundChallenge sha params.GP (params.GP.add (params.GP.mul params.H alpha) A0) (params.GP.mul params.H rho) = y := ⟨_, rfl⟩
  have hyg : Int.gcd yi params.GP.N = 1 := hyi ▸ hgood _ _
  simp only [hyi]
  obtain ⟨l, hll⟩ : ∃ l, (List.range params.N).map (fun i => forgeL params.N vs.length vs i - yi) = l := ⟨_, rfl⟩
  obtain ⟨r, hr⟩ : ∃ r, (List.range params.N).map (fun i => (yi ^ i * (forgeR params.N vs.length (params.N / vs.length) vs i + yi) +
    wSum vs.length (params.N / vs.length) yi i) % params.GP.N) = r := ⟨_, rfl⟩
  simp only [hll, hr]
  have ll : l.length = params.N := by rw [← hll]; simp
  have lr : r.length = params.N := by rw [← hr]; simp
  obtain ⟨th, hth⟩ : ∃ t, (List.zipWith (· * ·) l r).sum % params.GP.N = t := ⟨_, rfl⟩
  simp only [hth]
  obtain ⟨hp, ehp⟩ := updateGenerators_isSome (GP := params.GP) (Hh := params.Hh) (y := yi) (n := params.N)
    (by rw [hN]; positivity) lenH.ge (fun _ => hyg)
  obtain ⟨_, lhp, _, _⟩ := L.updateGenerators_spec lenH hO.Hh ehp
  obtain ⟨P, ecm⟩ := com params.Gg hp l r (lenG.trans ll.symm) (lhp.trans lr.symm)
  simp only [ehp, eU, ecm, Option.bind_some]
  have ll' : l.length = 2 ^ k := ll.trans hN
  have lr' : r.length = 2 ^ k := lr.trans hN
  have lhp' : hp.length = 2 ^ k := lhp.trans hN
  obtain ⟨ip, pip⟩ : ∃ ip, proveInnerProduct sha l r P th { Gg := params.Gg, Hh := hp, Uu := Uu, GP := params.GP } = some (.ok ip) := by
    obtain ⟨u, hu⟩ : ∃ c, ippChallenge sha params.GP params.Gg hp P th = c := ⟨_, rfl⟩
    obtain ⟨pa, pb, Ls, Rs, h1, _, _, _⟩ := bip_agree (GP := params.GP) sha sha hgood k l r params.Gg hp
      (params.GP.mul Uu u) (params.GP.add P (params.GP.mul (params.GP.mul Uu u) th)) [] [] ll' lr' hO.lenG lhp'
    unfold proveInnerProduct
    rw [if_neg (not_not.mpr (ll.trans lr.symm))]
    have e1 : hashIP sha params.GP params.Gg hp P th = some u := by
      rw [hashIP_eq, if_pos (lenG.trans lhp.symm).le, ← hu]
    rw [← ll'] at h1
    steps e1
    steps h1
    exact ⟨_, rfl⟩
  simp only [pip, Option.bind_some]
  exact ⟨_, rfl⟩

/-- **C102** The parameters that `setup` makes on each of the four curves: any one to sixteen numbers, each committed to with any
randomness, are in an accepted aggregated proof, while the verifier is meant to accept only numbers below `2^(16/m)`. -/
theorem C102_deployed {E : Type} (nan64 : BitVec 64) (C : Grp E)
    (N bits : ℕ) (Bb : Int) (hr : (N, bits, Bb) ∈ curveTable) [Fact N.Prime] {M : Type} [AddCommGroup M] [Module (ZMod N) M]
    (L₂ : Lawful C N M) (hmap : ∀ s, SetupSeed 16 s → ∃ e, C.mapToGroup s = some e ∧ L₂.V e) :
    ∃ D : Election Int E, setup nan64 C = some (.ok D.pp) ∧
      ∀ (sha : Bytes → Bytes) (alpha rho tau1 tau2 : Int) (vs gs : List Int), vs.length = gs.length → vs ≠ [] → vs.length ≤ 16 →
      (∀ pf, multiForge sha D.pp.BPParams alpha rho tau1 tau2 vs gs = some pf → pf.verify sha = some true ∧
        pf.Params = D.pp.BPParams ∧
        pf.Vs = List.zipWith (fun v g => pedersenCommit D.EC v g D.pp.BPParams.H) vs gs) ∧
      ((∀ l r : E, Int.gcd (roundChallenge sha D.EC l r) N = 1) →
        ∃ pf, multiForge sha D.pp.BPParams alpha rho tau1 tau2 vs gs = some pf) := by
  obtain ⟨D, L₁, L, hD, dep, ok⟩ := C47_legal nan64 C N bits Bb hr L₂ hmap
  obtain ⟨Uu, hU, _⟩ := hmap SEEDU (.inr (.inl rfl))
  rw [← dep.EC] at hU
  have hN : D.bp.N = 16 := ok.bp.N
  refine ⟨D, hD, fun sha alpha rho tau1 tau2 vs gs hl hne hm => ⟨fun pf h => ?_, fun hgood => ?_⟩⟩
  · obtain ⟨h2, _, h4, h5⟩ := C102_any D.bp L 4 ok.bp sha alpha rho tau1 tau2 vs gs hl hne (by rw [hN]; omega) (by rw [hN]; omega) pf h
    exact ⟨h2, h4, h5⟩
  · exact C102_made D.bp L 4 ok.bp Uu hU sha (fun l r => by change Int.gcd _ D.EC.N = 1; rw [L.N_eq]; exact hgood l r) alpha rho tau1 tau2
      vs gs

/-! ## Concrete cases -/

/-- C102_any: the hypotheses hold for the toy parameters and a constant digest; with a digest that depends on its input, `1000` and `-7`
are accepted, too, and so are four numbers for four bits; five are too many. -/
example : (∀ l r : Int, Int.gcd (roundChallenge (fun _ => [5]) exBP.GP l r) exBP.GP.N = 1) ∧ ParamsOK exBP (toyLawful 101) 2 ∧
    (exBP.GP.mapToGroup SEEDU).isSome ∧ [1000, -7].length ≤ exBP.N ∧ 4 ≤ exBP.N ∧
    ([((fun _ => [5]), [1000, -7], [17, 4]), (exSha2, [1000, -7], [17, 4]), (exSha2, [99], [3]),
        (exSha2, [1000, -7, 50], [17, 4, 1]), (exSha2, [1000, -7, 50, 6], [17, 4, 1, 9]),
        (exSha2, [1000, -7, 50, 6, 2], [17, 4, 1, 9, 0])] : List ((Bytes → Bytes) × List Int × List Int)).map
      (fun p => (multiForge p.1 exBP 5 3 2 90 p.2.1 p.2.2).map fun pf => (pf.Vs, pf.checks p.1)) =
      [some ([8, 21], some ⟨true, true, true⟩), some ([8, 21], some ⟨true, true, true⟩), some ([19], some ⟨true, true, true⟩),
       some ([8, 21, 57], some ⟨true, true, true⟩), some ([8, 21, 57, 69], some ⟨true, true, true⟩),
       some ([8, 21, 57, 69, 2], some ⟨false, true, true⟩)] := by
  refine ⟨?_, exBP_ok, by decide +kernel, by decide +kernel, by decide +kernel, by decide +kernel⟩
  intro l r
  have : roundChallenge (fun _ => [5]) exBP.GP l r = 5 := by
    change ((setBytes [5] : ℕ) : Int) = 5
    decide +kernel
  rw [this]
  decide +kernel

/-- first challenge `y`, second challenge `x` -/
def exOpenSha (y x : Nat) : Bytes → Bytes :=
  fun b => if b = exBP.GP.str 14 ++ exBP.GP.str 24 then [UInt8.ofNat x] else [UInt8.ofNat y]

def exOpenPf (y x : Nat) : MultiBulletProof Int :=
  (multiForge (exOpenSha y x) exBP 5 3 2 90 [1000, -7] [17, 4]).getD
    ⟨[], 0, 0, 0, 0, none, none, none, ⟨0, none, none, none, [], [], ⟨[], [], 0, exBP.GP⟩⟩, exBP⟩

/-- C102_openings: six proofs, made for `1000` and `-7`, meet the hypotheses, and the extractor returns `1000`, `17` and `-7`, `4`. -/
example : (∀ l < 2, ∀ i < 3, (exOpenPf (l + 3) (i + 6)).Vs = [8, 21] ∧ (exOpenPf (l + 3) (i + 6)).T1 = 14 ∧
      (exOpenPf (l + 3) (i + 6)).T2 = 24 ∧ (exOpenPf (l + 3) (i + 6)).Tprime.isSome ∧ (exOpenPf (l + 3) (i + 6)).Taux.isSome ∧
      (∀ e ∈ (exOpenPf (l + 3) (i + 6)).Vs ++ [(exOpenPf (l + 3) (i + 6)).A, (exOpenPf (l + 3) (i + 6)).S, 14, 24,
        (exOpenPf (l + 3) (i + 6)).InnerProductProof.P], (toyLawful 101).V e) ∧
      roundChallenge (exOpenSha (l + 3) (i + 6)) exBP.GP (exOpenPf (l + 3) (i + 6)).A (exOpenPf (l + 3) (i + 6)).S = l + 3 ∧
      roundChallenge (exOpenSha (l + 3) (i + 6)) exBP.GP 14 24 = i + 6 ∧
      (exOpenPf (l + 3) (i + 6)).checks (exOpenSha (l + 3) (i + 6)) = some ⟨true, true, true⟩) ∧
    (let o := openAll 4 2 2 (fun l => (l + 3 : ZMod 101)) fun l i => (((i : ℕ) + 6 : ZMod 101),
        (((exOpenPf (l + 3) (i + 6)).Tprime.getD 0 : Int) : ZMod 101), (((exOpenPf (l + 3) (i + 6)).Taux.getD 0 : Int) : ZMod 101))
     (o 0, o 1)) = ((1000, 17), (-7, 4)) := by
  refine ⟨?_, ?_⟩
  · unfold toyLawful
    decide +kernel
  · decide +kernel

end MscPoc
