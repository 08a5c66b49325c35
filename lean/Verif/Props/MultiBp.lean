import Verif.Lemmas.MultiProve
import Verif.Props.Bp

/-!
# C24 — aggregated range proofs
-/

set_option autoImplicit false

namespace MscPoc

section
variable {F M : Type} [CommRing F] [AddCommGroup M] [Module F M]

theorem msm_range (f : ℕ → F) : ∀ (n : ℕ) (l : List M) (s : ℕ), n ≤ l.length →
    msm l ((List.range' s n).map f) = ∑ i ∈ Finset.range n, f (s + i) • l.getD i 0
  | 0, l, s, _ => by simp
  | n + 1, [], s, h => by simp at h
  | n + 1, x :: l, s, h => by
    rw [List.range'_succ, List.map_cons, msm_cons, msm_range f n l (s + 1) (by simpa using h), Finset.sum_range_succ',
      add_comm]
    congr 1
    apply Finset.sum_congr rfl
    intro i _
    rw [List.getD_cons_succ]
    congr 2; omega

theorem msm_blocks (f : ℕ → ℕ → F) (bits : ℕ) : ∀ (m s : ℕ) (l : List M), m * bits ≤ l.length →
    msm l ((List.range' s m).map (fun j => (List.range bits).map (f j))).flatten =
      ∑ j ∈ Finset.range m, ∑ i ∈ Finset.range bits, f (s + j) i • l.getD (j * bits + i) 0
  | 0, s, l, _ => by simp
  | m + 1, s, l, h => by
    rw [Nat.succ_mul] at h
    have hl : bits ≤ l.length := by omega
    have ha : (l.take bits).length = bits := by rw [List.length_take, min_eq_left hl]
    have hb : m * bits ≤ (l.drop bits).length := by rw [List.length_drop]; omega
    rw [List.range'_succ, List.map_cons, List.flatten_cons]
    conv_lhs => rw [← List.take_append_drop bits l]
    rw [msm_append _ _ _ _ (by rw [ha]; simp), msm_blocks f bits m (s + 1) _ hb, List.range_eq_range',
      msm_range (f s) bits _ 0 ha.ge, Finset.sum_range_succ', add_comm]
    congr 1
    · apply Finset.sum_congr rfl
      intro j _
      apply Finset.sum_congr rfl
      intro i _
      rw [List.getD_eq_getElem?_getD, List.getD_eq_getElem?_getD, List.getElem?_drop,
        show s + 1 + j = s + (j + 1) by omega, show bits + (j * bits + i) = (j + 1) * bits + i by ring]
    · apply Finset.sum_congr rfl
      intro i hi
      rw [Finset.mem_range] at hi
      rw [Nat.zero_add, Nat.zero_mul, Nat.zero_add, List.getD_eq_getElem?_getD, List.getD_eq_getElem?_getD,
        List.getElem?_take_of_lt hi, Nat.add_zero]

theorem getD_scaled (c : F) (n : ℕ) (h : List M) (hl : h.length = n) (t : ℕ) :
    (List.zipWith (fun c m => c • m) (pows c n) h).getD t 0 = c ^ t • h.getD t 0 := by
  rw [List.getD_eq_getElem?_getD, List.getD_eq_getElem?_getD]
  rcases Nat.lt_or_ge t n with ht | ht
  · have h1 : t < (List.zipWith (fun c m => c • m) (pows c n) h).length := by simp [pows_length, hl, ht]
    rw [List.getElem?_eq_getElem h1, List.getElem?_eq_getElem (by omega)]
    simp [pows]
  · rw [List.getElem?_eq_none (by simp [pows_length, hl, ht]), List.getElem?_eq_none (by omega)]
    simp

theorem blocksMul_eq (bits m : ℕ) (z : F) : blocksMul bits (zpows z 0 m) =
    ((List.range' 0 m).map (fun j => (List.range bits).map (fun i => 2 ^ i * z ^ (j + 2)))).flatten := by
  simp [blocksMul, zpows, pows, Function.comp_def]

theorem blocksAdd_eq (bits m : ℕ) (z : F) : blocksAdd bits (zpows z 0 m) =
    ((List.range' 0 m).map (fun j => (List.range bits).map (fun i => 2 ^ i + z ^ (j + 2)))).flatten := by
  simp [blocksAdd, zpows, pows, Function.comp_def]

end

variable {E : Type} {q : ℕ} {M : Type} [AddCommGroup M] [Module (ZMod q) M]

/-- **C24** The three conditions printed by `Verify` on the library prover's own aggregated proof, for every list
of secrets: (65) holds iff the out-of-range parts of the secrets cancel, (67) holds iff the generators satisfy one
fixed linear relation (which does not mention the secrets), and (68) always holds. -/
theorem C24_checks (params : BPParams E) (L : Lawful params.GP q M) (k : ℕ) (hO : ParamsOK params L k)
    (sha : Bytes → Bytes) (rnd : MultiRand) (secrets : List Int) (pf : MultiBulletProof E) (gs : List Int)
    (lg : rnd.gammas.length = secrets.length) (lsL : rnd.sL.length = 2 ^ k) (lsR : rnd.sR.length = 2 ^ k)
    (h : multiProve sha params rnd secrets = some (.ok (pf, gs)))
    -- the challenge `y = z`, its inverse, and the number of bits per value
    (y yinv : ZMod q) (hy : y = (roundChallenge sha params.GP pf.A pf.S : Int)) (hyinv : 2 ≤ params.N → y * yinv = 1)
    (bits : ℕ) (hbits : bits = params.N / secrets.length) :
    secrets.length * bits = params.N ∧
    ∃ c, pf.checks sha = some c ∧ pf.verify sha = some (c.c65 && c.c67) ∧ c.c68 = true ∧
      (c.c65 = true ↔
        (∑ j : Fin secrets.length, ((secrets[j] - secrets[j] % 2 ^ bits : Int) : ZMod q) * y ^ (j + 2 : ℕ)) • L.g = 0) ∧
      (c.c67 = true ↔
        (params.Gg.map L.den).sum = ∑ j ∈ Finset.range secrets.length, ∑ i ∈ Finset.range bits,
          (2 ^ i + y ^ (j + 2) - 2 ^ i * y ^ (j + 2)) • yinv ^ (j * bits + i) • (params.Hh.map L.den).getD (j * bits + i) 0) := by
  obtain ⟨_, _, _, hall⟩ := multiProve_exact params L k hO sha rnd secrets pf gs lg lsL lsR h
  obtain ⟨hm, hd⟩ := multiProve_divides params sha rnd secrets _ ⟨q, L.N_eq⟩ h
  obtain ⟨c, hc, h65, h67, h68⟩ := hall y yinv hy hyinv
  rw [← hbits] at hd h65 h67
  refine ⟨hd, c, hc, ?_, h68, h65.trans ?_, h67.trans ?_⟩
  · unfold MultiBulletProof.verify
    runs hc
    rw [h68, Bool.and_true]
  · have := dot_fin (castV q (secrets.map (fun v => v - v % 2 ^ bits))) (fun j => y ^ (j + 2)) 0
    have hl : (castV q (secrets.map (fun v => v - v % 2 ^ bits))).length = secrets.length := by simp
    have e : (∑ i : Fin (castV q (secrets.map (fun v => v - v % 2 ^ bits))).length,
        (castV q (secrets.map (fun v => v - v % 2 ^ bits)))[i] * y ^ (0 + (i : ℕ) + 2)) =
        ∑ j : Fin secrets.length, ((secrets[j] - secrets[j] % 2 ^ bits : Int) : ZMod q) * y ^ (j + 2 : ℕ) := by
      apply Fintype.sum_equiv (finCongr hl)
      intro i
      simp
    rw [← e, ← this, hl]
    rfl
  · have hlen : (List.zipWith (fun c m => c • m) (pows yinv params.N) (L.denV params.Hh)).length =
        secrets.length * bits := by simp [pows_length, hO.lenH, hO.N, hd]
    rw [blocksMul_eq, blocksAdd_eq, msm_blocks _ _ _ _ _ hlen.ge, msm_blocks _ _ _ _ _ hlen.ge]
    have hH : (L.denV params.Hh).length = params.N := by simp [hO.lenH, hO.N]
    simp only [getD_scaled yinv params.N _ hH, Nat.zero_add, sub_smul, add_smul, Finset.sum_sub_distrib]
    rw [eq_sub_iff_add_eq]
    rfl

/-- **C24** In-range secrets: the verdict is decided by the generator relation alone. -/
theorem C24_in_range (params : BPParams E) (L : Lawful params.GP q M) (k : ℕ) (hO : ParamsOK params L k)
    (sha : Bytes → Bytes) (rnd : MultiRand) (secrets : List Int) (pf : MultiBulletProof E) (gs : List Int)
    (lg : rnd.gammas.length = secrets.length) (lsL : rnd.sL.length = 2 ^ k) (lsR : rnd.sR.length = 2 ^ k)
    (h : multiProve sha params rnd secrets = some (.ok (pf, gs)))
    (y yinv : ZMod q) (hy : y = (roundChallenge sha params.GP pf.A pf.S : Int)) (hyinv : 2 ≤ params.N → y * yinv = 1)
    (bits : ℕ) (hbits : bits = params.N / secrets.length) (hr : ∀ v ∈ secrets, 0 ≤ v ∧ v < 2 ^ bits) :
    pf.verify sha = some true ↔
        (params.Gg.map L.den).sum = ∑ j ∈ Finset.range secrets.length, ∑ i ∈ Finset.range bits,
          (2 ^ i + y ^ (j + 2) - 2 ^ i * y ^ (j + 2)) • yinv ^ (j * bits + i) • (params.Hh.map L.den).getD (j * bits + i) 0 := by
  obtain ⟨_, c, _, hv, _, h65, h67⟩ := C24_checks params L k hO sha rnd secrets pf gs lg lsL lsR h y yinv hy hyinv bits hbits
  have h1 : c.c65 = true := by
    rw [h65, Finset.sum_eq_zero, zero_smul]
    intro j _
    have := hr secrets[j] (List.getElem_mem _)
    rw [Int.emod_eq_of_lt this.1 this.2]
    simp
  rw [← h67, hv, h1, Bool.true_and, Option.some.injEq]

/-- **C24** `MultiProve` panics unless the number of secrets is positive and divides `N`. -/
theorem C24_panics (params : BPParams E) (n : ℕ) (hn : params.GP.N = n) (sha : Bytes → Bytes) (rnd : MultiRand)
    (secrets : List Int) (hm : secrets = [] ∨ ¬ secrets.length ∣ params.N) : multiProve sha params rnd secrets = none := by
  by_contra hc
  obtain ⟨r, hr⟩ := Option.ne_none_iff_exists'.mp hc
  obtain ⟨h1, h2⟩ := multiProve_divides params sha rnd secrets r ⟨n, hn⟩ hr
  rcases hm with rfl | hm
  · exact h1 rfl
  · exact hm ⟨_, h2.symm⟩

/-- randomness for the examples -/
def exMRnd : MultiRand :=
  { gammas := [17, 4], alpha := 5, sL := [1, 20, 3, 4], sR := [9, 8, 77, 6], rho := 3, tau1 := 2, tau2 := 90 }

/-- C24: honest runs with two two-bit values.  In range: (65) and (68) hold, (67) fails.  Out of range: (65) fails too.
The last run uses generators that happen to satisfy the relation and is accepted. -/
example : [(exBP, [2, 3]), (exBP, [2, 7]), ({ exBP with Gg := 10 :: 1 :: exBP.Gg.tail.tail }, [2, 3])].map
    (fun (p : BPParams Int × List Int) => match multiProve exSha2 p.1 exMRnd p.2 with
      | some (.ok (pf, _)) => (pf.checks exSha2, pf.verify exSha2, decide (roundChallenge exSha2 p.1.GP pf.A pf.S % 101 = 0))
      | _ => (none, none, false)) =
    [(some ⟨true, false, true⟩, some false, false), (some ⟨false, false, true⟩, some false, false),
     (some ⟨true, true, true⟩, some true, false)] := by decide +kernel

/-- C24: three secrets do not divide four bits. -/
example : ¬ ([1, 1, 1] : List Int).length ∣ exBP.N := by decide

end MscPoc
