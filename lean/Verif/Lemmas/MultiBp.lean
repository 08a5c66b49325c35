import Verif.Model.MultiBp
import Verif.Lemmas.BpRange
import Mathlib.Algebra.BigOperators.Fin

/-!
# Aggregated range proofs: vectors laid out value by value
-/

set_option autoImplicit false

namespace MscPoc

section alg
variable {F M : Type} [CommRing F] [AddCommGroup M] [Module F M]

/-- the constant coefficient `⟨l₀,r₀⟩` for a general last summand `w` -/
theorem bp_scalar' (z : F) : ∀ (aL aR y w : List F), aL.length = aR.length → aL.length = y.length →
    aL.length = w.length →
    dot (aL.map (· + -z)) (List.zipWith (· + ·) (List.zipWith (· * ·) y (aR.map (z + ·))) w) =
      dot aL (List.zipWith (· * ·) y aR) + z * (dot aL y - dot y aR - y.sum) + dot aL w
        + (z - z ^ 2) * y.sum - z * w.sum
  | [], aR, y, w, h1, h2, h3 => by
    have e1 : y = [] := List.length_eq_zero_iff.mp h2.symm
    have e2 : w = [] := List.length_eq_zero_iff.mp h3.symm
    simp [e1, e2]
  | a :: aL, [], _, _, h1, _, _ => by simp at h1
  | a :: aL, _ :: _, [], _, _, h2, _ => by simp at h2
  | a :: aL, _ :: _, _ :: _, [], _, _, h3 => by simp at h3
  | a :: aL, b :: aR, c :: y, d :: w, h1, h2, h3 => by
    have ih := bp_scalar' z aL aR y w (by simpa using h1) (by simpa using h2) (by simpa using h3)
    simp only [List.map_cons, List.zipWith_cons_cons, dot_cons, List.sum_cons, ih]
    ring

/-- `z^{s+2}, …, z^{s+m+1}` -/
def zpows (z : F) (s m : ℕ) : List F := (List.range' s m).map (fun j => z ^ (j + 2))

theorem zpows_succ (z : F) (s m : ℕ) : zpows z s (m + 1) = z ^ (s + 2) :: zpows z (s + 1) m := by
  simp [zpows, List.range'_succ]

@[simp] theorem zpows_length (z : F) (s m : ℕ) : (zpows z s m).length = m := by simp [zpows]

theorem zpows_eq_pows (z : F) (m : ℕ) : zpows z 0 m = (pows z m).map (· * (z * z)) := by
  simp only [zpows, pows, List.map_map, List.range_eq_range']
  apply List.map_congr_left
  intro j _
  simp only [Function.comp]; ring

/-- blocks `2^i · c` (`c` ranging over `cs`) laid out one after the other -/
def blocksMul (bits : ℕ) (cs : List F) : List F := (cs.map (fun c => (pows (2 : F) bits).map (· * c))).flatten

/-- blocks `2^i + c` (`c` ranging over `cs`) laid out one after the other -/
def blocksAdd (bits : ℕ) (cs : List F) : List F := (cs.map (fun c => (pows (2 : F) bits).map (· + c))).flatten

theorem blocksMul_cons (bits : ℕ) (c : F) (cs : List F) :
    blocksMul bits (c :: cs) = (pows (2 : F) bits).map (· * c) ++ blocksMul bits cs := by simp [blocksMul]

theorem blocksAdd_cons (bits : ℕ) (c : F) (cs : List F) :
    blocksAdd bits (c :: cs) = (pows (2 : F) bits).map (· + c) ++ blocksAdd bits cs := by simp [blocksAdd]

theorem blocksMul_length (bits : ℕ) (cs : List F) : (blocksMul bits cs).length = cs.length * bits := by
  induction cs with
  | nil => simp [blocksMul]
  | cons c cs ih => rw [blocksMul_cons]; simp [pows_length, ih]; ring

theorem blocksAdd_length (bits : ℕ) (cs : List F) : (blocksAdd bits cs).length = cs.length * bits := by
  induction cs with
  | nil => simp [blocksAdd]
  | cons c cs ih => rw [blocksAdd_cons]; simp [pows_length, ih]; ring

theorem sum_map_mul (c : F) (l : List F) : (l.map (· * c)).sum = c * l.sum := by
  induction l with
  | nil => simp
  | cons a l ih => simp only [List.map_cons, List.sum_cons, ih]; ring

theorem blocksMul_sum (bits : ℕ) (cs : List F) : (blocksMul bits cs).sum = cs.sum * (pows (2 : F) bits).sum := by
  induction cs with
  | nil => simp [blocksMul]
  | cons c cs ih => rw [blocksMul_cons, List.sum_append, ih, sum_map_mul, List.sum_cons]; ring

theorem zpows_sum_succ (z : F) (s m : ℕ) : (zpows z s m).sum * z = ((List.range' s m).map (fun j => z ^ (j + 3))).sum := by
  induction m generalizing s with
  | zero => simp [zpows]
  | succ m ih => rw [zpows_succ, List.sum_cons, add_mul, ih, List.range'_succ, List.map_cons, List.sum_cons]; ring

theorem dot_fin (a : List F) (f : ℕ → F) (s : ℕ) :
    dot a ((List.range' s a.length).map f) = ∑ i : Fin a.length, a[i] * f (s + i) := by
  induction a generalizing s with
  | nil => simp
  | cons x a ih =>
    change dot (x :: a) (List.map f (List.range' s (a.length + 1))) = ∑ i : Fin (a.length + 1), (x :: a)[(i : ℕ)] * f (s + i)
    rw [List.range'_succ, List.map_cons, dot_cons, Fin.sum_univ_succ, ih]
    congr 1
    apply Finset.sum_congr rfl
    intro i _
    simp only [Fin.val_succ]
    congr 2
    omega

end alg

section casts
variable {q : ℕ}

theorem digits_dot (bits : ℕ) : ∀ (secrets : List Int) (cs : List (ZMod q)), cs.length = secrets.length →
    dot (castV q (secrets.map (fun s => decompose s 2 bits)).flatten) (blocksMul bits cs) =
      dot (castV q (secrets.map (· % 2 ^ bits))) cs
  | [], cs, _ => by simp
  | v :: vs, [], h => by simp at h
  | v :: vs, c :: cs, h => by
    have ih := digits_dot bits vs cs (by simpa using h)
    have := dot_pows2 q (decompose v 2 bits)
    rw [decompose_length, decompose_value (by norm_num)] at this
    simp only [List.map_cons, List.flatten_cons, castV, List.map_append] at ih ⊢
    rw [blocksMul_cons, dot_append _ _ _ _ (by simp [decompose_length, pows_length]), dot_map_mul_right, dot_cons, ih]
    rw [← castV, this]
    ring

theorem digits_length (bits : ℕ) (secrets : List Int) :
    (secrets.map (fun s => decompose s 2 bits)).flatten.length = secrets.length * bits := by
  induction secrets with
  | nil => simp
  | cons v vs ih => simp [decompose_length, ih]; ring

theorem digits_bits (bits : ℕ) (secrets : List Int) :
    ∀ d ∈ (secrets.map (fun s => decompose s 2 bits)).flatten, d = 0 ∨ d = 1 := by
  intro d hd
  rw [List.mem_flatten] at hd
  obtain ⟨l, hl, hd⟩ := hd
  rw [List.mem_map] at hl
  obtain ⟨v, _, rfl⟩ := hl
  have := decompose_digit (by norm_num) _ _ _ hd
  omega

theorem digits_AR (bits : ℕ) (secrets : List Int) :
    ((secrets.map (fun s => decompose s 2 bits)).map computeAR).flatten =
      ((secrets.map (fun s => decompose s 2 bits)).flatten).map (· - 1) := by
  induction secrets with
  | nil => simp
  | cons v vs ih =>
    have hb : ∀ d ∈ decompose v 2 bits, d = 0 ∨ d = 1 := by
      intro d hd
      have := decompose_digit (by norm_num) _ _ _ hd
      omega
    simp only [List.map_cons, List.flatten_cons, List.map_append, ih]
    rw [computeAR, computeARE_ok _ hb]
    simp [dropErr]

theorem zPowersTimesTwo_spec {N m bits : ℕ} {z : Int} {v : List Int} (h : zPowersTimesTwo N m bits z q = some v) :
    v.length = N ∧ m * bits = N ∧ castV q v = blocksMul bits (zpows (z : ZMod q) 0 m) := by
  unfold zPowersTimesTwo at h
  dsimp only at h
  split at h
  · rename_i hl
    simp only [Option.some.injEq] at h
    subst h
    have hc : castV q ((List.range m).map (fun j => (powerOf 2 bits q).map (fun p => p * (z ^ (2 + j) % q) % q))).flatten =
        blocksMul bits (zpows (z : ZMod q) 0 m) := by
      rw [castV, List.map_flatten, blocksMul, zpows, List.map_map, List.map_map, List.range_eq_range']
      congr 1
      apply List.map_congr_left
      intro j _
      simp only [Function.comp, List.map_map]
      have := powerOf_cast q 2 bits
      rw [Int.cast_ofNat] at this
      rw [← this, castV, List.map_map]
      apply List.map_congr_left
      intro p _
      simp only [Function.comp, cast_emod, Int.cast_mul, Int.cast_pow]
      rw [Nat.add_comm]
    refine ⟨hl, ?_, hc⟩
    have := congrArg List.length hc
    rw [blocksMul_length, zpows_length] at this
    simp only [castV, List.length_map] at this
    rw [← this, hl]
  · cases h

theorem deltaMul_foldl (z sp : Int) (m s : ℕ) (acc : Int) :
    (((List.range' s m).foldl (fun t3 j => (t3 + z ^ (j + 3) % (q : Int) * sp % (q : Int)) % (q : Int)) acc : Int) : ZMod q) =
      acc + ((List.range' s m).map (fun j => (z : ZMod q) ^ (j + 3))).sum * sp := by
  induction m generalizing s acc with
  | zero => simp
  | succ m ih =>
    rw [List.range'_succ, List.foldl_cons, ih, List.map_cons, List.sum_cons]
    simp only [cast_emod, Int.cast_add, Int.cast_mul, Int.cast_pow]
    ring

theorem sp_one (n : ℕ) (v : List Int) (hv : v.length = n) (r : Int) (h : scalarProduct (vectorCopy 1 n) v q = some r) :
    (r : ZMod q) = (castV q v).sum := by
  rw [(scalarProduct_spec h).2, castV_replicate, ← hv]
  clear * -
  induction v with
  | nil => simp
  | cons a v ih =>
    simp only [List.length_cons, List.replicate_succ, List.map_cons, dot_cons, List.sum_cons, Int.cast_one, one_mul]
    rw [← ih]; simp

theorem deltaMul_spec {N m : ℕ} {y z r : Int} (h : deltaMul N q y z m = some r) :
    (r : ZMod q) = ((z : ZMod q) - (z : ZMod q) ^ 2) * (pows (y : ZMod q) N).sum -
      z * (blocksMul (N / m) (zpows (z : ZMod q) 0 m)).sum := by
  unfold deltaMul at h
  split at h
  · cases h
  unbind h with t2 e2
  unbind h with t3 e3
  simp only [Option.some.injEq] at h
  subst h
  have h2 := sp_one N _ (powerOf_length _ _ _) _ e2
  have h3 := sp_one (N / m) _ (powerOf_length _ _ _) _ e3
  rw [powerOf_cast] at h2 h3
  rw [cast_emod, Int.cast_sub, cast_emod, Int.cast_mul, cast_emod, Int.cast_sub, cast_emod, List.range_eq_range',
    deltaMul_foldl, ← zpows_sum_succ, blocksMul_sum, h2, h3]
  push_cast
  ring

theorem deltaMul_isSome (N m : ℕ) (md y z : Int) (hm : m ≠ 0) : ∃ r, deltaMul N md y z m = some r := by
  unfold deltaMul scalarProduct
  simp [vectorCopy, powerOf_length, hm]

theorem gammas_foldl (z : Int) (gs : List Int) (s : ℕ) (acc : Int) :
    (((gs.zipIdx s).foldl (fun acc (gj : Int × ℕ) => (acc + gj.1 * (z ^ (2 + gj.2) % (q : Int))) % (q : Int)) acc : Int) : ZMod q) =
      acc + dot (castV q gs) (zpows (z : ZMod q) s gs.length) := by
  induction gs generalizing s acc with
  | nil => simp
  | cons g gs ih =>
    rw [List.zipIdx_cons, List.foldl_cons, ih, List.length_cons, zpows_succ, castV_cons', dot_cons]
    simp only [cast_emod, Int.cast_add, Int.cast_mul, Int.cast_pow]
    rw [Nat.add_comm 2 s]
    ring

end casts

section grp
variable {E : Type} {GP : Grp E} {q : ℕ} {M : Type} [AddCommGroup M] [Module (ZMod q) M]

theorem Lawful.multiRhs_spec (L : Lawful GP q M) (c : Int) (vs : List E) (ps : List Int) (acc : E) (hv : ∀ v ∈ vs, L.V v)
    (ha : L.V acc) :
    L.V ((List.zip vs ps).foldl (fun rhs (vp : E × Int) => GP.add rhs (GP.mul vp.1 (c * vp.2))) acc) ∧
    L.den ((List.zip vs ps).foldl (fun rhs (vp : E × Int) => GP.add rhs (GP.mul vp.1 (c * vp.2))) acc) =
      L.den acc + msm (L.denV vs) ((castV q ps).map (· * (c : ZMod q))) := by
  induction vs generalizing ps acc with
  | nil => simp [ha]
  | cons v vs ih => cases ps with
    | nil => simp [ha]
    | cons p ps =>
      have vv := hv v (by simp)
      have := ih ps (GP.add acc (GP.mul v (c * p))) (fun x hx => hv x (by simp [hx])) (L.V_add ha (L.V_mul _ vv))
      refine ⟨this.1, ?_⟩
      rw [List.zip_cons_cons, List.foldl_cons, this.2, L.den_add ha (L.V_mul _ vv), L.den_mul _ vv]
      simp only [L.denV_cons, List.map_cons, msm_cons, Int.cast_mul]
      rw [mul_comm (c : ZMod q)]
      abel

theorem Lawful.denV_pedersens (L : Lawful GP q M) {H : E} (hH : L.V H) (ss gs : List Int) (cs : List (ZMod q))
    (hl : ss.length = gs.length) :
    msm (L.denV (List.zipWith (fun s g => pedersenCommit GP s g H) ss gs)) cs =
      dot (castV q ss) cs • L.g + dot (castV q gs) cs • L.den H := by
  induction ss generalizing gs cs with
  | nil =>
    have : gs = [] := List.length_eq_zero_iff.mp hl.symm
    subst this; simp
  | cons s ss ih => cases gs with
    | nil => simp at hl
    | cons g gs => cases cs with
      | nil => simp
      | cons c cs =>
        rw [List.zipWith_cons_cons, L.denV_cons, msm_cons, ih gs cs (by simpa using hl), L.den_pedersen hH,
          castV_cons', castV_cons', dot_cons, dot_cons]
        module

/-- the slides of `h'` -/
theorem Lawful.multiSlides_spec (L : Lawful GP q M) (hp : List E) (vhp : ∀ e ∈ hp, L.V e) (z : Int) (bits : ℕ) :
    ∀ (m s : ℕ) (acc : E), L.V acc → (s + m) * bits ≤ hp.length →
    ∃ r, multiSlides GP hp (powerOf 2 bits GP.N) z bits (List.range' s m) acc = some r ∧ L.V r ∧
      L.den r = L.den acc + msm (L.denV (hp.drop (s * bits))) (blocksAdd bits (zpows (z : ZMod q) s m))
  | 0, s, acc, va, hl => by
    refine ⟨acc, rfl, va, ?_⟩
    simp [zpows, blocksAdd]
  | m + 1, s, acc, va, hl => by
    have hle : (s + 1) * bits ≤ hp.length := (Nat.mul_le_mul_right _ (by omega)).trans hl
    have hle0 : s * bits ≤ (s + 1) * bits := Nat.mul_le_mul_right _ (by omega)
    have hsl : ((hp.take ((s + 1) * bits)).drop (s * bits)).length = bits := by
      rw [List.length_drop, List.length_take, min_eq_left hle, ← Nat.sub_mul]; simp
    have vsl : ∀ e ∈ (hp.take ((s + 1) * bits)).drop (s * bits), L.V e := fun e he =>
      vhp e (List.mem_of_mem_take (List.mem_of_mem_drop he))
    obtain ⟨val, hval⟩ := Lawful.vectorExp_isSome (GP := GP) (gs := (hp.take ((s + 1) * bits)).drop (s * bits))
      (as := vectorAddConst (powerOf 2 bits GP.N) (z ^ (2 + s) % GP.N) GP.N)
      (by rw [hsl]; simp [vectorAddConst, powerOf_length])
    obtain ⟨_, vv, dv⟩ := L.vectorExp_spec vsl hval
    obtain ⟨r, hr, vr, dr⟩ := L.multiSlides_spec hp vhp z bits m (s + 1) (GP.add acc val) (L.V_add va vv)
      (by rwa [show s + 1 + m = s + (m + 1) by omega])
    refine ⟨r, ?_, vr, ?_⟩
    · rw [List.range'_succ]
      unfold multiSlides
      runs (show sliceTo hp ((s + 1) * bits) = some (hp.take ((s + 1) * bits)) by simp [sliceTo, hle])
      runs (show sliceFrom (hp.take ((s + 1) * bits)) (s * bits) = some ((hp.take ((s + 1) * bits)).drop (s * bits)) by
        simp [sliceFrom, hle, hle0])
      runs hval
      exact hr
    · have hsplit : hp.drop (s * bits) = (hp.take ((s + 1) * bits)).drop (s * bits) ++ hp.drop ((s + 1) * bits) := by
        conv_lhs => rw [← List.take_append_drop ((s + 1) * bits) hp]
        rw [List.drop_append_of_le_length (by rw [List.length_take, min_eq_left hle]; exact hle0)]
      have hN := L.N_eq
      have hc : castV q (vectorAddConst (powerOf 2 bits GP.N) (z ^ (2 + s) % GP.N) GP.N) =
          (pows (2 : ZMod q) bits).map (· + (z : ZMod q) ^ (s + 2)) := by
        rw [hN, cast_vectorAddConst, powerOf_cast, cast_emod, Nat.add_comm]
        push_cast; rfl
      rw [dr, L.den_add va vv, dv, hc, zpows_succ, blocksAdd_cons, hsplit]
      rw [show L.denV ((hp.take ((s + 1) * bits)).drop (s * bits) ++ hp.drop ((s + 1) * bits)) =
        L.denV ((hp.take ((s + 1) * bits)).drop (s * bits)) ++ L.denV (hp.drop ((s + 1) * bits)) by
          simp [Lawful.denV], msm_append _ _ _ _ (by rw [L.denV_length, hsl]; simp [pows_length])]
      abel

end grp
end MscPoc
