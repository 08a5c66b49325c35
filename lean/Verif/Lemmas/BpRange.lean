import Verif.Lemmas.BpProve
import Verif.Lemmas.BpProgress
import Verif.Lemmas.Basic

/-!
# The range form of bit vectors and of the forger's vectors; patched hash functions
-/

set_option autoImplicit false

namespace MscPoc

section
variable {q : ℕ}

theorem castV_cons' (q : ℕ) (d : Int) (a : List Int) : castV q (d :: a) = (d : ZMod q) :: castV q a := rfl

theorem dot_pows2 (q : ℕ) (a : List Int) : dot (castV q a) (pows (2 : ZMod q) a.length) = (posValue 2 a : Int) := by
  induction a with
  | nil => simp [posValue]
  | cons d a ih =>
    have hm : (pows (2 : ZMod q) a.length).map (2 * ·) = (pows (2 : ZMod q) a.length).map (· * 2) := by
      apply List.map_congr_left; intros; ring
    simp only [List.length_cons, pows_succ, castV_cons', dot_cons, hm, dot_map_mul_right, ih, posValue]
    push_cast
    ring

theorem bits_dot_zero (p : List (ZMod q)) : ∀ (a : List Int), (∀ d ∈ a, d = 0 ∨ d = 1) →
    dot (castV q a) (List.zipWith (· * ·) p (castV q (a.map (· - 1)))) = 0 := by
  induction p with
  | nil => intro a _; simp
  | cons y p ih =>
    intro a ha
    cases a with
    | nil => simp
    | cons d a =>
      have := ih a (fun x hx => ha x (by simp [hx]))
      simp only [List.map_cons, List.zipWith_cons_cons, dot_cons, this, add_zero]
      rcases ha d (by simp) with rfl | rfl <;> simp

theorem bits_dot_diff (p : List (ZMod q)) : ∀ (a : List Int), a.length = p.length →
    dot (castV q a) p - dot p (castV q (a.map (· - 1))) - p.sum = 0 := by
  induction p with
  | nil => intro a _; simp
  | cons y p ih =>
    intro a ha
    cases a with
    | nil => simp at ha
    | cons d a =>
      have := ih a (by simpa using ha)
      simp only [List.map_cons, dot_cons, List.sum_cons]
      push_cast
      linear_combination this

theorem rangeForm_bits (a : List Int) (ha : ∀ d ∈ a, d = 0 ∨ d = 1) (y z : ZMod q) :
    rangeForm a.length (castV q a) (castV q (a.map (· - 1))) y z = z ^ 2 * (posValue 2 a : Int) := by
  unfold rangeForm
  rw [bits_dot_zero _ a ha, bits_dot_diff _ a (by rw [pows_length]), dot_pows2]
  ring

theorem dot_replicate_zero (n : ℕ) (b : List (ZMod q)) : dot (List.replicate n 0) b = 0 := by
  induction n generalizing b with
  | zero => simp
  | succ n ih => cases b with
    | nil => simp
    | cons c b => simp [List.replicate_succ, ih]

theorem dot_replicate_neg (p : List (ZMod q)) : dot p (List.replicate p.length (-1)) = -p.sum := by
  induction p with
  | nil => simp
  | cons c p ih => simp [List.replicate_succ, ih]; ring

/-- the forger's right vector -/
def forgeAR (n : ℕ) (v : Int) : List Int := (-1) :: (-1 - v) :: List.replicate (n - 2) (-1)

theorem rangeForm_forge (n : ℕ) (hn : 2 ≤ n) (v : Int) (y z : ZMod q) :
    rangeForm n (castV q (List.replicate n 0)) (castV q (forgeAR n v)) y z = z * y * v := by
  obtain ⟨n, rfl⟩ : ∃ m, n = m + 2 := ⟨n - 2, by omega⟩
  have e1 : castV q (List.replicate (n + 2) 0) = List.replicate (n + 2) 0 := by simp [castV, List.map_replicate]
  have e2 : castV q (forgeAR (n + 2) v) = (-1) :: (-1 - (v : ZMod q)) :: List.replicate n (-1) := by
    simp [forgeAR, castV, List.map_replicate]
  obtain ⟨p, hp, hl⟩ : ∃ p : List (ZMod q), pows y (n + 2) = 1 :: y :: p ∧ p.length = n := by
    refine ⟨((pows y n).map (y * ·)).map (y * ·), ?_, by simp [pows_length]⟩
    rw [pows_succ, pows_succ]; simp
  unfold rangeForm
  rw [e1, e2, dot_replicate_zero, dot_replicate_zero, dot_replicate_zero, hp]
  simp only [dot_cons, List.sum_cons]
  have := dot_replicate_neg p
  rw [hl] at this
  rw [this]
  ring

end

/-- `sha` with every digest that is not invertible modulo `N` replaced by the digest 1 -/
def patchSha (sha : Bytes → Bytes) (N : Int) (b : Bytes) : Bytes :=
  if Int.gcd (setBytes (sha b) : ℕ) N = 1 then sha b else [1]

theorem patch_good {E : Type} (sha : Bytes → Bytes) (GP : Grp E) (l r : E) : GoodPair (patchSha sha GP.N) GP l r := by
  unfold GoodPair roundChallenge patchSha
  split
  · assumption
  · simp [setBytes]

theorem patch_round {E : Type} (sha : Bytes → Bytes) (GP : Grp E) (l r : E)
    (h : Int.gcd (roundChallenge sha GP l r) GP.N = 1) :
    roundChallenge sha GP l r = roundChallenge (patchSha sha GP.N) GP l r := by
  unfold roundChallenge at h
  simp only [roundChallenge, patchSha, h, if_true]

theorem patch_ipp {E : Type} (sha : Bytes → Bytes) (GP : Grp E) (g h : List E) (P : E) (c : Int)
    (hg : Int.gcd (setBytes (ippDigest sha GP g h P c) : ℕ) GP.N = 1) :
    ippChallenge sha GP g h P c = ippChallenge (patchSha sha GP.N) GP g h P c := by
  unfold ippDigest at hg
  simp only [ippChallenge, ippDigest, patchSha, hg, if_true]

end MscPoc
