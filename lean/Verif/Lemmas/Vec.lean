import Verif.Spec.Vec
import Verif.Spec.Lawful
import Verif.Toy
import Verif.Model.Vector
import Verif.Model.Util
import Mathlib.Tactic.Ring
import Mathlib.Tactic.Module
import Mathlib.Tactic.Linarith
import Mathlib.Tactic.Abel

/-!
# Lemmas on vectors, inner products and multi-scalar products
-/

set_option autoImplicit false

namespace MscPoc

/-- split a successful `Option` bind -/
macro "unbind " h:ident " with " a:ident e:ident : tactic =>
  `(tactic| (obtain ⟨$a, $e, tmp⟩ := Option.bind_eq_some_iff.mp $h; clear $h; have $h := tmp; clear tmp))

/-- run one successful `Option` bind -/
theorem bind_step {α β : Type} {X : Option α} {v : α} (e : X = some v) (f : α → Option β) : (X >>= f) = f v := by
  subst e; rfl

/-- rewrite the leading bind of the left-hand side with a known success -/
macro "runs " e:term : tactic => `(tactic| refine (bind_step $e _).trans ?_)

section algebra
variable {F M : Type} [CommRing F] [AddCommGroup M] [Module F M]

@[simp] theorem dot_nil_left (b : List F) : dot [] b = 0 := by simp [dot]
@[simp] theorem dot_nil_right (a : List F) : dot a [] = 0 := by simp [dot]
@[simp] theorem dot_cons (x y : F) (a b : List F) : dot (x :: a) (y :: b) = x * y + dot a b := by
  simp [dot]
@[simp] theorem msm_nil_left (b : List F) : msm ([] : List M) b = 0 := by simp [msm]
@[simp] theorem msm_nil_right (a : List M) : msm a ([] : List F) = 0 := by simp [msm]
@[simp] theorem msm_cons (x : M) (y : F) (a : List M) (b : List F) :
    msm (x :: a) (y :: b) = y • x + msm a b := by simp [msm]

theorem dot_comm (a b : List F) : dot a b = dot b a := by
  induction a generalizing b with
  | nil => simp
  | cons x a ih => cases b with
    | nil => simp
    | cons y b => simp [ih b, mul_comm]

theorem dot_append (a1 a2 b1 b2 : List F) (h : a1.length = b1.length) :
    dot (a1 ++ a2) (b1 ++ b2) = dot a1 b1 + dot a2 b2 := by
  simp only [dot]
  rw [List.zipWith_append h, List.sum_append]

theorem msm_append (g1 g2 : List M) (b1 b2 : List F) (h : g1.length = b1.length) :
    msm (g1 ++ g2) (b1 ++ b2) = msm g1 b1 + msm g2 b2 := by
  simp only [msm]
  rw [List.zipWith_append h, List.sum_append]

theorem dot_map_mul_left (c : F) (a b : List F) : dot (a.map (· * c)) b = c * dot a b := by
  induction a generalizing b with
  | nil => simp
  | cons x a ih => cases b with
    | nil => simp
    | cons y b => simp only [List.map_cons, dot_cons, ih b]; ring

theorem dot_map_mul_right (c : F) (a b : List F) : dot a (b.map (· * c)) = c * dot a b := by
  rw [dot_comm, dot_map_mul_left, dot_comm]

theorem msm_map_mul (c : F) (g : List M) (a : List F) : msm g (a.map (· * c)) = c • msm g a := by
  induction g generalizing a with
  | nil => simp
  | cons x g ih => cases a with
    | nil => simp
    | cons y b => simp only [List.map_cons, msm_cons, ih b, smul_add, smul_smul]; rw [mul_comm]

theorem msm_map_smul (c : F) (g : List M) (a : List F) : msm (g.map (c • ·)) a = c • msm g a := by
  induction g generalizing a with
  | nil => simp
  | cons x g ih => cases a with
    | nil => simp
    | cons y b => simp only [List.map_cons, msm_cons, ih b, smul_add, smul_smul, mul_comm]

theorem dot_add_left (a b c : List F) (h : a.length = b.length) :
    dot (List.zipWith (· + ·) a b) c = dot a c + dot b c := by
  induction a generalizing b c with
  | nil => cases b with
    | nil => simp
    | cons _ _ => simp at h
  | cons x a ih => cases b with
    | nil => simp at h
    | cons y b => cases c with
      | nil => simp
      | cons z c =>
        simp only [List.length_cons, Nat.add_right_cancel_iff] at h
        simp only [List.zipWith_cons_cons, dot_cons, ih b c h]; ring

theorem dot_add_right (a b c : List F) (h : b.length = c.length) :
    dot a (List.zipWith (· + ·) b c) = dot a b + dot a c := by
  rw [dot_comm, dot_add_left b c a h, dot_comm, dot_comm c a]

theorem msm_add_left (a b : List M) (c : List F) (h : a.length = b.length) :
    msm (List.zipWith (· + ·) a b) c = msm a c + msm b c := by
  induction a generalizing b c with
  | nil => cases b with
    | nil => simp
    | cons _ _ => simp at h
  | cons x a ih => cases b with
    | nil => simp at h
    | cons y b => cases c with
      | nil => simp
      | cons z c =>
        simp only [List.length_cons, Nat.add_right_cancel_iff] at h
        simp only [List.zipWith_cons_cons, msm_cons, ih b c h, smul_add]; abel

theorem msm_add_right (a : List M) (b c : List F) (h : b.length = c.length) :
    msm a (List.zipWith (· + ·) b c) = msm a b + msm a c := by
  induction a generalizing b c with
  | nil => simp
  | cons x a ih => cases b with
    | nil => cases c with
      | nil => simp
      | cons _ _ => simp at h
    | cons y b => cases c with
      | nil => simp at h
      | cons z c =>
        simp only [List.length_cons, Nat.add_right_cancel_iff] at h
        simp only [List.zipWith_cons_cons, msm_cons, ih b c h, add_smul]; abel

end algebra

/-- casting an integer vector into the scalar field -/
abbrev castV (q : ℕ) (a : List Int) : List (ZMod q) := a.map (Int.cast : Int → ZMod q)

section model
variable {E : Type} {GP : Grp E} {q : ℕ} {M : Type} [AddCommGroup M] [Module (ZMod q) M]
variable (L : Lawful GP q M)

namespace Lawful

/-- meaning of a vector of elements -/
def denV (L : Lawful GP q M) (l : List E) : List M := l.map L.den

@[simp] theorem denV_nil : L.denV [] = [] := rfl
@[simp] theorem denV_cons (a : E) (l : List E) : L.denV (a :: l) = L.den a :: L.denV l := rfl
@[simp] theorem denV_length (l : List E) : (L.denV l).length = l.length := by simp [denV]
theorem denV_take (l : List E) (n : ℕ) : L.denV (l.take n) = (L.denV l).take n := by
  simp [denV, List.map_take]
theorem denV_drop (l : List E) (n : ℕ) : L.denV (l.drop n) = (L.denV l).drop n := by
  simp [denV, List.map_drop]

theorem V_mul {a : E} (s : Int) (h : L.V a) : L.V (GP.mul a s) := L.V_scale h
theorem den_mul {a : E} (s : Int) (h : L.V a) : L.den (GP.mul a s) = (s : ZMod q) • L.den a :=
  L.den_scale h
theorem V_mulGen (s : Int) : L.V (GP.mulGen s) := L.V_baseScale
theorem den_mulGen (s : Int) : L.den (GP.mulGen s) = (s : ZMod q) • L.g := L.den_baseScale
theorem V_sub {a b : E} (ha : L.V a) (hb : L.V b) : L.V (GP.sub a b) := L.V_add ha (L.V_neg hb)
theorem den_sub {a b : E} (ha : L.V a) (hb : L.V b) : L.den (GP.sub a b) = L.den a - L.den b := by
  unfold Grp.sub
  rw [L.den_add ha (L.V_neg hb), L.den_neg hb, sub_eq_add_neg]

include L in
theorem cast_modN (a : Int) : ((a % GP.N : Int) : ZMod q) = (a : ZMod q) := by
  rw [L.N_eq]; exact cast_emod q a

theorem V_pedersen {h : E} (hh : L.V h) (x r : Int) : L.V (pedersenCommit GP x r h) :=
  L.V_add (L.V_mulGen x) (L.V_mul r hh)

theorem den_pedersen {h : E} (hh : L.V h) (x r : Int) :
    L.den (pedersenCommit GP x r h) = (x : ZMod q) • L.g + (r : ZMod q) • L.den h := by
  unfold pedersenCommit
  simp only
  rw [L.den_add (L.V_mulGen x) (L.V_mul r hh), L.den_mulGen, L.den_mul r hh]

theorem vectorExpGo_spec (gs : List E) (as : List Int) (acc : E) (hg : ∀ g ∈ gs, L.V g) (ha : L.V acc) :
    L.V (vectorExpGo GP gs as acc) ∧
    L.den (vectorExpGo GP gs as acc) = L.den acc + msm (L.denV gs) (castV q as) := by
  induction gs generalizing as acc with
  | nil => simp [vectorExpGo, ha]
  | cons g gs ih => cases as with
    | nil => simp [vectorExpGo, ha]
    | cons a as =>
      have hgV : L.V g := hg g (by simp)
      have := ih as (GP.add acc (GP.mul g a)) (fun x hx => hg x (by simp [hx])) (L.V_add ha (L.V_mul a hgV))
      refine ⟨this.1, ?_⟩
      rw [vectorExpGo, this.2, L.den_add ha (L.V_mul a hgV), L.den_mul a hgV]
      simp [add_assoc]

theorem vectorExp_spec {gs : List E} {as : List Int} {r : E} (hg : ∀ g ∈ gs, L.V g)
    (h : vectorExp GP gs as = some r) :
    gs.length = as.length ∧ L.V r ∧ L.den r = msm (L.denV gs) (castV q as) := by
  unfold vectorExp at h
  split at h
  · cases h
  · rename_i hl
    simp only [Option.some.injEq] at h
    subst h
    have := L.vectorExpGo_spec gs as GP.identity hg L.V_ident
    refine ⟨not_not.mp hl, this.1, ?_⟩
    rw [this.2, L.den_ident, zero_add]

theorem vectorExp_isSome {gs : List E} {as : List Int} (h : gs.length = as.length) :
    ∃ r, vectorExp GP gs as = some r := by
  unfold vectorExp; simp [h]

end Lawful

theorem scalarProductGo_cast (q : ℕ) (a b : List Int) (acc : Int) :
    ((scalarProductGo (q : Int) a b acc : Int) : ZMod q) = acc + dot (castV q a) (castV q b) := by
  induction a generalizing b acc with
  | nil => simp [scalarProductGo]
  | cons x a ih => cases b with
    | nil => simp [scalarProductGo]
    | cons y b =>
      simp only [scalarProductGo, ih, cast_emod, List.map_cons, dot_cons]
      push_cast; ring

theorem scalarProduct_spec {q : ℕ} {a b : List Int} {r : Int} (h : scalarProduct a b q = some r) :
    a.length = b.length ∧ (r : ZMod q) = dot (castV q a) (castV q b) := by
  unfold scalarProduct at h
  split at h
  · cases h
  · rename_i hl
    simp only [Option.some.injEq] at h
    subst h
    exact ⟨not_not.mp hl, by rw [scalarProductGo_cast]; simp⟩

theorem vectorInnerProductGo_cast (q : ℕ) (a b : List Int) (acc r : Int)
    (h : vectorInnerProductGo (q : Int) a b acc = some r) :
    (r : ZMod q) = acc + dot (castV q a) (castV q b) := by
  induction a generalizing b acc with
  | nil => simp [vectorInnerProductGo] at h; simp [h]
  | cons x a ih => cases b with
    | nil => simp [vectorInnerProductGo] at h
    | cons y b =>
      simp only [vectorInnerProductGo] at h
      rw [ih b _ h]
      push_cast
      simp only [List.map_cons, dot_cons]
      ring

theorem vectorInnerProduct_spec {q : ℕ} {a b : List Int} {r : Int}
    (h : vectorInnerProduct a b (q : Int) = some r) : (r : ZMod q) = dot (castV q a) (castV q b) := by
  unfold vectorInnerProduct at h
  rw [Option.map_eq_some_iff] at h
  obtain ⟨s, hs, rfl⟩ := h
  rw [cast_emod, vectorInnerProductGo_cast q a b 0 s hs]
  simp

theorem vectorInnerProductGo_isSome (N : Int) (a b : List Int) (acc : Int) (h : a.length ≤ b.length) :
    ∃ r, vectorInnerProductGo N a b acc = some r := by
  induction a generalizing b acc with
  | nil => simp [vectorInnerProductGo]
  | cons x a ih => cases b with
    | nil => simp at h
    | cons y b => exact ih b _ (by simpa using h)

theorem zipWith_cast (q : ℕ) (f : Int → Int → Int) (F : ZMod q → ZMod q → ZMod q)
    (hf : ∀ x y, ((f x y : Int) : ZMod q) = F x y) (a b : List Int) :
    castV q (List.zipWith f a b) = List.zipWith F (castV q a) (castV q b) := by
  induction a generalizing b with
  | nil => simp
  | cons x a ih => cases b with
    | nil => simp
    | cons y b => simp [hf, ih]

theorem vectorAdd_eq {a b : List Int} {N : Int} (h : a.length = b.length) :
    vectorAdd a b N = List.zipWith (fun x y => (x + y) % N) a b := by
  simp [vectorAdd, vectorAddE, h, dropErr]

theorem vectorMul_eq {a b : List Int} {N : Int} (h : a.length = b.length) :
    vectorMul a b N = List.zipWith (fun x y => (x * y) % N) a b := by
  simp [vectorMul, vectorMulE, h, dropErr]

theorem vectorSub_eq {a b : List Int} {N : Int} (h : a.length = b.length) :
    vectorSub a b N = List.zipWith (fun x y => (x - y) % N) a b := by
  simp [vectorSub, vectorSubE, h, dropErr]

theorem cast_vectorAdd {q : ℕ} {a b : List Int} (h : a.length = b.length) :
    castV q (vectorAdd a b q) = List.zipWith (· + ·) (castV q a) (castV q b) := by
  rw [vectorAdd_eq h]
  exact zipWith_cast q _ _ (fun x y => by rw [cast_emod]; push_cast; rfl) a b

theorem cast_vectorMul {q : ℕ} {a b : List Int} (h : a.length = b.length) :
    castV q (vectorMul a b q) = List.zipWith (· * ·) (castV q a) (castV q b) := by
  rw [vectorMul_eq h]
  exact zipWith_cast q _ _ (fun x y => by rw [cast_emod]; push_cast; rfl) a b

theorem cast_vectorScalarMul {q : ℕ} (a : List Int) (c : Int) :
    castV q (vectorScalarMul a c q) = (castV q a).map (· * (c : ZMod q)) := by
  simp [castV, vectorScalarMul, Function.comp_def]

theorem cast_vectorAddConst {q : ℕ} (a : List Int) (c : Int) :
    castV q (vectorAddConst a c q) = (castV q a).map (· + (c : ZMod q)) := by
  simp [castV, vectorAddConst, Function.comp_def]

end model

theorem sliceTo_spec {α : Type} {s t : List α} {k : ℕ} (h : sliceTo s k = some t) :
    k ≤ s.length ∧ t = s.take k := by
  unfold sliceTo at h
  split at h
  · simp only [Option.some.injEq] at h; exact ⟨by assumption, h.symm⟩
  · cases h

theorem sliceFrom_spec {α : Type} {s t : List α} {k : ℕ} (h : sliceFrom s k = some t) :
    k ≤ s.length ∧ t = s.drop k := by
  unfold sliceFrom at h
  split at h
  · simp only [Option.some.injEq] at h; exact ⟨by assumption, h.symm⟩
  · cases h

theorem modInverse_spec {g i : Int} {q : ℕ} (h : modInverse g q = some i) :
    (g : ZMod q) * (i : ZMod q) = 1 := by
  unfold modInverse at h
  split at h
  · rename_i hg
    simp only [Option.some.injEq] at h
    subst h
    rw [cast_emod]
    have hb : (((g % (q:Int)).gcd (q : Int) : ℕ) : Int) = (g % q) * Int.gcdA (g % q) q + q * Int.gcdB (g % q) q :=
      Int.gcd_eq_gcd_ab _ _
    have hg' : (g % (q : Int)).gcd (q : Int) = 1 := by rw [← hg]; exact Int.gcd_emod _ _
    rw [hg'] at hb
    have := congrArg (Int.cast : Int → ZMod q) hb
    push_cast at this
    simp only [ZMod.natCast_self, zero_mul, add_zero] at this
    exact this.symm
  · cases h

end MscPoc
