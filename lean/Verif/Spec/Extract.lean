import Verif.Model.Bip
import Verif.Spec.Ipp
import Verif.Spec.Vec
import Mathlib.Algebra.BigOperators.Group.Finset.Basic
import Mathlib.Algebra.Module.Prod
import Mathlib.Algebra.Module.Pi
import Mathlib.Algebra.Field.Basic
import Mathlib.Data.Fin.VecNotation

/-!
# Knowledge extractor of the inner-product argument

Everything here computes on scalars only (challenges and responses of accepting transcripts); no group element is
inspected.  Coefficient vectors are functions `ℕ → F` of which the entries below the length matter.
-/

set_option autoImplicit false

namespace MscPoc

/-- coefficients for `g`, `h` and `u` -/
abbrev Comb (F : Type) : Type := (ℕ → F) × (ℕ → F) × F

section
variable {F : Type} [Field F]

/-- `∑ aᵢgᵢ + ∑ bᵢhᵢ + c.u` over the first `n` generators -/
def Comb.val {M : Type} [AddCommGroup M] [Module F M] (n : ℕ) (g h : ℕ → M) (u : M) (w : Comb F) : M :=
  (∑ i ∈ Finset.range n, w.1 i • g i) + (∑ i ∈ Finset.range n, w.2.1 i • h i) + w.2.2 • u

/-- all coefficients that matter vanish -/
def Comb.Zero (n : ℕ) (w : Comb F) : Prop :=
  (∀ i < n, w.1 i = 0) ∧ (∀ i < n, w.2.1 i = 0) ∧ w.2.2 = 0

instance [DecidableEq F] (n : ℕ) (w : Comb F) : Decidable (w.Zero n) := by unfold Comb.Zero; infer_instance

/-- coefficients for folded generators `x⁻¹.gLo + x.gHi`, `x.hLo + x⁻¹.hHi`, as coefficients for the unfolded ones -/
def Comb.unfold (n : ℕ) (x : F) (w : Comb F) : Comb F :=
  (fun i => if i < n then x⁻¹ * w.1 i else x * w.1 (i - n),
   fun i => if i < n then x * w.2.1 i else x⁻¹ * w.2.1 (i - n), w.2.2)

/-- interpolation: the vectors `L, P, R` with `s.L + P + s⁻¹.R = W` at the three points `(s₀,W₀), (s₁,W₁), (s₂,W₂)` -/
def interp (s0 s1 s2 : F) (W0 W1 W2 : Comb F) : Comb F × Comb F × Comb F :=
  let d0 := s0 * ((s0 - s1) * (s0 - s2))⁻¹
  let d1 := s1 * ((s1 - s0) * (s1 - s2))⁻¹
  let d2 := s2 * ((s2 - s0) * (s2 - s1))⁻¹
  (d0 • W0 + d1 • W1 + d2 • W2,
   (-(s1 + s2) * d0) • W0 + (-(s0 + s2) * d1) • W1 + (-(s0 + s1) * d2) • W2,
   (s1 * s2 * d0) • W0 + (s0 * s2 * d1) • W1 + (s0 * s1 * d2) • W2)

/-- candidate opening of a round's `P`, from openings `w₀..w₃` of the folded commitment for challenges `x₀..x₃` -/
def roundOpening (n : ℕ) (x : Fin 4 → F) (w : Fin 4 → Comb F) : Comb F :=
  (interp (x 0 ^ 2) (x 1 ^ 2) (x 2 ^ 2) ((w 0).unfold n (x 0)) ((w 1).unfold n (x 1)) ((w 2).unfold n (x 2))).2.1

/-- candidate relation between the round's generators -/
def roundRelation (n : ℕ) (x : Fin 4 → F) (w : Fin 4 → Comb F) : Comb F :=
  let r := interp (x 0 ^ 2) (x 1 ^ 2) (x 2 ^ 2) ((w 0).unfold n (x 0)) ((w 1).unfold n (x 1)) ((w 2).unfold n (x 2))
  x 3 ^ 2 • r.1 + r.2.1 + (x 3 ^ 2)⁻¹ • r.2.2 - (w 3).unfold n (x 3)

/-- outcome of an extraction -/
inductive Extracted (F : Type) where
  | opening (w : Comb F)
  | relation (w : Comb F)

end

/-- A tree of transcripts: at each round the same `L`, `R` are answered with four challenges. -/
inductive IPTree (E F : Type) : ℕ → Type where
  | leaf (A B : Int) : IPTree E F 0
  | node {k : ℕ} (L R : E) (x : Fin 4 → F) (sub : Fin 4 → IPTree E F k) : IPTree E F (k + 1)

/-- one transcript: the rounds `(L, R, x)` and the final scalars -/
structure IPPath (E F : Type) where
  rounds : List (E × E × F)
  A : Int
  B : Int

/-- the proof object carrying a transcript -/
def IPPath.proof {E F : Type} (p : IPPath E F) (params : IPParams E) (P : E) (Cc : Int) : IPProof E where
  P := P
  Cc := some Cc
  A := some p.A
  B := some p.B
  L := p.rounds.map (fun r => r.1)
  R := p.rounds.map (fun r => r.2.1)
  Params := params

/-- the transcripts in a tree -/
def IPTree.Mem {E F : Type} : {k : ℕ} → IPTree E F k → IPPath E F → Prop
  | _, .leaf A B, p => p = { rounds := [], A, B }
  | _, .node L R x sub, p => ∃ i t, (sub i).Mem t ∧ p = { rounds := (L, R, x i) :: t.rounds, A := t.A, B := t.B }

/-- all challenges are non-zero and the four squares at each round are different -/
def IPTree.Good {E F : Type} [Field F] : {k : ℕ} → IPTree E F k → Prop
  | _, .leaf _ _ => True
  | _, .node _ _ x sub => (∀ i, x i ≠ 0) ∧ (∀ i j, x i ^ 2 = x j ^ 2 → i = j) ∧ ∀ i, (sub i).Good

/-- the extractor -/
def IPTree.extract {E F : Type} [Field F] [DecidableEq F] : {k : ℕ} → IPTree E F k → Extracted F
  | _, .leaf A B => .opening (fun _ => A, fun _ => B, A * B)
  | _, .node (k := k) _ _ x sub =>
    match (sub 0).extract, (sub 1).extract, (sub 2).extract, (sub 3).extract with
    | .relation r, _, _, _ => .relation (r.unfold (2 ^ k) (x 0))
    | _, .relation r, _, _ => .relation (r.unfold (2 ^ k) (x 1))
    | _, _, .relation r, _ => .relation (r.unfold (2 ^ k) (x 2))
    | _, _, _, .relation r => .relation (r.unfold (2 ^ k) (x 3))
    | .opening w0, .opening w1, .opening w2, .opening w3 =>
      if (roundRelation (2 ^ k) x ![w0, w1, w2, w3]).Zero (2 ^ (k + 1)) then
        .opening (roundOpening (2 ^ k) x ![w0, w1, w2, w3])
      else .relation (roundRelation (2 ^ k) x ![w0, w1, w2, w3])

/-- the extractor for two trees with different challenges `y ≠ y'` multiplying `u` (`u` is `y.U`, resp. `y'.U`):
opening of `P` (third entry: the inner product), or relation between `g`, `h` and `U` -/
def ipExtract {E F : Type} [Field F] [DecidableEq F] {k : ℕ} (c : F) (y y' : F) (t t' : IPTree E F k) : Extracted F :=
  match t.extract, t'.extract with
  | .relation r, _ => .relation (r.1, r.2.1, y * r.2.2)
  | _, .relation r => .relation (r.1, r.2.1, y' * r.2.2)
  | .opening w, .opening w' =>
    let d : Comb F := (w.1 - w'.1, w.2.1 - w'.2.1, y * (w.2.2 - c) - y' * (w'.2.2 - c))
    if d.Zero (2 ^ k) then .opening w else .relation d

end MscPoc
