import Verif.Model.Bp
import Verif.Spec.Bp
import Verif.Spec.Extract

/-!
# Knowledge extractor of the range proof

Scalars only, as in `Spec/Extract.lean`.  The verifier of this repository has one challenge where the protocol has two (`z = y`), so
there is one challenge `y` per node of the tree; what is computed at a node is written down for two challenges `y`, `z`.
-/

set_option autoImplicit false

namespace MscPoc

/-- coefficients for `G`, `H`, `U`, `g`, `h` -/
abbrev GComb (F : Type) : Type := (F × F × F) × (ℕ → F) × (ℕ → F)

section
variable {F : Type} [Field F]

/-- `c.G + d.H + e.U + ∑ aᵢgᵢ + ∑ bᵢhᵢ` over the first `n` generators -/
def GComb.val {M : Type} [AddCommGroup M] [Module F M] (n : ℕ) (G H U : M) (g h : ℕ → M) (w : GComb F) : M :=
  w.1.1 • G + w.1.2.1 • H + w.1.2.2 • U + (∑ i ∈ Finset.range n, w.2.1 i • g i) + ∑ i ∈ Finset.range n, w.2.2 i • h i

/-- all coefficients that matter vanish -/
def GComb.Zero (n : ℕ) (w : GComb F) : Prop :=
  w.1.1 = 0 ∧ w.1.2.1 = 0 ∧ w.1.2.2 = 0 ∧ (∀ i < n, w.2.1 i = 0) ∧ ∀ i < n, w.2.2 i = 0

instance [DecidableEq F] (n : ℕ) (w : GComb F) : Decidable (w.Zero n) := by unfold GComb.Zero; infer_instance

/-- what an accepted range proof says about the committed value `v`: the `j`-th of the equations between `v` and the two vectors
in the commitment `A`.  (For the protocol it should be: `aL` consists of bits, `aR = aL - 1`, and `v = ∑ aLᵢ 2ⁱ`.) -/
def weakEq (n : ℕ) (v : F) (aL aR : ℕ → F) (j : ℕ) : F :=
  (if j < n then aL j * aR j else 0) + (if 0 < j ∧ j ≤ n then aL (j - 1) - aR (j - 1) - 1 else 0) +
    if j = 2 then (∑ i ∈ Finset.range n, aL i * 2 ^ i) - v else 0

/-- all of them -/
def WeakRange (n : ℕ) (v : F) (aL aR : ℕ → F) : Prop := ∀ j, weakEq n v aL aR j = 0

/-- the scalars of one answer: the challenge `x`, `Tprime`, `Taux`, `Mu`, and the opening `l, r` of the inner-product commitment -/
structure BpAns (F : Type) where
  x : F
  tp : F
  tx : F
  mu : F
  l : ℕ → F
  r : ℕ → F

/-- coefficients of `A + x.S` -/
def BpAns.comb (y z : F) (a : BpAns F) : GComb F :=
  ((0, a.mu, 0), fun i => a.l i + z, fun i => (y ^ i)⁻¹ * (a.r i - z ^ 2 * 2 ^ i) - z)

/-- coefficients of `A`, from two answers -/
def combA (y z : F) (a b : BpAns F) : GComb F := (b.x - a.x)⁻¹ • (b.x • a.comb y z - a.x • b.comb y z)

/-- coefficients of `S`, from two answers -/
def combS (y z : F) (a b : BpAns F) : GComb F := (b.x - a.x)⁻¹ • (b.comb y z - a.comb y z)

/-- value at 0 of the quadratic polynomial through three points -/
def atZero (x0 x1 x2 t0 t1 t2 : F) : F :=
  x1 * x2 * ((x1 - x0) * (x2 - x0))⁻¹ * t0 + x0 * x2 * ((x0 - x1) * (x2 - x1))⁻¹ * t1 + x0 * x1 * ((x0 - x2) * (x1 - x2))⁻¹ * t2

/-- opening of the commitment `V`, from three answers -/
def openV (n : ℕ) (y z : F) (a : Fin 3 → BpAns F) : F × F :=
  ((z ^ 2)⁻¹ * (atZero (a 0).x (a 1).x (a 2).x (a 0).tp (a 1).tp (a 2).tp - deltaSpec n y z),
   (z ^ 2)⁻¹ * atZero (a 0).x (a 1).x (a 2).x (a 0).tx (a 1).tx (a 2).tx)

/-- the candidates for a relation at one node, compared with the first node `y₀`, `z₀`, `a₀` -/
def nodeRels (n : ℕ) (y₀ z₀ : F) (a₀ : Fin 3 → BpAns F) (y z : F) (a : Fin 3 → BpAns F) : List (GComb F) :=
  [combA y z (a 0) (a 1) + (a 2).x • combS y z (a 0) (a 1) - (a 2).comb y z,
   combA y z (a 0) (a 1) - combA y₀ z₀ (a₀ 0) (a₀ 1),
   combS y z (a 0) (a 1) - combS y₀ z₀ (a₀ 0) (a₀ 1),
   (((openV n y z a).1 - (openV n y₀ z₀ a₀).1, (openV n y z a).2 - (openV n y₀ z₀ a₀).2, 0), 0, 0)]

/-- outcome: an opening `v, γ` of `V` and an opening `α, aL, aR` of `A`; or a relation -/
inductive BpExtracted (F : Type) where
  | opening (v γ α : F) (aL aR : ℕ → F)
  | relation (w : GComb F)

end

/-- the answers to one challenge `x`: two trees for the inner-product argument, with its first challenges `c`, `c'` -/
structure BpLeaf (E F : Type) (k : ℕ) where
  x : F
  Tprime : Int
  Taux : Int
  Mu : Int
  P : E
  c : F
  c' : F
  t : IPTree E F k
  t' : IPTree E F k

/-- the answers to one challenge `y` -/
structure BpNode (E F : Type) (k : ℕ) where
  y : Int
  T1 : E
  T2 : E
  leaf : Fin 3 → BpLeaf E F k

/-- a tree of transcripts for one commitment `V` and one first move `A`, `S` -/
structure BpTree (E F : Type) (k : ℕ) where
  V : E
  A : E
  S : E
  node : Fin (2 ^ k + 2) → BpNode E F k

section
variable {E F : Type} [Field F] [DecidableEq F] {k : ℕ}

/-- the extractor of the inner-product argument at a leaf -/
def BpLeaf.ip (lf : BpLeaf E F k) : Extracted F := ipExtract (lf.Tprime : F) lf.c lf.c' lf.t lf.t'

/-- a relation found at a leaf (its generators are `y⁻ⁱ.hᵢ`) -/
def BpLeaf.rel (y : F) (lf : BpLeaf E F k) : Option (GComb F) :=
  match lf.ip with
  | .relation w => some ((0, 0, w.2.2), w.1, fun i => (y ^ i)⁻¹ * w.2.1 i)
  | .opening _ => none

/-- the scalars at a leaf -/
def BpLeaf.ans (lf : BpLeaf E F k) : BpAns F :=
  { x := lf.x, tp := lf.Tprime, tx := lf.Taux, mu := lf.Mu
    l := match lf.ip with | .opening w => w.1 | .relation _ => 0
    r := match lf.ip with | .opening w => w.2.1 | .relation _ => 0 }

/-- relations found by the inner-product extractor -/
def BpTree.leafRels (T : BpTree E F k) : List (GComb F) :=
  (List.ofFn fun j => (List.ofFn fun i => ((T.node j).leaf i).rel ((T.node j).y : F)).reduceOption).flatten

/-- candidates for relations between the nodes -/
def BpTree.rels (T : BpTree E F k) : List (GComb F) :=
  (List.ofFn fun j => nodeRels (2 ^ k) ((T.node 0).y : F) ((T.node 0).y : F) (fun i => ((T.node 0).leaf i).ans) ((T.node j).y : F)
    ((T.node j).y : F) (fun i => ((T.node j).leaf i).ans)).flatten

/-- the extractor -/
def BpTree.extract (T : BpTree E F k) : BpExtracted F :=
  match T.leafRels.head? with
  | some w => .relation w
  | none =>
    match T.rels.find? (fun w => !decide (w.Zero (2 ^ k))) with
    | some w => .relation w
    | none =>
      let y := ((T.node 0).y : F)
      let a := fun i => ((T.node 0).leaf i).ans
      let A := combA y y (a 0) (a 1)
      .opening (openV (2 ^ k) y y a).1 (openV (2 ^ k) y y a).2 A.1.2.1 A.2.1 A.2.2

end

end MscPoc
