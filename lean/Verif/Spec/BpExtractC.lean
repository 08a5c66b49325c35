import Verif.Spec.BpExtract
import Verif.Spec.BpRepaired

/-!
# Knowledge extractor of the repaired range proof

As `Spec/BpExtract.lean`, for the verifier of `Spec/BpRepaired.lean`: two challenges `y`, `z` per node.
-/

set_option autoImplicit false

namespace MscPoc

/-- what a range proof should say: `aL` consists of bits, `aR = aL - 1`, and the value is the number with these bits -/
structure Bits {F : Type} [Field F] (n : ℕ) (v : F) (aL aR : ℕ → F) : Prop where
  bit : ∀ i < n, aL i = 0 ∨ aL i = 1
  compl : ∀ i < n, aR i = aL i - 1
  value : v = ∑ i ∈ Finset.range n, aL i * 2 ^ i

/-- the answers to one pair of challenges `y`, `z` -/
structure BpNodeC (E F : Type) (k : ℕ) where
  y : Int
  z : Int
  T1 : E
  T2 : E
  leaf : Fin 3 → BpLeaf E F k

/-- a tree of transcripts for one commitment `V` and one first move `A`, `S`: `N` challenges `y`, with three `z` for each -/
structure BpTreeC (E F : Type) (k : ℕ) where
  V : E
  A : E
  S : E
  node : Fin (2 ^ k) → Fin 3 → BpNodeC E F k

section
variable {E F : Type} [Field F] [DecidableEq F] {k : ℕ}

/-- relations found by the inner-product extractor -/
def BpTreeC.leafRels (T : BpTreeC E F k) : List (GComb F) :=
  (List.ofFn fun j => (List.ofFn fun l =>
    (List.ofFn fun i => ((T.node j l).leaf i).rel ((T.node j l).y : F)).reduceOption).flatten).flatten

/-- candidates for relations between the nodes -/
def BpTreeC.rels (T : BpTreeC E F k) : List (GComb F) :=
  (List.ofFn fun j => (List.ofFn fun l => nodeRels (2 ^ k) ((T.node 0 0).y : F) ((T.node 0 0).z : F)
    (fun i => ((T.node 0 0).leaf i).ans) ((T.node j l).y : F) ((T.node j l).z : F)
    (fun i => ((T.node j l).leaf i).ans)).flatten).flatten

/-- the extractor -/
def BpTreeC.extract (T : BpTreeC E F k) : BpExtracted F :=
  match T.leafRels.head? with
  | some w => .relation w
  | none =>
    match T.rels.find? (fun w => !decide (w.Zero (2 ^ k))) with
    | some w => .relation w
    | none =>
      let y := ((T.node 0 0).y : F)
      let z := ((T.node 0 0).z : F)
      let a := fun i => ((T.node 0 0).leaf i).ans
      let A := combA y z (a 0) (a 1)
      .opening (openV (2 ^ k) y z a).1 (openV (2 ^ k) y z a).2 A.1.2.1 A.2.1 A.2.2

end

end MscPoc
