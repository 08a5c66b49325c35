import Verif.Model.Vote

/-!
# Ballots whose numbers are reduced

Vocabulary of the statements in `Props/Reduced.lean`.
-/

set_option autoImplicit false

namespace MscPoc

/-- the pointer is not nil and its number is in `lo ≤ · < hi` -/
def InRange (lo hi : Int) (x : Option Int) : Prop := ∃ v, x = some v ∧ lo ≤ v ∧ v < hi

/-- all numbers of a range proof are in `[0, q)` -/
structure BulletProof.Reduced {E : Type} (q : Int) (p : BulletProof E) : Prop where
  Taux : InRange 0 q p.Taux
  Mu : InRange 0 q p.Mu
  Tprime : InRange 0 q p.Tprime
  Cc : InRange 0 q p.InnerProductProof.Cc
  A : InRange 0 q p.InnerProductProof.A
  B : InRange 0 q p.InnerProductProof.B

/-- the responses of a vote proof are in `[0, q₁)`, `[0, q₂)`, `z` between its bounds, the challenge below `2^Bc` -/
structure SigmaProof.Reduced {E₁ E₂ : Type} (q₁ q₂ zlo zhi : Int) (Bc : Nat) (p : SigmaProof E₁ E₂) : Prop where
  Challenge : InRange 0 (2 ^ Bc) p.Challenge
  Z : InRange zlo zhi p.Z
  Sp : InRange 0 q₁ p.Sp
  Sq1 : InRange 0 q₂ p.Sq1
  Sq2 : InRange 0 q₂ p.Sq2

/-- the same for a ballot -/
structure BallotData.Reduced {E₁ E₂ : Type} (q₁ q₂ zlo zhi : Int) (Bc : Nat) (b : BallotData E₁ E₂) : Prop where
  lower : b.BpLower.Reduced q₂
  upper : b.BpUpper.Reduced q₂
  vote : b.VoteProof.Reduced q₁ q₂ zlo zhi Bc

/-- both pointers are nil or the numbers differ by a multiple of `q` -/
def SameMod (q : Int) (x y : Option Int) : Prop := (x = none ∧ y = none) ∨ ∃ v w k : Int, x = some v ∧ y = some w ∧ w = v + k * q

/-- range proofs with the same elements and parameters, and the same numbers up to multiples of `q` -/
structure BulletProof.Same {E : Type} (q : Int) (p p' : BulletProof E) : Prop where
  elems : p'.V = p.V ∧ p'.A = p.A ∧ p'.S = p.S ∧ p'.T1 = p.T1 ∧ p'.T2 = p.T2 ∧ p'.Params = p.Params
  ip : p'.InnerProductProof.P = p.InnerProductProof.P ∧ p'.InnerProductProof.L = p.InnerProductProof.L ∧
    p'.InnerProductProof.R = p.InnerProductProof.R ∧ p'.InnerProductProof.Params = p.InnerProductProof.Params
  Taux : SameMod q p.Taux p'.Taux
  Mu : SameMod q p.Mu p'.Mu
  Tprime : SameMod q p.Tprime p'.Tprime
  Cc : SameMod q p.InnerProductProof.Cc p'.InnerProductProof.Cc
  A : SameMod q p.InnerProductProof.A p'.InnerProductProof.A
  B : SameMod q p.InnerProductProof.B p'.InnerProductProof.B

/-- vote proofs with the same elements, parameters and challenge, and the same responses up to multiples of the orders -/
structure SigmaProof.Same {E₁ E₂ : Type} (q₁ q₂ : Int) (p p' : SigmaProof E₁ E₂) : Prop where
  elems : p'.W = p.W ∧ p'.Kp = p.Kp ∧ p'.Kq1 = p.Kq1 ∧ p'.Kq2 = p.Kq2 ∧ p'.Params = p.Params
  Challenge : p'.Challenge = p.Challenge
  Z : SameMod q₁ p.Z p'.Z
  Sp : SameMod q₁ p.Sp p'.Sp
  Sq1 : SameMod q₂ p.Sq1 p'.Sq1
  Sq2 : SameMod q₂ p.Sq2 p'.Sq2

/-- the same for ballots -/
structure BallotData.Same {E₁ E₂ : Type} (q₁ q₂ : Int) (b b' : BallotData E₁ E₂) : Prop where
  ct : b'.Ballot = b.Ballot
  lower : b.BpLower.Same q₂ b'.BpLower
  upper : b.BpUpper.Same q₂ b'.BpUpper
  vote : b.VoteProof.Same q₁ q₂ b'.VoteProof

/-- scalars count modulo the order -/
def Grp.ScalarsMod {E : Type} (GP : Grp E) : Prop :=
  (∀ (e : E) (x k : Int), GP.mul e (x + k * GP.N) = GP.mul e x) ∧ ∀ x k : Int, GP.mulGen (x + k * GP.N) = GP.mulGen x

/-- the most bytes of a ballot on a curve whose order has this many bits -/
def maxBytes (bits : Nat) : Nat := if bits = 256 then 39195 else 52420

end MscPoc
