import Verif.Model.Marshal
import Verif.Spec.Ipp

/-!
# Specification: what a ballot must have for the server to return a verdict

Sizes, missing numbers and challenges that have no inverse; nothing about the equations.
-/

set_option autoImplicit false

namespace MscPoc

/-- an inner-product proof the verifier can process -/
structure IPProof.Processable {E : Type} (sha : Bytes → Bytes) (pf : IPProof E) : Prop where
  /-- no number is missing -/
  numbers : pf.Cc ≠ none ∧ pf.A ≠ none ∧ pf.B ≠ none
  /-- every `L` has its `R` -/
  rounds : pf.L.length ≤ pf.R.length
  /-- the generators can be halved once per round -/
  gens : 0 < pf.Params.Gg.length ∧ pf.Params.Gg.length ≤ pf.Params.Hh.length ∧ 2 ^ pf.L.length ∣ pf.Params.Gg.length ∧
    (pf.L ≠ [] → pf.Params.Hh.length = pf.Params.Gg.length)
  /-- the challenge of every round has an inverse -/
  inverses : ∀ p ∈ List.zip pf.L pf.R, Int.gcd (roundChallenge sha pf.Params.GP p.1 p.2) pf.Params.GP.N = 1

/-- a range proof the verifier can process -/
structure BulletProof.Processable {E : Type} (sha : Bytes → Bytes) (pf : BulletProof E) : Prop where
  /-- no number is missing -/
  numbers : pf.Taux ≠ none ∧ pf.Mu ≠ none ∧ pf.Tprime ≠ none
  /-- there are generators, as many as bits -/
  gens : 0 < pf.Params.N ∧ pf.Params.N ≤ pf.Params.Hh.length ∧ pf.Params.Gg.length = pf.Params.N
  /-- the challenge of `A`, `S` has an inverse (it is not used for one bit) -/
  inverse : 2 ≤ pf.Params.N → Int.gcd (roundChallenge sha pf.Params.GP pf.A pf.S) pf.Params.GP.N = 1
  ip : pf.InnerProductProof.Processable sha

/-- `z` and `s` open `x^c · k` -/
def OpensX {E : Type} (gp : GroupParams E) (z s c : Int) (k x : E) : Prop :=
  gp.I.isEqual (gp.I.add (gp.I.mulGen z) (gp.I.mul gp.H s)) (gp.I.add (gp.I.mul x c) k) = true

/-- the equation for the first component of the ciphertext -/
def OpensY {E : Type} (gp : GroupParams E) (s c : Int) (w y : E) : Prop :=
  gp.I.isEqual (gp.I.mulGen s) (gp.I.add (gp.I.mul y c) w) = true

/-- the challenge of the first move: a prefix of the digest, if the digest is that long -/
def fsOf {E₁ E₂ : Type} (sha : Bytes → Bytes) (pf : SigmaProof E₁ E₂) : Int :=
  (setBytes ((sha (pf.Params.GFF.I.str pf.W ++ pf.Params.GFF.I.str pf.Kp ++ pf.Params.GEC.I.str pf.Kq1 ++
    pf.Params.GEC.I.str pf.Kq2)).take (pf.Params.Bc.toNat / 8)) : Int)

/-- A vote proof on which the verifier panics: a number is missing at the moment it is needed, or `Bc` asks for more bytes than a
digest has.  Checks that fail earlier prevent it. -/
def SigmaProof.Crashes {E₁ E₂ : Type} (sha : Bytes → Bytes) (pf : SigmaProof E₁ E₂) (comm : VerCommitments E₁ E₂) : Prop :=
  match pf.Z with
  | none => True
  | some Z =>
    (2 ^ (pf.Params.Bx.toUInt16 + pf.Params.Bc).toNat ≤ Z ∧
      Z < 2 ^ ((pf.Params.Bx.toUInt16 + pf.Params.Bc).toNat + pf.Params.Bb).toNat) ∧
    (264 ≤ pf.Params.Bc.toNat ∨
      match pf.Challenge with
      | none => True
      | some c => fsOf sha pf = c ∧
        match pf.Sp with
        | none => True
        | some Sp => OpensY pf.Params.GFF Sp c pf.W comm.Y ∧ OpensX pf.Params.GFF Z Sp c pf.Kp comm.Xp ∧
          match pf.Sq1 with
          | none => True
          | some Sq1 => OpensX pf.Params.GEC Z Sq1 c pf.Kq1 comm.Xq1 ∧ pf.Sq2 = none)

end MscPoc
