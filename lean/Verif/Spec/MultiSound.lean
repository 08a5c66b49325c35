import Verif.Spec.BpExtractC
import Verif.Spec.MultiRepair

/-!
# A repaired aggregated range proof, and its knowledge extractor

`MultiProve` and `MultiBulletProof.Verify` (bulletproofs/multibp.go:51-327) with both edits of `Spec/MultiRepair.lean` and with the
repairs of `Spec/BpRepaired.lean`: two first challenges instead of one, and an inner-product argument about this range proof.  The
extractor is that of `Spec/BpExtractC.lean` for several values: scalars only, with two more challenges `z` than there are values.
-/

set_option autoImplicit false

namespace MscPoc

/-- `MultiProve` (multibp.go:51-222) with line 86 as the protocol has it and with other challenges -/
def multiProveC {E : Type} (ch : Challenges E) (sha : Bytes → Bytes) (params : BPParams E) (rnd : MultiRand) (secrets : List Int) :
    Option (Except String (MultiBulletProof E × List Int)) :=
  let GP := params.GP
  let mod := GP.N
  let m := secrets.length
  if m = 0 then none else do -- int(params.N) / m: division by zero
    let bits := params.N / m
    let commitments := List.zipWith (fun s g => pedersenCommit GP s g params.H) secrets rnd.gammas
    let aLs := secrets.map (fun s => decompose s 2 bits)
    let aLConcat := concatPad params.N aLs
    let aRConcat := concatPad params.N (aLs.map computeAR)
    let A ← commitVector GP aLConcat aRConcat rnd.alpha params.H params.Gg params.Hh params.N
    let S ← commitVector GP rnd.sL rnd.sR rnd.rho params.H params.Gg params.Hh params.N
    let y := ch.y A S
    let z := ch.z A S
    let yPow := powerOf y params.N mod
    let z2v ← zPowersTimesTwo params.N m bits z mod
    let aLb ← vectorConvertToBig aLConcat params.N
    let aRb ← vectorConvertToBig aRConcat params.N
    let l0 := vectorAddConst aLb (-z) mod
    let l1 := rnd.sL
    let vecZ := vectorCopy z params.N
    let aRzn := vectorAdd vecZ aRb mod
    let r0 := vectorMul yPow aRzn mod
    let r0 := vectorAdd r0 z2v mod
    let r1 := vectorMul yPow rnd.sR mod
    let t1left ← vectorInnerProduct l1 r0 mod
    let t1right ← vectorInnerProduct l0 r1 mod
    let t1 := (t1left + t1right) % mod
    let t2 ← vectorInnerProduct l1 r1 mod
    let T1 := pedersenCommit GP t1 rnd.tau1 params.H
    let T2 := pedersenCommit GP t2 rnd.tau2 params.H
    let x := ch.x T1 T2
    let sLx := vectorScalarMul rnd.sL x mod
    let bl := vectorAdd l0 sLx mod
    let sRx := vectorScalarMul rnd.sR x mod
    let tmp := vectorAdd aRzn sRx mod
    let tmp := vectorMul yPow tmp mod
    let br := vectorAdd tmp z2v mod
    let th ← scalarProduct bl br mod
    let tauX := rnd.tau2 * (x * x)
    let tauX := tauX + rnd.tau1 * x
    -- multibp.go:184-189
    let vecRandomnessTotal := (rnd.gammas.zipIdx).foldl (fun acc (gj : Int × Nat) =>
      let zp := z ^ (2 + gj.2) % mod
      (acc + gj.1 * zp) % mod) 0
    let tauX := (tauX + vecRandomnessTotal) % mod
    let mu := (rnd.rho * x + rnd.alpha) % mod
    let hp ← updateGenerators GP params.Hh y params.N
    let ipp ← setupInnerProduct GP (some params.Gg) (some hp) params.N
    match ipp with
    | .error e => some (.error e)
    | .ok ipp =>
      let commit ← commitInnerProduct GP params.Gg hp bl br
      let ipProof ← proveInnerProduct sha bl br commit th ipp
      match ipProof with
      | .error _ => none
      | .ok ipProof =>
        some (.ok ({ Vs := commitments, A := A, S := S, T1 := T1, T2 := T2, Taux := some tauX,
                     Mu := some mu, Tprime := some th, InnerProductProof := ipProof, Params := params },
                   rnd.gammas))

/-- the three conditions of `Verify` (multibp.go:227-327) with line 300 as the protocol has it and with other challenges -/
def MultiBulletProof.checksC {E : Type} (ch : Challenges E) (sha : Bytes → Bytes) (proof : MultiBulletProof E) :
    Option MultiChecks :=
  let params := proof.Params
  let GP := params.GP
  let mod := GP.N
  let m := proof.Vs.length
  if m = 0 then none else do
    let bits := params.N / m
    let x := ch.x proof.T1 proof.T2
    let y := ch.y proof.A proof.S
    let z := ch.z proof.A proof.S
    let zSquared := z * z % mod
    let xSquared := x * x % mod
    let hp ← updateGenerators GP params.Hh y params.N
    let Tprime ← proof.Tprime
    let Taux ← proof.Taux
    let lhs := pedersenCommit GP Tprime Taux params.H
    let powersOfz := powerOf z m mod
    let rhs := (List.zip proof.Vs powersOfz).foldl (fun rhs (vp : E × Int) =>
      GP.add rhs (GP.mul vp.1 (zSquared * vp.2))) GP.identity
    let dlt ← deltaMul params.N mod y z m
    let gDelta := GP.mulGen dlt
    let rhs := GP.add rhs gDelta
    let T1x := GP.mul proof.T1 x
    let T2x2 := GP.mul proof.T2 xSquared
    let rhs := GP.add rhs T1x
    let rhs := GP.add rhs T2x2
    let c65 := GP.isEqual rhs lhs
    let Sx := GP.mul proof.S x
    let ASx := GP.add proof.A Sx
    let mz := mod - z
    let vmz := vectorCopy mz params.N
    let gpmz ← vectorExp GP params.Gg vmz
    let vz := vectorCopy z params.N
    let vy := powerOf y params.N mod
    let zyn := vectorMul vy vz mod
    let hpExp ← vectorExp GP hp zyn
    let powersOfTwo := powerOf 2 bits mod
    let prod ← multiSlidesR true GP hp powersOfTwo z bits (List.range m) GP.identity
    let tail := GP.add hpExp prod
    let lP := GP.add ASx gpmz
    let lP := GP.add lP tail
    let Mu ← proof.Mu
    let rP := GP.mul params.H Mu
    let rP := GP.add rP proof.InnerProductProof.P
    let rP := GP.sub rP lP
    let c67 := GP.isIdentity rP
    let ok ← proof.InnerProductProof.verify sha
    some { c65 := c65, c67 := c67, c68 := ok }

/-- the verdict (multibp.go:324-326) -/
def MultiBulletProof.verifyC {E : Type} (ch : Challenges E) (sha : Bytes → Bytes) (proof : MultiBulletProof E) : Option Bool := do
  let c ← proof.checksC ch sha
  some (c.c65 && c.c67 && c.c68)

/-- the inner-product argument is about this range proof: its claim is `Tprime` and its parameters are those that the verifier
derives -/
def MultiBulletProof.Consistent {E : Type} (ch : Challenges E) (proof : MultiBulletProof E) : Prop :=
  proof.InnerProductProof.Cc = proof.Tprime ∧ proof.InnerProductProof.Params.GP = proof.Params.GP ∧
  proof.InnerProductProof.Params.Gg = proof.Params.Gg ∧
  some proof.InnerProductProof.Params.Hh =
    updateGenerators proof.Params.GP proof.Params.Hh (ch.y proof.A proof.S) proof.Params.N ∧
  some proof.InnerProductProof.Params.Uu = proof.Params.GP.mapToGroup SEEDU

/-- the repaired verifier accepts -/
def MultiBulletProof.AcceptedC {E : Type} (ch : Challenges E) (sha : Bytes → Bytes) (proof : MultiBulletProof E) : Prop :=
  proof.Consistent ch ∧ proof.verifyC ch sha = some true

/-! ## The extractor -/

section
variable {F : Type} [Field F]

/-- what an aggregated proof should say: `aL` consists of bits, `aR = aL - 1`, and the `j`-th value is the number with the bits in the
`j`-th block of `aL` -/
structure MultiBits (n m bits : ℕ) (v : ℕ → F) (aL aR : ℕ → F) : Prop where
  bit : ∀ i < n, aL i = 0 ∨ aL i = 1
  compl : ∀ i < n, aR i = aL i - 1
  value : ∀ j < m, v j = ∑ i ∈ Finset.range bits, aL (j * bits + i) * 2 ^ i

/-- the multiple of `2ⁱ` at a position -/
def wAt (m bits : ℕ) (z : F) (i : ℕ) : F := if i < m * bits then z ^ (i / bits + 2) * 2 ^ (i % bits) else 0

/-- `δ(y, z)` for several values -/
def deltaM (n m bits : ℕ) (y z : F) : F :=
  (z - z ^ 2) * (∑ i ∈ Finset.range n, y ^ i) - ∑ j ∈ Finset.range m, z ^ (j + 3) * ∑ i ∈ Finset.range bits, 2 ^ i

/-- the answer with `z² 2ⁱ` in the place of `wAt`, as for one value -/
def BpAns.asOne (m bits : ℕ) (z : F) (a : BpAns F) : BpAns F := { a with r := fun i => a.r i - wAt m bits z i + z ^ 2 * 2 ^ i }

/-- opening of `∑ z^(j+2) Vⱼ`, from three answers -/
def openSum (n m bits : ℕ) (y z : F) (a : Fin 3 → BpAns F) : F × F :=
  (atZero (a 0).x (a 1).x (a 2).x (a 0).tp (a 1).tp (a 2).tp - deltaM n m bits y z,
   atZero (a 0).x (a 1).x (a 2).x (a 0).tx (a 1).tx (a 2).tx)

section
variable {V : Type} [AddCommGroup V] [Module F V]

/-- coefficients of `c + (X - z) Q` -/
def mulAdd (z : F) : V → List V → List V
  | c, [] => [c]
  | c, b :: bs => (c - z • b) :: mulAdd z b bs

/-- coefficients of the polynomial through the first `m` points (Newton's divided differences) -/
def newton : ℕ → (ℕ → F × V) → List V
  | 0, _ => []
  | m + 1, p => mulAdd (p 0).1 (p 0).2
      (newton m fun l => ((p (l + 1)).1, ((p (l + 1)).1 - (p 0).1)⁻¹ • ((p (l + 1)).2 - (p 0).2)))

end

/-- the candidates for a relation at one node, compared with the first node and with the openings found -/
def nodeRelsM (n m bits : ℕ) (o : ℕ → F × F) (y₀ z₀ : F) (a₀ : Fin 3 → BpAns F) (y z : F) (a : Fin 3 → BpAns F) : List (GComb F) :=
  let b := fun i => (a i).asOne m bits z
  let b₀ := fun i => (a₀ i).asOne m bits z₀
  [combA y z (b 0) (b 1) + (b 2).x • combS y z (b 0) (b 1) - (b 2).comb y z,
   combA y z (b 0) (b 1) - combA y₀ z₀ (b₀ 0) (b₀ 1),
   combS y z (b 0) (b 1) - combS y₀ z₀ (b₀ 0) (b₀ 1),
   (((∑ j ∈ Finset.range m, z ^ (j + 2) * (o j).1) - (openSum n m bits y z a).1,
     (∑ j ∈ Finset.range m, z ^ (j + 2) * (o j).2) - (openSum n m bits y z a).2, 0), 0, 0)]

end

/-- outcome: openings `v, γ` of the commitments and an opening `α, aL, aR` of `A`; or a relation -/
inductive MultiExtracted (F : Type) where
  | openings (v γ : ℕ → F) (α : F) (aL aR : ℕ → F)
  | relation (w : GComb F)

/-- a tree of transcripts for `m` commitments and one first move `A`, `S`: `N` challenges `y`, with `m + 2` challenges `z` for each -/
structure MultiTree (E F : Type) (k m : ℕ) where
  Vs : Fin m → E
  A : E
  S : E
  node : Fin (2 ^ k) → Fin (m + 2) → BpNodeC E F k

section
variable {E F : Type} [Field F] [DecidableEq F] {k m : ℕ}

/-- relations found by the inner-product extractor -/
def MultiTree.leafRels (T : MultiTree E F k m) : List (GComb F) :=
  (List.ofFn fun j => (List.ofFn fun l =>
    (List.ofFn fun i => ((T.node j l).leaf i).rel ((T.node j l).y : F)).reduceOption).flatten).flatten

/-- openings of the commitments, from `m` challenges `z` for the first `y` -/
def MultiTree.opens (T : MultiTree E F k m) : ℕ → F × F :=
  let l := newton m fun l =>
    let nd := T.node 0 (Fin.ofNat (m + 2) l)
    ((nd.z : F), ((nd.z : F) ^ 2)⁻¹ • openSum (2 ^ k) m (2 ^ k / m) (nd.y : F) (nd.z : F) fun i => (nd.leaf i).ans)
  fun j => l.getD j 0

/-- candidates for relations between the nodes -/
def MultiTree.rels (T : MultiTree E F k m) : List (GComb F) :=
  (List.ofFn fun j => (List.ofFn fun l => nodeRelsM (2 ^ k) m (2 ^ k / m) T.opens ((T.node 0 0).y : F) ((T.node 0 0).z : F)
    (fun i => ((T.node 0 0).leaf i).ans) ((T.node j l).y : F) ((T.node j l).z : F)
    (fun i => ((T.node j l).leaf i).ans)).flatten).flatten

/-- the extractor -/
def MultiTree.extract (T : MultiTree E F k m) : MultiExtracted F :=
  match T.leafRels.head? with
  | some w => .relation w
  | none =>
    match T.rels.find? (fun w => !decide (w.Zero (2 ^ k))) with
    | some w => .relation w
    | none =>
      let z := ((T.node 0 0).z : F)
      let a := fun i => ((T.node 0 0).leaf i).ans.asOne m (2 ^ k / m) z
      let A := combA ((T.node 0 0).y : F) z (a 0) (a 1)
      .openings (fun j => (T.opens j).1) (fun j => (T.opens j).2) A.1.2.1 A.2.1 A.2.2

end

end MscPoc
