import Verif.Model.HeapProve
import Verif.Model.MultiOut

/-!
# Aggregated range proofs with mutable group elements

`MultiProve` and `MultiBulletProof.Verify` with group elements as pointers to cells, continuing `Model/HeapBp.lean` and
`Model/HeapProve.lean`.  The model on values (`Model/MultiBp.lean`) is compared with this one by theorem C94.  Randomness is given as
there.
-/

set_option autoImplicit false

namespace MscPoc

/-- bulletproofs/multibp.go:33-44 `MultiBulletProof` with pointers for elements -/
structure MultiProofH where
  Vs : List Nat
  A : Nat
  S : Nat
  T1 : Nat
  T2 : Nat
  Taux : Option Int
  Mu : Option Int
  Tprime : Option Int
  ip : IPProofH
  Params : BPParamsH

/-- the elements an aggregated proof refers to -/
def MultiProofH.ptrs (p : MultiProofH) : List Nat :=
  p.A :: p.S :: p.T1 :: p.T2 :: (p.Vs ++ p.ip.ptrs ++ p.Params.ptrs)

/-- the contents of an aggregated proof -/
def MultiProofH.deref {E : Type} (GP : Grp E) (h : HS E) (p : MultiProofH) : MultiBulletProof E :=
  { Vs := p.Vs.map h.el, A := h.el p.A, S := h.el p.S, T1 := h.el p.T1, T2 := h.el p.T2, Taux := p.Taux, Mu := p.Mu,
    Tprime := p.Tprime, InnerProductProof := p.ip.deref GP h, Params := p.Params.deref GP h }

namespace HM
variable {E : Type} (GP : Grp E)

/-- bulletproofs/multibp.go:68-72: one commitment per value -/
def commitAll (H : Nat) : List Int → List Int → HM E (List Nat)
  | s :: ss, g :: gs => do
    let c ← pedersenCommit GP s g H
    let cs ← commitAll H ss gs
    pure (c :: cs)
  | _, _ => pure []

/-- bulletproofs/multibp.go:51-222 `MultiProve(secrets, params)`; `hp[0]` is `params.Hh[0]`, and `Gg` is shared with the
parameters. -/
def multiProve (sha : Bytes → Bytes) (params : BPParamsH) (rnd : MultiRand) (secrets : List Int) :
    HM E (Except String (MultiProofH × List Int)) :=
  let mod := GP.N
  let m := secrets.length
  if m = 0 then lift none else do
    let bits := params.N / m
    let commitments ← commitAll GP params.H secrets rnd.gammas
    let aLs := secrets.map (fun s => decompose s 2 bits)
    let aLConcat := concatPad params.N aLs
    let aRConcat := concatPad params.N (aLs.map computeAR)
    let A ← commitVector GP aRConcat aRConcat rnd.alpha params.H params.Gg params.Hh params.N
    let S ← commitVectorBig GP rnd.sL rnd.sR rnd.rho params.H params.Gg params.Hh params.N
    let yz ← hashBP GP sha A S
    let y := yz.1
    let z := yz.2
    let yPow := powerOf y params.N mod
    let z2v ← lift (zPowersTimesTwo params.N m bits z mod)
    let aLb ← lift (vectorConvertToBig aLConcat params.N)
    let aRb ← lift (vectorConvertToBig aRConcat params.N)
    let l0 := vectorAddConst aLb (-z) mod
    let l1 := rnd.sL
    let vecZ := vectorCopy z params.N
    let aRzn := vectorAdd vecZ aRb mod
    let r0 := vectorMul yPow aRzn mod
    let r0 := vectorAdd r0 z2v mod
    let r1 := vectorMul yPow rnd.sR mod
    let t1left ← lift (vectorInnerProduct l1 r0 mod)
    let t1right ← lift (vectorInnerProduct l0 r1 mod)
    let t1 := (t1left + t1right) % mod
    let t2 ← lift (vectorInnerProduct l1 r1 mod)
    let T1 ← pedersenCommit GP t1 rnd.tau1 params.H
    let T2 ← pedersenCommit GP t2 rnd.tau2 params.H
    let xs ← hashBP GP sha T1 T2
    let x := xs.1
    let sLx := vectorScalarMul rnd.sL x mod
    let bl := vectorAdd l0 sLx mod
    let sRx := vectorScalarMul rnd.sR x mod
    let tmp := vectorAdd aRzn sRx mod
    let tmp := vectorMul yPow tmp mod
    let br := vectorAdd tmp z2v mod
    let th ← lift (scalarProduct bl br mod)
    let tauX := rnd.tau2 * (x * x)
    let tauX := tauX + rnd.tau1 * x
    let vecRandomnessTotal := (rnd.gammas.zipIdx).foldl (fun acc (gj : Int × Nat) =>
      let zp := z ^ (2 + gj.2) % mod
      (acc + gj.1 * zp) % mod) 0
    let tauX := (tauX + vecRandomnessTotal) % mod
    let mu := (rnd.rho * x + rnd.alpha) % mod
    let hp ← updateGenerators GP params.Hh y params.N
    let Uu ← setupInnerProduct GP params.N
    match Uu with
    | .error e => pure (.error e)
    | .ok Uu => do
      let commit ← commitInnerProduct GP params.Gg hp bl br
      let ip ← proveInnerProduct GP sha bl br commit th params.Gg hp Uu
      match ip with
      | .error _ => lift none
      | .ok ip =>
        pure (.ok ({ Vs := commitments, A := A, S := S, T1 := T1, T2 := T2, Taux := some tauX, Mu := some mu, Tprime := some th,
                     ip := ip, Params := params }, rnd.gammas))

/-- bulletproofs/multibp.go:253-256: `rhs` is accumulated in place. -/
def multiRhs (zSquared : Int) : List Nat → List Int → Nat → HM E Nat
  | v :: vs, p :: ps, rhs => do
    let tmp ← newScale GP v (zSquared * p)
    let rhs ← add GP rhs rhs tmp
    multiRhs zSquared vs ps rhs
  | _, _, rhs => pure rhs

/-- bulletproofs/multibp.go:248-270: condition (65) -/
def multiCond65 (proof : MultiProofH) (x y z : Int) : HM E Bool := do
  let mod := GP.N
  let m := proof.Vs.length
  let Tprime ← lift proof.Tprime
  let Taux ← lift proof.Taux
  let lhs ← pedersenCommit GP Tprime Taux proof.Params.H
  let rhs ← identity GP
  let rhs ← multiRhs GP (z * z % mod) proof.Vs (powerOf z m mod) rhs
  let dlt ← lift (deltaMul proof.Params.N mod y z m)
  let gDelta ← newBaseScale GP dlt
  let rhs ← add GP rhs rhs gDelta
  let T1x ← newScale GP proof.T1 x
  let T2x2 ← newScale GP proof.T2 (x * x % mod)
  let rhs ← add GP rhs rhs T1x
  let rhs ← add GP rhs rhs T2x2
  let r ← read rhs
  let l ← read lhs
  pure (GP.isEqual r l)

/-- bulletproofs/multibp.go:297-303: `prod` is accumulated in place; the slices of `hp` are read only. -/
def multiSlides (hp : List Nat) (powersOfTwo : List Int) (z : Int) (bits : Nat) : List Nat → Nat → HM E Nat
  | [], prod => pure prod
  | j :: js, prod => do
    let upto ← lift (sliceTo hp ((j + 1) * bits))
    let hpSlide ← lift (sliceFrom upto (j * bits))
    let zp := z ^ (2 + j) % GP.N
    let exp := vectorAddConst powersOfTwo zp GP.N
    let val ← vectorExp GP hpSlide exp
    let prod ← add GP prod prod val
    multiSlides hp powersOfTwo z bits js prod

/-- bulletproofs/multibp.go:276-307: `lP` -/
def multiLP (proof : MultiProofH) (hp : List Nat) (x y z : Int) : HM E Nat := do
  let mod := GP.N
  let N := proof.Params.N
  let m := proof.Vs.length
  let bits := N / m
  let Sx ← newScale GP proof.S x
  let ASx ← newAdd GP proof.A Sx
  let gpmz ← vectorExp GP proof.Params.Gg (vectorCopy (mod - z) N)
  let zyn := vectorMul (powerOf y N mod) (vectorCopy z N) mod
  let hpExp ← vectorExp GP hp zyn
  let prod ← identity GP
  let prod ← multiSlides GP hp (powerOf 2 bits mod) z bits (List.range m) prod
  let tail ← newAdd GP hpExp prod
  let lP ← newAdd GP ASx gpmz
  add GP lP lP tail

/-- bulletproofs/multibp.go:311-317: condition (67); `rP` is accumulated in place. -/
def multiCond67 (proof : MultiProofH) (lP : Nat) : HM E Bool := do
  let Mu ← lift proof.Mu
  let rP ← newScale GP proof.Params.H Mu
  let rP ← add GP rP rP proof.ip.P
  let rP ← subtract GP rP rP lP
  let v ← read rP
  pure (GP.isIdentity v)

end HM

/-- bulletproofs/multibp.go:227-327 `MultiBulletProof.Verify` on the heap: the three conditions -/
def MultiProofH.checks {E : Type} (GP : Grp E) (sha : Bytes → Bytes) (proof : MultiProofH) : HM E MultiChecks :=
  if proof.Vs.length = 0 then HM.lift none else do
    let xs ← HM.hashBP GP sha proof.T1 proof.T2
    let yz ← HM.hashBP GP sha proof.A proof.S
    let hp ← HM.updateGenerators GP proof.Params.Hh yz.1 proof.Params.N
    let c65 ← HM.multiCond65 GP proof xs.1 yz.1 yz.2
    let lP ← HM.multiLP GP proof hp xs.1 yz.1 yz.2
    let c67 ← HM.multiCond67 GP proof lP
    let ok ← proof.ip.verify GP sha
    pure { c65 := c65, c67 := c67, c68 := ok }

/-- bulletproofs/multibp.go:324-326 -/
def MultiProofH.verify {E : Type} (GP : Grp E) (sha : Bytes → Bytes) (proof : MultiProofH) : HM E Bool := do
  let c ← proof.checks GP sha
  pure (c.c65 && c.c67 && c.c68)

end MscPoc
