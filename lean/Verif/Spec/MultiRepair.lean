import Verif.Model.MultiBp

/-!
# Two edits to aggregated range proofs

`MultiProve` and `MultiBulletProof.Verify` (bulletproofs/multibp.go:51-327) with a switch at each of two lines.  With both switches off
they are the program's functions (`C95_same`).  Line 86 of the program commits to the vector `aRConcat` twice; line 300 adds `z^(2+j)` to
the powers of two instead of multiplying by it.
-/

set_option autoImplicit false

namespace MscPoc

/-- `MultiProve` (multibp.go:51-222); with `fixA` line 86 commits to `aLConcat` and `aRConcat`, as the protocol asks for. -/
def multiProveR {E : Type} (fixA : Bool) (sha : Bytes → Bytes) (params : BPParams E) (rnd : MultiRand) (secrets : List Int) :
    Option (Except String (MultiBulletProof E × List Int)) :=
  let GP := params.GP
  let mod := GP.N
  let m := secrets.length
  if m = 0 then none else do -- int(params.N) / m: division by zero
    let bits := params.N / m
    let commitments := List.zipWith (fun s g => pedersenCommit GP s g params.H) secrets rnd.gammas
    let aLs := secrets.map (fun s => decompose s 2 bits)
    let aLConcat := concatPad params.N aLs
    let aRConcat := concatPad params.N (aLs.map computeAR)
    let A ← commitVector GP (if fixA then aLConcat else aRConcat) aRConcat rnd.alpha params.H params.Gg params.Hh params.N
    let S ← commitVector GP rnd.sL rnd.sR rnd.rho params.H params.Gg params.Hh params.N
    let y := (hashBP sha GP A S).1
    let z := (hashBP sha GP A S).2
    let yPow := powerOf y params.N mod
    let z2v ← zPowersTimesTwo params.N m bits z mod
    let aLb ← vectorConvertToBig aLConcat params.N
    let aRb ← vectorConvertToBig aRConcat params.N
    let l0 := vectorAddConst aLb (-z) mod
    let l1 := rnd.sL
    let vecZ := vectorCopy z params.N
    let aRzn := vectorAdd vecZ aRb mod
    let r0 := vectorMul yPow aRzn mod
    let r0 := vectorAdd r0 z2v mod
    let r1 := vectorMul yPow rnd.sR mod
    let t1left ← vectorInnerProduct l1 r0 mod
    let t1right ← vectorInnerProduct l0 r1 mod
    let t1 := (t1left + t1right) % mod
    let t2 ← vectorInnerProduct l1 r1 mod
    let T1 := pedersenCommit GP t1 rnd.tau1 params.H
    let T2 := pedersenCommit GP t2 rnd.tau2 params.H
    let x := (hashBP sha GP T1 T2).1
    let sLx := vectorScalarMul rnd.sL x mod
    let bl := vectorAdd l0 sLx mod
    let sRx := vectorScalarMul rnd.sR x mod
    let tmp := vectorAdd aRzn sRx mod
    let tmp := vectorMul yPow tmp mod
    let br := vectorAdd tmp z2v mod
    let th ← scalarProduct bl br mod
    let tauX := rnd.tau2 * (x * x)
    let tauX := tauX + rnd.tau1 * x
    -- multibp.go:184-189
    let vecRandomnessTotal := (rnd.gammas.zipIdx).foldl (fun acc (gj : Int × Nat) =>
      let zp := z ^ (2 + gj.2) % mod
      (acc + gj.1 * zp) % mod) 0
    let tauX := (tauX + vecRandomnessTotal) % mod
    let mu := (rnd.rho * x + rnd.alpha) % mod
    let hp ← updateGenerators GP params.Hh y params.N
    let ipp ← setupInnerProduct GP (some params.Gg) (some hp) params.N
    match ipp with
    | .error e => some (.error e)
    | .ok ipp =>
      let commit ← commitInnerProduct GP params.Gg hp bl br
      let ipProof ← proveInnerProduct sha bl br commit th ipp
      match ipProof with
      | .error _ => none
      | .ok ipProof =>
        some (.ok ({ Vs := commitments, A := A, S := S, T1 := T1, T2 := T2, Taux := some tauX,
                     Mu := some mu, Tprime := some th, InnerProductProof := ipProof, Params := params },
                   rnd.gammas))

/-- the product over the slides of `h'` (multibp.go:297-303); with `fixB` line 300 multiplies the powers of two by `zp`. -/
def multiSlidesR {E : Type} (fixB : Bool) (GP : Grp E) (hp : List E) (powersOfTwo : List Int) (z : Int) (bits : Nat) :
    List Nat → E → Option E
  | [], acc => some acc
  | j :: js, acc => do
    let upto ← sliceTo hp ((j + 1) * bits)
    let hpSlide ← sliceFrom upto (j * bits)
    let zp := z ^ (2 + j) % GP.N
    let exp := if fixB then vectorScalarMul powersOfTwo zp GP.N else vectorAddConst powersOfTwo zp GP.N
    let val ← vectorExp GP hpSlide exp
    multiSlidesR fixB GP hp powersOfTwo z bits js (GP.add acc val)

/-- the three conditions of `Verify` (multibp.go:227-327) with these slides -/
def MultiBulletProof.checksR {E : Type} (fixB : Bool) (sha : Bytes → Bytes) (proof : MultiBulletProof E) :
    Option MultiChecks :=
  let params := proof.Params
  let GP := params.GP
  let mod := GP.N
  let m := proof.Vs.length
  if m = 0 then none else do
    let bits := params.N / m
    let x := (hashBP sha GP proof.T1 proof.T2).1
    let y := (hashBP sha GP proof.A proof.S).1
    let z := (hashBP sha GP proof.A proof.S).2
    let zSquared := z * z % mod
    let xSquared := x * x % mod
    let hp ← updateGenerators GP params.Hh y params.N
    let Tprime ← proof.Tprime
    let Taux ← proof.Taux
    let lhs := pedersenCommit GP Tprime Taux params.H
    let powersOfz := powerOf z m mod
    let rhs := (List.zip proof.Vs powersOfz).foldl (fun rhs (vp : E × Int) =>
      GP.add rhs (GP.mul vp.1 (zSquared * vp.2))) GP.identity
    let dlt ← deltaMul params.N mod y z m
    let gDelta := GP.mulGen dlt
    let rhs := GP.add rhs gDelta
    let T1x := GP.mul proof.T1 x
    let T2x2 := GP.mul proof.T2 xSquared
    let rhs := GP.add rhs T1x
    let rhs := GP.add rhs T2x2
    let c65 := GP.isEqual rhs lhs
    let Sx := GP.mul proof.S x
    let ASx := GP.add proof.A Sx
    let mz := mod - z
    let vmz := vectorCopy mz params.N
    let gpmz ← vectorExp GP params.Gg vmz
    let vz := vectorCopy z params.N
    let vy := powerOf y params.N mod
    let zyn := vectorMul vy vz mod
    let hpExp ← vectorExp GP hp zyn
    let powersOfTwo := powerOf 2 bits mod
    let prod ← multiSlidesR fixB GP hp powersOfTwo z bits (List.range m) GP.identity
    let tail := GP.add hpExp prod
    let lP := GP.add ASx gpmz
    let lP := GP.add lP tail
    let Mu ← proof.Mu
    let rP := GP.mul params.H Mu
    let rP := GP.add rP proof.InnerProductProof.P
    let rP := GP.sub rP lP
    let c67 := GP.isIdentity rP
    let ok ← proof.InnerProductProof.verify sha
    some { c65 := c65, c67 := c67, c68 := ok }

/-- the verdict (multibp.go:324-326) -/
def MultiBulletProof.verifyR {E : Type} (fixB : Bool) (sha : Bytes → Bytes) (proof : MultiBulletProof E) : Option Bool := do
  let c ← proof.checksR fixB sha
  some (c.c65 && c.c67 && c.c68)

end MscPoc
