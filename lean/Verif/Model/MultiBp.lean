import Verif.Model.Bp

/-!
# bulletproofs/multibp.go

The lines "Check 65", "Check 67", "Check 68" that `Verify` prints (multibp.go:271, 318, 322) are not modelled as output; they show
the three fields of `checks` below.
-/

set_option autoImplicit false

namespace MscPoc

/-- bulletproofs/multibp.go:33-44 `MultiBulletProof`. -/
structure MultiBulletProof (E : Type) where
  Vs : List E
  A : E
  S : E
  T1 : E
  T2 : E
  Taux : Option Int
  Mu : Option Int
  Tprime : Option Int
  InnerProductProof : IPProof E
  Params : BPParams E

/-- Randomness of `MultiProve` (multibp.go:70, 85, 89-91, 104-105). -/
structure MultiRand where
  gammas : List Int
  alpha : Int
  sL : List Int
  sR : List Int
  rho : Int
  tau1 : Int
  tau2 : Int

/-- multibp.go:61-62, 78-81: writing the per-value digit vectors into a zero-initialised vector of length `N`
at offsets `bitsPerValue*j`; trailing positions (when `m` does not divide `N`) stay 0. -/
def concatPad (N : Nat) (parts : List (List Int)) : List Int :=
  let c := parts.flatten
  c ++ List.replicate (N - c.length) 0

/-- multibp.go:123-129: `zPowersTimesTwoVec`; for `m ∤ N` trailing entries stay nil pointers, whose use panics. -/
def zPowersTimesTwo (N m bits : Nat) (z mod : Int) : Option (List Int) :=
  let powersOf2 := powerOf 2 bits mod
  let v := ((List.range m).map (fun j =>
    let zp := z ^ (2 + j) % mod
    powersOf2.map (fun p => p * zp % mod))).flatten
  if v.length = N then some v else none

/-- multibp.go:330-367 `deltaMul(y, z, m)`; `m = 0` divides by zero (panic). -/
def deltaMul (N : Nat) (mod y z : Int) (m : Nat) : Option Int :=
  if m = 0 then none else do
    let nm := N / m
    let onePow := vectorCopy 1 nm
    let twoPow := powerOf 2 nm mod
    let zSquared := z * z % mod
    let t1 := (z - zSquared) % mod
    let onePowNM := vectorCopy 1 N
    let yPowNM := powerOf y N mod
    let t2 ← scalarProduct onePowNM yPowNM mod
    let sp12 ← scalarProduct onePow twoPow mod
    let t3 := (List.range m).foldl (fun t3 j =>
      let zp := z ^ (j + 3) % mod
      let tmp := zp * sp12 % mod
      (t3 + tmp) % mod) 0
    let result := t2 * t1 % mod
    some ((result - t3) % mod)

/-- multibp.go:51-222 `MultiProve(secrets, params)`.  Note line 86: `commitVector(aRConcat, aRConcat, …)`. -/
def multiProve {E : Type} (sha : Bytes → Bytes) (params : BPParams E) (rnd : MultiRand) (secrets : List Int) :
    Option (Except String (MultiBulletProof E × List Int)) :=
  let GP := params.GP
  let mod := GP.N
  let m := secrets.length
  if m = 0 then none else do -- int(params.N) / m: division by zero
    let bits := params.N / m
    let commitments := List.zipWith (fun s g => pedersenCommit GP s g params.H) secrets rnd.gammas
    let aLs := secrets.map (fun s => decompose s 2 bits)
    let aLConcat := concatPad params.N aLs
    let aRConcat := concatPad params.N (aLs.map computeAR)
    let A ← commitVector GP aRConcat aRConcat rnd.alpha params.H params.Gg params.Hh params.N
    let S ← commitVector GP rnd.sL rnd.sR rnd.rho params.H params.Gg params.Hh params.N
    let y := (hashBP sha GP A S).1
    let z := (hashBP sha GP A S).2
    let yPow := powerOf y params.N mod
    let z2v ← zPowersTimesTwo params.N m bits z mod
    let aLb ← vectorConvertToBig aLConcat params.N
    let aRb ← vectorConvertToBig aRConcat params.N
    let l0 := vectorAddConst aLb (-z) mod
    let l1 := rnd.sL
    let vecZ := vectorCopy z params.N
    let aRzn := vectorAdd vecZ aRb mod
    let r0 := vectorMul yPow aRzn mod
    let r0 := vectorAdd r0 z2v mod
    let r1 := vectorMul yPow rnd.sR mod
    let t1left ← vectorInnerProduct l1 r0 mod
    let t1right ← vectorInnerProduct l0 r1 mod
    let t1 := (t1left + t1right) % mod
    let t2 ← vectorInnerProduct l1 r1 mod
    let T1 := pedersenCommit GP t1 rnd.tau1 params.H
    let T2 := pedersenCommit GP t2 rnd.tau2 params.H
    let x := (hashBP sha GP T1 T2).1
    let sLx := vectorScalarMul rnd.sL x mod
    let bl := vectorAdd l0 sLx mod
    let sRx := vectorScalarMul rnd.sR x mod
    let tmp := vectorAdd aRzn sRx mod
    let tmp := vectorMul yPow tmp mod
    let br := vectorAdd tmp z2v mod
    let th ← scalarProduct bl br mod
    let tauX := rnd.tau2 * (x * x)
    let tauX := tauX + rnd.tau1 * x
    -- multibp.go:184-189
    let vecRandomnessTotal := (rnd.gammas.zipIdx).foldl (fun acc (gj : Int × Nat) =>
      let zp := z ^ (2 + gj.2) % mod
      (acc + gj.1 * zp) % mod) 0
    let tauX := (tauX + vecRandomnessTotal) % mod
    let mu := (rnd.rho * x + rnd.alpha) % mod
    let hp ← updateGenerators GP params.Hh y params.N
    let ipp ← setupInnerProduct GP (some params.Gg) (some hp) params.N
    match ipp with
    | .error e => some (.error e)
    | .ok ipp =>
      let commit ← commitInnerProduct GP params.Gg hp bl br
      let ipProof ← proveInnerProduct sha bl br commit th ipp
      match ipProof with
      | .error _ => none
      | .ok ipProof =>
        some (.ok ({ Vs := commitments, A := A, S := S, T1 := T1, T2 := T2, Taux := some tauX,
                     Mu := some mu, Tprime := some th, InnerProductProof := ipProof, Params := params },
                   rnd.gammas))

/-- multibp.go:297-303: product over the slides of `h'`.  Note line 300: `VectorAddConst(powersOfTwo, zp)`. -/
def multiSlides {E : Type} (GP : Grp E) (hp : List E) (powersOfTwo : List Int) (z : Int) (bits : Nat) :
    List Nat → E → Option E
  | [], acc => some acc
  | j :: js, acc => do
    let upto ← sliceTo hp ((j + 1) * bits)
    let hpSlide ← sliceFrom upto (j * bits)
    let zp := z ^ (2 + j) % GP.N
    let exp := vectorAddConst powersOfTwo zp GP.N
    let val ← vectorExp GP hpSlide exp
    multiSlides GP hp powersOfTwo z bits js (GP.add acc val)

/-- The three checks of `MultiBulletProof.Verify` (they are also printed, lines 271, 318, 322). -/
structure MultiChecks where
  c65 : Bool
  c67 : Bool
  c68 : Bool
deriving DecidableEq, Repr

/-- multibp.go:227-327 `MultiBulletProof.Verify`: the three conditions. -/
def MultiBulletProof.checks {E : Type} (sha : Bytes → Bytes) (proof : MultiBulletProof E) :
    Option MultiChecks :=
  let params := proof.Params
  let GP := params.GP
  let mod := GP.N
  let m := proof.Vs.length
  if m = 0 then none else do
    let bits := params.N / m
    let x := (hashBP sha GP proof.T1 proof.T2).1
    let y := (hashBP sha GP proof.A proof.S).1
    let z := (hashBP sha GP proof.A proof.S).2
    let zSquared := z * z % mod
    let xSquared := x * x % mod
    let hp ← updateGenerators GP params.Hh y params.N
    let Tprime ← proof.Tprime
    let Taux ← proof.Taux
    let lhs := pedersenCommit GP Tprime Taux params.H
    let powersOfz := powerOf z m mod
    let rhs := (List.zip proof.Vs powersOfz).foldl (fun rhs (vp : E × Int) =>
      GP.add rhs (GP.mul vp.1 (zSquared * vp.2))) GP.identity
    let dlt ← deltaMul params.N mod y z m
    let gDelta := GP.mulGen dlt
    let rhs := GP.add rhs gDelta
    let T1x := GP.mul proof.T1 x
    let T2x2 := GP.mul proof.T2 xSquared
    let rhs := GP.add rhs T1x
    let rhs := GP.add rhs T2x2
    let c65 := GP.isEqual rhs lhs
    let Sx := GP.mul proof.S x
    let ASx := GP.add proof.A Sx
    let mz := mod - z
    let vmz := vectorCopy mz params.N
    let gpmz ← vectorExp GP params.Gg vmz
    let vz := vectorCopy z params.N
    let vy := powerOf y params.N mod
    let zyn := vectorMul vy vz mod
    let hpExp ← vectorExp GP hp zyn
    let powersOfTwo := powerOf 2 bits mod
    let prod ← multiSlides GP hp powersOfTwo z bits (List.range m) GP.identity
    let tail := GP.add hpExp prod
    let lP := GP.add ASx gpmz
    let lP := GP.add lP tail
    let Mu ← proof.Mu
    let rP := GP.mul params.H Mu
    let rP := GP.add rP proof.InnerProductProof.P
    let rP := GP.sub rP lP
    let c67 := GP.isIdentity rP
    let ok ← proof.InnerProductProof.verify sha
    some { c65 := c65, c67 := c67, c68 := ok }

/-- multibp.go:324-326 -/
def MultiBulletProof.verify {E : Type} (sha : Bytes → Bytes) (proof : MultiBulletProof E) : Option Bool := do
  let c ← proof.checks sha
  some (c.c65 && c.c67 && c.c68)

end MscPoc
