import Verif.Model.MultiBp

/-!
# bulletproofs/multibp.go: what `Verify` prints

`MultiBulletProof.Verify` prints a line after each of its three checks (multibp.go:271, 318, 322).  If it panics, the lines printed up to
then stay printed.
-/

set_option autoImplicit false

namespace MscPoc

/-- the lines printed so far, and how the call ended: `none` is a panic -/
structure Printed where
  lines : List String
  result : Option Bool
deriving DecidableEq, Repr

/-- `fmt.Println("Check …:", b)` -/
def checkLine (n : String) (b : Bool) : String := "Check " ++ n ++ ": " ++ (if b then "true" else "false")

/-- multibp.go:228-270: everything before the first line is printed; the switched generators are used again below -/
def MultiBulletProof.before65 {E : Type} (sha : Bytes → Bytes) (proof : MultiBulletProof E) : Option (Bool × List E) :=
  let params := proof.Params
  let GP := params.GP
  let mod := GP.N
  let m := proof.Vs.length
  if m = 0 then none else do
    let x := (hashBP sha GP proof.T1 proof.T2).1
    let y := (hashBP sha GP proof.A proof.S).1
    let z := (hashBP sha GP proof.A proof.S).2
    let zSquared := z * z % mod
    let xSquared := x * x % mod
    let hp ← updateGenerators GP params.Hh y params.N
    let Tprime ← proof.Tprime
    let Taux ← proof.Taux
    let lhs := pedersenCommit GP Tprime Taux params.H
    let powersOfz := powerOf z m mod
    let rhs := (List.zip proof.Vs powersOfz).foldl (fun rhs (vp : E × Int) =>
      GP.add rhs (GP.mul vp.1 (zSquared * vp.2))) GP.identity
    let dlt ← deltaMul params.N mod y z m
    let rhs := GP.add rhs (GP.mulGen dlt)
    let rhs := GP.add rhs (GP.mul proof.T1 x)
    let rhs := GP.add rhs (GP.mul proof.T2 xSquared)
    some (GP.isEqual rhs lhs, hp)

/-- multibp.go:273-317: between the first and the second line -/
def MultiBulletProof.before67 {E : Type} (sha : Bytes → Bytes) (proof : MultiBulletProof E) (hp : List E) : Option Bool := do
  let params := proof.Params
  let GP := params.GP
  let mod := GP.N
  let m := proof.Vs.length
  let bits := params.N / m
  let x := (hashBP sha GP proof.T1 proof.T2).1
  let y := (hashBP sha GP proof.A proof.S).1
  let z := (hashBP sha GP proof.A proof.S).2
  let ASx := GP.add proof.A (GP.mul proof.S x)
  let gpmz ← vectorExp GP params.Gg (vectorCopy (mod - z) params.N)
  let zyn := vectorMul (powerOf y params.N mod) (vectorCopy z params.N) mod
  let hpExp ← vectorExp GP hp zyn
  let prod ← multiSlides GP hp (powerOf 2 bits mod) z bits (List.range m) GP.identity
  let lP := GP.add (GP.add ASx gpmz) (GP.add hpExp prod)
  let Mu ← proof.Mu
  let rP := GP.sub (GP.add (GP.mul params.H Mu) proof.InnerProductProof.P) lP
  some (GP.isIdentity rP)

/-- multibp.go:227-327 `MultiBulletProof.Verify` with its output -/
def MultiBulletProof.verifyOut {E : Type} (sha : Bytes → Bytes) (proof : MultiBulletProof E) : Printed :=
  match proof.before65 sha with
  | none => ⟨[], none⟩
  | some (c65, hp) =>
    match proof.before67 sha hp with
    | none => ⟨[checkLine "65" c65], none⟩
    | some c67 =>
      match proof.InnerProductProof.verify sha with
      | none => ⟨[checkLine "65" c65, checkLine "67" c67], none⟩
      | some ok => ⟨[checkLine "65" c65, checkLine "67" c67, checkLine "68" ok], some (c65 && c67 && ok)⟩

end MscPoc
