import Verif.Model.Vector

/-!
# bulletproofs/bip.go and `HashBP` of bulletproofs/util.go

`sha : Bytes → Bytes` stands for SHA-256.
-/

set_option autoImplicit false

namespace MscPoc

/-- bulletproofs/util.go:54-76 `HashBP(A, S)`.  The second digest also writes `buffer` (line 70), not
`buffer2`, so the string of `result1` never enters. -/
def hashBP {E : Type} (sha : Bytes → Bytes) (GP : Grp E) (A S : E) : Int × Int :=
  let buffer := GP.str A ++ GP.str S
  let result1 : Int := setBytes (sha buffer)
  let _buffer2 := GP.str A ++ GP.str S ++ bigDec result1
  let result2 : Int := setBytes (sha buffer)
  (result1, result2)

/-- bulletproofs/bip.go:37-42 `InnerProductParams`. -/
structure IPParams (E : Type) where
  Gg : List E
  Hh : List E
  Uu : E
  GP : Grp E

/-- bulletproofs/bip.go:47-55 `InnerProductProof`; scalars are nil-able pointers. -/
structure IPProof (E : Type) where
  P : E
  Cc : Option Int
  A : Option Int
  B : Option Int
  L : List E
  R : List E
  Params : IPParams E

/-- bulletproofs/bulletproofs.go:27 -/
def SEEDH : Bytes := ascii "BulletproofsDoesNotNeedTrustedSetupH"
/-- bulletproofs/bip.go:31 -/
def SEEDU : Bytes := ascii "BulletproofsDoesNotNeedTrustedSetupU"

/-- `SEEDH + "g" + fmt.Sprint(i)` (bulletproofs/bp.go:93, bip.go:71) -/
def seedG (i : Nat) : Bytes := SEEDH ++ ascii "g" ++ natDec i
/-- `SEEDH + "h" + fmt.Sprint(i)` (bulletproofs/bp.go:94, bip.go:79) -/
def seedHh (i : Nat) : Bytes := SEEDH ++ ascii "h" ++ natDec i

/-- A loop `for i := 0; i < N; i++ { v[i], _ = SP.Element().MapToGroup(seed(i)) }`. -/
def mapSeeds {E : Type} (GP : Grp E) (seed : Nat → Bytes) (n : Nat) : Option (List E) :=
  (List.range n).mapM (fun i => GP.mapToGroup (seed i))

/-- bulletproofs/bip.go:61-89 `setupInnerProduct(g, h, N, SP)`; `none` arguments are nil slices. -/
def setupInnerProduct {E : Type} (GP : Grp E) (g h : Option (List E)) (N : Int) :
    Option (Except String (IPParams E)) :=
  if N ≤ 0 then some (.error "N must be greater than zero")
  else do
    let Gg ← match g with
      | none => mapSeeds GP seedG N.toNat
      | some g => some g
    let Hh ← match h with
      | none => mapSeeds GP seedHh N.toNat
      | some h => some h
    let Uu ← GP.mapToGroup SEEDU
    some (.ok { Gg, Hh, Uu, GP })

/-- bulletproofs/bip.go:92-97 `computePP`: returns `(P', u^x)`. -/
def computePP {E : Type} (P : E) (c x : Int) (params : IPParams E) : E × E :=
  let ux := params.GP.mul params.Uu x
  let uxc := params.GP.mul ux c
  (params.GP.add P uxc, ux)

/-- bulletproofs/bip.go:275-278: the loop of `hashIP` over `g`, indexing `h` (panics if `h` is shorter). -/
def hashIPLoop {E : Type} (GP : Grp E) : List E → List E → Option Bytes
  | [], _ => some []
  | _ :: _, [] => none
  | g :: gs, h :: hs => do
    let rest ← hashIPLoop GP gs hs
    some (GP.str g ++ GP.str h ++ rest)

/-- bulletproofs/bip.go:271-286 `hashIP(g, h, P, c)`; the digest is read as a signed number (line 283). -/
def hashIP {E : Type} (sha : Bytes → Bytes) (GP : Grp E) (g h : List E) (P : E) (c : Int) : Option Int := do
  let mid ← hashIPLoop GP g h
  some (fromByteArray (sha (GP.str P ++ mid ++ bigDec c)))

/-- bulletproofs/bip.go:291-295 -/
def commitInnerProduct {E : Type} (GP : Grp E) (g h : List E) (a b : List Int) : Option E := do
  let ga ← vectorExp GP g a
  let hb ← vectorExp GP h b
  some (GP.add ga hb)

/-- One halving step of the generators, shared text of bulletproofs/bip.go:177-186 and 233-243:
`g' = g[:n']^(x^-1) * g[n':]^x`, `h' = h[:n']^x * h[n':]^(x^-1)`. -/
def foldGens {E : Type} (GP : Grp E) (g h : List E) (x : Int) (nprime : Nat) :
    Option (List E × List E) := do
  let xinv := modInverse x GP.N
  let gprime ← vectorScalarExp GP (← sliceTo g nprime) xinv
  let gprime2 ← vectorScalarExp GP (← sliceFrom g nprime) (some x)
  let g' := vectorECAdd GP gprime gprime2
  let hprime ← vectorScalarExp GP (← sliceTo h nprime) (some x)
  let hprime2 ← vectorScalarExp GP (← sliceFrom h nprime) xinv
  let h' := vectorECAdd GP hprime hprime2
  some (g', h')

/-- bulletproofs/bip.go:136-210 `computeBipRecursive`.  `n = 0` recurses forever in Go (stack exhaustion):
`none`. -/
def computeBipRecursive {E : Type} (sha : Bytes → Bytes) (GP : Grp E)
    (a b : List Int) (g h : List E) (u P : E) (n : Nat) (Ls Rs : List E) :
    Option (Int × Int × List E × List E) :=
  if n = 1 then do
    some (← a[0]?, ← b[0]?, Ls, Rs)
  else if n = 0 then none
  else do
    let nprime := n / 2
    let aLo ← sliceTo a nprime
    let aHi ← sliceFrom a nprime
    let bLo ← sliceTo b nprime
    let bHi ← sliceFrom b nprime
    let gLo ← sliceTo g nprime
    let gHi ← sliceFrom g nprime
    let hLo ← sliceTo h nprime
    let hHi ← sliceFrom h nprime
    let cL ← scalarProduct aLo bHi GP.N
    let cR ← scalarProduct aHi bLo GP.N
    let L0 ← vectorExp GP gHi aLo
    let Lh ← vectorExp GP hLo bHi
    let L := GP.add (GP.add L0 Lh) (GP.mul u cL)
    let R0 ← vectorExp GP gLo aHi
    let Rh ← vectorExp GP hHi bLo
    let R := GP.add (GP.add R0 Rh) (GP.mul u cR)
    let x := (hashBP sha GP L R).1
    let xinv := modInverse x GP.N
    let (g', h') ← foldGens GP g h x nprime
    let x2 := x * x % GP.N
    let x2inv ← modInverse x2 GP.N
    let P' := GP.add (GP.add (GP.mul L x2) P) (GP.mul R x2inv)
    let xinv ← xinv
    let a' := vectorAdd (vectorScalarMul aLo x GP.N) (vectorScalarMul aHi xinv GP.N) GP.N
    let b' := vectorAdd (vectorScalarMul bLo xinv GP.N) (vectorScalarMul bHi x GP.N) GP.N
    computeBipRecursive sha GP a' b' g' h' u P' nprime (Ls ++ [L]) (Rs ++ [R])
termination_by n
decreasing_by omega

/-- bulletproofs/bip.go:102-131 `proveInnerProduct`. -/
def proveInnerProduct {E : Type} (sha : Bytes → Bytes) (a b : List Int) (P : E) (c : Int)
    (params : IPParams E) : Option (Except String (IPProof E)) :=
  if a.length ≠ b.length then
    some (.error "size of first array argument must be equal to the second")
  else do
    let x ← hashIP sha params.GP params.Gg params.Hh P c
    let (PP, ux) := computePP P c x params
    let (pa, pb, L, R) ← computeBipRecursive sha params.GP a b params.Gg params.Hh ux PP a.length [] []
    some (.ok { P := P, Cc := some c, A := some pa, B := some pb, L := L, R := R, Params := params })

/-- bulletproofs/bip.go:232-249: the loop of `InnerProductProof.Verify`; iterates over `L`, indexing `R`. -/
def ipVerifyLoop {E : Type} (sha : Bytes → Bytes) (GP : Grp E) :
    List E → List E → List E → List E → E → Nat → Option (List E × List E × E)
  | [], _, g, h, P, _ => some (g, h, P)
  | _ :: _, [], _, _, _, _ => none
  | L :: Ls, R :: Rs, g, h, P, nprime => do
    let nprime := nprime / 2
    let x := (hashBP sha GP L R).1
    let (g', h') ← foldGens GP g h x nprime
    let x2 := x * x % GP.N
    let x2inv := modInverse x2 GP.N
    let P := GP.add P (GP.mul L x2)
    let P := GP.add P (GP.mul R (← x2inv))
    ipVerifyLoop sha GP Ls Rs g' h' P nprime

/-- bulletproofs/bip.go:215-266 `InnerProductProof.Verify`. -/
def IPProof.verify {E : Type} (sha : Bytes → Bytes) (proof : IPProof E) : Option Bool := do
  let GP := proof.Params.GP
  let g := proof.Params.Gg
  let h := proof.Params.Hh
  let Cc ← proof.Cc
  let x ← hashIP sha GP g h proof.P Cc
  let (Pprime, ux) := computePP proof.P Cc x proof.Params
  let (g', h', P') ← ipVerifyLoop sha GP proof.L proof.R g h Pprime g.length
  let A ← proof.A
  let B ← proof.B
  let ab := A * B % GP.N
  let rhs := GP.mul (← g'[0]?) A
  let hb := GP.mul (← h'[0]?) B
  let rhs := GP.add rhs hb
  let rhs := GP.add rhs (GP.mul ux ab)
  let nP := GP.neg GP.elt P'
  let nP := GP.add nP rhs
  some (GP.isIdentity nP)

end MscPoc
