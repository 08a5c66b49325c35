import Verif.Model.Bp
import Verif.Model.Vote

/-!
# Verification with mutable group elements

A second model of `BulletProof.Verify` and `InnerProductProof.Verify` in which group
elements are what they are in Go: pointers to cells that methods overwrite.  The pure model (`Model/Bp.lean`,
`Model/Bip.lean`, `Model/VoteProof.lean`, `Model/Vote.lean`) is compared with this one by theorem C49.

Slices are lists of pointers: every slice written by these functions is allocated by them (`make`, slice
expressions only read).  Integers are values: no function here applies an in-place `big.Int` method to an integer
it did not allocate itself.
-/

set_option autoImplicit false

namespace MscPoc

/-- memory: contents of element cells, and the number of cells allocated so far -/
structure HS (E : Type) where
  el : Nat → E
  next : Nat

/-- a computation on the heap; `none` = panic -/
def HM (E α : Type) : Type := HS E → Option (α × HS E)

instance {E : Type} : Monad (HM E) where
  pure a := fun h => some (a, h)
  bind m f := fun h => match m h with
    | none => none
    | some (a, h') => f a h'

namespace HM
variable {E : Type}

/-- a step that does not touch the heap and may panic -/
def lift {α : Type} (o : Option α) : HM E α := fun h => match o with
  | none => none
  | some a => some (a, h)

/-- a fresh cell -/
def alloc (v : E) : HM E Nat := fun h =>
  some (h.next, { el := fun i => if i = h.next then v else h.el i, next := h.next + 1 })

/-- overwrite a cell -/
def write (e : Nat) (v : E) : HM E Nat := fun h =>
  some (e, { h with el := fun i => if i = e then v else h.el i })

/-- read a cell -/
def read (e : Nat) : HM E E := fun h => some (h.el e, h)

variable (GP : Grp E)

/-- `GP.Element()` -/
def element : HM E Nat := alloc GP.elt
/-- `GP.Identity()` -/
def identity : HM E Nat := alloc GP.identity
/-- `e.Add(a, b)` -/
def add (e a b : Nat) : HM E Nat := do
  let x ← read a
  let y ← read b
  write e (GP.add x y)
/-- `e.Scale(a, s)` -/
def scale (e a : Nat) (s : Int) : HM E Nat := do
  let r ← read e
  let x ← read a
  write e (GP.scale r x s)
/-- `e.BaseScale(s)` -/
def baseScale (e : Nat) (s : Int) : HM E Nat := do
  let r ← read e
  write e (GP.baseScale r s)
/-- `e.Negate(a)` -/
def negate (e a : Nat) : HM E Nat := do
  let r ← read e
  let x ← read a
  write e (GP.neg r x)
/-- `e.Subtract(a, b)`, e.g. group/p256.go:81-86 -/
def subtract (e a b : Nat) : HM E Nat := do
  let tmp ← identity GP
  let tmp ← negate GP tmp b
  add GP e a tmp
/-- `GP.Element().Scale(a, s)` -/
def newScale (a : Nat) (s : Int) : HM E Nat := do
  let e ← element GP
  scale GP e a s
/-- `GP.Element().BaseScale(s)` -/
def newBaseScale (s : Int) : HM E Nat := do
  let e ← element GP
  baseScale GP e s
/-- `GP.Element().Add(a, b)` -/
def newAdd (a b : Nat) : HM E Nat := do
  let e ← element GP
  add GP e a b

/-- bulletproofs/util.go:92-99: loop of `VectorExp` -/
def vectorExpGo : List Nat → List Int → Nat → HM E Nat
  | a :: as, b :: bs, acc => do
    let r ← element GP
    let t ← newScale GP a b
    let r ← add GP r acc t
    vectorExpGo as bs r
  | _, _, acc => pure acc

/-- bulletproofs/util.go:81-100 `VectorExp` -/
def vectorExp (a : List Nat) (b : List Int) : HM E Nat :=
  if a.length ≠ b.length then lift none
  else do
    let r ← identity GP
    vectorExpGo GP a b r

/-- `result[i] = SP.Element().Scale(a[i], s)` for all entries -/
def mapScale (s : Int) : List Nat → HM E (List Nat)
  | [] => pure []
  | a :: as => do
    let r ← newScale GP a s
    let rs ← mapScale s as
    pure (r :: rs)

/-- bulletproofs/bip.go:300-307 `vectorScalarExp` -/
def vectorScalarExp (a : List Nat) (b : Option Int) : HM E (List Nat) :=
  match a, b with
  | [], _ => pure []
  | _ :: _, none => lift none
  | as, some s => mapScale GP s as

/-- bulletproofs/vector.go:183-188: loop of `VectorECAdd` -/
def zipAdd : List Nat → List Nat → HM E (List Nat)
  | a :: as, b :: bs => do
    let r ← newAdd GP a b
    let rs ← zipAdd as bs
    pure (r :: rs)
  | _, _ => pure []

/-- bulletproofs/vector.go:172-190 `VectorECAdd` with the error dropped -/
def vectorECAdd (a b : List Nat) : HM E (List Nat) :=
  if a.length ≠ b.length then pure [] else zipAdd GP a b

/-- bulletproofs/bip.go:233-243 -/
def foldGens (g h : List Nat) (x : Int) (nprime : Nat) : HM E (List Nat × List Nat) := do
  let xinv := modInverse x GP.N
  let gl ← lift (sliceTo g nprime)
  let g1 ← vectorScalarExp GP gl xinv
  let gh ← lift (sliceFrom g nprime)
  let g2 ← vectorScalarExp GP gh (some x)
  let g' ← vectorECAdd GP g1 g2
  let hl ← lift (sliceTo h nprime)
  let h1 ← vectorScalarExp GP hl (some x)
  let hh ← lift (sliceFrom h nprime)
  let h2 ← vectorScalarExp GP hh xinv
  let h' ← vectorECAdd GP h1 h2
  pure (g', h')

/-- bulletproofs/util.go:54-76 `HashBP` on pointers -/
def hashBP (sha : Bytes → Bytes) (A S : Nat) : HM E (Int × Int) := do
  let a ← read A
  let s ← read S
  pure (MscPoc.hashBP sha GP a s)

/-- bulletproofs/bip.go:275-278 -/
def hashIPLoop : List Nat → List Nat → HM E Bytes
  | [], _ => pure []
  | _ :: _, [] => lift none
  | g :: gs, h :: hs => do
    let a ← read g
    let b ← read h
    let rest ← hashIPLoop gs hs
    pure (GP.str a ++ GP.str b ++ rest)

/-- bulletproofs/bip.go:271-286 `hashIP` -/
def hashIP (sha : Bytes → Bytes) (g h : List Nat) (P : Nat) (c : Int) : HM E Int := do
  let mid ← hashIPLoop GP g h
  let p ← read P
  pure (fromByteArray (sha (GP.str p ++ mid ++ bigDec c)))

/-- bulletproofs/bip.go:232-249: `Pprime.Add(Pprime, …)` overwrites the cell `P`. -/
def ipVerifyLoop (sha : Bytes → Bytes) : List Nat → List Nat → List Nat → List Nat → Nat → Nat →
    HM E (List Nat × List Nat)
  | [], _, g, h, _, _ => pure (g, h)
  | _ :: _, [], _, _, _, _ => lift none
  | L :: Ls, R :: Rs, g, h, P, nprime => do
    let nprime := nprime / 2
    let xs ← hashBP GP sha L R
    let x := xs.1
    let gh ← foldGens GP g h x nprime
    let x2 := x * x % GP.N
    let t ← newScale GP L x2
    let P ← add GP P P t
    let x2inv ← lift (modInverse x2 GP.N)
    let t ← newScale GP R x2inv
    let P ← add GP P P t
    ipVerifyLoop sha Ls Rs gh.1 gh.2 P nprime

end HM

/-- `InnerProductProof` with pointers for elements (bulletproofs/bip.go:37-55) -/
structure IPProofH where
  P : Nat
  Cc : Option Int
  A : Option Int
  B : Option Int
  L : List Nat
  R : List Nat
  Gg : List Nat
  Hh : List Nat
  Uu : Nat

/-- the elements an inner product proof refers to -/
def IPProofH.ptrs (p : IPProofH) : List Nat := p.P :: p.Uu :: (p.L ++ p.R ++ p.Gg ++ p.Hh)

/-- the contents of an inner product proof -/
def IPProofH.deref {E : Type} (GP : Grp E) (h : HS E) (p : IPProofH) : IPProof E :=
  { P := h.el p.P, Cc := p.Cc, A := p.A, B := p.B, L := p.L.map h.el, R := p.R.map h.el,
    Params := { Gg := p.Gg.map h.el, Hh := p.Hh.map h.el, Uu := h.el p.Uu, GP := GP } }

/-- bulletproofs/bip.go:92-97 `computePP` -/
def HM.computePP {E : Type} (GP : Grp E) (P : Nat) (c x : Int) (Uu : Nat) : HM E (Nat × Nat) := do
  let ux ← HM.newScale GP Uu x
  let uxc ← HM.newScale GP ux c
  let PP ← HM.newAdd GP P uxc
  pure (PP, ux)

/-- bulletproofs/bip.go:251-266: the final check of `InnerProductProof.Verify` -/
def HM.ipFinal {E : Type} (GP : Grp E) (A B : Option Int) (g h : List Nat) (P ux : Nat) : HM E Bool := do
  let A ← HM.lift A
  let B ← HM.lift B
  let ab := A * B % GP.N
  let g0 ← HM.lift g[0]?
  let rhs ← HM.newScale GP g0 A
  let h0 ← HM.lift h[0]?
  let hb ← HM.newScale GP h0 B
  let rhs ← HM.newAdd GP rhs hb
  let e ← HM.element GP
  let t ← HM.newScale GP ux ab
  let rhs ← HM.add GP e rhs t
  let nP ← HM.element GP
  let nP ← HM.negate GP nP P
  let nP ← HM.add GP nP nP rhs
  let v ← HM.read nP
  pure (GP.isIdentity v)

/-- bulletproofs/bip.go:215-266 `InnerProductProof.Verify` on the heap -/
def IPProofH.verify {E : Type} (GP : Grp E) (sha : Bytes → Bytes) (proof : IPProofH) : HM E Bool := do
  let Cc ← HM.lift proof.Cc
  let x ← HM.hashIP GP sha proof.Gg proof.Hh proof.P Cc
  let pp ← HM.computePP GP proof.P Cc x proof.Uu
  let gh ← HM.ipVerifyLoop GP sha proof.L proof.R proof.Gg proof.Hh pp.1 proof.Gg.length
  HM.ipFinal GP proof.A proof.B gh.1 gh.2 pp.1 pp.2

/-- `BulletProof` with pointers for elements (bulletproofs/bp.go:35-67) -/
structure BulletProofH where
  V : Nat
  A : Nat
  S : Nat
  T1 : Nat
  T2 : Nat
  Taux : Option Int
  Mu : Option Int
  Tprime : Option Int
  ip : IPProofH
  N : Nat
  G : Nat
  H : Nat
  Gg : List Nat
  Hh : List Nat

/-- the elements a range proof refers to -/
def BulletProofH.ptrs (p : BulletProofH) : List Nat :=
  p.V :: p.A :: p.S :: p.T1 :: p.T2 :: p.G :: p.H :: (p.ip.ptrs ++ p.Gg ++ p.Hh)

/-- the contents of a range proof -/
def BulletProofH.deref {E : Type} (GP : Grp E) (h : HS E) (p : BulletProofH) : BulletProof E :=
  { V := h.el p.V, A := h.el p.A, S := h.el p.S, T1 := h.el p.T1, T2 := h.el p.T2, Taux := p.Taux, Mu := p.Mu,
    Tprime := p.Tprime, InnerProductProof := p.ip.deref GP h,
    Params := { N := p.N, G := h.el p.G, H := h.el p.H, Gg := p.Gg.map h.el, Hh := p.Hh.map h.el, GP := GP } }

namespace HM
variable {E : Type} (GP : Grp E)

/-- bulletproofs/bp.go:352-367 `updateGenerators`, loop -/
def updateGeneratorsGo (yInv : Int) : List Nat → Int → Nat → HM E (List Nat)
  | _, _, 0 => pure []
  | [], _, _ + 1 => lift none
  | h :: hs, yExp, n + 1 => do
    let e ← newScale GP h yExp
    let rest ← updateGeneratorsGo yInv hs (yExp * yInv) n
    pure (e :: rest)

/-- bulletproofs/bp.go:352-367 `updateGenerators`: entry 0 of the result *is* `Hh[0]`, not a copy. -/
def updateGenerators (Hh : List Nat) (y : Int) (N : Nat) : HM E (List Nat) :=
  match Hh, N with
  | _, 0 => lift none
  | [], _ + 1 => lift none
  | h0 :: _, 1 => pure [h0]
  | h0 :: hs, n + 1 => do
    let yInv ← lift (modInverse y GP.N)
    let rest ← updateGeneratorsGo GP yInv hs yInv n
    pure (h0 :: rest)

/-- util/util.go:41-46 `PedersenCommit` -/
def pedersenCommit (x r : Int) (h : Nat) : HM E Nat := do
  let C ← newBaseScale GP x
  let Hr ← newScale GP h r
  newAdd GP C Hr

/-- bulletproofs/bp.go:268-288: condition (65); `rhs` is accumulated in place. -/
def cond65 (proof : BulletProofH) (x y z : Int) : HM E Bool := do
  let mod := GP.N
  let Tprime ← lift proof.Tprime
  let Taux ← lift proof.Taux
  let lhs ← pedersenCommit GP Tprime Taux proof.H
  let rhs ← newScale GP proof.V (z * z % mod)
  let dlt ← lift (delta proof.N mod y z)
  let gDelta ← newBaseScale GP dlt
  let rhs ← add GP rhs rhs gDelta
  let T1x ← newScale GP proof.T1 x
  let T2x2 ← newScale GP proof.T2 (x * x % mod)
  let rhs ← add GP rhs rhs T1x
  let rhs ← add GP rhs rhs T2x2
  let r ← read rhs
  let l ← read lhs
  pure (GP.isEqual r l)

/-- bulletproofs/bp.go:290-316: `lP`, accumulated in place. -/
def computeLP (proof : BulletProofH) (hp : List Nat) (x y z : Int) : HM E Nat := do
  let mod := GP.N
  let Sx ← newScale GP proof.S x
  let ASx ← newAdd GP proof.A Sx
  let gpmz ← vectorExp GP proof.Gg (vectorCopy (mod - z) proof.N)
  let zyn := vectorMul (powerOf y proof.N mod) (vectorCopy z proof.N) mod
  let z22n := vectorScalarMul (powerOf 2 proof.N mod) (z * z % mod) mod
  let lP ← newAdd GP ASx gpmz
  let hpExp ← vectorExp GP hp (vectorAdd zyn z22n mod)
  add GP lP lP hpExp

/-- bulletproofs/bp.go:318-326: condition (67); `rP` is accumulated in place. -/
def cond67 (proof : BulletProofH) (lP : Nat) : HM E Bool := do
  let Mu ← lift proof.Mu
  let rP ← newScale GP proof.H Mu
  let rP ← add GP rP rP proof.ip.P
  let rP ← subtract GP rP rP lP
  let v ← read rP
  pure (GP.isIdentity v)

end HM

/-- bulletproofs/bp.go:248-332 `BulletProof.Verify` on the heap -/
def BulletProofH.verify {E : Type} (GP : Grp E) (sha : Bytes → Bytes) (proof : BulletProofH) : HM E Bool := do
  let xs ← HM.hashBP GP sha proof.T1 proof.T2
  let yz ← HM.hashBP GP sha proof.A proof.S
  let hp ← HM.updateGenerators GP proof.Hh yz.1 proof.N
  let c65 ← HM.cond65 GP proof xs.1 yz.1 yz.2
  let lP ← HM.computeLP GP proof hp xs.1 yz.1 yz.2
  let c67 ← HM.cond67 GP proof lP
  let ok ← proof.ip.verify GP sha
  pure (c65 && c67 && ok)

end MscPoc
