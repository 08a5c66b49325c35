import Verif.Model.Ristretto
import Verif.Model.ModP
import Verif.Model.Decompress

/-!
# Elements as objects: the five implementations of `group.Element` in one memory

An `Element` is a pointer to a structure with a pointer `val` to the library's value (group/p256.go:17-21, p384.go:17-21,
ristretto255.go:17-21, p256k1.go:16-19, modsafeprime.go:10-13).  Both levels are modelled: `Mem.objs` are the structures,
`Mem.cells` the library values.  Some methods store a new `val`, others write through the old one; callers may pass one object as
receiver and operand, and elements of another implementation.

Simplifications: a library value is one cell (its coordinates are not separately addressable), `curve`/`group` pointers are replaced
by what they point to, memory is never freed.  The temporary of `Subtract` is unreachable after the call and is dropped.
-/

set_option autoImplicit false

namespace MscPoc

/-- dynamic type of an element; for `*ModPElement` with the group it points to -/
inductive Kind where
  | modP (g : ModPGroup)
  | p256
  | p384
  | k1
  | r255
deriving DecidableEq

/-- a library value: `big.Int`, circl element, ing-bank point -/
inductive Cell where
  | big (n : Int)
  | pt (P : WPoint)
  | kp (P : K1Point)
deriving DecidableEq

/-- an element -/
structure Obj where
  kind : Kind
  val : Nat
deriving DecidableEq

/-- memory; addresses are positions -/
structure Mem where
  objs : List Obj
  cells : List Cell
deriving DecidableEq

/-- what the libraries provide -/
structure Libs where
  P256 : CirclCurve
  P384 : CirclCurve
  K1 : K1Lib
  R255 : R255Lib
  /-- circl's decoding of Ristretto encodings as (error, receiver afterwards) -/
  r255dec : WPoint → Bytes → Bool × WPoint

/-- a statement; `none`: panic -/
abbrev Act (α : Type) := StateT Mem Option α

namespace Act

/-- `panic(…)` -/
def panic {α : Type} : Act α := fun _ => none

/-- dereference an element -/
def obj (i : Nat) : Act Obj := fun m => (m.objs[i]?).map fun o => (o, m)

/-- allocate a library value -/
def newCell (c : Cell) : Act Nat := fun m => some (m.cells.length, { m with cells := m.cells ++ [c] })

/-- allocate an element -/
def newObj (k : Kind) (c : Nat) : Act Nat := fun m => some (m.objs.length, { m with objs := m.objs ++ [⟨k, c⟩] })

/-- read a library value -/
def load (c : Nat) : Act Cell := fun m => (m.cells[c]?).map fun v => (v, m)

/-- write a library value -/
def store (c : Nat) (v : Cell) : Act Unit := fun m => some ((), { m with cells := m.cells.set c v })

/-- `e.val = …` -/
def setVal (i c : Nat) : Act Unit := do
  let o ← obj i
  fun m => some ((), { m with objs := m.objs.set i { o with val := c } })

/-- run a statement with elements that are unreachable afterwards -/
def local' {α : Type} (s : Act α) : Act α := fun m =>
  (s m).map fun (a, m') => (a, { m' with objs := m'.objs.take m.objs.length })

/-- read a circl element -/
def loadPt (c : Nat) : Act WPoint := do
  match ← load c with
  | .pt P => pure P
  | _ => panic

/-- read a `big.Int` -/
def loadBig (c : Nat) : Act Int := do
  match ← load c with
  | .big n => pure n
  | _ => panic

/-- read an ing-bank point -/
def loadK1 (c : Nat) : Act K1Point := do
  match ← load c with
  | .kp P => pure P
  | _ => panic

end Act

open Act

/-! ## P-256, P-384 and Ristretto255 (the same code up to names) -/

/-- the library of one of these groups; `dec recv data`: `UnmarshalBinary` as (error, receiver afterwards) -/
structure CirclLib where
  kind : Kind
  G : Grp WPoint
  enc : WPoint → Bytes
  dec : WPoint → Bytes → Bool × WPoint
  byteLen : Nat

namespace CirclLib
variable (T : CirclLib)

/-- group/p256.go:39-44 `Generator` -/
def generator : Act Nat := do
  let c ← newCell (.pt T.G.generator)
  newObj T.kind c

/-- group/p256.go:46-51 `Identity` -/
def identity : Act Nat := do
  let c ← newCell (.pt T.G.identity)
  newObj T.kind c

/-- group/p256.go:60-65 `Element` -/
def element : Act Nat := do
  let c ← newCell (.pt T.G.elt)
  newObj T.kind c

/-- group/p256.go:67-73 `check` -/
def check (a : Nat) : Act Obj := do
  let o ← obj a
  if o.kind = T.kind then pure o else panic

/-- group/p256.go:75-80 `Add` -/
def add (e a b : Nat) : Act Nat := do
  let ca ← T.check a
  let cb ← T.check b
  let c ← newCell (.pt T.G.elt)
  let x ← loadPt ca.val
  let y ← loadPt cb.val
  store c (.pt (T.G.add x y))
  setVal e c
  pure e

/-- group/p256.go:89-93 `Negate` -/
def negate (e a : Nat) : Act Nat := do
  let ca ← T.check a
  let c ← newCell (.pt T.G.elt)
  let x ← loadPt ca.val
  store c (.pt (T.G.neg T.G.elt x))
  setVal e c
  pure e

/-- group/p256.go:82-87 `Subtract` -/
def subtract (e a b : Nat) : Act Nat := local' do
  let tmp ← T.identity
  let _ ← T.negate tmp b
  let _ ← T.add e a tmp
  pure e

/-- group/p256.go:95-98 `IsEqual` -/
def isEqual (e b : Nat) : Act Bool := do
  let cb ← T.check b
  let o ← obj e
  let x ← loadPt o.val
  let y ← loadPt cb.val
  pure (T.G.isEqual x y)

/-- group/p256.go:100-104 `Set` -/
def set (e a : Nat) : Act Nat := do
  let ca ← T.check a
  let c ← newCell (.pt T.G.elt)
  let x ← loadPt ca.val
  store c (.pt x)
  setVal e c
  pure e

/-- circl `UnmarshalBinary` on the library value at `c`: writes it -/
def libUnmarshal (c : Nat) (data : Bytes) : Act Bool := do
  let x ← loadPt c
  let r := T.dec x data
  store c (.pt r.2)
  pure r.1

/-- group/p256.go:106-110 `SetBytes` -/
def setBytes (e : Nat) (b : Bytes) : Act Nat := do
  let c ← newCell (.pt T.G.elt)
  setVal e c
  let _ ← T.libUnmarshal c b
  pure e

/-- group/p256.go:112-117 `Scale` -/
def scale (e a : Nat) (s : Int) : Act Nat := do
  let ca ← T.check a
  let c ← newCell (.pt T.G.elt)
  let x ← loadPt ca.val
  store c (.pt (T.G.scale T.G.elt x s))
  setVal e c
  pure e

/-- group/p256.go:119-123 `BaseScale` -/
def baseScale (e : Nat) (s : Int) : Act Nat := do
  let c ← newCell (.pt T.G.elt)
  store c (.pt (T.G.baseScale T.G.elt s))
  setVal e c
  pure e

/-- group/p256.go:133-138 `MapToGroup`: into the receiver -/
def mapToGroup (e : Nat) (s : Bytes) : Act Nat := do
  match T.G.mapToGroup s with
  | none => panic
  | some P =>
    let c ← newCell (.pt P)
    setVal e c
    pure e

/-- group/p256.go:145-147 `IsIdentity` -/
def isIdentity (e : Nat) : Act Bool := do
  let o ← obj e
  let x ← loadPt o.val
  pure (T.G.isIdentity x)

/-- group/p256.go:149-151 `MarshalBinary` -/
def marshalBinary (e : Nat) : Act Bytes := do
  let o ← obj e
  let x ← loadPt o.val
  pure (T.enc x)

/-- group/p256.go:153-156 `UnmarshalBinary`: writes through the old `val` -/
def unmarshalBinary (e : Nat) (data : Bytes) : Act Bool := do
  let o ← obj e
  T.libUnmarshal o.val data

/-- group/p256.go:182-207 `UnmarshalJSON`: writes through the old `val`; `true`: error -/
def unmarshalJSON (e : Nat) (data : Raw) : Act Bool := do
  match unmarshalPoint T.byteLen data with
  | none => panic
  | some .error => pure true
  | some (.bytes b) =>
    let o ← obj e
    T.libUnmarshal o.val b

end CirclLib

/-! ## secp256k1 -/

namespace K1Obj
variable (L : K1Lib)

/-- a new element with the given point: group/p256k1.go:37-42 `Generator`, 44-49 `Identity`, 58-63 `Element` -/
def make (P : K1Point) : Act Nat := do
  let c ← newCell (.kp P)
  newObj .k1 c

/-- group/p256k1.go:65-71 `check` -/
def check (a : Nat) : Act Obj := do
  let o ← obj a
  if o.kind = .k1 then pure o else panic

/-- group/p256k1.go:73-78 `Add` -/
def add (e a b : Nat) : Act Nat := do
  let ca ← check a
  let cb ← check b
  let c ← newCell (.kp K1Point.nilPt)
  let x ← loadK1 ca.val
  let y ← loadK1 cb.val
  store c (.kp (k1Add L x y))
  setVal e c
  pure e

/-- group/p256k1.go:87-91 `Negate` -/
def negate (e a : Nat) : Act Nat := do
  let ca ← check a
  let c ← newCell (.kp K1Point.nilPt)
  let x ← loadK1 ca.val
  store c (.kp (k1Mul L x (-1)))
  setVal e c
  pure e

/-- group/p256k1.go:80-85 `Subtract` -/
def subtract (e a b : Nat) : Act Nat := local' do
  let tmp ← make K1Point.nilPt
  let _ ← negate L tmp b
  let _ ← add L e a tmp
  pure e

/-- group/p256k1.go:93-117 `IsEqual` -/
def isEqual (e b : Nat) : Act Bool := do
  let cb ← check b
  let o ← obj e
  let x ← loadK1 o.val
  let y ← loadK1 cb.val
  pure (x.isEqual y)

/-- group/p256k1.go:119-123 `Set`: the sum of the identity and the operand -/
def set (e a : Nat) : Act Nat := do
  let ca ← check a
  let c ← newCell (.kp K1Point.nilPt)
  let x ← loadK1 ca.val
  store c (.kp (k1Add L K1Point.nilPt x))
  setVal e c
  pure e

/-- group/p256k1.go:125-132 `SetBytes`: the slices are cut before the receiver is touched -/
def setBytes (e : Nat) (b : Bytes) : Act Nat := do
  match K1Point.setBytes b with
  | none => panic
  | some P =>
    let c ← newCell (.kp K1Point.nilPt)
    setVal e c
    store c (.kp P)
    pure e

/-- group/p256k1.go:134-138 `Scale` -/
def scale (e a : Nat) (s : Int) : Act Nat := do
  let ca ← check a
  let c ← newCell (.kp K1Point.nilPt)
  let x ← loadK1 ca.val
  store c (.kp (k1Mul L x s))
  setVal e c
  pure e

/-- group/p256k1.go:140-143 `BaseScale` -/
def baseScale (e : Nat) (s : Int) : Act Nat := do
  let c ← newCell (.kp K1Point.nilPt)
  store c (.kp (k1BaseMul L s))
  setVal e c
  pure e

/-- group/p256k1.go:153-159 `MapToGroup`: a new element is returned, the receiver is not touched -/
def mapToGroup (s : Bytes) : Act Nat := do
  let tmp := L.hash s
  match tmp.X, tmp.Y with
  | some x, some y =>
    let r ← make K1Point.nilPt
    setBytes r (bigBytes x ++ bigBytes y)
  | _, _ => panic

/-- group/p256k1.go:165-170 `IsIdentity` -/
def isIdentity (e : Nat) : Act Bool := do
  let o ← obj e
  let x ← loadK1 o.val
  match x.isIdentity with
  | none => panic
  | some b => pure b

/-- group/p256k1.go:172-184 `MarshalBinary` -/
def marshalBinary (e : Nat) : Act Bytes := do
  let o ← obj e
  let x ← loadK1 o.val
  pure x.marshalBinary

/-- group/p256k1.go:186-189 `UnmarshalBinary` -/
def unmarshalBinary (e : Nat) (data : Bytes) : Act Bool := do
  let _ ← setBytes e data
  pure false

end K1Obj

/-! ## the safe-prime groups -/

namespace ModPObj
variable (g : ModPGroup)

/-- a new element with the given number: group/modsafeprime.go:49-54 `Generator`, 56-61 `Identity`, 70-75 `Element` -/
def make (n : Int) : Act Nat := do
  let c ← newCell (.big n)
  newObj (.modP g) c

/-- group/modsafeprime.go:77-86 `check` -/
def check (a : Nat) : Act Obj := do
  let o ← obj a
  match o.kind with
  | .modP h => if g.equals h then pure o else panic
  | _ => panic

/-- group/modsafeprime.go:88-94 `Add`: two steps on the receiver's number -/
def add (e a b : Nat) : Act Nat := do
  let ex ← check g a
  let ey ← check g b
  let o ← obj e
  let x ← loadBig ex.val
  let y ← loadBig ey.val
  store o.val (.big (x * y))
  let z ← loadBig o.val
  store o.val (.big (z % g.fieldOrder))
  pure e

/-- group/modsafeprime.go:103-107 `Negate`; without an inverse the receiver's number stays -/
def negate (e a : Nat) : Act Nat := do
  let ex ← check g a
  let o ← obj e
  let x ← loadBig ex.val
  match modInverse x g.fieldOrder with
  | some v => store o.val (.big v)
  | none => pure ()
  pure e

/-- group/modsafeprime.go:96-101 `Subtract` -/
def subtract (e a b : Nat) : Act Nat := local' do
  let tmp ← make g 1
  let _ ← negate g tmp b
  let _ ← add g e a tmp
  pure e

/-- group/modsafeprime.go:109-112 `IsEqual` -/
def isEqual (e b : Nat) : Act Bool := do
  let ey ← check g b
  let o ← obj e
  let x ← loadBig o.val
  let y ← loadBig ey.val
  pure (x == y)

/-- group/modsafeprime.go:114-118 `Set` -/
def set (e a : Nat) : Act Nat := do
  let ex ← check g a
  let o ← obj e
  let x ← loadBig ex.val
  store o.val (.big x)
  pure e

/-- group/modsafeprime.go:120-123 `SetBytes` -/
def setBytes (e : Nat) (b : Bytes) : Act Nat := do
  let o ← obj e
  store o.val (.big (MscPoc.setBytes b))
  pure e

/-- group/modsafeprime.go:125-129 `Scale` -/
def scale (e a : Nat) (s : Int) : Act Nat := do
  let ex ← check g a
  let o ← obj e
  let r ← loadBig o.val
  let x ← loadBig ex.val
  store o.val (.big (bigExp r x s g.fieldOrder))
  pure e

/-- group/modsafeprime.go:131-134 `BaseScale` -/
def baseScale (e : Nat) (s : Int) : Act Nat := do
  let o ← obj e
  let r ← loadBig o.val
  store o.val (.big (bigExp r g.gen s g.fieldOrder))
  pure e

/-- group/modsafeprime.go:148-150 `IsIdentity` -/
def isIdentity (e : Nat) : Act Bool := do
  let o ← obj e
  let x ← loadBig o.val
  pure (x == 1)

/-- group/modsafeprime.go:156-158 `MarshalBinary` -/
def marshalBinary (e : Nat) : Act Bytes := do
  let o ← obj e
  let x ← loadBig o.val
  pure (bigBytes x)

/-- group/modsafeprime.go:160-163 `UnmarshalBinary`: a new number -/
def unmarshalBinary (e : Nat) (data : Bytes) : Act Bool := do
  let c ← newCell (.big 0)
  store c (.big (MscPoc.setBytes data))
  setVal e c
  pure false

/-- group/modsafeprime.go:169-172 `UnmarshalJSON`: writes the old number; `true`: error -/
def unmarshalJSON (e : Nat) (data : Raw) : Act Bool := do
  let o ← obj e
  let x ← loadBig o.val
  match modPCodec.unmarshal x data with
  | none => panic
  | some (err, v) =>
    store o.val (.big v)
    pure err

end ModPObj

/-! ## method calls -/

/-- calls of the interfaces `Group` (on the group of an implementation) and `Element` (on objects) -/
inductive Call where
  | generator (k : Kind)
  | identity (k : Kind)
  | element (k : Kind)
  | add (e a b : Nat)
  | subtract (e a b : Nat)
  | negate (e a : Nat)
  | scale (e a : Nat) (s : Int)
  | baseScale (e : Nat) (s : Int)
  | set (e a : Nat)
  | setBytes (e : Nat) (b : Bytes)
  | mapToGroup (e : Nat) (s : Bytes)
  | unmarshalBinary (e : Nat) (data : Bytes)
  | unmarshalJSON (e : Nat) (data : Raw)
  | isEqual (e b : Nat)
  | isIdentity (e : Nat)
  | marshalBinary (e : Nat)

/-- what a call returns: an element, a truth value (for `Unmarshal…`: an error), bytes -/
inductive Ret where
  | elem (i : Nat)
  | bool (b : Bool)
  | bytes (b : Bytes)
deriving DecidableEq

namespace Libs
variable (L : Libs)

/-- group/p256.go -/
def lib256 : CirclLib :=
  ⟨.p256, circlGrp L.P256, fun P => P.marshalBinary L.P256.c, WPoint.unmarshalBinary L.P256.c, 32⟩

/-- group/p384.go -/
def lib384 : CirclLib :=
  ⟨.p384, circlGrp L.P384, fun P => P.marshalBinary L.P384.c, WPoint.unmarshalBinary L.P384.c, 48⟩

/-- group/ristretto255.go -/
def lib255 : CirclLib :=
  ⟨.r255, r255Grp L.R255, L.R255.enc, L.r255dec, 32⟩

/-- dynamic dispatch on the implementation, for constructors -/
def newOf (k : Kind) (circl : CirclLib → Act Nat) (k1 : Act Nat) (modP : ModPGroup → Act Nat) : Act Nat :=
  match k with
  | .modP g => modP g
  | .p256 => circl L.lib256
  | .p384 => circl L.lib384
  | .k1 => k1
  | .r255 => circl L.lib255

/-- dynamic dispatch on the receiver -/
def on {α : Type} (e : Nat) (circl : CirclLib → Act α) (k1 : Act α) (modP : ModPGroup → Act α) : Act α := do
  let o ← obj e
  match o.kind with
  | .modP g => modP g
  | .p256 => circl L.lib256
  | .p384 => circl L.lib384
  | .k1 => k1
  | .r255 => circl L.lib255

/-- one call.  Addresses of elements that do not exist do not occur in a program; here they count as a panic (in `Subtract` before
the temporary gets an address). -/
def call : Call → Act Ret
  | .generator k => .elem <$> L.newOf k (·.generator) (K1Obj.make (k1BaseMul L.K1 1)) fun g => ModPObj.make g g.gen
  | .identity k => .elem <$> L.newOf k (·.identity) (K1Obj.make K1Point.nilPt) fun g => ModPObj.make g 1
  | .element k => .elem <$> L.newOf k (·.element) (K1Obj.make K1Point.nilPt) fun g => ModPObj.make g 0
  | .add e a b => .elem <$> L.on e (·.add e a b) (K1Obj.add L.K1 e a b) fun g => ModPObj.add g e a b
  | .subtract e a b => do
    let _ ← obj a
    let _ ← obj b
    .elem <$> L.on e (·.subtract e a b) (K1Obj.subtract L.K1 e a b) fun g => ModPObj.subtract g e a b
  | .negate e a => .elem <$> L.on e (·.negate e a) (K1Obj.negate L.K1 e a) fun g => ModPObj.negate g e a
  | .scale e a s => .elem <$> L.on e (·.scale e a s) (K1Obj.scale L.K1 e a s) fun g => ModPObj.scale g e a s
  | .baseScale e s => .elem <$> L.on e (·.baseScale e s) (K1Obj.baseScale L.K1 e s) fun g => ModPObj.baseScale g e s
  | .set e a => .elem <$> L.on e (·.set e a) (K1Obj.set L.K1 e a) fun g => ModPObj.set g e a
  | .setBytes e b => .elem <$> L.on e (·.setBytes e b) (K1Obj.setBytes e b) fun _ => ModPObj.setBytes e b
  | .mapToGroup e s => .elem <$> L.on e (·.mapToGroup e s) (K1Obj.mapToGroup L.K1 s) fun _ => panic
  | .unmarshalBinary e d =>
    .bool <$> L.on e (·.unmarshalBinary e d) (K1Obj.unmarshalBinary e d) fun _ => ModPObj.unmarshalBinary e d
  | .unmarshalJSON e d => .bool <$> L.on e (·.unmarshalJSON e d) (pure false) fun _ => ModPObj.unmarshalJSON e d
  | .isEqual e b => .bool <$> L.on e (·.isEqual e b) (K1Obj.isEqual e b) fun g => ModPObj.isEqual g e b
  | .isIdentity e => .bool <$> L.on e (·.isIdentity e) (K1Obj.isIdentity e) fun _ => ModPObj.isIdentity e
  | .marshalBinary e => .bytes <$> L.on e (·.marshalBinary e) (K1Obj.marshalBinary e) fun _ => ModPObj.marshalBinary e

/-- calls one after another; a panic ends the program -/
def run : List Call → Act (List Ret)
  | [] => pure []
  | c :: cs => do
    let r ← L.call c
    let rs ← run cs
    pure (r :: rs)

end Libs
end MscPoc
