import Verif.Model.Objects

/-!
# What calls on elements should do: values without pointers
-/

set_option autoImplicit false

namespace MscPoc

/-- an element is its implementation and its value -/
abbrev Store := List (Kind × Cell)

/-- which operands a receiver takes: the same implementation, and for safe-prime groups the same modulus and generator -/
def Kind.Accepts : Kind → Kind → Prop
  | .modP g, .modP h => g.fieldOrder = h.fieldOrder ∧ g.gen = h.gen
  | .p256, .p256 => True
  | .p384, .p384 => True
  | .k1, .k1 => True
  | .r255, .r255 => True
  | _, _ => False

instance (k k' : Kind) : Decidable (k.Accepts k') := by
  unfold Kind.Accepts
  split <;> infer_instance

/-- the library values of an implementation -/
def Kind.Holds : Kind → Cell → Prop
  | .modP _, .big _ => True
  | .p256, .pt _ => True
  | .p384, .pt _ => True
  | .r255, .pt _ => True
  | .k1, .kp _ => True
  | _, _ => False

/-- a number -/
def Cell.toBig : Cell → Int
  | .big n => n
  | _ => 0

/-- a circl element -/
def Cell.toPt : Cell → WPoint
  | .pt P => P
  | _ => ⟨0, 0⟩

/-- an ing-bank point -/
def Cell.toK1 : Cell → K1Point
  | .kp P => P
  | _ => ⟨none, none⟩

/-- a group on values of one implementation as a group on all values -/
def Grp.onCells {E : Type} (G : Grp E) (inj : E → Cell) (of : Cell → E) : Grp Cell where
  name := G.name
  P := G.P
  N := G.N
  elt := inj G.elt
  generator := inj G.generator
  identity := inj G.identity
  add := fun a b => inj (G.add (of a) (of b))
  neg := fun r a => inj (G.neg (of r) (of a))
  scale := fun r a s => inj (G.scale (of r) (of a) s)
  baseScale := fun r s => inj (G.baseScale (of r) s)
  isEqual := fun a b => G.isEqual (of a) (of b)
  isIdentity := fun a => G.isIdentity (of a)
  str := fun a => G.str (of a)
  mapToGroup := fun s => (G.mapToGroup s).map inj

namespace Libs
variable (L : Libs)

/-- the group of an implementation, on values -/
def grp : Kind → Grp Cell
  | .modP g => (modPGrp g).onCells .big Cell.toBig
  | .p256 => (circlGrp L.P256).onCells .pt Cell.toPt
  | .p384 => (circlGrp L.P384).onCells .pt Cell.toPt
  | .k1 => (k1Grp L.K1).onCells .kp Cell.toK1
  | .r255 => (r255Grp L.R255).onCells .pt Cell.toPt

/-- decoding of bytes into a receiver with the given value: (error, value afterwards); `none`: panic -/
def decode : Kind → Cell → Bytes → Option (Bool × Cell)
  | .modP _, _, d => some (false, .big (setBytes d))
  | .p256, v, d => some ((WPoint.unmarshalBinary L.P256.c v.toPt d).1, .pt (WPoint.unmarshalBinary L.P256.c v.toPt d).2)
  | .p384, v, d => some ((WPoint.unmarshalBinary L.P384.c v.toPt d).1, .pt (WPoint.unmarshalBinary L.P384.c v.toPt d).2)
  | .k1, _, d => (K1Point.setBytes d).map fun P => (false, .kp P)
  | .r255, v, d => some ((L.r255dec v.toPt d).1, .pt (L.r255dec v.toPt d).2)

/-- encoding -/
def encode : Kind → Cell → Bytes
  | .modP _, v => bigBytes v.toBig
  | .p256, v => v.toPt.marshalBinary L.P256.c
  | .p384, v => v.toPt.marshalBinary L.P384.c
  | .k1, v => v.toK1.marshalBinary
  | .r255, v => L.R255.enc v.toPt

/-- decoding of a JSON document into a receiver: secp256k1 ignores it, the curves go through bytes -/
def decodeJSON (k : Kind) (v : Cell) (d : Raw) : Option (Bool × Cell) :=
  match k with
  | .modP _ => (modPCodec.unmarshal v.toBig d).map fun r => (r.1, .big r.2)
  | .k1 => some (false, v)
  | k => match unmarshalPoint (if k = .p384 then 48 else 32) d with
    | none => none
    | some .error => some (true, v)
    | some (.bytes b) => L.decode k v b

/-- `IsIdentity`; `none`: panic -/
def isId : Kind → Cell → Option Bool
  | .k1, v => v.toK1.isIdentity
  | k, v => some ((L.grp k).isIdentity v)

/-- operand `a` of a method of a receiver of kind `k`; `none`: panic -/
def operand (st : Store) (k : Kind) (a : Nat) : Option Cell :=
  match st[a]? with
  | some (k', v) => if k.Accepts k' then some v else none
  | none => none

/-- the result of a call, and the values of all elements afterwards; `none`: panic -/
def step (st : Store) : Call → Option (Ret × Store)
  | .generator k => some (.elem st.length, st ++ [(k, (L.grp k).generator)])
  | .identity k => some (.elem st.length, st ++ [(k, (L.grp k).identity)])
  | .element k => some (.elem st.length, st ++ [(k, (L.grp k).elt)])
  | .add e a b => do
    let (k, _) ← st[e]?
    let x ← operand st k a
    let y ← operand st k b
    some (.elem e, st.set e (k, (L.grp k).add x y))
  | .subtract e a b => do
    let (k, _) ← st[e]?
    let x ← operand st k a
    let y ← operand st k b
    some (.elem e, st.set e (k, (L.grp k).sub x y))
  | .negate e a => do
    let (k, v) ← st[e]?
    let x ← operand st k a
    some (.elem e, st.set e (k, (L.grp k).neg v x))
  | .scale e a s => do
    let (k, v) ← st[e]?
    let x ← operand st k a
    some (.elem e, st.set e (k, (L.grp k).scale v x s))
  | .baseScale e s => do
    let (k, v) ← st[e]?
    some (.elem e, st.set e (k, (L.grp k).baseScale v s))
  | .set e a => do
    let (k, _) ← st[e]?
    let x ← operand st k a
    some (.elem e, st.set e (k, x))
  | .setBytes e b => do
    let (k, _) ← st[e]?
    let r ← L.decode k (L.grp k).elt b
    some (.elem e, st.set e (k, r.2))
  | .mapToGroup e s => do
    let (k, _) ← st[e]?
    let P ← (L.grp k).mapToGroup s
    if k = .k1 then some (.elem st.length, st ++ [(.k1, P)]) else some (.elem e, st.set e (k, P))
  | .unmarshalBinary e d => do
    let (k, v) ← st[e]?
    let r ← L.decode k v d
    some (.bool r.1, st.set e (k, r.2))
  | .unmarshalJSON e d => do
    let (k, v) ← st[e]?
    let r ← L.decodeJSON k v d
    some (.bool r.1, st.set e (k, r.2))
  | .isEqual e b => do
    let (k, v) ← st[e]?
    let x ← operand st k b
    some (.bool ((L.grp k).isEqual v x), st)
  | .isIdentity e => do
    let (k, v) ← st[e]?
    let r ← L.isId k v
    some (.bool r, st)
  | .marshalBinary e => do
    let (k, v) ← st[e]?
    some (.bytes (L.encode k v), st)

/-- calls one after another -/
def steps (st : Store) : List Call → Option (List Ret × Store)
  | [] => some ([], st)
  | c :: cs => do
    let (r, st) ← L.step st c
    let (rs, st) ← steps st cs
    some (r :: rs, st)

end Libs

/-- the receiver of a call that writes -/
def Call.receiver : Call → Option Nat
  | .add e _ _ => some e
  | .subtract e _ _ => some e
  | .negate e _ => some e
  | .scale e _ _ => some e
  | .baseScale e _ => some e
  | .set e _ => some e
  | .setBytes e _ => some e
  | .mapToGroup e _ => some e
  | .unmarshalBinary e _ => some e
  | .unmarshalJSON e _ => some e
  | _ => none

/-- the value of an element in memory -/
def Mem.value (m : Mem) (i : Nat) : Option (Kind × Cell) := do
  let o ← m.objs[i]?
  let v ← m.cells[o.val]?
  some (o.kind, v)

/-- no two elements share a library value, and every element has one of its implementation -/
structure Mem.OK (m : Mem) : Prop where
  held : ∀ (i : Nat) (o : Obj), m.objs[i]? = some o → ∃ v, m.cells[o.val]? = some v ∧ o.kind.Holds v
  own : ∀ (i j : Nat) (o o' : Obj), m.objs[i]? = some o → m.objs[j]? = some o' → o.val = o'.val → i = j

/-- the memory holds exactly these values -/
def Mem.Is (m : Mem) (st : Store) : Prop := m.OK ∧ m.objs.length = st.length ∧ ∀ i, m.value i = st[i]?

end MscPoc
