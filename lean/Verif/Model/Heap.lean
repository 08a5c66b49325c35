import Verif.Model.ModP

/-!
# Mutable ModP elements (group/modsafeprime.go) with explicit aliasing

Elements are addresses; the heap maps an address to the value of the element's `*big.Int`.  Every element owns its
`*big.Int` (all constructors and `UnmarshalBinary` allocate a fresh one, `Set` copies the value), so an address
stands both for the element and for its number.  All elements belong to the group `g`.
-/

set_option autoImplicit false

namespace MscPoc

/-- memory: the number held by each element -/
abbrev Heap := Nat → Int

/-- store -/
def Heap.set (h : Heap) (a : Nat) (v : Int) : Heap := fun b => if b = a then v else h b

namespace HeapModP
variable (g : ModPGroup)

/-- group/modsafeprime.go:88-94 `e.Add(a, b)`: two in-place steps on the receiver. -/
def add (e a b : Nat) (h : Heap) : Heap :=
  let h := h.set e (h a * h b)
  h.set e (h e % g.fieldOrder)

/-- group/modsafeprime.go:103-107 `e.Negate(a)` -/
def negate (e a : Nat) (h : Heap) : Heap :=
  match modInverse (h a) g.fieldOrder with
  | some v => h.set e v
  | none => h

/-- group/modsafeprime.go:96-101 `e.Subtract(a, b)`; `t` is the address of the fresh `tmp`. -/
def subtract (t e a b : Nat) (h : Heap) : Heap :=
  let h := h.set t 1
  let h := negate g t b h
  add g e a t h

/-- group/modsafeprime.go:125-129 `e.Scale(a, s)` -/
def scale (e a : Nat) (s : Int) (h : Heap) : Heap :=
  h.set e (bigExp (h e) (h a) s g.fieldOrder)

/-- group/modsafeprime.go:131-134 `e.BaseScale(s)` -/
def baseScale (e : Nat) (s : Int) (h : Heap) : Heap :=
  h.set e (bigExp (h e) g.gen s g.fieldOrder)

/-- group/modsafeprime.go:114-118 `e.Set(a)` -/
def set (e a : Nat) (h : Heap) : Heap := h.set e (h a)

end HeapModP
end MscPoc
