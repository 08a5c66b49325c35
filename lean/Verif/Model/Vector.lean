import Verif.Model.Group

/-!
# bulletproofs/vector.go and the vector part of bulletproofs/util.go

Vectors are lists.  A nil slice (returned with an error) is the empty list; all callers drop the error, so
functions used by callers return the slice value, and the `…Err` functions give the error value.
-/

set_option autoImplicit false

namespace MscPoc

/-- bulletproofs/vector.go:31-43 -/
def vectorCopy (a : Int) (n : Nat) : List Int := List.replicate n a

/-- bulletproofs/vector.go:48-60: panics (index out of range) when `n > len(a)`. -/
def vectorConvertToBig (a : List Int) (n : Nat) : Option (List Int) := sliceTo a n

/-- bulletproofs/vector.go:65-83 with its error value. -/
def vectorAddE (a b : List Int) (mod : Int) : Except String (List Int) :=
  if a.length ≠ b.length then .error "Size of first argument is different from size of second argument."
  else .ok (List.zipWith (fun x y => (x + y) % mod) a b)

/-- bulletproofs/vector.go:88-106 with its error value. -/
def vectorSubE (a b : List Int) (mod : Int) : Except String (List Int) :=
  if a.length ≠ b.length then .error "Size of first argument is different from size of second argument."
  else .ok (List.zipWith (fun x y => (x - y) % mod) a b)

/-- bulletproofs/vector.go:139-157 with its error value. -/
def vectorMulE (a b : List Int) (mod : Int) : Except String (List Int) :=
  if a.length ≠ b.length then .error "Size of first argument is different from size of second argument."
  else .ok (List.zipWith (fun x y => (x * y) % mod) a b)

/-- The slice returned by a vector function when the caller drops the error: nil on error. -/
def dropErr {α : Type} : Except String (List α) → List α
  | .ok l => l
  | .error _ => []

/-- `r, _ := VectorAdd(a, b, mod)` -/
def vectorAdd (a b : List Int) (mod : Int) : List Int := dropErr (vectorAddE a b mod)
/-- `r, _ := VectorSub(a, b, mod)` -/
def vectorSub (a b : List Int) (mod : Int) : List Int := dropErr (vectorSubE a b mod)
/-- `r, _ := VectorMul(a, b, mod)` -/
def vectorMul (a b : List Int) (mod : Int) : List Int := dropErr (vectorMulE a b mod)

/-- bulletproofs/vector.go:108-115 -/
def vectorAddConst (a : List Int) (c mod : Int) : List Int := a.map (fun x => (x + c) % mod)

/-- bulletproofs/vector.go:120-134 -/
def vectorScalarMul (a : List Int) (b mod : Int) : List Int := a.map (fun x => (x * b) % mod)

/-- bulletproofs/vector.go:159-167: iterates over `a`, indexing `b` (panics when `b` is shorter). -/
def vectorInnerProductGo (mod : Int) : List Int → List Int → Int → Option Int
  | [], _, acc => some acc
  | _ :: _, [], _ => none
  | x :: xs, y :: ys, acc => vectorInnerProductGo mod xs ys (acc + (x * y) % mod)

/-- bulletproofs/vector.go:159-167 -/
def vectorInnerProduct (a b : List Int) (mod : Int) : Option Int :=
  (vectorInnerProductGo mod a b 0).map (· % mod)

/-- bulletproofs/vector.go:172-190 with its error value. -/
def vectorECAddE {E : Type} (GP : Grp E) (a b : List E) : Except String (List E) :=
  if a.length ≠ b.length then .error "Size of first argument is different from size of second argument."
  else .ok (List.zipWith GP.add a b)

/-- `r, _ := VectorECAdd(a, b, SP)` -/
def vectorECAdd {E : Type} (GP : Grp E) (a b : List E) : List E := dropErr (vectorECAddE GP a b)

/-- bulletproofs/util.go:34-49 `powerOf`: `current` starts at 1 and is reduced after each multiplication. -/
def powerOfGo (x N : Int) : Nat → Int → List Int
  | 0, _ => []
  | n + 1, cur => cur :: powerOfGo x N n (cur * x % N)

/-- bulletproofs/util.go:34-49 -/
def powerOf (x : Int) (n : Nat) (N : Int) : List Int := powerOfGo x N n 1

/-- bulletproofs/util.go:81-100 `VectorExp`: loop body over the paired entries. -/
def vectorExpGo {E : Type} (GP : Grp E) : List E → List Int → E → E
  | a :: as, b :: bs, acc => vectorExpGo GP as bs (GP.add acc (GP.mul a b))
  | _, _, acc => acc

/-- bulletproofs/util.go:81-100; `none` is the nil interface returned on length mismatch — every use of it
as operand or receiver panics, so the model lets it propagate as a panic. -/
def vectorExp {E : Type} (GP : Grp E) (a : List E) (b : List Int) : Option E :=
  if a.length ≠ b.length then none else some (vectorExpGo GP a b GP.identity)

/-- bulletproofs/util.go:105-124 `ScalarProduct` loop. -/
def scalarProductGo (N : Int) : List Int → List Int → Int → Int
  | a :: as, b :: bs, acc => scalarProductGo N as bs ((acc + a * b) % N)
  | _, _, acc => acc

/-- bulletproofs/util.go:105-124; `none` is the nil pointer returned on length mismatch. -/
def scalarProduct (a b : List Int) (N : Int) : Option Int :=
  if a.length ≠ b.length then none else some (scalarProductGo N a b 0)

/-- bulletproofs/util.go:130-132 `IsPowerOfTwo` on int64. -/
def isPowerOfTwo (x : BitVec 64) : Bool := x != 0 && (x &&& (x - 1)) == 0

/-- bulletproofs/bip.go:300-307 `vectorScalarExp(a, b, SP)`; a nil scalar panics on the first entry,
and is harmless for an empty vector. -/
def vectorScalarExp {E : Type} (GP : Grp E) (a : List E) (b : Option Int) : Option (List E) :=
  match a, b with
  | [], _ => some []
  | _ :: _, none => none
  | as, some s => some (as.map (fun x => GP.mul x s))

end MscPoc
