import Verif.Model.RistrettoEnc
import Verif.Model.Points

/-!
# JSON of Ristretto255 elements

`r255Codec` (Model/Points) is about the 32-byte encodings of elements.  This is the same for points, with the encoding of circl
(Model/RistrettoEnc), so that it can be used together with the group.
-/

set_option autoImplicit false

namespace MscPoc

/-- group/ristretto255.go:158-207.  `UnmarshalBinary` (line 154) leaves its receiver alone when it returns an error. -/
def r255WCodec : Codec WPoint where
  marshal := fun e => marshalPoint 32 (R255.encode e)
  unmarshal := fun recv data =>
    match unmarshalPoint 32 data with
    | none => none
    | some .error => some (true, recv)
    | some (.bytes b) =>
      match R255.decode b with
      | none => some (true, recv)
      | some Q => some (false, Q)

end MscPoc
