import Verif.Model.Json

/-!
# Specification: elements that are lost in transport
-/

set_option autoImplicit false

namespace MscPoc

/-- decoding never stores what was sent: the receiver keeps its value -/
def Codec.Forgets {E : Type} (C : Codec E) : Prop := ∀ recv data e, C.decode recv data = some e → e = recv

end MscPoc
