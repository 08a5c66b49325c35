import Verif.Model.Json

/-!
# Editing documents
-/

set_option autoImplicit false

namespace MscPoc
namespace JSpec

/-- change the value found under a path of keys -/
def edit (f : Json → Json) : List String → Json → Json
  | [], j => f j
  | k :: ks, .obj kvs => .obj (kvs.map fun kv => if kv.1 = k then (kv.1, edit f ks kv.2) else kv)
  | _ :: _, j => j

/-- one more entry at the end of an array -/
def push (x : Json) : Json → Json
  | .arr l => .arr (l ++ [x])
  | j => j

end JSpec
end MscPoc
