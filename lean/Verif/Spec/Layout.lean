import Verif.Spec.JsonGrammar

/-!
# JSON laid out on lines, as in the files under testdata

Two spaces per level; an object of one member stands on one line.
-/

set_option autoImplicit false

namespace MscPoc
namespace JText

/-- `n` spaces -/
def spaces (n : Nat) : Text := List.replicate n ' '

mutual
/-- the lines of a value: `pre` stands before it on its first line, `post` after it on its last -/
def layLines (n : Nat) (pre : Text) (post : Text) : Json → List Text
  | .arr [] => [pre ++ ['[', ']'] ++ post]
  | .arr (v :: l) => (pre ++ ['[']) :: (layElems (n + 2) (v :: l) ++ [spaces n ++ ']' :: post])
  | .obj [] => [pre ++ ['{', '}'] ++ post]
  | .obj [(k, v)] => layLines n (pre ++ '{' :: ' ' :: (strText k ++ [':', ' '])) (' ' :: '}' :: post) v
  | .obj (kv :: kv' :: l) => (pre ++ ['{']) :: (layMembers (n + 2) (kv :: kv' :: l) ++ [spaces n ++ '}' :: post])
  | v => [pre ++ print v ++ post]

/-- the lines of the elements of an array -/
def layElems (n : Nat) : List Json → List Text
  | [] => []
  | [v] => layLines n (spaces n) [] v
  | v :: w :: l => layLines n (spaces n) [','] v ++ layElems n (w :: l)

/-- the lines of the members of an object -/
def layMembers (n : Nat) : List (String × Json) → List Text
  | [] => []
  | [(k, v)] => layLines n (spaces n ++ (strText k ++ [':', ' '])) [] v
  | (k, v) :: w :: l => layLines n (spaces n ++ (strText k ++ [':', ' '])) [','] v ++ layMembers n (w :: l)
end

end JText

/-- the text of a file given by its lines -/
def linesText (l : List String) : Text := l.flatMap fun s => s.toList ++ ['\n']

end MscPoc
