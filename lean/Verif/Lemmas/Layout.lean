import Verif.Spec.Layout
import Verif.Lemmas.JsonPrint

/-!
# Lines of a layout make up a JSON text
-/

set_option autoImplicit false

namespace MscPoc
namespace JText

open JSpec

/-- lines, each after a line feed -/
def joinNl (l : List Text) : Text := l.flatMap fun s => '\n' :: s

theorem joinNl_cons (s : Text) (l : List Text) : joinNl (s :: l) = '\n' :: (s ++ joinNl l) := by simp [joinNl]

theorem joinNl_append (l l' : List Text) : joinNl (l ++ l') = joinNl l ++ joinNl l' := by simp [joinNl]

theorem joinNl_one (s : Text) : joinNl [s] = '\n' :: s := by simp [joinNl]

theorem ws_spaces (n : ℕ) : Ws ('\n' :: spaces n) := by
  intro c hc
  simp only [spaces, List.mem_cons, List.mem_replicate] at hc
  rcases hc with rfl | ⟨_, rfl⟩ <;> simp

/-- what is to be shown of a value -/
def Laid (d : ℕ) (v : Json) : Prop :=
  ∀ n, ∃ s, Val d s v ∧ ∀ pre post, joinNl (layLines n pre post v) = '\n' :: (pre ++ s ++ post)

theorem layElems_elems {d n : ℕ} : ∀ (l : List Json), l ≠ [] → (∀ v ∈ l, Laid d v) → ∀ w', Ws w' → Elems d (joinNl (layElems n l) ++ w') l
  | [], h, _, _, _ => absurd rfl h
  | [v], _, h, w', hw => by
    obtain ⟨s, hs, e⟩ := h v (by simp) n
    have := Elems.one d _ s w' v (ws_spaces n) hs hw
    rw [layElems, e]
    simpa using this
  | v :: w :: l, _, h, w', hw => by
    obtain ⟨s, hs, e⟩ := h v (by simp) n
    have ih := layElems_elems (n := n) (w :: l) (by simp) (fun x hx => h x (by simp [hx])) w' hw
    have := Elems.cons d _ s [] _ v _ (ws_spaces n) hs ws_nil ih
    rw [layElems, joinNl_append, e]
    simpa using this

theorem layMembers_members {d n : ℕ} : ∀ (l : List (String × Json)), l ≠ [] → (∀ kv ∈ l, Laid d kv.2) → ∀ w', Ws w' →
    Members d (joinNl (layMembers n l) ++ w') l
  | [], h, _, _, _ => absurd rfl h
  | [(k, v)], _, h, w', hw => by
    obtain ⟨s, hs, e⟩ := h (k, v) (by simp) n
    have := Members.one d _ _ [] [' '] s w' k.toList v (ws_spaces n) (strText_body k.toList) ws_nil (by simp [Ws]) hs hw
    rw [String.ofList_toList] at this
    rw [layMembers, e]
    simpa [strText] using this
  | (k, v) :: w :: l, _, h, w', hw => by
    obtain ⟨s, hs, e⟩ := h (k, v) (by simp) n
    have ih := layMembers_members (n := n) (w :: l) (by simp) (fun x hx => h x (by simp [hx])) w' hw
    have := Members.cons d _ _ [] [' '] s [] _ k.toList v _ (ws_spaces n) (strText_body k.toList) ws_nil (by simp [Ws]) hs ws_nil ih
    rw [String.ofList_toList] at this
    rw [layMembers, joinNl_append, e]
    simpa [strText] using this

theorem laid_print {d : ℕ} {v : Json} (hv : Val d (print v) v) (e : ∀ n pre post, layLines n pre post v = [pre ++ print v ++ post]) :
    Laid d v := fun n => ⟨_, hv, fun pre post => by rw [e, joinNl_one]⟩

theorem laid {d : ℕ} {v : Json} (h : Plain d v) : Laid d v := by
  induction h with
  | null d => exact laid_print (print_val (Plain.null d)) fun n pre post => by rw [layLines] <;> simp
  | bool d b => exact laid_print (print_val (Plain.bool d b)) fun n pre post => by rw [layLines] <;> simp
  | num d x => exact laid_print (print_val (Plain.num d x)) fun n pre post => by rw [layLines] <;> simp
  | str d s => exact laid_print (print_val (Plain.str d s)) fun n pre post => by rw [layLines] <;> simp
  | arr d l h ih =>
    intro n
    match l, ih with
    | [], _ => exact ⟨_, Val.arrNil d [] ws_nil, fun pre post => by rw [layLines, joinNl_one]; rfl⟩
    | v :: l, ih =>
      refine ⟨_, Val.arr d _ _ (layElems_elems (n := n + 2) _ (by simp) ih _ (ws_spaces n)), fun pre post => ?_⟩
      rw [layLines, joinNl_cons, joinNl_append, joinNl_one]
      simp
  | obj d l h ih =>
    intro n
    match l, ih with
    | [], _ => exact ⟨_, Val.objNil d [] ws_nil, fun pre post => by rw [layLines, joinNl_one]; rfl⟩
    | [(k, v)], ih =>
      obtain ⟨s, hs, e⟩ := ih (k, v) (by simp) n
      have := Members.one d [' '] _ [] [' '] s [' '] k.toList v (by simp [Ws]) (strText_body k.toList) ws_nil (by simp [Ws]) hs
        (by simp [Ws])
      rw [String.ofList_toList] at this
      refine ⟨_, Val.obj d _ _ this, fun pre post => ?_⟩
      rw [layLines, e]
      simp [strText]
    | kv :: kv' :: l, ih =>
      refine ⟨_, Val.obj d _ _ (layMembers_members (n := n + 2) _ (by simp) ih _ (ws_spaces n)), fun pre post => ?_⟩
      rw [layLines, joinNl_cons, joinNl_append, joinNl_one]
      simp

theorem join_end (l : List Text) : '\n' :: (l.flatMap fun s => s ++ ['\n']) = joinNl l ++ ['\n'] := by
  induction l with
  | nil => rfl
  | cons s l ih =>
    rw [List.flatMap_cons, joinNl_cons, List.cons_append, List.append_assoc, List.append_assoc, ← ih]
    rfl

/-- lines laid out make up a text of the document -/
theorem layLines_isText {v : Json} (h : Plain 10000 v) (l : List String) (e : (layLines 0 [] [] v).map String.ofList = l) :
    IsText 10000 (linesText l) v := by
  obtain ⟨s, hs, es⟩ := laid h 0
  refine ⟨[], s, ['\n'], ws_nil, hs, by simp [Ws], ?_⟩
  have e1 := join_end (layLines 0 [] [] v)
  rw [es] at e1
  have e2 : linesText l = (layLines 0 [] [] v).flatMap fun s => s ++ ['\n'] := by
    rw [← e, linesText, List.flatMap_map]
    simp [String.toList_ofList]
  rw [← e2, List.nil_append, List.append_nil, List.cons_append, List.cons.injEq] at e1
  rw [e1.2]
  rfl

end JText
end MscPoc
