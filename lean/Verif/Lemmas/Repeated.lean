import Verif.Lemmas.Marshal
import Verif.Props.Json

/-!
# Repeated keys
-/

set_option autoImplicit false

namespace MscPoc

theorem lookupField_eq (fields : List String) (kvs : List (String × Json)) (f : String) :
    lookupField fields kvs f = (fieldVals fields kvs f).getLast? := by
  unfold lookupField fieldVals
  induction kvs using List.reverseRecOn with
  | nil => rfl
  | append_singleton l kv ih =>
    rw [List.reverse_append, List.reverse_cons, List.reverse_nil, List.nil_append, List.singleton_append, List.find?_cons,
      List.filter_append, List.map_append]
    cases h : fieldOf fields kv.1 == some f with
    | true => simp [h]
    | false => simpa [h] using ih

theorem fieldVals_append (fields : List String) (a b : List (String × Json)) (f : String) :
    fieldVals fields (a ++ b) f = fieldVals fields a f ++ fieldVals fields b f := by
  simp [fieldVals]

theorem fieldVals_cons (fields : List String) (k : String) (v : Json) (b : List (String × Json)) (f : String) :
    fieldVals fields ((k, v) :: b) f = if fieldOf fields k = some f then v :: fieldVals fields b f else fieldVals fields b f := by
  unfold fieldVals
  by_cases h : fieldOf fields k = some f
  · simp [h]
  · simp [h]

theorem asObjs_split (xs ys : List Json) (a b : List (String × Json)) :
    asObjs (xs ++ .obj a :: .obj b :: ys) = asObjs (xs ++ .obj (a ++ b) :: ys) := by
  induction xs with
  | nil =>
    simp only [List.nil_append, asObjs, asObj, bind, Except.bind, pure, Except.pure]
    cases asObjs ys with
    | error e => rfl
    | ok r => simp
  | cons x xs ih => simp only [List.cons_append, asObjs, ih]

theorem asObjs_null (xs ys : List Json) : asObjs (xs ++ .null :: ys) = asObjs (xs ++ ys) := by
  induction xs with
  | nil =>
    simp only [List.nil_append, asObjs, asObj, bind, Except.bind, pure, Except.pure]
    cases asObjs ys with
    | error e => rfl
    | ok r => simp
  | cons x xs ih => simp only [List.cons_append, asObjs, ih]

theorem asObjs_bad (xs ys : List Json) (x : Json) (h : ∀ e, asObj (some x) ≠ .ok e) : ∃ e, asObjs (xs ++ x :: ys) = .error e := by
  induction xs with
  | nil =>
    cases hx : asObj (some x) with
    | ok r => exact absurd hx (h r)
    | error e => exact ⟨e, by simp only [List.nil_append, asObjs, hx, bind, Except.bind]⟩
  | cons y xs ih =>
    obtain ⟨e, he⟩ := ih
    cases hy : asObj (some y) with
    | error e' => exact ⟨e', by simp only [List.cons_append, asObjs, hy, bind, Except.bind]⟩
    | ok r => exact ⟨e, by simp only [List.cons_append, asObjs, hy, he, bind, Except.bind]⟩

theorem decodeSeq_append {α : Type} (step : α → Json → Except String α) (xs ys : List Json) : ∀ a : α,
    decodeSeq step a (xs ++ ys) = decodeSeq step a xs >>= fun a => decodeSeq step a ys := by
  induction xs with
  | nil => intro a; rfl
  | cons x xs ih =>
    intro a
    simp only [List.cons_append, decodeSeq]
    cases step a x with
    | error e => rfl
    | ok b => exact ih b

theorem decodeSeq_bad {α : Type} (step : α → Json → Except String α) (xs ys : List Json) (x : Json) (h : ∀ a b, step a x ≠ .ok b)
    (a : α) : ∃ e, decodeSeq step a (xs ++ x :: ys) = .error e := by
  rw [decodeSeq_append]
  cases decodeSeq step a xs with
  | error e => exact ⟨e, rfl⟩
  | ok b =>
    cases hs : step b x with
    | ok c => exact absurd hs (h b c)
    | error e => exact ⟨e, by simp only [decodeSeq, hs, bind, Except.bind]⟩

/-- the raw messages of a range proof depend on the values of each field, and on the members of the nested object -/
theorem rawBP_congr {a b : List (String × Json)} (h : ∀ f, f ≠ "InnerProductProof" → fieldVals bpFields a f = fieldVals bpFields b f)
    (hi : rawIPProof (fieldVals bpFields a "InnerProductProof") = rawIPProof (fieldVals bpFields b "InnerProductProof")) :
    rawBP (some (.obj a)) = rawBP (some (.obj b)) := by
  unfold rawBP asObj
  simp only [bind, Except.bind, hi, lookupField_eq]
  rw [h "Taux" (by decide), h "Mu" (by decide), h "Tprime" (by decide), h "V" (by decide), h "A" (by decide), h "S" (by decide),
    h "T1" (by decide), h "T2" (by decide)]

theorem rawIPProof_congr {xs ys : List Json} (h : asObjs xs = asObjs ys) : rawIPProof xs = rawIPProof ys := by
  unfold rawIPProof
  rw [h]

theorem rawIPProof_congr' {a b : List (String × Json)} (h : ∀ f, f ≠ "Params" → fieldVals ipProofFields a f = fieldVals ipProofFields b f)
    (hi : asObjs (fieldVals ipProofFields a "Params") = asObjs (fieldVals ipProofFields b "Params")) :
    rawIPProof [.obj a] = rawIPProof [.obj b] := by
  unfold rawIPProof
  rw [asObjs_one, asObjs_one]
  simp only [bind, Except.bind, lookupField_eq]
  rw [h "Cc" (by decide), h "a" (by decide), h "b" (by decide), h "L" (by decide), h "R" (by decide), h "P" (by decide)]
  have : rawIPParams (fieldVals ipProofFields a "Params") = rawIPParams (fieldVals ipProofFields b "Params") := by
    unfold rawIPParams; rw [hi]
  rw [this]

theorem rawSigma_congr {a b : List (String × Json)} (h : ∀ f, f ≠ "Params" → fieldVals sigmaFields a f = fieldVals sigmaFields b f)
    (hi : rawProofParams (fieldVals sigmaFields a "Params") = rawProofParams (fieldVals sigmaFields b "Params")) :
    rawSigma (some (.obj a)) = rawSigma (some (.obj b)) := by
  unfold rawSigma asObj
  simp only [bind, Except.bind, hi, lookupField_eq]
  rw [h "Challenge" (by decide), h "Z" (by decide), h "Sp" (by decide), h "Sq1" (by decide), h "Sq2" (by decide), h "W" (by decide),
    h "Kp" (by decide), h "Kq1" (by decide), h "Kq2" (by decide)]

end MscPoc
