import Verif.Lemmas.Robust
import Verif.Props.Repeated

/-!
# C71 — the signed parameter of a vote proof, given once more
-/

set_option autoImplicit false

namespace MscPoc

section
variable {E₁ E₂ : Type}

/-- what one more value of a 64-bit signed field does to the old one: `none` is an error -/
def oneMoreInt (old : Int) : Json → Option Int
  | .null => some old
  | .negZero => some 0
  | .num n => if -(2 ^ 63) ≤ n ∧ n < 2 ^ 63 then some n else none
  | _ => none

theorem asInt64_last {xs : List Json} {n : Int} (h : asInt64 xs = .ok n) (v : Json) :
    (∀ m, oneMoreInt n v = some m → asInt64 (xs ++ [v]) = .ok m) ∧
    (oneMoreInt n v = none → ∃ e, asInt64 (xs ++ [v]) = .error e) := by
  unfold asInt64 at h ⊢
  rw [decodeSeq_append, h]
  simp only [bind, Except.bind, decodeSeq]
  unfold oneMoreInt int64Step
  constructor
  · intro m hm
    cases v <;> simp only [Option.some.injEq, reduceCtorEq] at hm ⊢ <;> try (subst hm; rfl)
    split at hm
    · rename_i h1
      simp only [Option.some.injEq] at hm
      subst hm
      rw [if_pos h1]
    · exact absurd hm (by simp)
  · intro hm
    cases v <;> simp only [reduceCtorEq] at hm ⊢ <;> try exact ⟨_, rfl⟩
    split at hm
    · exact absurd hm (by simp)
    · rename_i h1
      rw [if_neg h1]
      exact ⟨_, rfl⟩

theorem asObjs_last (xs : List Json) (a r : List (String × Json)) (h : asObjs xs = .ok r) : asObjs (xs ++ [.obj a]) = .ok (r ++ a) := by
  induction xs generalizing r with
  | nil =>
    simp only [asObjs, Except.ok.injEq] at h
    subst h
    show asObjs [.obj a] = _
    simp [asObjs, asObj, bind, Except.bind, pure, Except.pure]
  | cons x xs ih =>
    simp only [asObjs, List.cons_append] at h ⊢
    obtain ⟨k1, h1, h⟩ := except_bind h
    obtain ⟨k2, h2, h⟩ := except_bind h
    simp only [pure, Except.pure, Except.ok.injEq] at h
    subst h
    rw [h1, ih _ h2]
    simp [bind, Except.bind, pure, Except.pure]

/-- **C71** One more `Params` object with only a `Bb` at the end of a vote proof that decodes: `null` changes nothing, `-0` sets `Bb` to 0, an
integer literal of 64 bits sets it to that number, and the rest of the proof is unaffected; every other value makes the call fail. -/
theorem C71_last_Bb (C₁ : Codec E₁) (C₂ : Codec E₂) (gFF : Grp E₁) (gEC : Grp E₂) (kvs : List (String × Json)) (k k' : String) (v : Json)
    (p : SigmaProof E₁ E₂) (h : decSigma C₁ C₂ gFF gEC (some (.obj kvs)) = some (.ok p)) (hk : fieldOf sigmaFields k = some "Params")
    (hk' : fieldOf proofParamsFields k' = some "Bb") :
    (∀ m, oneMoreInt p.Params.Bb v = some m → decSigma C₁ C₂ gFF gEC (some (.obj (kvs ++ [(k, .obj [(k', v)])]))) =
      some (.ok { p with Params := { p.Params with Bb := m } })) ∧
    (oneMoreInt p.Params.Bb v = none → ∃ e, decSigma C₁ C₂ gFF gEC (some (.obj (kvs ++ [(k, .obj [(k', v)])]))) = some (.error e)) := by
  obtain ⟨j, hj, hp⟩ := decSigma_inv h
  unfold rawSigma asObj at hj
  obtain ⟨kvs', hkvs, hj⟩ := except_bind hj
  injection hkvs with hkvs
  subst hkvs
  dsimp only at hj
  obtain ⟨c, h1, hj⟩ := except_bind hj
  obtain ⟨z, h2, hj⟩ := except_bind hj
  obtain ⟨sp, h3, hj⟩ := except_bind hj
  obtain ⟨s1, h4, hj⟩ := except_bind hj
  obtain ⟨s2, h5, hj⟩ := except_bind hj
  obtain ⟨pr, h6, hj⟩ := except_bind hj
  simp only [pure, Except.pure, Except.ok.injEq] at hj
  unfold rawProofParams at h6
  obtain ⟨o, ho, h6⟩ := except_bind h6
  dsimp only at h6
  obtain ⟨bx, g1, h6⟩ := except_bind h6
  obtain ⟨bc, g2, h6⟩ := except_bind h6
  obtain ⟨bg, g3, h6⟩ := except_bind h6
  obtain ⟨bb, g4, h6⟩ := except_bind h6
  obtain ⟨lo, g5, h6⟩ := except_bind h6
  obtain ⟨hi, g6, h6⟩ := except_bind h6
  obtain ⟨gff, g7, h6⟩ := except_bind h6
  obtain ⟨gec, g8, h6⟩ := except_bind h6
  simp only [pure, Except.pure, Except.ok.injEq] at h6
  have hbb : p.Params.Bb = bb := by
    unfold decSigmaRaw at hp
    unbind hp with a e1
    unbind hp with a e2
    unbind hp with a e3
    unbind hp with a e4
    unbind hp with a e5
    unbind hp with a e6
    simp only [Option.some.injEq] at hp
    subst hp hj h6
    rfl
  have keep : ∀ f, f ≠ "Params" → fieldVals sigmaFields (kvs ++ [(k, .obj [(k', v)])]) f = fieldVals sigmaFields kvs f := by
    intro f hf
    rw [fieldVals_append, fieldVals_cons, hk, if_neg (by simpa using fun e => hf e.symm)]
    simp [fieldVals]
  have keepL : ∀ f, f ≠ "Params" → lookupField sigmaFields (kvs ++ [(k, .obj [(k', v)])]) f = lookupField sigmaFields kvs f := by
    intro f hf
    rw [lookupField_eq, lookupField_eq, keep f hf]
  have hP : fieldVals sigmaFields (kvs ++ [(k, .obj [(k', v)])]) "Params" = fieldVals sigmaFields kvs "Params" ++ [.obj [(k', v)]] := by
    rw [fieldVals_append, fieldVals_cons, if_pos hk]
    rfl
  have keep' : ∀ f, f ≠ "Bb" → fieldVals proofParamsFields (o ++ [(k', v)]) f = fieldVals proofParamsFields o f := by
    intro f hf
    rw [fieldVals_append, fieldVals_cons, hk', if_neg (by simpa using fun e => hf e.symm)]
    simp [fieldVals]
  have hB : fieldVals proofParamsFields (o ++ [(k', v)]) "Bb" = fieldVals proofParamsFields o "Bb" ++ [v] := by
    rw [fieldVals_append, fieldVals_cons, if_pos hk']
    rfl
  obtain ⟨i1, i2⟩ := asInt64_last g4 v
  rw [hbb]
  have raw : ∀ r, asInt64 (fieldVals proofParamsFields o "Bb" ++ [v]) = r → rawSigma (some (.obj (kvs ++ [(k, .obj [(k', v)])]))) =
      r.map fun m => { j with Params := { j.Params with Bb := m } } := by
    intro r hr
    unfold rawSigma asObj
    simp only [bind, Except.bind, keep "Challenge" (by decide), keep "Z" (by decide), keep "Sp" (by decide), keep "Sq1" (by decide),
      keep "Sq2" (by decide), keepL "W" (by decide), keepL "Kp" (by decide), keepL "Kq1" (by decide), keepL "Kq2" (by decide), hP, h1, h2, h3,
      h4, h5]
    unfold rawProofParams
    simp only [bind, Except.bind, asObjs_last _ _ _ ho, keep' "Bx" (by decide), keep' "Bc" (by decide), keep' "Bg" (by decide),
      keep' "RangeLo" (by decide), keep' "RangeHi" (by decide), keep' "GFF" (by decide), keep' "GEC" (by decide), hB, g1, g2, g3, g5, g6, g7, g8,
      hr]
    cases r with
    | error e => rfl
    | ok m =>
      subst hj h6
      rfl
  constructor
  · intro m hm
    unfold decSigma
    rw [raw _ (i1 m hm)]
    show Option.map _ (decSigmaRaw C₁ C₂ gFF gEC { j with Params := { j.Params with Bb := m } }) = _
    unfold decSigmaRaw at hp ⊢
    dsimp only at hp ⊢
    unbind hp with a1 e1
    unbind hp with a2 e2
    unbind hp with a3 e3
    unbind hp with a4 e4
    unbind hp with a5 e5
    unbind hp with a6 e6
    simp only [Option.some.injEq] at hp
    subst hp
    simp only [bind, Option.bind, e1, e2, e3, e4, e5, e6, Option.map]
  · intro hm
    obtain ⟨e, he⟩ := i2 hm
    unfold decSigma
    rw [raw _ he]
    exact ⟨e, rfl⟩

end

/-- C71: the literals of the four kinds, and keys that Go takes for `Params` and `Bb` -/
example : oneMoreInt 15 .null = some 15 ∧ oneMoreInt 15 .negZero = some 0 ∧ oneMoreInt 15 (.num (-7)) = some (-7) ∧
    oneMoreInt 15 (.num (2 ^ 63)) = none ∧ oneMoreInt 15 (.frac 1) = none ∧ oneMoreInt 15 (.str "1") = none ∧
    fieldOf sigmaFields "PARAMS" = some "Params" ∧ fieldOf proofParamsFields "bB" = some "Bb" := by decide +kernel

end MscPoc
