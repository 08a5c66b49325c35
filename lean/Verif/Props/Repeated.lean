import Verif.Lemmas.Repeated
import Verif.Lemmas.JsonKey

/-!
# C71 — keys that occur more than once in a proof

`C45_last_wins` is about the four parts of a ballot; these are the members of the parts.
-/

set_option autoImplicit false

namespace MscPoc

section
variable {E E₁ E₂ : Type}

/-- two adjacent-in-kind occurrences of a field become one -/
theorem fieldVals_two (fields : List String) (pre mid post : List (String × Json)) (k₁ k₂ : String) (v₁ v₂ w : Json) (g : String)
    (h1 : fieldOf fields k₁ = some g) (h2 : fieldOf fields k₂ = some g) (hm : ∀ kv ∈ mid, fieldOf fields kv.1 ≠ some g) :
    (∀ f, f ≠ g → fieldVals fields (pre ++ (k₁, v₁) :: mid ++ (k₂, v₂) :: post) f =
      fieldVals fields (pre ++ (k₁, w) :: mid ++ post) f) ∧
    fieldVals fields (pre ++ (k₁, v₁) :: mid ++ (k₂, v₂) :: post) g =
      fieldVals fields pre g ++ v₁ :: v₂ :: fieldVals fields post g ∧
    fieldVals fields (pre ++ (k₁, w) :: mid ++ post) g = fieldVals fields pre g ++ w :: fieldVals fields post g := by
  have hmid : fieldVals fields mid g = [] := by
    unfold fieldVals
    rw [List.map_eq_nil_iff, List.filter_eq_nil_iff]
    intro kv hkv
    simpa using hm kv hkv
  refine ⟨fun f hf => ?_, ?_, ?_⟩
  · have n1 : ¬ fieldOf fields k₁ = some f := by rw [h1]; simpa using fun e => hf e.symm
    have n2 : ¬ fieldOf fields k₂ = some f := by rw [h2]; simpa using fun e => hf e.symm
    simp only [fieldVals_append, fieldVals_cons, if_neg n1, if_neg n2]
  · simp only [fieldVals_append, fieldVals_cons, if_pos h1, if_pos h2, hmid, List.append_assoc, List.cons_append, List.nil_append]
  · simp only [fieldVals_append, fieldVals_cons, if_pos h1, hmid, List.append_assoc, List.cons_append, List.nil_append]

/-- **C71** Two objects under the key `InnerProductProof` (or keys equal to it up to case) of a range proof are decoded as the
one object with the members of both: the second does not replace the first. -/
theorem C71_merge_proof (C : Codec E) (params : BPParams E) (pre mid post a b : List (String × Json)) (k₁ k₂ : String)
    (h1 : fieldOf bpFields k₁ = some "InnerProductProof") (h2 : fieldOf bpFields k₂ = some "InnerProductProof")
    (hm : ∀ kv ∈ mid, fieldOf bpFields kv.1 ≠ some "InnerProductProof") :
    decBP C params (some (.obj (pre ++ (k₁, .obj a) :: mid ++ (k₂, .obj b) :: post))) =
      decBP C params (some (.obj (pre ++ (k₁, .obj (a ++ b)) :: mid ++ post))) := by
  obtain ⟨e1, e2, e3⟩ := fieldVals_two bpFields pre mid post k₁ k₂ (.obj a) (.obj b) (.obj (a ++ b)) _ h1 h2 hm
  unfold decBP
  rw [rawBP_congr e1 (rawIPProof_congr (by rw [e2, e3]; exact asObjs_split _ _ a b))]

/-- C71: the same for `Params` inside `InnerProductProof`. -/
theorem C71_merge_params (C : Codec E) (params : BPParams E) (pre post ipre imid ipost a b : List (String × Json)) (k k₁ k₂ : String)
    (hk : fieldOf bpFields k = some "InnerProductProof")
    (hpre : ∀ kv ∈ pre ++ post, fieldOf bpFields kv.1 ≠ some "InnerProductProof")
    (h1 : fieldOf ipProofFields k₁ = some "Params") (h2 : fieldOf ipProofFields k₂ = some "Params")
    (hm : ∀ kv ∈ imid, fieldOf ipProofFields kv.1 ≠ some "Params") :
    decBP C params (some (.obj (pre ++ (k, .obj (ipre ++ (k₁, .obj a) :: imid ++ (k₂, .obj b) :: ipost)) :: post))) =
      decBP C params (some (.obj (pre ++ (k, .obj (ipre ++ (k₁, .obj (a ++ b)) :: imid ++ ipost)) :: post))) := by
  have none : ∀ l : List (String × Json), (∀ kv ∈ l, fieldOf bpFields kv.1 ≠ some "InnerProductProof") →
      fieldVals bpFields l "InnerProductProof" = [] := by
    intro l hl
    unfold fieldVals
    rw [List.map_eq_nil_iff, List.filter_eq_nil_iff]
    intro kv hkv
    simpa using hl kv hkv
  have n1 := none pre fun kv h => hpre kv (List.mem_append_left _ h)
  have n2 := none post fun kv h => hpre kv (List.mem_append_right _ h)
  obtain ⟨e1, e2, e3⟩ := fieldVals_two ipProofFields ipre imid ipost k₁ k₂ (.obj a) (.obj b) (.obj (a ++ b)) _ h1 h2 hm
  unfold decBP
  rw [rawBP_congr (fun f hf => ?_) ?_]
  · simp only [fieldVals_append, fieldVals_cons, if_pos hk, n1, n2, List.nil_append]
    exact rawIPProof_congr' e1 (by rw [e2, e3]; exact asObjs_split _ _ a b)
  · have : ¬ fieldOf bpFields k = some f := by rw [hk]; simpa using fun e => hf e.symm
    simp only [fieldVals_append, fieldVals_cons, if_neg this]

/-- C71: the same for `Params` of the vote proof. -/
theorem C71_merge_vote (C₁ : Codec E₁) (C₂ : Codec E₂) (gFF : Grp E₁) (gEC : Grp E₂) (pre mid post a b : List (String × Json))
    (k₁ k₂ : String) (h1 : fieldOf sigmaFields k₁ = some "Params") (h2 : fieldOf sigmaFields k₂ = some "Params")
    (hm : ∀ kv ∈ mid, fieldOf sigmaFields kv.1 ≠ some "Params") :
    decSigma C₁ C₂ gFF gEC (some (.obj (pre ++ (k₁, .obj a) :: mid ++ (k₂, .obj b) :: post))) =
      decSigma C₁ C₂ gFF gEC (some (.obj (pre ++ (k₁, .obj (a ++ b)) :: mid ++ post))) := by
  obtain ⟨e1, e2, e3⟩ := fieldVals_two sigmaFields pre mid post k₁ k₂ (.obj a) (.obj b) (.obj (a ++ b)) _ h1 h2 hm
  unfold decSigma
  rw [rawSigma_congr e1 (by unfold rawProofParams; rw [e2, e3, asObjs_split])]

/-- C71: `null` under such a key changes nothing, wherever it stands. -/
theorem C71_null_object (C : Codec E) (params : BPParams E) (C₁ : Codec E₁) (C₂ : Codec E₂) (gFF : Grp E₁) (gEC : Grp E₂)
    (pre post : List (String × Json)) (k : String) :
    (fieldOf bpFields k = some "InnerProductProof" →
      decBP C params (some (.obj (pre ++ (k, .null) :: post))) = decBP C params (some (.obj (pre ++ post)))) ∧
    (fieldOf sigmaFields k = some "Params" →
      decSigma C₁ C₂ gFF gEC (some (.obj (pre ++ (k, .null) :: post))) = decSigma C₁ C₂ gFF gEC (some (.obj (pre ++ post)))) := by
  refine ⟨fun hk => ?_, fun hk => ?_⟩
  · unfold decBP
    rw [rawBP_congr (fun f hf => ?_) (rawIPProof_congr ?_)]
    · simp only [fieldVals_append, fieldVals_cons, if_pos hk]
      exact asObjs_null _ _
    · have : ¬ fieldOf bpFields k = some f := by rw [hk]; simpa using fun e => hf e.symm
      simp only [fieldVals_append, fieldVals_cons, if_neg this]
  · unfold decSigma
    rw [rawSigma_congr (fun f hf => ?_) ?_]
    · simp only [fieldVals_append, fieldVals_cons, if_pos hk]
      unfold rawProofParams
      rw [asObjs_null]
    · have : ¬ fieldOf sigmaFields k = some f := by rw [hk]; simpa using fun e => hf e.symm
      simp only [fieldVals_append, fieldVals_cons, if_neg this]

/-- **C71** One occurrence of the wrong type makes the call fail, whatever the other occurrences are: a scalar of a range proof
that is neither a number nor `null`, or an `InnerProductProof` that is neither an object nor `null`. -/
theorem C71_bad_occurrence (C : Codec E) (params : BPParams E) (pre post : List (String × Json)) (k f : String) (v : Json)
    (hk : fieldOf bpFields k = some f)
    (hv : (f ∈ ["Taux", "Mu", "Tprime"] ∧ v ≠ .null ∧ v ≠ .negZero ∧ ∀ n, v ≠ .num n) ∨
      (f = "InnerProductProof" ∧ v ≠ .null ∧ ∀ kvs, v ≠ .obj kvs)) :
    ∃ e, decBP C params (some (.obj (pre ++ (k, v) :: post))) = some (.error e) := by
  suffices h : ∃ e, rawBP (some (.obj (pre ++ (k, v) :: post))) = .error e by
    obtain ⟨e, he⟩ := h
    exact ⟨e, by unfold decBP; rw [he]⟩
  have val : fieldVals bpFields (pre ++ (k, v) :: post) f = fieldVals bpFields pre f ++ v :: fieldVals bpFields post f := by
    simp only [fieldVals_append, fieldVals_cons, if_pos hk]
  cases hr : rawBP (some (.obj (pre ++ (k, v) :: post))) with
  | error e => exact ⟨e, rfl⟩
  | ok r =>
  exfalso
  unfold rawBP asObj at hr
  obtain ⟨kvs, hkvs, hr⟩ := except_bind hr
  injection hkvs with hkvs
  subst hkvs
  dsimp only at hr
  obtain ⟨x1, h1, hr⟩ := except_bind hr
  obtain ⟨x2, h2, hr⟩ := except_bind hr
  obtain ⟨x3, h3, hr⟩ := except_bind hr
  obtain ⟨x4, h4, hr⟩ := except_bind hr
  rcases hv with ⟨hf, n1, n0, n2⟩ | ⟨rfl, n1, n2⟩
  · have bad : ∃ e, asBig (fieldVals bpFields (pre ++ (k, v) :: post) f) = .error e := by
      rw [val]
      refine decodeSeq_bad _ _ _ _ (fun a b => ?_) _
      cases v <;> simp_all [bigStep]
    obtain ⟨e, he⟩ := bad
    simp only [List.mem_cons, List.not_mem_nil, or_false] at hf
    rcases hf with rfl | rfl | rfl
    · rw [he] at h1; exact absurd h1 (by simp)
    · rw [he] at h2; exact absurd h2 (by simp)
    · rw [he] at h3; exact absurd h3 (by simp)
  · unfold rawIPProof at h4
    obtain ⟨kvs, hkvs, _⟩ := except_bind h4
    obtain ⟨e, he⟩ := asObjs_bad (fieldVals bpFields pre "InnerProductProof") (fieldVals bpFields post "InnerProductProof") v
      (by intro kvs; cases v <;> simp_all [asObj])
    rw [val, he] at hkvs
    exact absurd hkvs (by simp)

/-- the members of an object among the occurrences -/
theorem asObjs_mid (xs ys : List Json) (a r : List (String × Json)) (h : asObjs (xs ++ .obj a :: ys) = .ok r) :
    ∃ b c, r = b ++ a ++ c := by
  induction xs generalizing r with
  | nil =>
    simp only [List.nil_append, asObjs] at h
    obtain ⟨kvs, h1, h⟩ := except_bind h
    obtain ⟨kvs', h2, h⟩ := except_bind h
    cases h1
    cases h
    exact ⟨[], kvs', by simp⟩
  | cons x xs ih =>
    simp only [List.cons_append, asObjs] at h
    obtain ⟨kvs, h1, h⟩ := except_bind h
    obtain ⟨kvs', h2, h⟩ := except_bind h
    cases h
    obtain ⟨b, c, rfl⟩ := ih kvs' h2
    exact ⟨kvs ++ b, c, by simp⟩

theorem uintStep_bad (bits : ℕ) (v : Json) (hv : v ≠ .null) (hn : ∀ n : ℕ, n < 2 ^ bits → v ≠ .num n) (x y : ℕ) :
    uintStep bits x v ≠ .ok y := by
  cases v with
  | null => exact absurd rfl hv
  | num n =>
    show (if 0 ≤ n ∧ n < 2 ^ bits then Except.ok n.toNat else Except.error "number out of range") ≠ _
    split
    · rename_i h
      have := hn n.toNat (by have := h.2; zify; rw [Int.toNat_of_nonneg h.1]; exact this)
      rw [Int.toNat_of_nonneg h.1] at this
      exact absurd rfl this
    · simp
  | _ => simp [uintStep]

/-- the unsigned parameters of a vote proof and their sizes in bits (voteproof/marshal.go:22-30) -/
def unsignedParams : List (String × ℕ) := [("Bx", 8), ("Bc", 16), ("Bg", 16), ("RangeLo", 16), ("RangeHi", 16)]

/-- **C71** An unsigned parameter of a vote proof that is anything but `null` or an integer literal without sign below `2^bits` makes
the call fail, whatever else the proof contains.  The literal `-0` is such a value. -/
theorem C71_bad_unsigned (C₁ : Codec E₁) (C₂ : Codec E₂) (gFF : Grp E₁) (gEC : Grp E₂) (pre post ipre ipost : List (String × Json))
    (k k' f : String) (bits : ℕ) (v : Json) (hk : fieldOf sigmaFields k = some "Params") (hk' : fieldOf proofParamsFields k' = some f)
    (hf : (f, bits) ∈ unsignedParams) (hv : v ≠ .null) (hn : ∀ n : ℕ, n < 2 ^ bits → v ≠ .num n) :
    ∃ e, decSigma C₁ C₂ gFF gEC (some (.obj (pre ++ (k, .obj (ipre ++ (k', v) :: ipost)) :: post))) = some (.error e) := by
  suffices h : ∃ e, rawSigma (some (.obj (pre ++ (k, .obj (ipre ++ (k', v) :: ipost)) :: post))) = .error e by
    obtain ⟨e, he⟩ := h
    exact ⟨e, by unfold decSigma; rw [he]⟩
  cases hr : rawSigma (some (.obj (pre ++ (k, .obj (ipre ++ (k', v) :: ipost)) :: post))) with
  | error e => exact ⟨e, rfl⟩
  | ok r =>
  exfalso
  unfold rawSigma asObj at hr
  obtain ⟨kvs, hkvs, hr⟩ := except_bind hr
  injection hkvs with hkvs
  subst hkvs
  dsimp only at hr
  obtain ⟨_, _, hr⟩ := except_bind hr
  obtain ⟨_, _, hr⟩ := except_bind hr
  obtain ⟨_, _, hr⟩ := except_bind hr
  obtain ⟨_, _, hr⟩ := except_bind hr
  obtain ⟨_, _, hr⟩ := except_bind hr
  obtain ⟨_, hp, hr⟩ := except_bind hr
  unfold rawProofParams at hp
  obtain ⟨kvs, hkvs, hp⟩ := except_bind hp
  dsimp only at hp
  rw [fieldVals_append, fieldVals_cons, if_pos hk] at hkvs
  obtain ⟨b, c, rfl⟩ := asObjs_mid _ _ _ _ hkvs
  obtain ⟨_, h1, hp⟩ := except_bind hp
  obtain ⟨_, h2, hp⟩ := except_bind hp
  obtain ⟨_, h3, hp⟩ := except_bind hp
  obtain ⟨_, h4, hp⟩ := except_bind hp
  obtain ⟨_, h5, hp⟩ := except_bind hp
  obtain ⟨_, h6, hp⟩ := except_bind hp
  have bad : ∃ e, asUInt bits (fieldVals proofParamsFields (b ++ (ipre ++ (k', v) :: ipost) ++ c) f) = .error e := by
    simp only [List.append_assoc, List.cons_append, fieldVals_append, fieldVals_cons, if_pos hk']
    rw [← List.append_assoc]
    exact decodeSeq_bad _ _ _ _ (uintStep_bad bits v hv hn) _
  obtain ⟨e, he⟩ := bad
  simp only [unsignedParams, List.mem_cons, List.not_mem_nil, or_false, Prod.mk.injEq] at hf
  rcases hf with ⟨rfl, rfl⟩ | ⟨rfl, rfl⟩ | ⟨rfl, rfl⟩ | ⟨rfl, rfl⟩ | ⟨rfl, rfl⟩
  · rw [he] at h1; exact absurd h1 (by simp)
  · rw [he] at h2; exact absurd h2 (by simp)
  · rw [he] at h3; exact absurd h3 (by simp)
  · rw [he] at h5; exact absurd h5 (by simp)
  · rw [he] at h6; exact absurd h6 (by simp)

theorem asBig_last (xs : List Json) (n : Json) (x y : Option Int) (h : asBig xs = .ok x) (hn : bigStep x n = .ok y) :
    asBig (xs ++ [n]) = .ok y := by
  unfold asBig at h ⊢
  rw [decodeSeq_append, h]
  simp only [bind, Except.bind, decodeSeq, hn]

/-- **C71** A scalar of a range proof given once more: a number replaces the value, `null` removes it (and the server then panics,
`C45_missing_scalar`); the rest of the proof is unaffected. -/
theorem C71_last_scalar (C : Codec E) (params : BPParams E) (kvs : List (String × Json)) (k : String) (v : Json) (x : Option Int)
    (p : BulletProof E) (h : decBP C params (some (.obj kvs)) = some (.ok p))
    (hv : (v = .null ∧ x = none) ∨ (v = .negZero ∧ x = some 0) ∨ ∃ n, v = .num n ∧ x = some n) :
    (fieldOf bpFields k = some "Taux" → decBP C params (some (.obj (kvs ++ [(k, v)]))) = some (.ok { p with Taux := x })) ∧
    (fieldOf bpFields k = some "Mu" → decBP C params (some (.obj (kvs ++ [(k, v)]))) = some (.ok { p with Mu := x })) ∧
    (fieldOf bpFields k = some "Tprime" → decBP C params (some (.obj (kvs ++ [(k, v)]))) = some (.ok { p with Tprime := x })) := by
  obtain ⟨j, hj, hp⟩ := decBP_inv h
  unfold rawBP asObj at hj
  obtain ⟨kvs', hkvs, hj⟩ := except_bind hj
  injection hkvs with hkvs
  subst hkvs
  dsimp only at hj
  obtain ⟨taux, h1, hj⟩ := except_bind hj
  obtain ⟨mu, h2, hj⟩ := except_bind hj
  obtain ⟨tprime, h3, hj⟩ := except_bind hj
  obtain ⟨ip, h4, hj⟩ := except_bind hj
  simp only [pure, Except.pure, Except.ok.injEq] at hj
  have hstep : ∀ y, bigStep y v = .ok x := by
    rintro y
    rcases hv with ⟨rfl, rfl⟩ | ⟨rfl, rfl⟩ | ⟨n, rfl, rfl⟩ <;> rfl
  have raw : ∀ f, fieldOf bpFields k = some f → ∀ g, fieldVals bpFields (kvs ++ [(k, v)]) g =
      if f = g then fieldVals bpFields kvs g ++ [v] else fieldVals bpFields kvs g := by
    intro f hf g
    rw [fieldVals_append, fieldVals_cons, hf]
    by_cases e : f = g
    · rw [if_pos e, if_pos (by rw [e])]; rfl
    · rw [if_neg e, if_neg (by simpa using e)]; simp [fieldVals]
  have fin : ∀ j' : BPRaw, ∀ p', rawBP (some (.obj (kvs ++ [(k, v)]))) = .ok j' → decBPRaw C params j' = some p' →
      decBP C params (some (.obj (kvs ++ [(k, v)]))) = some (.ok p') := by
    intro j' p' e1 e2
    unfold decBP
    rw [e1]
    show Option.map _ (decBPRaw C params j') = _
    rw [e2]
    rfl
  have parts : ∀ t m u, decBPRaw C params { j with Taux := t, Mu := m, Tprime := u } =
      some { p with Taux := t, Mu := m, Tprime := u } := by
    intro t m u
    unfold decBPRaw at hp ⊢
    dsimp only at hp ⊢
    unbind hp with ip' e1
    unbind hp with v e2
    unbind hp with a e3
    unbind hp with s e4
    unbind hp with t1 e5
    unbind hp with t2 e6
    simp only [Option.some.injEq] at hp
    subst hp
    runs e1
    runs e2
    runs e3
    runs e4
    runs e5
    runs e6
    rfl
  obtain ⟨pt, pm, pu⟩ : p.Taux = taux ∧ p.Mu = mu ∧ p.Tprime = tprime := by
    unfold decBPRaw at hp
    dsimp only at hp
    unbind hp with ip' e1
    unbind hp with v e2
    unbind hp with a e3
    unbind hp with s e4
    unbind hp with t1 e5
    unbind hp with t2 e6
    simp only [Option.some.injEq] at hp
    subst hp hj
    exact ⟨rfl, rfl, rfl⟩
  have run : ∀ f, fieldOf bpFields k = some f → ∀ t m u,
      asBig (fieldVals bpFields (kvs ++ [(k, v)]) "Taux") = .ok t →
      asBig (fieldVals bpFields (kvs ++ [(k, v)]) "Mu") = .ok m →
      asBig (fieldVals bpFields (kvs ++ [(k, v)]) "Tprime") = .ok u → f ∈ ["Taux", "Mu", "Tprime"] →
      rawBP (some (.obj (kvs ++ [(k, v)]))) = .ok { j with Taux := t, Mu := m, Tprime := u } := by
    intro f hf t m u a1 a2 a3 hmem
    have keep : ∀ g, g ∉ ["Taux", "Mu", "Tprime"] → fieldVals bpFields (kvs ++ [(k, v)]) g = fieldVals bpFields kvs g := by
      intro g hg
      rw [raw f hf g, if_neg (show ¬ f = g from fun e => hg (e ▸ hmem))]
    unfold rawBP asObj
    simp only [bind, Except.bind, a1, a2, a3, lookupField_eq]
    rw [keep "InnerProductProof" (by decide), keep "V" (by decide), keep "A" (by decide), keep "S" (by decide), keep "T1" (by decide),
      keep "T2" (by decide), h4]
    subst hj
    simp only [lookupField_eq]
    rfl
  refine ⟨fun hf => ?_, fun hf => ?_, fun hf => ?_⟩
  · refine fin _ _ (run _ hf x mu tprime ?_ ?_ ?_ (by simp)) ?_
    · rw [raw _ hf, if_pos rfl]; exact asBig_last _ _ _ _ h1 (hstep _)
    · rw [raw _ hf, if_neg (by decide)]; exact h2
    · rw [raw _ hf, if_neg (by decide)]; exact h3
    · rw [parts, ← pm, ← pu]
  · refine fin _ _ (run _ hf taux x tprime ?_ ?_ ?_ (by simp)) ?_
    · rw [raw _ hf, if_neg (by decide)]; exact h1
    · rw [raw _ hf, if_pos rfl]; exact asBig_last _ _ _ _ h2 (hstep _)
    · rw [raw _ hf, if_neg (by decide)]; exact h3
    · rw [parts, ← pt, ← pu]
  · refine fin _ _ (run _ hf taux mu x ?_ ?_ ?_ (by simp)) ?_
    · rw [raw _ hf, if_neg (by decide)]; exact h1
    · rw [raw _ hf, if_neg (by decide)]; exact h2
    · rw [raw _ hf, if_pos rfl]; exact asBig_last _ _ _ _ h3 (hstep _)
    · rw [parts, ← pt, ← pm]

/-- C71 on the toy election: the range proof's `InnerProductProof` given in two pieces and followed by `null` is the same proof;
with the pieces' `Cc` a string, the document is refused; a second `Taux` that is `null` makes the server panic. -/
example : (match castVote exSha3 exElection.pp exCast with
    | .done b => (match encBP modPCodec b.BpLower with
      | some (.ok (.obj [v, a, s, t1, t2, taux, mu, tp, (_, .obj [p, cc, ia, ib, l, r, ps]), _])) =>
        [[v, a, s, t1, t2, taux, ("InnerProductProof", .obj [p, cc, l, ps]), mu, tp, ("innerproductproof", .obj [ia, ib, r]),
            ("InnerProductProof", .null)],
          [("InnerProductProof", .obj [("Cc", .str "1")]), v, a, s, t1, t2, taux, mu, tp,
            ("InnerProductProof", .obj [p, cc, ia, ib, l, r, ps])],
          [v, a, s, t1, t2, taux, mu, tp, ("InnerProductProof", .obj [p, cc, ia, ib, l, r, ps]), ("TAUX", .null)]].map fun kvs =>
        (match decBP modPCodec exElection.bp (some (.obj kvs)) with
          | some (.ok p) => some (p.verify exSha3)
          | _ => none)
      | _ => [])
    | _ => []) = [some (some true), none, some none] := by decide +kernel

/-- the lists of field names of all decoders -/
def allFields : List (List String) :=
  [ipParamsFields, ipProofFields, bpFields, groupParamsFields, proofParamsFields, sigmaFields, ballotFields, ["u", "v"],
    ["x", "y"]]

/-- **C71** Which keys name a field, in every decoder: those equal to its name letter by letter, where a letter may stand in either case,
the Kelvin sign may stand for K and the long s for S; no other.  No key names two fields. -/
theorem C71_key (fields : List String) (h : fields ∈ allFields) (k f : String) :
    fieldOf fields k = some f ↔ f ∈ fields ∧ SameKey f k := by
  have ascii : ∀ fs ∈ allFields, ∀ g ∈ fs, ∀ c ∈ g.toList, c.toNat < 128 := by decide +kernel
  replace ascii := ascii fields h
  have apart : ∀ fs ∈ allFields, ∀ g ∈ fs, ∀ g' ∈ fs, foldKey g = foldKey g' → g = g' := by decide +kernel
  replace apart := apart fields h
  unfold fieldOf
  split
  · rename_i hk
    constructor
    · intro e
      rw [Option.some.injEq] at e
      subst e
      exact ⟨hk, (foldKey_iff _ _ (ascii _ hk)).mp rfl⟩
    · rintro ⟨hf, hs⟩
      rw [← foldKey_iff _ _ (ascii f hf)] at hs
      rw [apart f hf k hk hs]
  · constructor
    · intro e
      have h1 := List.mem_of_find?_eq_some e
      have h2 := List.find?_some e
      rw [beq_iff_eq, foldKey_iff _ _ (ascii f h1)] at h2
      exact ⟨h1, h2⟩
    · rintro ⟨hf, hs⟩
      rw [← foldKey_iff _ _ (ascii f hf)] at hs
      cases hc : fields.find? (fun f => foldKey f == foldKey k) with
      | none =>
        rw [List.find?_eq_none] at hc
        exact absurd (beq_iff_eq.mpr hs) (hc f hf)
      | some g =>
        have h1 := List.mem_of_find?_eq_some hc
        have h2 := List.find?_some hc
        rw [beq_iff_eq, ← hs] at h2
        rw [apart g h1 f hf h2]

/-- C71: `-0` meets the conditions of `C71_bad_unsigned`, for a scalar it is zero -/
example : (∀ n : ℕ, n < 2 ^ 8 → Json.negZero ≠ .num n) ∧ asUInt 8 [.num 0] = .ok 0 ∧ asInt64 [.negZero] = .ok 0 ∧
    asBig [.negZero] = .ok (some 0) ∧ fieldOf sigmaFields "params" = some "Params" ∧ fieldOf proofParamsFields "bx" = some "Bx" :=
  ⟨fun _ _ => by simp, rfl, rfl, rfl, by decide +kernel, by decide +kernel⟩

/-- C71: the keys of those statements on concrete spellings; the Kelvin sign counts as a `k`. -/
example : fieldOf bpFields "innerPRODUCTproof" = some "InnerProductProof" ∧ fieldOf ipProofFields "params" = some "Params" ∧
    fieldOf sigmaFields (String.ofList [Char.ofNat 0x212a, 'p']) = some "Kp" ∧ fieldOf bpFields "taux" = some "Taux" ∧
    fieldOf bpFields "Tau" = none := by decide +kernel

end
end MscPoc
