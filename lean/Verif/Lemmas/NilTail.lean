import Verif.Model.NilTail
import Verif.Lemmas.Marshal
import Verif.Spec.JsonEdit
import Verif.Props.Json

/-!
# Decoded proofs with nil elements: relation to the lists without them
-/

set_option autoImplicit false

namespace MscPoc

section
variable {E E₁ E₂ : Type}

/-- a slice whose last `k` entries are nil -/
def withNils (l : List E) (k : ℕ) : List (Option E) := l.map some ++ List.replicate k none

/-- an inner-product proof whose `Hh` ends with `kH` and whose `R` ends with `kR` nil entries -/
def IPProof.withNils (p : IPProof E) (kH kR : ℕ) : NIPProof E where
  P := p.P
  Cc := p.Cc
  A := p.A
  B := p.B
  L := p.L
  R := MscPoc.withNils p.R kR
  Params := { Gg := p.Params.Gg, Hh := MscPoc.withNils p.Params.Hh kH, Uu := p.Params.Uu, GP := p.Params.GP }

/-- a range proof whose inner-product proof has nil entries -/
def BulletProof.withNils (p : BulletProof E) (kH kR : ℕ) : NBulletProof E where
  V := p.V
  A := p.A
  S := p.S
  T1 := p.T1
  T2 := p.T2
  Taux := p.Taux
  Mu := p.Mu
  Tprime := p.Tprime
  InnerProductProof := p.InnerProductProof.withNils kH kR
  Params := p.Params

/-! ## Decoding -/

theorem decPairsN_eq (GP : Grp E) (C : Codec E) : ∀ xs ys : List Json,
    decPairsN GP C xs ys = (decPairs GP C xs ys).map fun ab => (ab.1, withNils ab.2 (ys.length - xs.length))
  | [], ys => by
    simp [decPairsN, decPairs, withNils, List.map_const']
  | _ :: _, [] => rfl
  | x :: xs, y :: ys => by
    unfold decPairsN decPairs
    rw [decPairsN_eq GP C xs ys]
    cases C.decode GP.elt (some x) with
    | none => rfl
    | some a =>
      cases C.decode GP.elt (some y) with
      | none => rfl
      | some b =>
        cases decPairs GP C xs ys with
        | none => rfl
        | some ab => simp [withNils]

/-- the numbers of nil entries: how much longer the second arrays are -/
def IPProofRaw.nilH (j : IPProofRaw) : ℕ := j.Params.Hh.length - j.Params.Gg.length
def IPProofRaw.nilR (j : IPProofRaw) : ℕ := j.R.length - j.L.length

theorem decIPProofN_eq (GP : Grp E) (C : Codec E) (j : IPProofRaw) :
    decIPProofN GP C j = (decIPProof GP C j).map fun p => p.withNils j.nilH j.nilR := by
  unfold decIPProofN decIPProof decIPParamsN decIPParams
  rw [decPairsN_eq, decPairsN_eq]
  cases C.decode GP.elt j.Params.Uu with
  | none => rfl
  | some uu =>
    cases decPairs GP C j.Params.Gg j.Params.Hh with
    | none => rfl
    | some gh =>
      cases decPairs GP C j.L j.R with
      | none => rfl
      | some lr =>
        cases h : C.decode GP.elt j.P with
        | none => simp [h]
        | some p => simp [h, IPProof.withNils, IPProofRaw.nilH, IPProofRaw.nilR]

theorem decBPRawN_eq (C : Codec E) (params : BPParams E) (j : BPRaw) :
    decBPRawN C params j = (decBPRaw C params j).map fun p => p.withNils j.IP.nilH j.IP.nilR := by
  unfold decBPRawN decBPRaw
  dsimp only
  rw [decIPProofN_eq]
  cases decIPProof params.GP C j.IP with
  | none => rfl
  | some ip =>
    cases C.decode params.GP.elt j.V with
    | none => rfl
    | some v => cases C.decode params.GP.elt j.A with
      | none => rfl
      | some a => cases C.decode params.GP.elt j.S with
        | none => rfl
        | some s => cases C.decode params.GP.elt j.T1 with
          | none => rfl
          | some t1 => cases C.decode params.GP.elt j.T2 with
            | none => rfl
            | some t2 => rfl

/-! ## Verification -/

theorem withNils_zero (l : List E) : withNils l 0 = l.map some := by simp [withNils]

theorem hashIPLoopN_eq (GP : Grp E) (k : ℕ) : ∀ g h : List E, hashIPLoopN GP g (withNils h k) = hashIPLoop GP g h
  | [], _ => by simp [hashIPLoopN, hashIPLoop]
  | g :: gs, [] => by
    cases k with
    | zero => rfl
    | succ k => simp [withNils, List.replicate_succ, hashIPLoopN, hashIPLoop]
  | g :: gs, h :: hs => by
    have ih := hashIPLoopN_eq GP k gs hs
    have e : withNils (h :: hs) k = some h :: withNils hs k := rfl
    rw [e]
    unfold hashIPLoopN hashIPLoop
    rw [ih]
    rfl

theorem vectorScalarExpN_map (GP : Grp E) (b : Option Int) : ∀ a : List E,
    vectorScalarExpN GP (a.map some) b = vectorScalarExp GP a b
  | [] => by cases b <;> rfl
  | a :: as => by
    have ih := vectorScalarExpN_map GP b as
    cases b with
    | none => simp [vectorScalarExpN, vectorScalarExp]
    | some s =>
      rw [List.map_cons, vectorScalarExpN, ih]
      cases as <;> simp [vectorScalarExp]

theorem vectorScalarExpN_nil (GP : Grp E) (b : Option Int) : ∀ a : List (Option E), none ∈ a → vectorScalarExpN GP a b = none
  | [], h => by simp at h
  | a :: as, h => by
    unfold vectorScalarExpN
    cases a with
    | none => rfl
    | some a =>
      rw [vectorScalarExpN_nil GP b as (by simpa using h)]
      cases b <;> rfl

theorem foldGensN_map (GP : Grp E) (g h : List E) (x : Int) (n : ℕ) :
    foldGensN GP g (h.map some) x n = foldGens GP g h x n := by
  have e1 : sliceTo (h.map some) n = (sliceTo h n).map (List.map some) := by
    unfold sliceTo; simp only [List.length_map]; split <;> simp [List.map_take]
  have e2 : sliceFrom (h.map some) n = (sliceFrom h n).map (List.map some) := by
    unfold sliceFrom; simp only [List.length_map]; split <;> simp [List.map_drop]
  unfold foldGensN foldGens
  rw [e1, e2]
  cases sliceTo g n with
  | none => rfl
  | some g1 => cases sliceFrom g n with
    | none => cases vectorScalarExp GP g1 (modInverse x GP.N) <;> rfl
    | some g2 => cases sliceTo h n with
      | none => rfl
      | some h1 => cases sliceFrom h n with
        | none => simp [vectorScalarExpN_map]
        | some h2 => simp [vectorScalarExpN_map]

theorem foldGensN_nil (GP : Grp E) (g h : List E) (x : Int) {n k : ℕ} (hn : n ≤ h.length) (hk : k ≠ 0) :
    foldGensN GP g (withNils h k) x n = none := by
  have e2 : sliceFrom (withNils h k) n = some ((withNils h k).drop n) := by
    unfold sliceFrom; rw [if_pos (by simp [withNils]; omega)]
  have m : none ∈ (withNils h k).drop n := by
    unfold withNils
    rw [List.drop_append_of_le_length (by simpa using hn)]
    simp [hk]
  unfold foldGensN
  rw [e2]
  simp [vectorScalarExpN_nil GP _ _ m]

theorem ipVerifyLoopN_map (sha : Bytes → Bytes) (GP : Grp E) (kR : ℕ) : ∀ (Ls Rs g h : List E) (P : E) (n : ℕ),
    ipVerifyLoopN sha GP Ls (withNils Rs kR) g (h.map some) P n =
      (ipVerifyLoop sha GP Ls Rs g h P n).map fun r => (r.1, r.2.1.map some, r.2.2)
  | [], _, _, _, _, _ => by simp [ipVerifyLoopN, ipVerifyLoop]
  | _ :: _, [], _, _, _, _ => by
    cases kR <;> simp [withNils, List.replicate_succ, ipVerifyLoopN, ipVerifyLoop]
  | L :: Ls, R :: Rs, g, h, P, n => by
    have e : withNils (R :: Rs) kR = some R :: withNils Rs kR := rfl
    rw [e]
    unfold ipVerifyLoopN ipVerifyLoop
    simp only [foldGensN_map, Option.bind_eq_bind, Option.bind_some]
    cases foldGens GP g h (hashBP sha GP L R).1 (n / 2) with
    | none => rfl
    | some gh =>
      simp only [Option.bind_some]
      cases modInverse ((hashBP sha GP L R).1 * (hashBP sha GP L R).1 % GP.N) GP.N with
      | none => rfl
      | some xi => exact ipVerifyLoopN_map sha GP kR Ls Rs _ _ _ _

theorem hashIPLoop_length (GP : Grp E) : ∀ {g h : List E} {b : Bytes}, hashIPLoop GP g h = some b → g.length ≤ h.length
  | [], _, _, _ => by simp
  | _ :: _, [], _, e => by simp [hashIPLoop] at e
  | _ :: gs, _ :: hs, _, e => by
    unfold hashIPLoop at e
    unbind e with r er
    simpa using hashIPLoop_length GP er

theorem withNils_head {α : Type} (l : List E) (k : ℕ) (f : E → Option α) :
    ((withNils l k)[0]?.bind fun h => h.bind f) = l[0]?.bind f := by
  cases l with
  | nil => cases k <;> simp [withNils, List.replicate_succ]
  | cons a l => simp [withNils]

/-- nil entries at the end of `Hh` make the verifier panic as soon as there is one round; otherwise they change nothing; nil
entries at the end of `R` never matter -/
theorem NIPProof.verify_eq (sha : Bytes → Bytes) (p : IPProof E) (kH kR : ℕ) :
    (p.withNils kH kR).verify sha = if kH = 0 ∨ p.L = [] then p.verify sha else none := by
  unfold NIPProof.verify IPProof.verify hashIPN hashIP
  simp only [IPProof.withNils, hashIPLoopN_eq]
  cases p.Cc with
  | none => simp
  | some c =>
    simp only [Option.bind_eq_bind, Option.bind_some]
    cases hl : hashIPLoop p.Params.GP p.Params.Gg p.Params.Hh with
    | none => simp
    | some mid =>
      have hlen := hashIPLoop_length _ hl
      simp only [Option.bind_some]
      have e : ∀ x, computePPN p.P c x { Gg := p.Params.Gg, Hh := MscPoc.withNils p.Params.Hh kH, Uu := p.Params.Uu, GP := p.Params.GP } =
          computePP p.P c x p.Params := fun x => rfl
      simp only [e]
      generalize computePP p.P c (fromByteArray (sha (p.Params.GP.str p.P ++ mid ++ bigDec c))) p.Params = pp
      by_cases hk : kH = 0
      · subst hk
        rw [if_pos (Or.inl rfl), withNils_zero, ipVerifyLoopN_map]
        cases ipVerifyLoop sha p.Params.GP p.L p.R p.Params.Gg p.Params.Hh pp.1 p.Params.Gg.length with
        | none => rfl
        | some r => simp only [Option.map_some, Option.bind_some, ← withNils_zero, withNils_head]
      · cases hL : p.L with
        | nil =>
          simp only [or_true, if_true, ipVerifyLoopN, ipVerifyLoop, Option.bind_some, withNils_head]
        | cons L Ls =>
          rw [if_neg (by simp [hk])]
          have : ipVerifyLoopN sha p.Params.GP (L :: Ls) (MscPoc.withNils p.R kR) p.Params.Gg (MscPoc.withNils p.Params.Hh kH) pp.1
              p.Params.Gg.length = none := by
            cases MscPoc.withNils p.R kR with
            | nil => rfl
            | cons R Rs =>
              unfold ipVerifyLoopN
              cases R with
              | none => rfl
              | some R =>
                simp [foldGensN_nil p.Params.GP p.Params.Gg p.Params.Hh (hashBP sha p.Params.GP L R).1
                  (show p.Params.Gg.length / 2 ≤ _ by omega) hk]
          rw [this]
          rfl

/-- range proofs -/
theorem NBulletProof.verify_eq (sha : Bytes → Bytes) (p : BulletProof E) (kH kR : ℕ) :
    (p.withNils kH kR).verify sha = if kH = 0 ∨ p.InnerProductProof.L = [] then p.verify sha else none := by
  unfold NBulletProof.verify BulletProof.verify
  simp only [BulletProof.withNils, NIPProof.verify_eq]
  by_cases h : kH = 0 ∨ p.InnerProductProof.L = []
  · simp only [if_pos h]
    rfl
  · simp only [if_neg h, Option.bind_eq_bind, Option.bind_none, Option.bind_fun_none]

/-! ## Longer arrays in an encoded range proof -/

open JSpec

theorem decPairs_append (GP : Grp E) (C : Codec E) (zs : List Json) : ∀ {xs ys : List Json} {ab : List E × List E},
    decPairs GP C xs ys = some ab → decPairs GP C xs (ys ++ zs) = some ab ∧ xs.length ≤ ys.length
  | [], _, _, h => by simpa [decPairs] using h
  | _ :: _, [], _, h => by simp [decPairs] at h
  | x :: xs, y :: ys, ab, h => by
    unfold decPairs at h
    unbind h with a ea
    unbind h with b eb
    unbind h with cd ecd
    obtain ⟨h1, h2⟩ := decPairs_append GP C zs ecd
    refine ⟨?_, by simpa using h2⟩
    rw [List.cons_append]
    unfold decPairs
    runs ea
    runs eb
    runs h1
    exact h

/-- the document of a range proof -/
def bpDoc (v a s t1 t2 : Json) (taux mu tprime : Option Int) (pj : Json) (cc ia ib : Option Int) (l r gg hh : List Json)
    (uu gp params : Json) : Json :=
  .obj [("V", v), ("A", a), ("S", s), ("T1", t1), ("T2", t2), ("Taux", bigJson taux), ("Mu", bigJson mu),
    ("Tprime", bigJson tprime), ("InnerProductProof", .obj [("P", pj), ("Cc", bigJson cc), ("a", bigJson ia), ("b", bigJson ib),
      ("L", .arr l), ("R", .arr r), ("Params", .obj [("Gg", .arr gg), ("Hh", .arr hh), ("Uu", uu), ("GP", gp)])]),
    ("Params", params)]

theorem rawBP_doc (v a s t1 t2 : Json) (taux mu tprime : Option Int) (pj : Json) (cc ia ib : Option Int) (l r gg hh : List Json)
    (uu gp params : Json) : rawBP (some (bpDoc v a s t1 t2 taux mu tprime pj cc ia ib l r gg hh uu gp params)) =
      .ok { V := some v, A := some a, S := some s, T1 := some t1, T2 := some t2, Taux := taux, Mu := mu, Tprime := tprime,
            IP := { P := some pj, Cc := cc, A := ia, B := ib, L := l, R := r, Params := { Uu := some uu, Gg := gg, Hh := hh } } } := by
  have e1 : rawIPProof [.obj [("P", pj), ("Cc", bigJson cc), ("a", bigJson ia), ("b", bigJson ib),
      ("L", .arr l), ("R", .arr r), ("Params", .obj [("Gg", .arr gg), ("Hh", .arr hh), ("Uu", uu), ("GP", gp)])]] =
      .ok { P := some pj, Cc := cc, A := ia, B := ib, L := l, R := r, Params := { Uu := some uu, Gg := gg, Hh := hh } } := by
    have : rawIPProof [.obj [("P", pj), ("Cc", bigJson cc), ("a", bigJson ia), ("b", bigJson ib),
        ("L", .arr l), ("R", .arr r), ("Params", .obj [("Gg", .arr gg), ("Hh", .arr hh), ("Uu", uu), ("GP", gp)])]] =
        (asBig [bigJson cc] >>= fun cc => asBig [bigJson ia] >>= fun ia => asBig [bigJson ib] >>= fun ib =>
          .ok { P := some pj, Cc := cc, A := ia, B := ib, L := l, R := r, Params := { Uu := some uu, Gg := gg, Hh := hh } }) := rfl
    rw [this]
    simp only [asBig_bigJson, bind, Except.bind]
  have e2 : rawBP (some (bpDoc v a s t1 t2 taux mu tprime pj cc ia ib l r gg hh uu gp params)) =
      (asBig [bigJson taux] >>= fun taux => asBig [bigJson mu] >>= fun mu => asBig [bigJson tprime] >>= fun tprime =>
        rawIPProof [.obj [("P", pj), ("Cc", bigJson cc), ("a", bigJson ia), ("b", bigJson ib),
          ("L", .arr l), ("R", .arr r), ("Params", .obj [("Gg", .arr gg), ("Hh", .arr hh), ("Uu", uu), ("GP", gp)])]] >>= fun ip =>
        .ok { V := some v, A := some a, S := some s, T1 := some t1, T2 := some t2, Taux := taux, Mu := mu, Tprime := tprime,
              IP := ip }) := rfl
  rw [e2, e1]
  simp only [asBig_bigJson, bind, Except.bind]

theorem encElems_length {C : Codec E} {es : List E} : ∀ {l : List Json}, encElems C es = some (.ok l) → l.length = es.length := by
  induction es with
  | nil =>
    intro l h
    simp only [encElems, Option.some.injEq, Except.ok.injEq] at h
    rw [← h]; rfl
  | cons e es ih =>
    intro l h
    unfold encElems at h
    obtain ⟨j, _, h⟩ := bindEnc_inv h
    obtain ⟨js, hj, h⟩ := bindEnc_inv h
    simp only [Option.some.injEq, Except.ok.injEq] at h
    rw [← h, List.length_cons, List.length_cons, ih hj]

/-- what the encoder of range proofs returns -/
theorem encBP_doc {C : Codec E} {p : BulletProof E} {j : Json} (h : encBP C p = some (.ok j)) :
    ∃ v a s t1 t2 pj l r gg hh uu gp params, gg.length = p.InnerProductProof.Params.Gg.length ∧
      hh.length = p.InnerProductProof.Params.Hh.length ∧ j = bpDoc v a s t1 t2 p.Taux p.Mu p.Tprime pj p.InnerProductProof.Cc
      p.InnerProductProof.A p.InnerProductProof.B l r gg hh uu gp params := by
  unfold encBP encIPProof encIPParams encBPParams at h
  obtain ⟨v, _, h⟩ := bindEnc_inv h
  obtain ⟨a, _, h⟩ := bindEnc_inv h
  obtain ⟨s, _, h⟩ := bindEnc_inv h
  obtain ⟨t1, _, h⟩ := bindEnc_inv h
  obtain ⟨t2, _, h⟩ := bindEnc_inv h
  obtain ⟨ip, hip, h⟩ := bindEnc_inv h
  obtain ⟨params, _, h⟩ := bindEnc_inv h
  obtain ⟨pj, _, hip⟩ := bindEnc_inv hip
  obtain ⟨l, _, hip⟩ := bindEnc_inv hip
  obtain ⟨r, _, hip⟩ := bindEnc_inv hip
  obtain ⟨ps, hps, hip⟩ := bindEnc_inv hip
  obtain ⟨gg, hgg, hps⟩ := bindEnc_inv hps
  obtain ⟨hh, hhh, hps⟩ := bindEnc_inv hps
  obtain ⟨uu, _, hps⟩ := bindEnc_inv hps
  simp only [Option.some.injEq, Except.ok.injEq] at h hip hps
  exact ⟨v, a, s, t1, t2, pj, l, r, gg, hh, uu, _, params, encElems_length hgg, encElems_length hhh, by rw [← h, ← hip, ← hps]; rfl⟩

/-- decoding depends on the raw messages -/
theorem decBPN_of_raw {C : Codec E} {params : BPParams E} {r : Raw} {j : BPRaw} (h : rawBP r = .ok j) {p : BulletProof E}
    (hp : decBPRaw C params j = some p) : decBPN C params r = some (.ok (p.withNils j.IP.nilH j.IP.nilR)) := by
  unfold decBPN
  rw [h]
  show Option.map _ (decBPRawN C params j) = _
  rw [decBPRawN_eq, hp]
  rfl

/-- more entries in the second arrays: the decoded lists are the same, with nils behind `Hh` and `R` -/
theorem decBPRaw_more {C : Codec E} {params : BPParams E} {j : BPRaw} {p : BulletProof E} (h : decBPRaw C params j = some p)
    (xs ys : List Json) : decBPRaw C params { j with IP := { j.IP with
        R := j.IP.R ++ xs, Params := { j.IP.Params with Hh := j.IP.Params.Hh ++ ys } } } = some p ∧
      j.IP.Params.Gg.length ≤ j.IP.Params.Hh.length := by
  unfold decBPRaw at h ⊢
  dsimp only at h ⊢
  unbind h with ip eip
  have key : decIPProof params.GP C { j.IP with
        R := j.IP.R ++ xs, Params := { j.IP.Params with Hh := j.IP.Params.Hh ++ ys } } = some ip ∧
      j.IP.Params.Gg.length ≤ j.IP.Params.Hh.length := by
    unfold decIPProof at eip ⊢
    unbind eip with ps eps
    unbind eip with lr elr
    obtain ⟨d3, _⟩ := decPairs_append params.GP C xs elr
    have eps' : decIPParams params.GP C { j.IP.Params with Hh := j.IP.Params.Hh ++ ys } = some ps ∧
        j.IP.Params.Gg.length ≤ j.IP.Params.Hh.length := by
      unfold decIPParams at eps ⊢
      unbind eps with u eu
      unbind eps with gh egh
      obtain ⟨d1, d2⟩ := decPairs_append params.GP C ys egh
      refine ⟨?_, d2⟩
      runs eu
      runs d1
      exact eps
    refine ⟨?_, eps'.2⟩
    runs eps'.1
    runs d3
    exact eip
  refine ⟨?_, key.2⟩
  runs key.1
  exact h

/-- the document of an encoded range proof with one more entry in `Hh`, or in `R` -/
theorem decBPN_push {C : Codec E} {params : BPParams E} {p₀ p : BulletProof E} {j : Json} (h : encBP C p₀ = some (.ok j))
    (hd : decBP C params (some j) = some (.ok p)) (x : Json) : ∃ kH kR,
      decBPN C params (some j) = some (.ok (p.withNils kH kR)) ∧
      decBPN C params (some (edit (push x) ["InnerProductProof", "Params", "Hh"] j)) = some (.ok (p.withNils (kH + 1) kR)) ∧
      ∃ kR', decBPN C params (some (edit (push x) ["InnerProductProof", "R"] j)) = some (.ok (p.withNils kH kR')) := by
  obtain ⟨raw, hraw, hd⟩ := decBP_inv hd
  obtain ⟨v, a, s, t1, t2, pj, l, r, gg, hh, uu, gp, pr, lg, lh, rfl⟩ := encBP_doc h
  rw [rawBP_doc] at hraw
  simp only [Except.ok.injEq] at hraw
  subst hraw
  have m1 := decBPRaw_more hd [] [x]
  have m2 := decBPRaw_more hd [x] []
  simp only [List.append_nil] at m1 m2
  refine ⟨_, _, decBPN_of_raw (rawBP_doc ..) hd, ?_, ?_⟩
  · have e : edit (push x) ["InnerProductProof", "Params", "Hh"] (bpDoc v a s t1 t2 p₀.Taux p₀.Mu p₀.Tprime pj
        p₀.InnerProductProof.Cc p₀.InnerProductProof.A p₀.InnerProductProof.B l r gg hh uu gp pr) =
        bpDoc v a s t1 t2 p₀.Taux p₀.Mu p₀.Tprime pj
          p₀.InnerProductProof.Cc p₀.InnerProductProof.A p₀.InnerProductProof.B l r gg (hh ++ [x]) uu gp pr := by
      simp [edit, bpDoc, push]
    rw [e, decBPN_of_raw (rawBP_doc ..) m1.1]
    have n1 : gg.length ≤ hh.length := m1.2
    have n2 : hh.length + 1 - gg.length = hh.length - gg.length + 1 := by omega
    simp only [IPProofRaw.nilH, IPProofRaw.nilR, List.length_append, List.length_singleton, n2]
  · have e : edit (push x) ["InnerProductProof", "R"] (bpDoc v a s t1 t2 p₀.Taux p₀.Mu p₀.Tprime pj
        p₀.InnerProductProof.Cc p₀.InnerProductProof.A p₀.InnerProductProof.B l r gg hh uu gp pr) =
        bpDoc v a s t1 t2 p₀.Taux p₀.Mu p₀.Tprime pj
          p₀.InnerProductProof.Cc p₀.InnerProductProof.A p₀.InnerProductProof.B l (r ++ [x]) gg hh uu gp pr := by
      simp [edit, bpDoc, push]
    rw [e, decBPN_of_raw (rawBP_doc ..) m2.1]
    exact ⟨_, rfl⟩

/-- arrays of equal length: no nil entries in `Hh` -/
theorem decBPN_plain {C : Codec E} {params : BPParams E} {p₀ p : BulletProof E} {j : Json} (h : encBP C p₀ = some (.ok j))
    (hd : decBP C params (some j) = some (.ok p))
    (hl : p₀.InnerProductProof.Params.Gg.length = p₀.InnerProductProof.Params.Hh.length) :
    ∃ kR, decBPN C params (some j) = some (.ok (p.withNils 0 kR)) := by
  obtain ⟨raw, hraw, hd⟩ := decBP_inv hd
  obtain ⟨v, a, s, t1, t2, pj, l, r, gg, hh, uu, gp, pr, lg, lh, rfl⟩ := encBP_doc h
  rw [rawBP_doc] at hraw
  simp only [Except.ok.injEq] at hraw
  subst hraw
  have e := decBPN_of_raw (rawBP_doc (gp := gp) (params := pr) ..) hd
  have z : hh.length - gg.length = 0 := by omega
  simp only [IPProofRaw.nilH, z] at e
  exact ⟨_, e⟩

end
end MscPoc
