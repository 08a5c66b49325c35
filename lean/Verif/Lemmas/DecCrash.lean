import Verif.Spec.DecCrash
import Verif.Lemmas.Robust

/-!
# Decoding edited documents: lemmas for C84
-/

set_option autoImplicit false

namespace MscPoc

open JSpec

variable {E E₁ E₂ : Type}

theorem bind_none_iff {α β : Type} {x : Option α} {f : α → Option β} : (x >>= f) = none ↔ x = none ∨ ∃ a, x = some a ∧ f a = none := by
  cases x <;> simp

theorem bind_none_const {α β : Type} {x : Option α} {f : α → Option β} {P : Prop} (h : ∀ a, f a = none ↔ P) :
    (x >>= f) = none ↔ x = none ∨ P := by
  cases x with
  | none => simp
  | some a => simp [h a]

theorem decPairs_none (GP : Grp E) (C : Codec E) : ∀ xs ys : List Json,
    decPairs GP C xs ys = none ↔ PairsCrash (fun r => C.decode GP.elt r = none) xs ys
  | [], ys => by simp [decPairs, PairsCrash]
  | x :: xs, [] => by simp [decPairs, PairsCrash]
  | x :: xs, y :: ys => by
    have ih := decPairs_none GP C xs ys
    unfold decPairs
    rw [bind_none_const (fun a => bind_none_const (fun b => bind_none_const (P := False) (by simp)))]
    rw [ih]
    unfold PairsCrash
    simp only [List.length_cons, List.mem_cons, List.take_succ_cons, exists_eq_or_imp, or_false, Nat.add_lt_add_iff_right]
    generalize (C.decode GP.elt (some x) = none) = p₁
    generalize (C.decode GP.elt (some y) = none) = p₂
    generalize (ys.length < xs.length) = p₃
    generalize (∃ x ∈ xs, C.decode GP.elt (some x) = none) = p₄
    generalize (∃ y ∈ List.take xs.length ys, C.decode GP.elt (some y) = none) = p₅
    tauto

theorem decBPRaw_none (C : Codec E) (params : BPParams E) (j : BPRaw) :
    decBPRaw C params j = none ↔ RangeCrash (fun r => C.decode params.GP.elt r = none) j := by
  unfold decBPRaw decIPProof decIPParams
  dsimp only
  rw [bind_none_const (fun _ => bind_none_const (fun _ => bind_none_const (fun _ => bind_none_const (fun _ =>
      bind_none_const (fun _ => bind_none_const (P := False) (by simp)))))),
    bind_none_const (fun _ => bind_none_const (fun _ => bind_none_const (P := False) (by simp))),
    bind_none_const (fun _ => bind_none_const (P := False) (by simp))]
  rw [decPairs_none, decPairs_none]
  unfold RangeCrash
  tauto

theorem decSigmaRaw_none (C₁ : Codec E₁) (C₂ : Codec E₂) (gFF : Grp E₁) (gEC : Grp E₂) (j : SigmaRaw) :
    decSigmaRaw C₁ C₂ gFF gEC j = none ↔
      SigmaCrash (fun r => C₁.decode gFF.elt r = none) (fun r => C₂.decode gEC.elt r = none) j := by
  unfold decSigmaRaw decGroupParams
  rw [bind_none_const (fun _ => bind_none_const (fun _ => bind_none_const (fun _ => bind_none_const (fun _ =>
      bind_none_const (fun _ => bind_none_const (P := False) (by simp)))))),
    bind_none_const (fun _ => bind_none_const (P := False) (by simp)),
    bind_none_const (fun _ => bind_none_const (P := False) (by simp))]
  unfold SigmaCrash
  tauto

theorem bindEnc_none {α β : Type} {x : Option (Except String α)} {f : α → Option (Except String β)} {P : Prop}
    (h : ∀ a, f a = none ↔ P) : bindEnc x f = none ↔ x = none ∨ (∃ a, x = some (.ok a)) ∧ P := by
  rcases x with _ | _ | a
  · simp [bindEnc]
  · simp [bindEnc]
  · simp [bindEnc, h a]

theorem decBP_cases (C : Codec E) (params : BPParams E) (r : Raw) {Q : Prop} :
    (decBP C params r = none ∨ (∃ p, decBP C params r = some (.ok p)) ∧ Q) ↔
      ∃ j, rawBP r = .ok j ∧ (RangeCrash (fun r => C.decode params.GP.elt r = none) j ∨ Q) := by
  unfold decBP
  cases hr : rawBP r with
  | error e => simp
  | ok j =>
    have := decBPRaw_none C params j
    simp only [Except.ok.injEq, exists_eq_left']
    rw [← this]
    cases decBPRaw C params j <;> simp

/-- the object of an inner product proof, with any keys for its messages -/
theorem rawIPProof_doc (pj : Json) (cc ia ib : Option Int) (l r gg hh : List Json) (uu gp : Json) :
    rawIPProof [.obj [("P", pj), ("Cc", bigJson cc), ("a", bigJson ia), ("b", bigJson ib),
      ("L", .arr l), ("R", .arr r), ("Params", .obj [("Gg", .arr gg), ("Hh", .arr hh), ("Uu", uu), ("GP", gp)])]] =
      .ok { P := some pj, Cc := cc, A := ia, B := ib, L := l, R := r, Params := { Uu := some uu, Gg := gg, Hh := hh } } ∧
    rawIPProof [.obj [("Cc", bigJson cc), ("a", bigJson ia), ("b", bigJson ib),
      ("L", .arr l), ("R", .arr r), ("Params", .obj [("Gg", .arr gg), ("Hh", .arr hh), ("Uu", uu), ("GP", gp)])]] =
      .ok { P := none, Cc := cc, A := ia, B := ib, L := l, R := r, Params := { Uu := some uu, Gg := gg, Hh := hh } } ∧
    rawIPProof [.obj [("P", pj), ("Cc", bigJson cc), ("a", bigJson ia), ("b", bigJson ib),
      ("L", .arr l), ("R", .arr r), ("Params", .obj [("Gg", .arr gg), ("Hh", .arr hh), ("GP", gp)])]] =
      .ok { P := some pj, Cc := cc, A := ia, B := ib, L := l, R := r, Params := { Uu := none, Gg := gg, Hh := hh } } := by
  have e : ∀ x y : Raw, (asBig [bigJson cc] >>= fun cc => asBig [bigJson ia] >>= fun ia => asBig [bigJson ib] >>= fun ib =>
      (.ok { P := x, Cc := cc, A := ia, B := ib, L := l, R := r, Params := { Uu := y, Gg := gg, Hh := hh } } : Except String IPProofRaw)) =
      .ok { P := x, Cc := cc, A := ia, B := ib, L := l, R := r, Params := { Uu := y, Gg := gg, Hh := hh } } := by
    intro x y
    simp only [asBig_bigJson, bind, Except.bind]
  exact ⟨e _ _, e _ _, e _ _⟩

theorem rawBP_drop (v a s t1 t2 : Json) (taux mu tprime : Option Int) (pj : Json) (cc ia ib : Option Int) (l r gg hh : List Json)
    (uu gp params : Json) : ∀ pk ∈ rangePoints,
    rawBP (some (edit (dropKey pk.2) pk.1 (bpDoc v a s t1 t2 taux mu tprime pj cc ia ib l r gg hh uu gp params))) =
      .ok { V := if pk.2 = "V" then none else some v, A := if pk.2 = "A" then none else some a,
            S := if pk.2 = "S" then none else some s, T1 := if pk.2 = "T1" then none else some t1,
            T2 := if pk.2 = "T2" then none else some t2, Taux := taux, Mu := mu, Tprime := tprime,
            IP := { P := if pk.2 = "P" then none else some pj, Cc := cc, A := ia, B := ib, L := l, R := r,
                    Params := { Uu := if pk.2 = "Uu" then none else some uu, Gg := gg, Hh := hh } } } := by
  have e : ∀ (x1 x2 x3 x4 x5 : Raw) (ipj : Json) (ip : IPProofRaw), rawIPProof [ipj] = .ok ip →
      (asBig [bigJson taux] >>= fun taux => asBig [bigJson mu] >>= fun mu => asBig [bigJson tprime] >>= fun tprime =>
        rawIPProof [ipj] >>= fun ip =>
        (.ok { V := x1, A := x2, S := x3, T1 := x4, T2 := x5, Taux := taux, Mu := mu, Tprime := tprime, IP := ip } : Except String BPRaw)) =
      .ok { V := x1, A := x2, S := x3, T1 := x4, T2 := x5, Taux := taux, Mu := mu, Tprime := tprime, IP := ip } := by
    intro x1 x2 x3 x4 x5 ipj ip h
    rw [h]
    simp only [asBig_bigJson, bind, Except.bind]
  obtain ⟨i1, i2, i3⟩ := rawIPProof_doc pj cc ia ib l r gg hh uu gp
  intro pk hp
  simp only [rangePoints, List.mem_cons, List.not_mem_nil, or_false] at hp
  rcases hp with rfl | rfl | rfl | rfl | rfl | rfl | rfl
  · simp [edit, bpDoc, dropKey]
    exact e _ _ _ _ _ _ _ i1
  · simp [edit, bpDoc, dropKey]
    exact e _ _ _ _ _ _ _ i1
  · simp [edit, bpDoc, dropKey]
    exact e _ _ _ _ _ _ _ i1
  · simp [edit, bpDoc, dropKey]
    exact e _ _ _ _ _ _ _ i1
  · simp [edit, bpDoc, dropKey]
    exact e _ _ _ _ _ _ _ i1
  · simp [edit, bpDoc, dropKey]
    exact e _ _ _ _ _ _ _ i2
  · simp [edit, bpDoc, dropKey]
    exact e _ _ _ _ _ _ _ i3


theorem encSigma_doc2 {C₁ : Codec E₁} {C₂ : Codec E₂} {p : SigmaProof E₁ E₂} {j : Json} (h : encSigma C₁ C₂ p = some (.ok j)) :
    ∃ w kp kq1 kq2 bx bc bg bb lo hi g₁ h₁ i₁ g₂ h₂ i₂, j = sigmaDoc w kp kq1 kq2 p.Challenge p.Z p.Sp p.Sq1 p.Sq2 bx bc bg bb lo hi
      (.obj [("G", g₁), ("H", h₁), ("N", bigJson p.Params.GFF.N), ("F", bigJson p.Params.GFF.F), ("I", i₁)])
      (.obj [("G", g₂), ("H", h₂), ("N", bigJson p.Params.GEC.N), ("F", bigJson p.Params.GEC.F), ("I", i₂)]) := by
  unfold encSigma encProofParams encGroupParams at h
  obtain ⟨w, _, h⟩ := bindEnc_inv h
  obtain ⟨kp, _, h⟩ := bindEnc_inv h
  obtain ⟨kq1, _, h⟩ := bindEnc_inv h
  obtain ⟨kq2, _, h⟩ := bindEnc_inv h
  obtain ⟨ps, hps, h⟩ := bindEnc_inv h
  obtain ⟨gff, h1, hps⟩ := bindEnc_inv hps
  obtain ⟨gec, h2, hps⟩ := bindEnc_inv hps
  obtain ⟨g₁, _, h1⟩ := bindEnc_inv h1
  obtain ⟨h₁, _, h1⟩ := bindEnc_inv h1
  obtain ⟨g₂, _, h2⟩ := bindEnc_inv h2
  obtain ⟨h₂, _, h2⟩ := bindEnc_inv h2
  simp only [Option.some.injEq, Except.ok.injEq] at h hps h1 h2
  exact ⟨w, kp, kq1, kq2, _, _, _, _, _, _, g₁, h₁, _, g₂, h₂, _, by rw [← h, ← hps, ← h1, ← h2]; rfl⟩

/-- the raw messages of a vote proof with another one at one place -/
def SigmaRaw.put (x : Raw) (pk : List String × String) (j : SigmaRaw) : SigmaRaw :=
  { j with
    W := if pk = ([], "W") then x else j.W
    Kp := if pk = ([], "Kp") then x else j.Kp
    Kq1 := if pk = ([], "Kq1") then x else j.Kq1
    Kq2 := if pk = ([], "Kq2") then x else j.Kq2
    Params := { j.Params with
      GFF := { j.Params.GFF with
        G := if pk = (["Params", "GFF"], "G") then x else j.Params.GFF.G
        H := if pk = (["Params", "GFF"], "H") then x else j.Params.GFF.H }
      GEC := { j.Params.GEC with
        G := if pk = (["Params", "GEC"], "G") then x else j.Params.GEC.G
        H := if pk = (["Params", "GEC"], "H") then x else j.Params.GEC.H } } }

theorem rawSigma_put {w kp kq1 kq2 : Json} {c z sp sq1 sq2 : Option Int} {bx bc bg bb lo hi g₁ h₁ i₁ g₂ h₂ i₂ : Json}
    {n₁ f₁ n₂ f₂ : Option Int} {raw : SigmaRaw}
    (h : rawSigma (some (sigmaDoc w kp kq1 kq2 c z sp sq1 sq2 bx bc bg bb lo hi
      (.obj [("G", g₁), ("H", h₁), ("N", bigJson n₁), ("F", bigJson f₁), ("I", i₁)])
      (.obj [("G", g₂), ("H", h₂), ("N", bigJson n₂), ("F", bigJson f₂), ("I", i₂)]))) = .ok raw) :
    ∀ pk ∈ votePoints ++ voteNumbers,
      rawSigma (some (edit (dropKey pk.2) pk.1 (sigmaDoc w kp kq1 kq2 c z sp sq1 sq2 bx bc bg bb lo hi
        (.obj [("G", g₁), ("H", h₁), ("N", bigJson n₁), ("F", bigJson f₁), ("I", i₁)])
        (.obj [("G", g₂), ("H", h₂), ("N", bigJson n₂), ("F", bigJson f₂), ("I", i₂)])))) = .ok (raw.put none pk) ∧
      ∀ x, rawSigma (some (edit (fun _ => x) (pk.1 ++ [pk.2]) (sigmaDoc w kp kq1 kq2 c z sp sq1 sq2 bx bc bg bb lo hi
        (.obj [("G", g₁), ("H", h₁), ("N", bigJson n₁), ("F", bigJson f₁), ("I", i₁)])
        (.obj [("G", g₂), ("H", h₂), ("N", bigJson n₂), ("F", bigJson f₂), ("I", i₂)])))) = .ok (raw.put (some x) pk) := by
  have grp : ∀ (g h i : Json) (n f : Option Int),
      rawGroupParams [.obj [("G", g), ("H", h), ("N", bigJson n), ("F", bigJson f), ("I", i)]] = .ok ⟨some g, some h, n, f⟩ ∧
      rawGroupParams [.obj [("H", h), ("N", bigJson n), ("F", bigJson f), ("I", i)]] = .ok ⟨none, some h, n, f⟩ ∧
      rawGroupParams [.obj [("G", g), ("N", bigJson n), ("F", bigJson f), ("I", i)]] = .ok ⟨some g, none, n, f⟩ := by
    intro g h i n f
    have e : ∀ x y : Raw, (asBig [bigJson n] >>= fun n => asBig [bigJson f] >>= fun f => (.ok ⟨x, y, n, f⟩ : Except String GroupParamsRaw)) =
        .ok ⟨x, y, n, f⟩ := by
      intro x y
      simp only [asBig_bigJson, bind, Except.bind]
    exact ⟨e _ _, e _ _, e _ _⟩
  rw [rawSigma_doc] at h
  cases hps : rawProofParams [.obj [("Bx", bx), ("Bc", bc), ("Bg", bg), ("Bb", bb), ("RangeLo", lo), ("RangeHi", hi),
      ("GFF", .obj [("G", g₁), ("H", h₁), ("N", bigJson n₁), ("F", bigJson f₁), ("I", i₁)]),
      ("GEC", .obj [("G", g₂), ("H", h₂), ("N", bigJson n₂), ("F", bigJson f₂), ("I", i₂)])]] with
  | error e => rw [hps] at h; cases h
  | ok ps =>
  rw [hps] at h
  obtain rfl : _ = raw := Except.ok.inj h
  have hps' := hps
  rw [rawProofParams_doc] at hps'
  obtain ⟨bx', hbx, hps'⟩ := except_bind_ok hps'
  obtain ⟨bc', hbc, hps'⟩ := except_bind_ok hps'
  obtain ⟨bg', hbg, hps'⟩ := except_bind_ok hps'
  obtain ⟨bb', hbb, hps'⟩ := except_bind_ok hps'
  obtain ⟨lo', hlo, hps'⟩ := except_bind_ok hps'
  obtain ⟨hi', hhi, hps'⟩ := except_bind_ok hps'
  obtain ⟨gf, hgf, hps'⟩ := except_bind_ok hps'
  obtain ⟨ge, hge, hps'⟩ := except_bind_ok hps'
  obtain rfl : _ = ps := Except.ok.inj hps'
  rw [(grp ..).1] at hgf hge
  obtain rfl := Except.ok.inj hgf
  obtain rfl := Except.ok.inj hge
  have pp : ∀ (gff gec : Json) (gf ge : GroupParamsRaw), rawGroupParams [gff] = .ok gf → rawGroupParams [gec] = .ok ge →
      rawProofParams [.obj [("Bx", bx), ("Bc", bc), ("Bg", bg), ("Bb", bb), ("RangeLo", lo), ("RangeHi", hi), ("GFF", gff),
        ("GEC", gec)]] = .ok ⟨bx', bc', bg', bb', lo', hi', gf, ge⟩ := by
    intro gff gec gf ge e1 e2
    rw [rawProofParams_doc, hbx, hbc, hbg, hbb, hlo, hhi, e1, e2]
    rfl
  have e : ∀ (x1 x2 x3 x4 : Raw) (psj : Json) (ps : ProofParamsRaw), rawProofParams [psj] = .ok ps →
      (asBig [bigJson c] >>= fun c => asBig [bigJson z] >>= fun z => asBig [bigJson sp] >>= fun sp =>
        asBig [bigJson sq1] >>= fun sq1 => asBig [bigJson sq2] >>= fun sq2 => rawProofParams [psj] >>= fun ps =>
        (.ok { W := x1, Kp := x2, Kq1 := x3, Kq2 := x4, Challenge := c, Z := z, Sp := sp, Sq1 := sq1,
               Sq2 := sq2, Params := ps } : Except String SigmaRaw)) =
      .ok { W := x1, Kp := x2, Kq1 := x3, Kq2 := x4, Challenge := c, Z := z, Sp := sp, Sq1 := sq1, Sq2 := sq2, Params := ps } := by
    intro x1 x2 x3 x4 psj ps h
    rw [h]
    simp only [asBig_bigJson, bind, Except.bind]
  intro pk hp
  simp only [votePoints, voteNumbers, List.cons_append, List.nil_append, List.mem_cons, List.not_mem_nil, or_false] at hp
  rcases hp with rfl | rfl | rfl | rfl | rfl | rfl | rfl | rfl
  · refine ⟨?_, fun x => ?_⟩ <;> simp [edit, sigmaDoc, dropKey, SigmaRaw.put] <;> exact e _ _ _ _ _ _ (pp _ _ _ _ (grp ..).1 (grp ..).1)
  · refine ⟨?_, fun x => ?_⟩ <;> simp [edit, sigmaDoc, dropKey, SigmaRaw.put] <;> exact e _ _ _ _ _ _ (pp _ _ _ _ (grp ..).1 (grp ..).1)
  · refine ⟨?_, fun x => ?_⟩ <;> simp [edit, sigmaDoc, dropKey, SigmaRaw.put]
    · exact e _ _ _ _ _ _ (pp _ _ _ _ (grp ..).1 (grp .null ..).2.1)
    · exact e _ _ _ _ _ _ (pp _ _ _ _ (grp ..).1 (grp ..).1)
  · refine ⟨?_, fun x => ?_⟩ <;> simp [edit, sigmaDoc, dropKey, SigmaRaw.put]
    · exact e _ _ _ _ _ _ (pp _ _ _ _ (grp ..).1 (grp _ .null ..).2.2)
    · exact e _ _ _ _ _ _ (pp _ _ _ _ (grp ..).1 (grp ..).1)
  · refine ⟨?_, fun x => ?_⟩ <;> simp [edit, sigmaDoc, dropKey, SigmaRaw.put] <;> exact e _ _ _ _ _ _ (pp _ _ _ _ (grp ..).1 (grp ..).1)
  · refine ⟨?_, fun x => ?_⟩ <;> simp [edit, sigmaDoc, dropKey, SigmaRaw.put] <;> exact e _ _ _ _ _ _ (pp _ _ _ _ (grp ..).1 (grp ..).1)
  · refine ⟨?_, fun x => ?_⟩ <;> simp [edit, sigmaDoc, dropKey, SigmaRaw.put]
    · exact e _ _ _ _ _ _ (pp _ _ _ _ (grp .null ..).2.1 (grp ..).1)
    · exact e _ _ _ _ _ _ (pp _ _ _ _ (grp ..).1 (grp ..).1)
  · refine ⟨?_, fun x => ?_⟩ <;> simp [edit, sigmaDoc, dropKey, SigmaRaw.put]
    · exact e _ _ _ _ _ _ (pp _ _ _ _ (grp _ .null ..).2.2 (grp ..).1)
    · exact e _ _ _ _ _ _ (pp _ _ _ _ (grp ..).1 (grp ..).1)


/-- leaving out the message of a point: the point is the one the receiver starts with -/
theorem decBP_drop {C : Codec E} {params : BPParams E} {p₀ p : BulletProof E} {j : Json} (h : encBP C p₀ = some (.ok j))
    (hd : decBP C params (some j) = some (.ok p)) (hm : C.decode params.GP.elt none = some params.GP.elt) :
    ∀ pk ∈ rangePoints, decBP C params (some (edit (dropKey pk.2) pk.1 j)) = some (.ok (p.putPoint params.GP.elt pk.2)) := by
  obtain ⟨raw, hraw, hd⟩ := decBP_inv hd
  obtain ⟨v, a, s, t1, t2, pj, l, r, gg, hh, uu, gp, pr, lg, lh, rfl⟩ := encBP_doc h
  rw [rawBP_doc] at hraw
  simp only [Except.ok.injEq] at hraw
  subst hraw
  intro pk hpk
  have f : ∀ (c : Prop) [Decidable c] (x : Raw) (y : E), C.decode params.GP.elt x = some y →
      C.decode params.GP.elt (if c then none else x) = some (if c then params.GP.elt else y) := by
    intro c _ x y hx
    split
    · exact hm
    · exact hx
  unfold decBP
  rw [rawBP_drop _ _ _ _ _ _ _ _ _ _ _ _ _ _ _ _ _ _ _ pk hpk]
  unfold decBPRaw decIPProof decIPParams at hd ⊢
  dsimp only at hd ⊢
  unbind hd with ip eip
  unbind hd with v' ev
  unbind hd with a' ea
  unbind hd with s' es
  unbind hd with t1' et1
  unbind hd with t2' et2
  unbind eip with ps eps
  unbind eip with lr elr
  unbind eip with pp epp
  unbind eps with u eu
  unbind eps with gh egh
  simp only [Option.some.injEq] at hd eip eps
  subst hd eip eps
  simp only [f _ _ _ ev, f _ _ _ ea, f _ _ _ es, f _ _ _ et1, f _ _ _ et2, f _ _ _ epp, f _ _ _ eu, elr, egh,
    Option.bind_eq_bind, Option.bind_some]
  rfl

theorem encBP_doc4 {C : Codec E} {p : BulletProof E} {j : Json} (h : encBP C p = some (.ok j)) :
    ∃ v a s t1 t2 pj l r gg hh uu gp params, (gg.length = p.InnerProductProof.Params.Gg.length ∧
      hh.length = p.InnerProductProof.Params.Hh.length ∧ l.length = p.InnerProductProof.L.length ∧
      r.length = p.InnerProductProof.R.length) ∧ j = bpDoc v a s t1 t2 p.Taux p.Mu p.Tprime pj p.InnerProductProof.Cc
      p.InnerProductProof.A p.InnerProductProof.B l r gg hh uu gp params := by
  unfold encBP encIPProof encIPParams encBPParams at h
  obtain ⟨v, _, h⟩ := bindEnc_inv h
  obtain ⟨a, _, h⟩ := bindEnc_inv h
  obtain ⟨s, _, h⟩ := bindEnc_inv h
  obtain ⟨t1, _, h⟩ := bindEnc_inv h
  obtain ⟨t2, _, h⟩ := bindEnc_inv h
  obtain ⟨ip, hip, h⟩ := bindEnc_inv h
  obtain ⟨params, _, h⟩ := bindEnc_inv h
  obtain ⟨pj, _, hip⟩ := bindEnc_inv hip
  obtain ⟨l, hl, hip⟩ := bindEnc_inv hip
  obtain ⟨r, hr, hip⟩ := bindEnc_inv hip
  obtain ⟨ps, hps, hip⟩ := bindEnc_inv hip
  obtain ⟨gg, hgg, hps⟩ := bindEnc_inv hps
  obtain ⟨hh, hhh, hps⟩ := bindEnc_inv hps
  obtain ⟨uu, _, hps⟩ := bindEnc_inv hps
  simp only [Option.some.injEq, Except.ok.injEq] at h hip hps
  exact ⟨v, a, s, t1, t2, pj, l, r, gg, hh, uu, _, params, ⟨encElems_length hgg, encElems_length hhh, encElems_length hl,
    encElems_length hr⟩, by rw [← h, ← hip, ← hps]; rfl⟩

theorem pairs_null {bad : Raw → Prop} (hn : bad (some .null)) (xs ys : List Json) (i : ℕ) (hi : i < xs.length) :
    PairsCrash bad (xs.set i .null) ys ∧ PairsCrash bad xs (ys.set i .null) := by
  refine ⟨Or.inr (Or.inl ⟨.null, List.mem_iff_getElem.mpr ⟨i, by simpa using hi, by simp⟩, hn⟩), ?_⟩
  by_cases h : i < ys.length
  · refine Or.inr (Or.inr ⟨.null, ?_, hn⟩)
    rw [List.mem_take_iff_getElem]
    exact ⟨i, by simp; omega, by simp⟩
  · exact Or.inl (by simp; omega)

/-- `null` for a point of a range proof, or for an entry of one of its arrays, or an entry missing -/
theorem decBP_crash {C : Codec E} {params : BPParams E} {p₀ : BulletProof E} {j : Json} (h : encBP C p₀ = some (.ok j))
    (hn : C.decode params.GP.elt (some .null) = none) :
    (∀ pk ∈ rangePoints, decBP C params (some (edit (fun _ => .null) (pk.1 ++ [pk.2]) j)) = none) ∧
    (∀ i < p₀.InnerProductProof.Params.Gg.length, ∀ k ∈ ["Gg", "Hh"],
      decBP C params (some (edit (nullAt i) ["InnerProductProof", "Params", k] j)) = none) ∧
    (∀ i < p₀.InnerProductProof.L.length, ∀ k ∈ ["L", "R"],
      decBP C params (some (edit (nullAt i) ["InnerProductProof", k] j)) = none) ∧
    (0 < p₀.InnerProductProof.Params.Gg.length →
      p₀.InnerProductProof.Params.Hh.length ≤ p₀.InnerProductProof.Params.Gg.length →
      decBP C params (some (edit pop ["InnerProductProof", "Params", "Hh"] j)) = none) ∧
    (0 < p₀.InnerProductProof.L.length → p₀.InnerProductProof.R.length ≤ p₀.InnerProductProof.L.length →
      decBP C params (some (edit pop ["InnerProductProof", "R"] j)) = none) := by
  obtain ⟨v, a, s, t1, t2, pj, l, r, gg, hh, uu, gp, pr, ⟨n1, n2, n3, n4⟩, rfl⟩ := encBP_doc4 h
  have key : ∀ (v a s t1 t2 pj : Json) (l r gg hh : List Json) (uu : Json),
      ((v = .null ∨ a = .null ∨ s = .null ∨ t1 = .null ∨ t2 = .null ∨ pj = .null ∨ uu = .null) ∨
        PairsCrash (fun r => C.decode params.GP.elt r = none) gg hh ∨ PairsCrash (fun r => C.decode params.GP.elt r = none) l r) →
      decBP C params (some (bpDoc v a s t1 t2 p₀.Taux p₀.Mu p₀.Tprime pj p₀.InnerProductProof.Cc p₀.InnerProductProof.A
        p₀.InnerProductProof.B l r gg hh uu gp pr)) = none := by
    intro v a s t1 t2 pj l r gg hh uu hb
    unfold decBP
    rw [rawBP_doc]
    dsimp only
    rw [(decBPRaw_none C params _).mpr]
    · rfl
    · refine hb.imp (fun hb => ?_) id
      dsimp only
      rcases hb with rfl | rfl | rfl | rfl | rfl | rfl | rfl <;> simp only [hn, true_or, or_true]
  refine ⟨fun pk hp => ?_, fun i hi k hk => ?_, fun i hi k hk => ?_, fun h1 h2 => ?_, fun h1 h2 => ?_⟩
  · simp only [rangePoints, List.mem_cons, List.not_mem_nil, or_false] at hp
    rcases hp with rfl | rfl | rfl | rfl | rfl | rfl | rfl
    · rw [← key .null a s t1 t2 pj l r gg hh uu (by simp)]; simp [edit, bpDoc]
    · rw [← key v .null s t1 t2 pj l r gg hh uu (by simp)]; simp [edit, bpDoc]
    · rw [← key v a .null t1 t2 pj l r gg hh uu (by simp)]; simp [edit, bpDoc]
    · rw [← key v a s .null t2 pj l r gg hh uu (by simp)]; simp [edit, bpDoc]
    · rw [← key v a s t1 .null pj l r gg hh uu (by simp)]; simp [edit, bpDoc]
    · rw [← key v a s t1 t2 .null l r gg hh uu (by simp)]; simp [edit, bpDoc]
    · rw [← key v a s t1 t2 pj l r gg hh .null (by simp)]; simp [edit, bpDoc]
  · obtain ⟨c1, c2⟩ := pairs_null (bad := fun r => C.decode params.GP.elt r = none) hn gg hh i (n1 ▸ hi)
    simp only [List.mem_cons, List.not_mem_nil, or_false] at hk
    rcases hk with rfl | rfl
    · rw [← key v a s t1 t2 pj l r (gg.set i .null) hh uu (Or.inr (Or.inl c1))]; simp [edit, bpDoc, nullAt]
    · rw [← key v a s t1 t2 pj l r gg (hh.set i .null) uu (Or.inr (Or.inl c2))]; simp [edit, bpDoc, nullAt]
  · obtain ⟨c1, c2⟩ := pairs_null (bad := fun r => C.decode params.GP.elt r = none) hn l r i (n3 ▸ hi)
    simp only [List.mem_cons, List.not_mem_nil, or_false] at hk
    rcases hk with rfl | rfl
    · rw [← key v a s t1 t2 pj (l.set i .null) r gg hh uu (Or.inr (Or.inr c1))]; simp [edit, bpDoc, nullAt]
    · rw [← key v a s t1 t2 pj l (r.set i .null) gg hh uu (Or.inr (Or.inr c2))]; simp [edit, bpDoc, nullAt]
  · rw [← key v a s t1 t2 pj l r gg hh.dropLast uu (Or.inr (Or.inl (Or.inl (by rw [List.length_dropLast]; omega))))]
    simp [edit, bpDoc, pop]
  · rw [← key v a s t1 t2 pj l r.dropLast gg hh uu (Or.inr (Or.inr (Or.inl (by rw [List.length_dropLast]; omega))))]
    simp [edit, bpDoc, pop]

theorem decSigmaRaw_put {C₁ : Codec E₁} {C₂ : Codec E₂} {gFF : Grp E₁} {gEC : Grp E₂} {j : SigmaRaw} {p : SigmaProof E₁ E₂}
    (h : decSigmaRaw C₁ C₂ gFF gEC j = some p) (x : Raw) (pk : List String × String)
    (h₁ : pk ∈ voteNumbers → C₁.decode gFF.elt x = some gFF.elt) (h₂ : pk ∈ votePoints → C₂.decode gEC.elt x = some gEC.elt) :
    decSigmaRaw C₁ C₂ gFF gEC (j.put x pk) = some (p.putPoint gFF.elt gEC.elt pk) := by
  have f₁ : ∀ (q : List String × String) (y : Raw) (e : E₁), q ∈ voteNumbers → C₁.decode gFF.elt y = some e →
      C₁.decode gFF.elt (if pk = q then x else y) = some (if pk = q then gFF.elt else e) := by
    intro q y e hq hy
    split
    · next hc => exact h₁ (hc ▸ hq)
    · exact hy
  have f₂ : ∀ (q : List String × String) (y : Raw) (e : E₂), q ∈ votePoints → C₂.decode gEC.elt y = some e →
      C₂.decode gEC.elt (if pk = q then x else y) = some (if pk = q then gEC.elt else e) := by
    intro q y e hq hy
    split
    · next hc => exact h₂ (hc ▸ hq)
    · exact hy
  unfold decSigmaRaw decGroupParams at h ⊢
  unfold SigmaRaw.put
  dsimp only at h ⊢
  unbind h with gff e1
  unbind h with gec e2
  unbind h with w e3
  unbind h with kp e4
  unbind h with kq1 e5
  unbind h with kq2 e6
  unbind e1 with g₁ a1
  unbind e1 with g₂ a2
  unbind e2 with g₃ a3
  unbind e2 with g₄ a4
  simp only [Option.some.injEq] at h e1 e2
  subst h e1 e2
  simp only [f₁ (["Params", "GFF"], "G") _ _ (by simp [voteNumbers]) a1, f₁ (["Params", "GFF"], "H") _ _ (by simp [voteNumbers]) a2,
    f₂ (["Params", "GEC"], "G") _ _ (by simp [votePoints]) a3, f₂ (["Params", "GEC"], "H") _ _ (by simp [votePoints]) a4,
    f₁ ([], "W") _ _ (by simp [voteNumbers]) e3, f₁ ([], "Kp") _ _ (by simp [voteNumbers]) e4,
    f₂ ([], "Kq1") _ _ (by simp [votePoints]) e5, f₂ ([], "Kq2") _ _ (by simp [votePoints]) e6, Option.bind_eq_bind, Option.bind_some]
  rfl

/-- the elements of a vote proof: left out, or `null` -/
theorem decSigma_points {C₁ : Codec E₁} {C₂ : Codec E₂} {gFF : Grp E₁} {gEC : Grp E₂} {p₀ p : SigmaProof E₁ E₂} {j : Json}
    (h : encSigma C₁ C₂ p₀ = some (.ok j)) (hd : decSigma C₁ C₂ gFF gEC (some j) = some (.ok p)) :
    (C₂.decode gEC.elt (some .null) = none → ∀ pk ∈ votePoints,
      decSigma C₁ C₂ gFF gEC (some (edit (fun _ => .null) (pk.1 ++ [pk.2]) j)) = none) ∧
    (C₁.decode gFF.elt (some .null) = some gFF.elt → ∀ pk ∈ voteNumbers,
      decSigma C₁ C₂ gFF gEC (some (edit (fun _ => .null) (pk.1 ++ [pk.2]) j)) = some (.ok (p.putPoint gFF.elt gEC.elt pk))) ∧
    (C₁.decode gFF.elt none = some gFF.elt → C₂.decode gEC.elt none = some gEC.elt → ∀ pk ∈ votePoints ++ voteNumbers,
      decSigma C₁ C₂ gFF gEC (some (edit (dropKey pk.2) pk.1 j)) = some (.ok (p.putPoint gFF.elt gEC.elt pk))) := by
  obtain ⟨raw, hraw, hdr⟩ := decSigma_inv hd
  obtain ⟨w, kp, kq1, kq2, bx, bc, bg, bb, lo, hi, g₁, h₁, i₁, g₂, h₂, i₂, rfl⟩ := encSigma_doc2 h
  have hp := rawSigma_put hraw
  have disj : ∀ pk ∈ voteNumbers, pk ∉ votePoints := by
    intro pk hpk
    simp only [voteNumbers, List.mem_cons, List.not_mem_nil, or_false] at hpk
    rcases hpk with rfl | rfl | rfl | rfl <;> simp [votePoints]
  refine ⟨fun hn pk hk => ?_, fun hn pk hk => ?_, fun hm₁ hm₂ pk hk => ?_⟩
  · unfold decSigma
    rw [(hp pk (List.mem_append_left _ hk)).2 .null]
    dsimp only
    rw [(decSigmaRaw_none C₁ C₂ gFF gEC _).mpr]
    · rfl
    · refine Or.inr ?_
      simp only [votePoints, List.mem_cons, List.not_mem_nil, or_false] at hk
      rcases hk with rfl | rfl | rfl | rfl <;> simp [SigmaRaw.put, hn]
  · unfold decSigma
    rw [(hp pk (List.mem_append_right _ hk)).2 .null]
    dsimp only
    rw [decSigmaRaw_put hdr _ _ (fun _ => hn) (fun h => absurd h (disj pk hk))]
    rfl
  · unfold decSigma
    rw [(hp pk hk).1]
    dsimp only
    rw [decSigmaRaw_put hdr _ _ (fun _ => hm₁) (fun _ => hm₂)]
    rfl
end MscPoc
