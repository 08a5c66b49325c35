import Verif.Lemmas.NilTail

/-! # Lemmas for C83: numbers replaced in the document of a ballot -/

set_option autoImplicit false

namespace MscPoc

open JSpec

variable {E E₁ E₂ : Type}

/-- other numbers in the raw messages of a range proof: other numbers in the proof -/
theorem decBPRaw_numbers {C : Codec E} {params : BPParams E} {j : BPRaw} {p : BulletProof E} (h : decBPRaw C params j = some p)
    (taux mu tprime cc a b : Option Int) :
    decBPRaw C params { j with Taux := taux, Mu := mu, Tprime := tprime, IP := { j.IP with Cc := cc, A := a, B := b } } =
      some { p with Taux := taux, Mu := mu, Tprime := tprime,
                    InnerProductProof := { p.InnerProductProof with Cc := cc, A := a, B := b } } := by
  unfold decBPRaw at h ⊢
  dsimp only at h ⊢
  unbind h with ip eip
  have key : decIPProof params.GP C { j.IP with Cc := cc, A := a, B := b } = some { ip with Cc := cc, A := a, B := b } := by
    unfold decIPProof at eip ⊢
    unbind eip with ps eps
    unbind eip with lr elr
    unbind eip with q eq
    simp only [Option.some.injEq] at eip
    subst eip
    dsimp only
    rw [eps]
    simp only [Option.bind_eq_bind, Option.bind_some]
    rw [elr]
    simp only [Option.bind_some]
    rw [eq]
    rfl
  rw [key]
  unbind h with v ev
  unbind h with a' ea
  unbind h with s es
  unbind h with t1 et1
  unbind h with t2 et2
  simp only [Option.some.injEq] at h
  subst h
  simp only [ev, ea, es, et1, et2, Option.bind_eq_bind, Option.bind_some]

/-- the integers of a range proof, by their place in its document -/
def bpNumbers : List (List String) :=
  [["Taux"], ["Mu"], ["Tprime"], ["InnerProductProof", "Cc"], ["InnerProductProof", "a"], ["InnerProductProof", "b"]]

/-- `null` instead of a number in the document of an encoded range proof -/
theorem decBP_null {C : Codec E} {params : BPParams E} {p₀ p : BulletProof E} {j : Json} (h : encBP C p₀ = some (.ok j))
    (hd : decBP C params (some j) = some (.ok p)) : ∀ path ∈ bpNumbers,
      ∃ p', decBP C params (some (edit (fun _ => .null) path j)) = some (.ok p') ∧
        (p'.Taux = none ∨ p'.Mu = none ∨ p'.Tprime = none ∨ p'.InnerProductProof.Cc = none ∨ p'.InnerProductProof.A = none ∨
          p'.InnerProductProof.B = none) := by
  obtain ⟨raw, hraw, hd⟩ := decBP_inv hd
  obtain ⟨v, a, s, t1, t2, pj, l, r, gg, hh, uu, gp, pr, lg, lh, rfl⟩ := encBP_doc h
  rw [rawBP_doc] at hraw
  simp only [Except.ok.injEq] at hraw
  subst hraw
  have key : ∀ (taux mu tprime cc ia ib : Option Int), ∃ p',
      decBP C params (some (bpDoc v a s t1 t2 taux mu tprime pj cc ia ib l r gg hh uu gp pr)) = some (.ok p') ∧
      p'.Taux = taux ∧ p'.Mu = mu ∧ p'.Tprime = tprime ∧ p'.InnerProductProof.Cc = cc ∧ p'.InnerProductProof.A = ia ∧
      p'.InnerProductProof.B = ib := by
    intro taux mu tprime cc ia ib
    have := decBPRaw_numbers hd taux mu tprime cc ia ib
    refine ⟨{ p with Taux := taux, Mu := mu, Tprime := tprime,
                      InnerProductProof := { p.InnerProductProof with Cc := cc, A := ia, B := ib } }, ?_, rfl, rfl, rfl, rfl, rfl, rfl⟩
    unfold decBP
    rw [rawBP_doc]
    dsimp only at this ⊢
    rw [this]
    rfl
  intro path hp
  simp only [bpNumbers, List.mem_cons, List.not_mem_nil, or_false] at hp
  rcases hp with rfl | rfl | rfl | rfl | rfl | rfl
  · obtain ⟨p', e, k⟩ := key none p₀.Mu p₀.Tprime p₀.InnerProductProof.Cc p₀.InnerProductProof.A p₀.InnerProductProof.B
    exact ⟨p', by rw [← e]; simp [edit, bpDoc, bigJson], by tauto⟩
  · obtain ⟨p', e, k⟩ := key p₀.Taux none p₀.Tprime p₀.InnerProductProof.Cc p₀.InnerProductProof.A p₀.InnerProductProof.B
    exact ⟨p', by rw [← e]; simp [edit, bpDoc, bigJson], by tauto⟩
  · obtain ⟨p', e, k⟩ := key p₀.Taux p₀.Mu none p₀.InnerProductProof.Cc p₀.InnerProductProof.A p₀.InnerProductProof.B
    exact ⟨p', by rw [← e]; simp [edit, bpDoc, bigJson], by tauto⟩
  · obtain ⟨p', e, k⟩ := key p₀.Taux p₀.Mu p₀.Tprime none p₀.InnerProductProof.A p₀.InnerProductProof.B
    exact ⟨p', by rw [← e]; simp [edit, bpDoc, bigJson], by tauto⟩
  · obtain ⟨p', e, k⟩ := key p₀.Taux p₀.Mu p₀.Tprime p₀.InnerProductProof.Cc none p₀.InnerProductProof.B
    exact ⟨p', by rw [← e]; simp [edit, bpDoc, bigJson], by tauto⟩
  · obtain ⟨p', e, k⟩ := key p₀.Taux p₀.Mu p₀.Tprime p₀.InnerProductProof.Cc p₀.InnerProductProof.A none
    exact ⟨p', by rw [← e]; simp [edit, bpDoc, bigJson], by tauto⟩

/-- the document of a vote proof -/
def sigmaDoc (w kp kq1 kq2 : Json) (c z sp sq1 sq2 : Option Int) (bx bc bg bb lo hi gff gec : Json) : Json :=
  .obj [("W", w), ("Kp", kp), ("Kq1", kq1), ("Kq2", kq2), ("Challenge", bigJson c),
    ("Z", bigJson z), ("Sp", bigJson sp), ("Sq1", bigJson sq1), ("Sq2", bigJson sq2),
    ("Params", .obj [("Bx", bx), ("Bc", bc), ("Bg", bg), ("Bb", bb), ("RangeLo", lo), ("RangeHi", hi), ("GFF", gff), ("GEC", gec)])]

/-- what the encoder of vote proofs returns -/
theorem encSigma_doc {C₁ : Codec E₁} {C₂ : Codec E₂} {p : SigmaProof E₁ E₂} {j : Json} (h : encSigma C₁ C₂ p = some (.ok j)) :
    ∃ w kp kq1 kq2 gff gec, j = sigmaDoc w kp kq1 kq2 p.Challenge p.Z p.Sp p.Sq1 p.Sq2 (.num p.Params.Bx.toNat)
      (.num p.Params.Bc.toNat) (.num p.Params.Bg.toNat) (.num p.Params.Bb) (.num p.Params.RangeLo.toNat)
      (.num p.Params.RangeHi.toNat) gff gec := by
  unfold encSigma encProofParams at h
  obtain ⟨w, _, h⟩ := bindEnc_inv h
  obtain ⟨kp, _, h⟩ := bindEnc_inv h
  obtain ⟨kq1, _, h⟩ := bindEnc_inv h
  obtain ⟨kq2, _, h⟩ := bindEnc_inv h
  obtain ⟨ps, hps, h⟩ := bindEnc_inv h
  obtain ⟨gff, _, hps⟩ := bindEnc_inv hps
  obtain ⟨gec, _, hps⟩ := bindEnc_inv hps
  simp only [Option.some.injEq, Except.ok.injEq] at h hps
  exact ⟨w, kp, kq1, kq2, gff, gec, by rw [← h, ← hps]; rfl⟩

theorem rawProofParams_doc (bx bc bg bb lo hi gff gec : Json) :
    rawProofParams [.obj [("Bx", bx), ("Bc", bc), ("Bg", bg), ("Bb", bb), ("RangeLo", lo), ("RangeHi", hi), ("GFF", gff),
      ("GEC", gec)]] = (do
        let bx ← asUInt 8 [bx]
        let bc ← asUInt 16 [bc]
        let bg ← asUInt 16 [bg]
        let bb ← asInt64 [bb]
        let lo ← asUInt 16 [lo]
        let hi ← asUInt 16 [hi]
        let gff ← rawGroupParams [gff]
        let gec ← rawGroupParams [gec]
        pure { Bx := bx, Bc := bc, Bg := bg, Bb := bb, RangeLo := lo, RangeHi := hi, GFF := gff, GEC := gec }) := rfl

theorem rawSigma_doc (w kp kq1 kq2 : Json) (c z sp sq1 sq2 : Option Int) (bx bc bg bb lo hi gff gec : Json) :
    rawSigma (some (sigmaDoc w kp kq1 kq2 c z sp sq1 sq2 bx bc bg bb lo hi gff gec)) =
      (rawProofParams [.obj [("Bx", bx), ("Bc", bc), ("Bg", bg), ("Bb", bb), ("RangeLo", lo), ("RangeHi", hi), ("GFF", gff),
        ("GEC", gec)]]).map fun ps =>
        { W := some w, Kp := some kp, Kq1 := some kq1, Kq2 := some kq2, Challenge := c, Z := z, Sp := sp, Sq1 := sq1, Sq2 := sq2,
          Params := ps } := by
  have e : rawSigma (some (sigmaDoc w kp kq1 kq2 c z sp sq1 sq2 bx bc bg bb lo hi gff gec)) =
      (asBig [bigJson c] >>= fun c => asBig [bigJson z] >>= fun z => asBig [bigJson sp] >>= fun sp =>
        asBig [bigJson sq1] >>= fun sq1 => asBig [bigJson sq2] >>= fun sq2 =>
        rawProofParams [.obj [("Bx", bx), ("Bc", bc), ("Bg", bg), ("Bb", bb), ("RangeLo", lo), ("RangeHi", hi), ("GFF", gff),
          ("GEC", gec)]] >>= fun ps =>
        .ok { W := some w, Kp := some kp, Kq1 := some kq1, Kq2 := some kq2, Challenge := c, Z := z, Sp := sp, Sq1 := sq1,
              Sq2 := sq2, Params := ps }) := rfl
  rw [e]
  simp only [asBig_bigJson, bind, Except.bind]
  rfl

theorem decSigma_inv {C₁ : Codec E₁} {C₂ : Codec E₂} {gFF : Grp E₁} {gEC : Grp E₂} {r : Raw} {p : SigmaProof E₁ E₂}
    (h : decSigma C₁ C₂ gFF gEC r = some (.ok p)) : ∃ j, rawSigma r = .ok j ∧ decSigmaRaw C₁ C₂ gFF gEC j = some p := by
  unfold decSigma at h
  cases hr : rawSigma r with
  | error e => rw [hr] at h; simp at h
  | ok j =>
    rw [hr] at h
    refine ⟨j, rfl, ?_⟩
    dsimp only at h
    cases hp : decSigmaRaw C₁ C₂ gFF gEC j with
    | none => rw [hp] at h; simp at h
    | some q => rw [hp] at h; simpa using h

/-- other numbers in the raw messages of a vote proof: other numbers in the proof -/
theorem decSigmaRaw_numbers {C₁ : Codec E₁} {C₂ : Codec E₂} {gFF : Grp E₁} {gEC : Grp E₂} {j : SigmaRaw} {p : SigmaProof E₁ E₂}
    (h : decSigmaRaw C₁ C₂ gFF gEC j = some p) (c z sp sq1 sq2 : Option Int) (bb : Int) :
    decSigmaRaw C₁ C₂ gFF gEC { j with Challenge := c, Z := z, Sp := sp, Sq1 := sq1, Sq2 := sq2, Params := { j.Params with Bb := bb } } =
      some { p with Challenge := c, Z := z, Sp := sp, Sq1 := sq1, Sq2 := sq2, Params := { p.Params with Bb := bb } } := by
  unfold decSigmaRaw at h ⊢
  dsimp only at h ⊢
  unbind h with gff e1
  unbind h with gec e2
  unbind h with w e3
  unbind h with kp e4
  unbind h with kq1 e5
  unbind h with kq2 e6
  simp only [Option.some.injEq] at h
  subst h
  simp only [e1, e2, e3, e4, e5, e6, Option.bind_eq_bind, Option.bind_some]

theorem except_bind_ok {α β : Type} {x : Except String α} {f : α → Except String β} {b : β} (h : (x >>= f) = .ok b) :
    ∃ a, x = .ok a ∧ f a = .ok b := by
  cases x with
  | error e => cases h
  | ok a => exact ⟨a, rfl, h⟩

/-- the document of an encoded vote proof with other integers, or another `Bb` -/
theorem decSigma_edit {C₁ : Codec E₁} {C₂ : Codec E₂} {gFF : Grp E₁} {gEC : Grp E₂} {p₀ p : SigmaProof E₁ E₂} {j : Json}
    (h : encSigma C₁ C₂ p₀ = some (.ok j)) (hd : decSigma C₁ C₂ gFF gEC (some j) = some (.ok p)) :
    decSigma C₁ C₂ gFF gEC (some (edit (fun _ => .null) ["Challenge"] j)) = some (.ok { p with Challenge := none }) ∧
    decSigma C₁ C₂ gFF gEC (some (edit (fun _ => .null) ["Z"] j)) = some (.ok { p with Z := none }) ∧
    decSigma C₁ C₂ gFF gEC (some (edit (fun _ => .null) ["Sp"] j)) = some (.ok { p with Sp := none }) ∧
    decSigma C₁ C₂ gFF gEC (some (edit (fun _ => .null) ["Sq1"] j)) = some (.ok { p with Sq1 := none }) ∧
    decSigma C₁ C₂ gFF gEC (some (edit (fun _ => .null) ["Sq2"] j)) = some (.ok { p with Sq2 := none }) ∧
    ∀ n : Int, -(2 ^ 63) ≤ n ∧ n < 2 ^ 63 → decSigma C₁ C₂ gFF gEC (some (edit (fun _ => .num n) ["Params", "Bb"] j)) =
      some (.ok { p with Params := { p.Params with Bb := n } }) := by
  obtain ⟨raw, hraw, hd⟩ := decSigma_inv hd
  obtain ⟨w, kp, kq1, kq2, gff, gec, rfl⟩ := encSigma_doc h
  rw [rawSigma_doc, rawProofParams_doc] at hraw
  cases hps : rawProofParams [.obj [("Bx", .num p₀.Params.Bx.toNat), ("Bc", .num p₀.Params.Bc.toNat), ("Bg", .num p₀.Params.Bg.toNat),
    ("Bb", .num p₀.Params.Bb), ("RangeLo", .num p₀.Params.RangeLo.toNat), ("RangeHi", .num p₀.Params.RangeHi.toNat), ("GFF", gff),
      ("GEC", gec)]] with
  | error e => rw [← rawProofParams_doc, hps] at hraw; cases hraw
  | ok ps =>
  rw [← rawProofParams_doc, hps] at hraw
  obtain rfl : _ = raw := Except.ok.inj hraw
  have hps' := hps
  rw [rawProofParams_doc] at hps'
  obtain ⟨bx, hbx, hps'⟩ := except_bind_ok hps'
  obtain ⟨bc, hbc, hps'⟩ := except_bind_ok hps'
  obtain ⟨bg, hbg, hps'⟩ := except_bind_ok hps'
  obtain ⟨bb, hbb, hps'⟩ := except_bind_ok hps'
  obtain ⟨lo, hlo, hps'⟩ := except_bind_ok hps'
  obtain ⟨hi, hhi, hps'⟩ := except_bind_ok hps'
  obtain ⟨gf, hgf, hps'⟩ := except_bind_ok hps'
  obtain ⟨ge, hge, hps'⟩ := except_bind_ok hps'
  obtain rfl : _ = ps := Except.ok.inj hps'
  have key : ∀ (c z sp sq1 sq2 : Option Int) (bj : Json) (b : Int), asInt64 [bj] = .ok b →
      decSigma C₁ C₂ gFF gEC (some (sigmaDoc w kp kq1 kq2 c z sp sq1 sq2 (.num p₀.Params.Bx.toNat)
        (.num p₀.Params.Bc.toNat) (.num p₀.Params.Bg.toNat) bj (.num p₀.Params.RangeLo.toNat)
        (.num p₀.Params.RangeHi.toNat) gff gec)) =
      some (.ok { p with Challenge := c, Z := z, Sp := sp, Sq1 := sq1, Sq2 := sq2, Params := { p.Params with Bb := b } }) := by
    intro c z sp sq1 sq2 bj b hb
    have := decSigmaRaw_numbers hd c z sp sq1 sq2 b
    unfold decSigma
    rw [rawSigma_doc, rawProofParams_doc, hbx, hbc, hbg, hb, hlo, hhi, hgf, hge]
    simp only [bind, Except.bind, pure, Except.pure, Except.map]
    dsimp only at this
    rw [this]
    rfl
  have hp : p.Challenge = p₀.Challenge ∧ p.Z = p₀.Z ∧ p.Sp = p₀.Sp ∧ p.Sq1 = p₀.Sq1 ∧ p.Sq2 = p₀.Sq2 ∧ p.Params.Bb = bb := by
    unfold decSigmaRaw at hd
    unbind hd with gff e1
    unbind hd with gec e2
    unbind hd with w e3
    unbind hd with kp e4
    unbind hd with kq1 e5
    unbind hd with kq2 e6
    simp only [Option.some.injEq] at hd
    subst hd
    exact ⟨rfl, rfl, rfl, rfl, rfl, rfl⟩
  obtain ⟨h1, h2, h3, h4, h5, h6⟩ := hp
  refine ⟨?_, ?_, ?_, ?_, ?_, ?_⟩
  · have := key none p.Z p.Sp p.Sq1 p.Sq2 _ _ hbb
    rw [← h6] at this
    rw [← this, h2, h3, h4, h5]
    simp [edit, sigmaDoc, bigJson]
  · have := key p.Challenge none p.Sp p.Sq1 p.Sq2 _ _ hbb
    rw [← h6] at this
    rw [← this, h1, h3, h4, h5]
    simp [edit, sigmaDoc, bigJson]
  · have := key p.Challenge p.Z none p.Sq1 p.Sq2 _ _ hbb
    rw [← h6] at this
    rw [← this, h1, h2, h4, h5]
    simp [edit, sigmaDoc, bigJson]
  · have := key p.Challenge p.Z p.Sp none p.Sq2 _ _ hbb
    rw [← h6] at this
    rw [← this, h1, h2, h3, h5]
    simp [edit, sigmaDoc, bigJson]
  · have := key p.Challenge p.Z p.Sp p.Sq1 none _ _ hbb
    rw [← h6] at this
    rw [← this, h1, h2, h3, h4]
    simp [edit, sigmaDoc, bigJson]
  · intro n hn
    have := key p.Challenge p.Z p.Sp p.Sq1 p.Sq2 (.num n) n (asInt64_num hn)
    rw [← this, h1, h2, h3, h4, h5]
    simp [edit, sigmaDoc]

end MscPoc
