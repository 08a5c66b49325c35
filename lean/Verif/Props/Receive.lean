import Verif.Model.Receive
import Verif.Spec.Receive
import Verif.Props.Robust
import Verif.Props.DecCrash
import Verif.Props.TextBytes
import Verif.Props.NilTail

/-!
# C87 — which byte strings crash a server that decodes and verifies them
-/

set_option autoImplicit false

namespace MscPoc

open JSpec Utf8Spec

section
variable {E E₁ E₂ : Type}

theorem decBP_raw {C : Codec E} {params : BPParams E} {j : BPRaw} {p : BulletProof E} (h : decBPRaw C params j = some p) :
    (p.Taux = j.Taux ∧ p.Mu = j.Mu ∧ p.Tprime = j.Tprime ∧ p.InnerProductProof.Cc = j.IP.Cc ∧ p.InnerProductProof.A = j.IP.A ∧
      p.InnerProductProof.B = j.IP.B) ∧
    p.InnerProductProof.L.length = j.IP.L.length ∧ p.InnerProductProof.Params.Gg.length = j.IP.Params.Gg.length := by
  unfold decBPRaw at h
  dsimp only at h
  unbind h with ip eip
  unbind h with v ev
  unbind h with a ea
  unbind h with s es
  unbind h with t1 et1
  unbind h with t2 et2
  simp only [Option.some.injEq] at h
  subst h
  unfold decIPProof at eip
  unbind eip with ps eps
  unbind eip with lr elr
  obtain ⟨l, r⟩ := lr
  dsimp only at eip
  unbind eip with p ep
  simp only [Option.some.injEq] at eip
  subst eip
  unfold decIPParams at eps
  unbind eps with u eu
  unbind eps with gh egh
  obtain ⟨gg, hh⟩ := gh
  simp only [Option.some.injEq] at eps
  subst eps
  obtain ⟨-, -, -, a4⟩ := decPairs_forall (Q := fun _ => True) (fun _ _ _ => trivial) elr
  obtain ⟨-, -, -, b4⟩ := decPairs_forall (Q := fun _ => True) (fun _ _ _ => trivial) egh
  exact ⟨⟨rfl, rfl, rfl, rfl, rfl, rfl⟩, a4, b4⟩

/-- the conditions of C83 for a decoded range proof, in terms of the document -/
theorem rangeStops_iff (sha : Bytes → Bytes) (C : Codec E) (params : BPParams E) (q : ℕ) (hq : q.Prime) (hN : params.GP.N = q)
    (h2 : 2 ≤ params.N) (lG : params.Gg.length = params.N) (lH : params.Hh.length = params.N) (r : Raw) (j : BPRaw)
    (p : BulletProof E) (hr : rawBP r = .ok j) (h : decBPRaw C params j = some p) :
    (¬ p.Processable sha ∨ (j.IP.nilH ≠ 0 ∧ p.InnerProductProof.L ≠ [])) ↔ RangeStops sha params.GP j p := by
  have hd : decBP C params r = some (.ok p) := by
    unfold decBP
    rw [hr]
    show Option.map _ (decBPRaw C params j) = _
    rw [h]
    rfl
  rw [C83_decoded sha C params q hq hN h2 lG lH r p hd]
  obtain ⟨⟨n1, n2, n3, n4, n5, n6⟩, l1, l2⟩ := decBP_raw h
  have eL : p.InnerProductProof.L = [] ↔ j.IP.L = [] := by rw [← List.length_eq_zero_iff, l1, List.length_eq_zero_iff]
  have eG : p.InnerProductProof.Params.Gg = [] ↔ j.IP.Params.Gg = [] := by
    rw [← List.length_eq_zero_iff, l2, List.length_eq_zero_iff]
  have hz : (¬ (q : Int) ∣ roundChallenge sha params.GP p.A p.S ∧
      ∀ x ∈ List.zip p.InnerProductProof.L p.InnerProductProof.R, ¬ (q : Int) ∣ roundChallenge sha params.GP x.1 x.2) ↔
      ¬ ZeroChallenge sha params.GP p := by
    unfold ZeroChallenge
    rw [hN]
    push Not
    rfl
  rw [hz, n1, n2, n3, n4, n5, n6, l1, l2, ne_eq (p.InnerProductProof.L), eL, ne_eq (p.InnerProductProof.Params.Gg), eG]
  have hn : j.IP.nilH ≠ 0 ↔ ¬ j.IP.Params.Hh.length ≤ j.IP.Params.Gg.length := by
    unfold IPProofRaw.nilH
    omega
  rw [hn]
  have hc : j.Complete ↔ (j.Taux ≠ none ∧ j.Mu ≠ none ∧ j.Tprime ≠ none ∧ j.IP.Cc ≠ none ∧ j.IP.A ≠ none ∧ j.IP.B ≠ none) ∧
      (¬ j.IP.Params.Gg = [] ∧ 2 ^ j.IP.L.length ∣ j.IP.Params.Gg.length) ∧
      (¬ j.IP.L = [] → j.IP.Params.Hh.length ≤ j.IP.Params.Gg.length) :=
    ⟨fun ⟨a, b, c⟩ => ⟨a, b, c⟩, fun ⟨a, b, c⟩ => ⟨a, b, c⟩⟩
  unfold RangeStops
  rw [hc]
  generalize (j.Taux ≠ none ∧ j.Mu ≠ none ∧ j.Tprime ≠ none ∧ j.IP.Cc ≠ none ∧ j.IP.A ≠ none ∧ j.IP.B ≠ none) = a
  generalize (¬ j.IP.Params.Gg = [] ∧ 2 ^ j.IP.L.length ∣ j.IP.Params.Gg.length) = b
  generalize (j.IP.Params.Hh.length ≤ j.IP.Params.Gg.length) = c
  generalize (j.IP.L = []) = d
  generalize ZeroChallenge sha params.GP p = z
  clear * -
  tauto

/-- what a decoded ballot consists of -/
structure Parts (C₁ : Codec E₁) (C₂ : Codec E₂) (pp : PublicParams E₁ E₂) (msg : String → Raw) (lo hi : BPRaw) (vp : SigmaRaw)
    (b : BallotData E₁ E₂) : Prop where
  ballot : decCiphertext pp.RPParams.GFF.I C₁ (msg "ballot") = some (.ok b.Ballot)
  lower : rawBP (msg "lbProof") = .ok lo ∧ decBPRaw C₂ pp.BPParams lo = some b.BpLower
  upper : rawBP (msg "ubProof") = .ok hi ∧ decBPRaw C₂ pp.BPParams hi = some b.BpUpper
  vote : rawSigma (msg "voteProof") = .ok vp ∧
    decSigmaRaw C₁ C₂ pp.RPParams.GFF.I pp.RPParams.GEC.I vp = some b.VoteProof

theorem parts_of {C₁ : Codec E₁} {C₂ : Codec E₂} {pp : PublicParams E₁ E₂} {kvs : List (String × Json)} {b : BallotData E₁ E₂}
    (h : decBallot C₁ C₂ pp (some (.obj kvs)) = some (.ok b)) :
    ∃ lo hi vp, Parts C₁ C₂ pp (lookupField ballotFields kvs) lo hi vp b := by
  unfold decBallot asObj at h
  dsimp only at h
  obtain ⟨ct, h1, h⟩ := bindEnc_inv h
  obtain ⟨lo, h2, h⟩ := bindEnc_inv h
  obtain ⟨hi, h3, h⟩ := bindEnc_inv h
  obtain ⟨vp, h4, h⟩ := bindEnc_inv h
  simp only [Option.some.injEq, Except.ok.injEq] at h
  subst h
  obtain ⟨jl, l1, l2⟩ := decBP_inv h2
  obtain ⟨jh, u1, u2⟩ := decBP_inv h3
  unfold decSigma at h4
  cases hj : rawSigma (lookupField ballotFields kvs "voteProof") with
  | error e => rw [hj] at h4; simp at h4
  | ok jv =>
    rw [hj] at h4
    dsimp only at h4
    cases hs : decSigmaRaw C₁ C₂ pp.RPParams.GFF.I pp.RPParams.GEC.I jv with
    | none => rw [hs] at h4; simp at h4
    | some s =>
      rw [hs] at h4
      simp only [Option.map_some, Option.some.injEq, Except.ok.injEq] at h4
      exact ⟨jl, jh, jv, h1, ⟨l1, l2⟩, ⟨u1, u2⟩, hj, by rw [hs, h4]⟩

theorem Parts.decN {C₁ : Codec E₁} {C₂ : Codec E₂} {pp : PublicParams E₁ E₂} {kvs : List (String × Json)} {b : BallotData E₁ E₂}
    {lo hi : BPRaw} {vp : SigmaRaw} (h : Parts C₁ C₂ pp (lookupField ballotFields kvs) lo hi vp b) :
    decBallotN C₁ C₂ pp (some (.obj kvs)) = some (.ok (b.withNils (lo.IP.nilH, lo.IP.nilR) (hi.IP.nilH, hi.IP.nilR))) := by
  unfold decBallotN asObj
  dsimp only
  have hs : decSigma C₁ C₂ pp.RPParams.GFF.I pp.RPParams.GEC.I (lookupField ballotFields kvs "voteProof") = some (.ok b.VoteProof) := by
    unfold decSigma
    rw [h.vote.1]
    show Option.map _ (decSigmaRaw C₁ C₂ pp.RPParams.GFF.I pp.RPParams.GEC.I vp) = _
    rw [h.vote.2]
    rfl
  rw [bindEnc_ok h.ballot, bindEnc_ok (decBPN_of_raw h.lower.1 h.lower.2), bindEnc_ok (decBPN_of_raw h.upper.1 h.upper.2),
    bindEnc_ok hs]
  rfl

/-- **C87** Exactly which byte strings crash `unmarshalAndVerify`, for parameters over groups of prime order with at least two bits:
the document is an object on which decoding panics; or it decodes, and the verifier reaches a range proof that is not complete or
has a challenge divisible by the group order, or it reaches a vote proof on which it panics. -/
theorem C87_panics (sha : Bytes → Bytes) (hsha : ∀ m, (sha m).length = 32) (C₁ : Codec E₁) (C₂ : Codec E₂)
    (pp : PublicParams E₁ E₂) (q : ℕ) (hq : q.Prime) (hN : pp.BPParams.GP.N = q) (h2 : 2 ≤ pp.BPParams.N)
    (lG : pp.BPParams.Gg.length = pp.BPParams.N) (lH : pp.BPParams.Hh.length = pp.BPParams.N)
    (he : pp.RPParams.GEC.I.elt = pp.BPParams.GP.elt) (b : Bytes) :
    unmarshalAndVerify sha C₁ C₂ pp b = none ↔ ∃ t kvs, Decodes b t ∧ IsText 10000 t (.obj kvs) ∧
      (BallotCrash (fun r => C₁.decode pp.RPParams.GFF.I.elt r = none) (fun r => C₂.decode pp.BPParams.GP.elt r = none)
          (lookupField ballotFields kvs) ∨
        ∃ lo hi vp ballot, Parts C₁ C₂ pp (lookupField ballotFields kvs) lo hi vp ballot ∧
          (RangeStops sha pp.BPParams.GP lo ballot.BpLower ∨
            ballot.BpLower.verify sha = some true ∧ (RangeStops sha pp.BPParams.GP hi ballot.BpUpper ∨
              ballot.BpUpper.verify sha = some true ∧ ballot.VoteProof.Crashes sha (voteCommitments ballot pp.RPParams)))) := by
  have split : unmarshalAndVerify sha C₁ C₂ pp b = none ↔ ∃ kvs, JText.parse (Utf8.decode b) = some (.obj kvs) ∧
      (decBallot C₁ C₂ pp (some (.obj kvs)) = none ∨ ∃ lo hi vp ballot,
        Parts C₁ C₂ pp (lookupField ballotFields kvs) lo hi vp ballot ∧
        verifyVoteN sha (ballot.withNils (lo.IP.nilH, lo.IP.nilR) (hi.IP.nilH, hi.IP.nilR)) pp.RPParams = none) := by
    unfold unmarshalAndVerify decBallotBytesN
    generalize JText.parse (Utf8.decode b) = r
    have notobj : (∀ kvs, r ≠ some (.obj kvs)) → ∃ e, decBallotN C₁ C₂ pp r = some (.error e) := by
      intro h
      obtain ⟨e, h⟩ := C84_no_object C₁ C₂ pp r h
      exact ⟨e, ((C70_decode C₁ C₂ pp r).2.1 e).mpr h⟩
    by_cases ho : ∃ kvs, r = some (.obj kvs)
    · obtain ⟨kvs, rfl⟩ := ho
      have hx : ∀ P : List (String × Json) → Prop, (∃ kvs', some (Json.obj kvs) = some (Json.obj kvs') ∧ P kvs') ↔ P kvs := by
        intro P
        constructor
        · rintro ⟨kvs', e, h⟩
          simp only [Option.some.injEq, Json.obj.injEq] at e
          exact e ▸ h
        · exact fun h => ⟨kvs, rfl, h⟩
      rw [hx]
      cases hd : decBallot C₁ C₂ pp (some (.obj kvs)) with
      | none =>
        rw [((C70_decode C₁ C₂ pp _).1).mpr hd]
        simp
      | some x => cases x with
        | error e =>
          rw [((C70_decode C₁ C₂ pp _).2.1 e).mpr hd]
          simp only [reduceCtorEq, false_or, false_iff]
          rintro ⟨lo, hi, vp, ballot, hp, _⟩
          have := hp.decN
          rw [((C70_decode C₁ C₂ pp _).2.1 e).mpr hd] at this
          simp at this
        | ok ballot =>
          obtain ⟨lo, hi, vp, hp⟩ := parts_of hd
          rw [hp.decN]
          simp only [reduceCtorEq, false_or]
          constructor
          · intro h
            refine ⟨lo, hi, vp, ballot, hp, ?_⟩
            cases hv : verifyVoteN sha (ballot.withNils (lo.IP.nilH, lo.IP.nilR) (hi.IP.nilH, hi.IP.nilR)) pp.RPParams with
            | none => rfl
            | some out => rw [hv] at h; cases hr : out.result <;> simp [hr] at h
          · rintro ⟨lo', hi', vp', ballot', hp', h⟩
            have e := hp.decN.symm.trans hp'.decN
            simp only [Option.some.injEq, Except.ok.injEq] at e
            rw [e, h]
    · obtain ⟨e, h⟩ := notobj fun kvs h => ho ⟨kvs, h⟩
      rw [h]
      simp only [reduceCtorEq, false_iff]
      rintro ⟨kvs, h, _⟩
      exact ho ⟨kvs, h⟩
  rw [split]
  have hcond : ∀ kvs, (decBallot C₁ C₂ pp (some (.obj kvs)) = none ∨ ∃ lo hi vp ballot,
        Parts C₁ C₂ pp (lookupField ballotFields kvs) lo hi vp ballot ∧
        verifyVoteN sha (ballot.withNils (lo.IP.nilH, lo.IP.nilR) (hi.IP.nilH, hi.IP.nilR)) pp.RPParams = none) ↔
      (BallotCrash (fun r => C₁.decode pp.RPParams.GFF.I.elt r = none) (fun r => C₂.decode pp.BPParams.GP.elt r = none)
          (lookupField ballotFields kvs) ∨
        ∃ lo hi vp ballot, Parts C₁ C₂ pp (lookupField ballotFields kvs) lo hi vp ballot ∧
          (RangeStops sha pp.BPParams.GP lo ballot.BpLower ∨
            ballot.BpLower.verify sha = some true ∧ (RangeStops sha pp.BPParams.GP hi ballot.BpUpper ∨
              ballot.BpUpper.verify sha = some true ∧ ballot.VoteProof.Crashes sha (voteCommitments ballot pp.RPParams)))) := by
    intro kvs
    rw [C84_ballot C₁ C₂ pp kvs he]
    refine or_congr Iff.rfl (exists_congr fun lo => exists_congr fun hi => exists_congr fun vp => exists_congr fun ballot =>
      and_congr_right fun hp => ?_)
    have s1 := rangeStops_iff sha C₂ pp.BPParams q hq hN h2 lG lH _ lo _ hp.lower.1 hp.lower.2
    have s2 := rangeStops_iff sha C₂ pp.BPParams q hq hN h2 lG lH _ hi _ hp.upper.1 hp.upper.2
    obtain ⟨c1, c2⟩ := C83_server sha hsha ballot (lo.IP.nilH, lo.IP.nilR) (hi.IP.nilH, hi.IP.nilR) pp.RPParams
    rw [c2, c1, ← s1, ← s2]
    dsimp only
    generalize (lo.IP.nilH ≠ 0 ∧ ballot.BpLower.InnerProductProof.L ≠ []) = a
    generalize (hi.IP.nilH ≠ 0 ∧ ballot.BpUpper.InnerProductProof.L ≠ []) = a'
    generalize ballot.BpLower.Processable sha = c
    generalize ballot.BpUpper.Processable sha = c'
    generalize (ballot.BpLower.verify sha = some true) = d
    generalize (ballot.BpUpper.verify sha = some true) = d'
    generalize (ballot.VoteProof.Crashes sha (voteCommitments ballot pp.RPParams)) = z
    clear * -
    tauto
  simp only [hcond]
  constructor
  · rintro ⟨kvs, hp, h⟩
    obtain ⟨t, h1, h2⟩ := (C75_document b (.obj kvs)).mp hp
    exact ⟨t, kvs, h1, h2, h⟩
  · rintro ⟨t, kvs, h1, h2, h⟩
    exact ⟨kvs, (C75_document b (.obj kvs)).mpr ⟨t, h1, h2⟩, h⟩


theorem asUInt_lt {bits : ℕ} {js : List Json} {n : ℕ} (h : asUInt bits js = .ok n) : n < 2 ^ bits := by
  have : ∀ (js : List Json) (old : ℕ), old < 2 ^ bits → decodeSeq (uintStep bits) old js = .ok n → n < 2 ^ bits := by
    intro js
    induction js with
    | nil =>
      intro old ho h
      unfold decodeSeq at h
      simp only [Except.ok.injEq] at h
      exact h ▸ ho
    | cons j js ih =>
      intro old ho h
      unfold decodeSeq at h
      cases hs : uintStep bits old j with
      | error e => rw [hs] at h; exact absurd h (by simp [bind, Except.bind])
      | ok m =>
        rw [hs] at h
        refine ih m ?_ h
        unfold uintStep at hs
        split at hs
        · simp only [Except.ok.injEq] at hs
          exact hs ▸ ho
        · split at hs
          · rename_i k hk
            simp only [Except.ok.injEq] at hs
            have : (m : Int) < 2 ^ bits := by rw [← hs, Int.toNat_of_nonneg hk.1]; exact hk.2
            exact_mod_cast this
          · simp at hs
        · simp at hs
  exact this js 0 (Nat.two_pow_pos _) h

theorem rawSigma_Bc {r : Raw} {j : SigmaRaw} (h : rawSigma r = .ok j) : j.Params.Bc < 65536 := by
  have inv : ∀ {α β : Type} {x : Except String α} {f : α → Except String β} {b : β}, (x >>= f) = .ok b →
      ∃ a, x = .ok a ∧ f a = .ok b := by
    intro α β x f b h
    cases x with
    | error e => exact absurd h (by simp [bind, Except.bind])
    | ok a => exact ⟨a, rfl, h⟩
  unfold rawSigma at h
  obtain ⟨kvs, -, h⟩ := inv h
  obtain ⟨c, -, h⟩ := inv h
  obtain ⟨z, -, h⟩ := inv h
  obtain ⟨sp, -, h⟩ := inv h
  obtain ⟨sq1, -, h⟩ := inv h
  obtain ⟨sq2, -, h⟩ := inv h
  obtain ⟨ps, hp, h⟩ := inv h
  cases h
  unfold rawProofParams at hp
  obtain ⟨kvs', -, hp⟩ := inv hp
  obtain ⟨bx, -, hp⟩ := inv hp
  obtain ⟨bc, hbc, hp⟩ := inv hp
  obtain ⟨bg, -, hp⟩ := inv hp
  obtain ⟨bb, -, hp⟩ := inv hp
  obtain ⟨lo, -, hp⟩ := inv hp
  obtain ⟨hi, -, hp⟩ := inv hp
  obtain ⟨gff, -, hp⟩ := inv hp
  obtain ⟨gec, -, hp⟩ := inv hp
  cases hp
  exact asUInt_lt hbc

theorem decSigma_raw {C₁ : Codec E₁} {C₂ : Codec E₂} {gFF : Grp E₁} {gEC : Grp E₂} {j : SigmaRaw} {p : SigmaProof E₁ E₂}
    (h : decSigmaRaw C₁ C₂ gFF gEC j = some p) :
    p.Z = j.Z ∧ p.Challenge = j.Challenge ∧ p.Sp = j.Sp ∧ p.Sq1 = j.Sq1 ∧ p.Sq2 = j.Sq2 ∧ p.Params.Bc = UInt16.ofNat j.Params.Bc := by
  unfold decSigmaRaw at h
  unbind h with gff e1
  unbind h with gec e2
  unbind h with w e3
  unbind h with kp e4
  unbind h with kq1 e5
  unbind h with kq2 e6
  simp only [Option.some.injEq] at h
  subst h
  exact ⟨rfl, rfl, rfl, rfl, rfl, rfl⟩

/-- a complete vote proof does not make the verifier panic -/
theorem not_crashes {sha : Bytes → Bytes} {C₁ : Codec E₁} {C₂ : Codec E₂} {gFF : Grp E₁} {gEC : Grp E₂} {j : SigmaRaw}
    {p : SigmaProof E₁ E₂} (h : decSigmaRaw C₁ C₂ gFF gEC j = some p) (hc : j.Complete) (comm : VerCommitments E₁ E₂) :
    ¬ p.Crashes sha comm := by
  obtain ⟨e1, e2, e3, e4, e5, e6⟩ := decSigma_raw h
  obtain ⟨⟨h1, h2, h3, h4, h5⟩, hb⟩ := hc
  rw [← e1] at h1
  rw [← e2] at h2
  rw [← e3] at h3
  rw [← e4] at h4
  rw [← e5] at h5
  have hB : ¬ 264 ≤ p.Params.Bc.toNat := by
    rw [e6, UInt16.toNat_ofNat']
    have : j.Params.Bc % 2 ^ 16 = j.Params.Bc := Nat.mod_eq_of_lt (by omega)
    omega
  obtain ⟨Z, z⟩ := Option.ne_none_iff_exists'.mp h1
  obtain ⟨c, c'⟩ := Option.ne_none_iff_exists'.mp h2
  obtain ⟨s, s'⟩ := Option.ne_none_iff_exists'.mp h3
  obtain ⟨s1, s1'⟩ := Option.ne_none_iff_exists'.mp h4
  unfold SigmaProof.Crashes
  rw [z, c', s', s1']
  rintro ⟨-, hx⟩
  rcases hx with hx | ⟨-, -, -, -, hx⟩
  · exact hB hx
  · exact h5 hx

/-- C87: what `unmarshalAndVerify` accepts -/
theorem unmarshalAndVerify_accepts {sha : Bytes → Bytes} {C₁ : Codec E₁} {C₂ : Codec E₂} {pp : PublicParams E₁ E₂} {b : Bytes} :
    unmarshalAndVerify sha C₁ C₂ pp b = some none ↔ ∃ t kvs lo hi vp ballot, Decodes b t ∧ IsText 10000 t (.obj kvs) ∧
      Parts C₁ C₂ pp (lookupField ballotFields kvs) lo hi vp ballot ∧
      verifyVoteN sha (ballot.withNils (lo.IP.nilH, lo.IP.nilR) (hi.IP.nilH, hi.IP.nilR)) pp.RPParams = some ⟨true, [0, 0]⟩ := by
  have key : ∀ kvs, JText.parse (Utf8.decode b) = some (.obj kvs) → ∀ lo hi vp ballot,
      Parts C₁ C₂ pp (lookupField ballotFields kvs) lo hi vp ballot →
      (unmarshalAndVerify sha C₁ C₂ pp b = some none ↔
        verifyVoteN sha (ballot.withNils (lo.IP.nilH, lo.IP.nilR) (hi.IP.nilH, hi.IP.nilR)) pp.RPParams = some ⟨true, [0, 0]⟩) := by
    intro kvs hk lo hi vp ballot hp
    unfold unmarshalAndVerify decBallotBytesN
    rw [hk, hp.decN]
    dsimp only
    cases hv : verifyVoteN sha (ballot.withNils (lo.IP.nilH, lo.IP.nilR) (hi.IP.nilH, hi.IP.nilR)) pp.RPParams with
    | none => simp
    | some out =>
      obtain ⟨res, t⟩ := out
      cases res with
      | false => simp
      | true =>
        obtain ⟨-, -, -, ht⟩ := verifyVote_parts (C70_no_new_verdicts _ _ _ _ _ _ hv)
        simp [ht]
  constructor
  · intro h
    cases hd : decBallot C₁ C₂ pp (JText.parse (Utf8.decode b)) with
    | none =>
      unfold unmarshalAndVerify decBallotBytesN at h
      rw [((C70_decode C₁ C₂ pp _).1).mpr hd] at h
      simp at h
    | some x => cases x with
      | error e =>
        unfold unmarshalAndVerify decBallotBytesN at h
        rw [((C70_decode C₁ C₂ pp _).2.1 e).mpr hd] at h
        simp at h
      | ok ballot =>
        by_cases ho : ∃ kvs, JText.parse (Utf8.decode b) = some (.obj kvs)
        · obtain ⟨kvs, hk⟩ := ho
          rw [hk] at hd
          obtain ⟨lo, hi, vp, hp⟩ := parts_of hd
          obtain ⟨t, t1, t2⟩ := (C75_document b _).mp hk
          exact ⟨t, kvs, lo, hi, vp, ballot, t1, t2, hp, (key kvs hk lo hi vp ballot hp).mp h⟩
        · obtain ⟨e, he⟩ := C84_no_object C₁ C₂ pp _ fun kvs h => ho ⟨kvs, h⟩
          rw [he] at hd
          simp at hd
  · rintro ⟨t, kvs, lo, hi, vp, ballot, t1, t2, hp, h⟩
    exact (key kvs ((C75_document b _).mpr ⟨t, t1, t2⟩) lo hi vp ballot hp).mpr h

/-- **C87** A check of the document alone is enough, up to challenges: everything that `unmarshalAndVerify` accepts passes it, and a
document that passes it does not crash the server unless the group order divides a challenge of one of the range proofs. -/
theorem C87_checked (sha : Bytes → Bytes) (hsha : ∀ m, (sha m).length = 32) (C₁ : Codec E₁) (C₂ : Codec E₂)
    (pp : PublicParams E₁ E₂) (q : ℕ) (hq : q.Prime) (hN : pp.BPParams.GP.N = q) (h2 : 2 ≤ pp.BPParams.N)
    (lG : pp.BPParams.Gg.length = pp.BPParams.N) (lH : pp.BPParams.Hh.length = pp.BPParams.N)
    (he : pp.RPParams.GEC.I.elt = pp.BPParams.GP.elt) (b : Bytes) :
    (unmarshalAndVerify sha C₁ C₂ pp b = some none → ∃ t kvs, Decodes b t ∧ IsText 10000 t (.obj kvs) ∧
      Checked (fun r => C₁.decode pp.RPParams.GFF.I.elt r = none) (fun r => C₂.decode pp.BPParams.GP.elt r = none)
        (lookupField ballotFields kvs)) ∧
    ∀ t kvs, Decodes b t → IsText 10000 t (.obj kvs) →
      Checked (fun r => C₁.decode pp.RPParams.GFF.I.elt r = none) (fun r => C₂.decode pp.BPParams.GP.elt r = none)
        (lookupField ballotFields kvs) →
      unmarshalAndVerify sha C₁ C₂ pp b = none →
      ∃ lo hi vp ballot, Parts C₁ C₂ pp (lookupField ballotFields kvs) lo hi vp ballot ∧
        (ZeroChallenge sha pp.BPParams.GP ballot.BpLower ∨ ZeroChallenge sha pp.BPParams.GP ballot.BpUpper) := by
  constructor
  · intro h
    obtain ⟨t, kvs, lo, hi, vp, ballot, t1, t2, hp, hv⟩ := unmarshalAndVerify_accepts.mp h
    refine ⟨t, kvs, t1, t2, ?_, ?_, ?_⟩
    · rw [← C84_ballot C₁ C₂ pp kvs he]
      intro hn
      have := hp.decN
      rw [((C70_decode C₁ C₂ pp _).1).mpr hn] at this
      simp at this
    · have s1 := rangeStops_iff sha C₂ pp.BPParams q hq hN h2 lG lH _ lo _ hp.lower.1 hp.lower.2
      have s2 := rangeStops_iff sha C₂ pp.BPParams q hq hN h2 lG lH _ hi _ hp.upper.1 hp.upper.2
      obtain ⟨c1, c2⟩ := C83_server sha hsha ballot (lo.IP.nilH, lo.IP.nilR) (hi.IP.nilH, hi.IP.nilR) pp.RPParams
      obtain ⟨v1, v2, -, -⟩ := verifyVote_parts (C70_no_new_verdicts _ _ _ _ _ _ hv)
      have hne : ¬ (verifyVoteN sha (ballot.withNils (lo.IP.nilH, lo.IP.nilR) (hi.IP.nilH, hi.IP.nilR)) pp.RPParams = none) := by
        rw [hv]; simp
      rw [c2, c1] at hne
      dsimp only at hne
      have r1 : ¬ RangeStops sha pp.BPParams.GP lo ballot.BpLower := by
        rw [← s1]
        clear s1 s2 c1 c2
        tauto
      have r2 : ¬ RangeStops sha pp.BPParams.GP hi ballot.BpUpper := by
        rw [← s2]
        clear s1 s2 c1 c2 r1
        tauto
      intro f hf j hj
      simp only [List.mem_cons, List.not_mem_nil, or_false] at hf
      rcases hf with rfl | rfl
      · have e := hp.lower.1.symm.trans hj
        simp only [Except.ok.injEq] at e
        exact e ▸ not_not.mp fun h => r1 (Or.inl h)
      · have e := hp.upper.1.symm.trans hj
        simp only [Except.ok.injEq] at e
        exact e ▸ not_not.mp fun h => r2 (Or.inl h)
    · intro j hj
      have e := hp.vote.1.symm.trans hj
      simp only [Except.ok.injEq] at e
      subst e
      obtain ⟨-, -, v3, -⟩ := verifyVote_parts (C70_no_new_verdicts _ _ _ _ _ _ hv)
      obtain ⟨Z, c, Sp, Sq1, Sq2, z1, z2, z3, z4, z5, -, hch, -⟩ := (sigma_verify_iff sha _ _).mp v3
      obtain ⟨e1, e2, e3, e4, e5, e6⟩ := decSigma_raw hp.vote.2
      refine ⟨⟨by rw [← e1, z1]; simp, by rw [← e2, z2]; simp, by rw [← e3, z3]; simp, by rw [← e4, z4]; simp,
        by rw [← e5, z5]; simp⟩, ?_⟩
      obtain ⟨k1, -⟩ := C28_challenge sha hsha ballot.VoteProof.Params.GFF.I ballot.VoteProof.Params.GEC.I ballot.VoteProof.W
        ballot.VoteProof.Kp ballot.VoteProof.Kq1 ballot.VoteProof.Kq2 ballot.VoteProof.Params.Bc
      have hb := rawSigma_Bc hp.vote.1
      have : ¬ 264 ≤ ballot.VoteProof.Params.Bc.toNat := fun h => by
        have := k1.mpr h
        rw [hch] at this
        simp at this
      rw [e6, UInt16.toNat_ofNat', Nat.mod_eq_of_lt (by omega)] at this
      omega
  · intro t kvs t1 t2 hc hn
    obtain ⟨t', kvs', d1, d2, h⟩ := (C87_panics sha hsha C₁ C₂ pp q hq hN h2 lG lH he b).mp hn
    have e : some (Json.obj kvs) = some (Json.obj kvs') :=
      ((C75_document b _).mpr ⟨t, t1, t2⟩).symm.trans ((C75_document b _).mpr ⟨t', d1, d2⟩)
    simp only [Option.some.injEq, Json.obj.injEq] at e
    subst e
    rcases h with h | ⟨lo, hi, vp, ballot, hp, h⟩
    · exact absurd h hc.points
    · have cl := hc.ranges "lbProof" (by simp) lo hp.lower.1
      have ch := hc.ranges "ubProof" (by simp) hi hp.upper.1
      refine ⟨lo, hi, vp, ballot, hp, ?_⟩
      rcases h with h | ⟨-, h | ⟨-, h⟩⟩
      · exact Or.inl (h.resolve_left fun h => h cl)
      · exact Or.inr (h.resolve_left fun h => h ch)
      · exact absurd h (not_crashes hp.vote.2 (hc.vote vp hp.vote.1) _)

end

/-- **C87** The deployed system (P-256, P-384; SHA-256): exactly which byte strings crash it; the bytes of every ballot of
`castVote` are accepted; everything accepted passes the check, and what passes it crashes the server only if the group order divides a
challenge of a range proof. -/
theorem C87_deployed (nan64 : BitVec 64) {C : CirclCurve} {bits : ℕ} {H U : WPoint} {Gg Hh : List WPoint}
    (row : RealRow C bits H U Gg Hh) :
    ∃ pp, setup nan64 (circlGrp C) = some (.ok pp) ∧
      (∀ b, unmarshalAndVerify sha256 modPCodec (wCodec C.c) pp b = none ↔ ∃ t kvs, Decodes b t ∧ IsText 10000 t (.obj kvs) ∧
        (BallotCrash (fun _ => False) (BadPoint C.c.byteLen) (lookupField ballotFields kvs) ∨
          ∃ lo hi vp ballot, Parts modPCodec (wCodec C.c) pp (lookupField ballotFields kvs) lo hi vp ballot ∧
            (RangeStops sha256 (circlGrp C) lo ballot.BpLower ∨
              ballot.BpLower.verify sha256 = some true ∧ (RangeStops sha256 (circlGrp C) hi ballot.BpUpper ∨
                ballot.BpUpper.verify sha256 = some true ∧
                  ballot.VoteProof.Crashes sha256 (voteCommitments ballot pp.RPParams))))) ∧
      (∀ (rnd : CastRand) (ballot : BallotData Int WPoint),
        (0 ≤ rnd.rChoice ∧ rnd.rChoice < 1899) →
        (rnd.bp1.sL.length = 16 ∧ rnd.bp1.sR.length = 16 ∧ rnd.bp2.sL.length = 16 ∧ rnd.bp2.sR.length = 16) →
        (∀ s ∈ rnd.tape, 0 ≤ s.k ∧ s.k < 2 ^ (bits - 1)) →
        castVote sha256 pp rnd = .done ballot →
        ∃ t, encBallotText modPCodec (wCodec C.c) ballot = some (.ok t) ∧
          unmarshalAndVerify sha256 modPCodec (wCodec C.c) pp (Utf8.encode t) = some none) ∧
      (∀ b, unmarshalAndVerify sha256 modPCodec (wCodec C.c) pp b = some none → ∃ t kvs, Decodes b t ∧ IsText 10000 t (.obj kvs) ∧
        Checked (fun _ => False) (BadPoint C.c.byteLen) (lookupField ballotFields kvs)) ∧
      ∀ b t kvs, Decodes b t → IsText 10000 t (.obj kvs) →
        Checked (fun _ => False) (BadPoint C.c.byteLen) (lookupField ballotFields kvs) →
        unmarshalAndVerify sha256 modPCodec (wCodec C.c) pp b = none →
        ∃ lo hi vp ballot, Parts modPCodec (wCodec C.c) pp (lookupField ballotFields kvs) lo hi vp ballot ∧
          (ZeroChallenge sha256 (circlGrp C) ballot.BpLower ∨ ZeroChallenge sha256 (circlGrp C) ballot.BpUpper) := by
  have ok := stdCircl_ord row.std.circl
  obtain ⟨Bb, hr, -⟩ := row.std.table
  obtain ⟨D, hD, dep, _⟩ := C47_curves nan64 (circlGrp C) (fun s _ => ⟨_, rfl⟩) C.n bits Bb hr rfl
  have hEC : D.pp.BPParams.GP = circlGrp C := dep.EC
  have e1 : (fun r => modPCodec.decode D.pp.RPParams.GFF.I.elt r = none) = fun _ => False := by
    funext r
    exact propext ⟨(C84_points C.c (fun _ => true) r).2.2.1 _, False.elim⟩
  have e2 : (fun r => (wCodec C.c).decode D.pp.BPParams.GP.elt r = none) = BadPoint C.c.byteLen := by
    funext r
    exact propext ((C84_points C.c (fun _ => true) r).1 _)
  have hN : D.pp.BPParams.GP.N = (C.n : ℕ) := by rw [hEC]; rfl
  have hn : D.pp.BPParams.N = 16 := dep.n
  have pan := C87_panics sha256 sha256_length modPCodec (wCodec C.c) D.pp C.n ok.n_prime hN (by omega) (by rw [hn]; exact dep.lenG)
    (by rw [hn]; exact dep.lenH) rfl
  have chk := C87_checked sha256 sha256_length modPCodec (wCodec C.c) D.pp C.n ok.n_prime hN (by omega) (by rw [hn]; exact dep.lenG)
    (by rw [hn]; exact dep.lenH) rfl
  rw [e1, e2, hEC] at pan
  rw [e1, e2, hEC] at chk
  refine ⟨D.pp, hD, pan, fun rnd ballot h1 h2 h3 h4 => ?_, fun b => (chk b).1, fun b => (chk b).2⟩
  obtain ⟨pp, hpp, h⟩ := C70_deployed nan64 row
  rw [hD] at hpp
  simp only [Option.some.injEq, Except.ok.injEq] at hpp
  subst hpp
  obtain ⟨j, f1, ⟨b, f2, f3⟩, -⟩ := h rnd ballot h1 h2 h3 h4
  have e : encBallotText modPCodec (wCodec C.c) ballot = some (.ok (JText.print j)) := by
    unfold encBallotText; rw [f1]; rfl
  refine ⟨_, e, ?_⟩
  obtain ⟨⟨l, -, f4, ht⟩, -⟩ := C61_marshalled modPCodec (wCodec C.c) JText.modP_flat (JText.w_flat C.c) D.pp ballot _ e
  rw [f1] at f4
  simp only [Option.some.injEq, Except.ok.injEq] at f4
  rw [← f4] at ht
  unfold unmarshalAndVerify decBallotBytesN
  rw [Utf8.decode_encode, (C61_scanner _ _).mpr ht, f2]
  dsimp only
  rw [f3]
  rfl

/-- the parameters of the toy election meet the conditions of the theorems -/
example : (1031).Prime ∧ exElection.pp.BPParams.GP.N = (1031 : ℕ) ∧ 2 ≤ exElection.pp.BPParams.N ∧
    exElection.pp.BPParams.Gg.length = exElection.pp.BPParams.N ∧ exElection.pp.BPParams.Hh.length = exElection.pp.BPParams.N ∧
    exElection.pp.RPParams.GEC.I.elt = exElection.pp.BPParams.GP.elt := by
  exact ⟨by norm_num, rfl, by decide, rfl, rfl, rfl⟩

/-- evaluated in the toy election: the bytes of the ballot, the same with `,"lbProof":{}` before the last bracket (decoding succeeds and
a number is missing), and the same cut off before it -/
example : (match castVote exSha3 exElection.pp exCast with
    | .done b => (match encBallotText modPCodec modPCodec b with
      | some (.ok t) =>
        [Utf8.encode t, (Utf8.encode t).dropLast ++ [44, 34, 108, 98, 80, 114, 111, 111, 102, 34, 58, 123, 125, 125],
          (Utf8.encode t).dropLast].map fun b => (unmarshalAndVerify exSha3 modPCodec modPCodec exElection.pp b).map Option.isSome
      | _ => [])
    | _ => []) = [some false, none, some true] := by decide +kernel

/-- both curves are rows of that kind -/
example (dec : Bytes → Option WPoint) : RealRow (p256Real dec) 256 recH256 recU256 recGg256 recHh256 ∧
    RealRow (p384Real dec) 384 recH384 recU384 recGg384 recHh384 := ⟨.p256 dec, .p384 dec⟩

end MscPoc
