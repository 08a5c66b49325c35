import Verif.Props.HashToCurve
import Verif.Props.K1Hash
import Verif.Props.RistrettoEnc
import Verif.Spec.MainOut

/-!
# C67 — what the program prints
-/

set_option autoImplicit false

namespace MscPoc

/-- With a small mask an attempt is discarded. -/
theorem sigmaAttempt_low {E₁ E₂ : Type} (sha : Bytes → Bytes) (hsha : ∀ m, (sha m).length = 32) (pp : ProofParams E₁ E₂)
    {NF NE : Int} (hF : pp.GFF.N = some NF) (hE : pp.GEC.N = some NE) (hBc : pp.Bc.toNat < 264)
    (secret rp rq1 rq2 : Int) (h0 : 0 ≤ secret) (s : SigmaSample) (h : s.k + 2 ^ pp.Bc.toNat * secret < pp.zLowerBound) :
    sigmaAttempt sha pp secret rp rq1 rq2 s = some none := by
  obtain ⟨c1, c2⟩ := C28_challenge sha hsha pp.GFF.I pp.GEC.I (pp.GFF.I.mulGen s.tp) (vpCommit (s.k % NF) s.tp pp.GFF)
    (vpCommit (s.k % NF) s.tq1 pp.GEC) (vpCommit (s.k % NF) s.tq2 pp.GEC) pp.Bc
  obtain ⟨c, hc⟩ := Option.ne_none_iff_exists'.mp (fun h => absurd (c1.mp h) (by omega))
  obtain ⟨_, c3, _, c4⟩ := c2 c hc
  unfold sigmaAttempt
  simp only [hF, hE, hc, Option.bind_eq_bind, Option.bind_some]
  have hz : pp.zOk (s.k + c * secret) = false := by
    rw [← Bool.not_eq_true, zOk_iff]
    have : c * secret ≤ 2 ^ pp.Bc.toNat * secret := mul_le_mul_of_nonneg_right c4.le h0
    omega
  rw [hz]
  rfl

theorem sigmaAborts_le {E₁ E₂ : Type} (sha : Bytes → Bytes) (pp : ProofParams E₁ E₂) (secret rp rq1 rq2 : Int)
    (f : SigmaSample → Bool) (tape : List SigmaSample)
    (h : ∀ s, f s = false → ∃ pf, sigmaAttempt sha pp secret rp rq1 rq2 s = some (some pf)) :
    sigmaAborts sha pp secret rp rq1 rq2 tape ≤ (tape.takeWhile f).length := by
  induction tape with
  | nil => simp [sigmaAborts]
  | cons s tape ih =>
    rw [sigmaAborts]
    split
    · rename_i e
      cases hf : f s with
      | false =>
        obtain ⟨pf, h'⟩ := h s hf
        rw [e] at h'
        simp at h'
      | true =>
        rw [List.takeWhile_cons_of_pos hf, List.length_cons]
        omega
    · omega

theorem le_sigmaAborts {E₁ E₂ : Type} (sha : Bytes → Bytes) (pp : ProofParams E₁ E₂) (secret rp rq1 rq2 : Int)
    (f : SigmaSample → Bool) (tape : List SigmaSample)
    (h : ∀ s, f s = true → sigmaAttempt sha pp secret rp rq1 rq2 s = some none) :
    (tape.takeWhile f).length ≤ sigmaAborts sha pp secret rp rq1 rq2 tape := by
  induction tape with
  | nil => simp
  | cons s tape ih =>
    cases hf : f s with
    | false => simp [hf]
    | true =>
      rw [List.takeWhile_cons_of_pos hf, List.length_cons, sigmaAborts, h s hf]
      dsimp only
      omega

/-- how often one vote prints "Aborted" -/
theorem castAborts_bounds (sha : Bytes → Bytes) (hsha : ∀ m, (sha m).length = 32) {E : Type} {C : Grp E} {bits : ℕ}
    {D : Election Int E} (dep : Deployed C bits D) (rnd : CastRand) (hd : CastDrawn bits rnd) :
    castAborts sha D.pp rnd ≤ mostAborts bits rnd ∧
    (∀ b, castVote sha D.pp rnd = .done b → leastAborts rnd ≤ castAborts sha D.pp rnd) := by
  obtain ⟨choice, hc, hcv, _, hlt, _⟩ := C40_choice_range D.pp (by show D.lo < D.hi; rw [dep.lo, dep.hi]; decide) rnd.rChoice
    (by show _ ∧ _ < (((D.hi - D.lo).toNat : ℕ) : Int); rw [dep.lo, dep.hi]; exact hd.choice)
  have hcmin : D.pp.candidateMin.toNat = 101 := by show D.lo.toNat = 101; rw [dep.lo]; rfl
  have hx : (choice.toNat : Int) < 2 ^ 11 := by
    rw [hcv, hcmin]
    have := hd.choice.2
    norm_num
    omega
  have hB : D.pp.RPParams.Bc.toNat = 224 := by show D.Bc.toNat = 224; rw [dep.Bc]; rfl
  have hl : D.pp.RPParams.zLowerBound = 2 ^ 240 := dep.zLower
  have hu : D.pp.RPParams.zUpperBound = 2 ^ (bits - 1) := dep.zUpper
  have hm : (2 : Int) ^ 224 * choice.toNat < 2 ^ 235 := by
    calc (2 : Int) ^ 224 * choice.toNat < 2 ^ 224 * 2 ^ 11 := by gcongr
      _ = 2 ^ 235 := by norm_num
  have key : ∀ rp rq1 rq2, sigmaAborts sha D.pp.RPParams (choice.toNat : Int) rp rq1 rq2 rnd.tape ≤ mostAborts bits rnd ∧
      leastAborts rnd ≤ sigmaAborts sha D.pp.RPParams (choice.toNat : Int) rp rq1 rq2 rnd.tape := by
    intro rp rq1 rq2
    refine ⟨sigmaAborts_le _ _ _ _ _ _ _ _ fun s hs => ?_, le_sigmaAborts _ _ _ _ _ _ _ _ fun s hs => ?_⟩
    · simp only [Bool.not_eq_false', decide_eq_true_eq] at hs
      refine (sigmaAttempt_safe sha hsha D.pp.RPParams (NF := D.FF.N) (NE := D.EC.N) rfl rfl (by rw [hB]; norm_num)
        (choice.toNat : Int) rp rq1 rq2 (by positivity) s).2 (by rw [hl]; exact hs.1) ?_
      rw [hu, hB]
      have : (2 : Int) ^ 235 < 2 ^ 240 := by norm_num
      omega
    · simp only [decide_eq_true_eq] at hs
      refine sigmaAttempt_low sha hsha D.pp.RPParams (NF := D.FF.N) (NE := D.EC.N) rfl rfl (by rw [hB]; norm_num)
        (choice.toNat : Int) rp rq1 rq2 (by positivity) s ?_
      rw [hl, hB]
      omega
  unfold castAborts castVote castChoice
  rw [hc]
  dsimp only
  have eN : D.pp.ECGroupParams.N = some D.EC.N := rfl
  rw [eN]
  cases encryptVote D.pp.FFGroupParams.I D.pp.EGPK choice rnd.rEnc with
  | none => simp
  | some ct =>
    cases bpProve sha D.pp.BPParams rnd.bp1 ((choice - D.pp.candidateMin).toNat : Int) with
    | none => simp
    | some b1 =>
      rcases b1 with _ | b1
      · simp
      · cases bpProve sha D.pp.BPParams rnd.bp2 ((D.pp.candidateMax - choice).toNat : Int) with
        | none => simp
        | some b2 =>
          rcases b2 with _ | b2
          · simp
          · exact ⟨(key _ _ _).1, fun _ _ => (key _ _ _).2⟩

theorem benchAborts_bounds (sha : Bytes → Bytes) (hsha : ∀ m, (sha m).length = 32) {E : Type} {C : Grp E} {bits : ℕ}
    {D : Election Int E} (dep : Deployed C bits D) (rnds : List CastRand) (hd : ∀ rnd ∈ rnds, CastDrawn bits rnd) (ok : Bool) :
    benchAborts sha D.pp rnds ≤ (rnds.map (mostAborts bits)).sum ∧
    (∀ b, benchLoop sha D.pp rnds ok = .done b → (rnds.map leastAborts).sum ≤ benchAborts sha D.pp rnds) := by
  induction rnds generalizing ok with
  | nil => simp [benchAborts]
  | cons rnd rnds ih =>
    obtain ⟨c1, c2⟩ := castAborts_bounds sha hsha dep rnd (hd rnd (by simp))
    have ih := fun ok => ih (fun r hr => hd r (by simp [hr])) ok
    rw [List.map_cons, List.sum_cons, List.map_cons, List.sum_cons, benchAborts, benchLoop]
    cases hc : castVote sha D.pp rnd with
    | panic => exact ⟨by dsimp only; omega, fun b h => by cases h⟩
    | running => exact ⟨by dsimp only; omega, fun b h => by cases h⟩
    | done b =>
      have c2 := c2 b hc
      dsimp only
      cases verifyVote sha b D.pp.RPParams with
      | none => exact ⟨by dsimp only; omega, fun b h => by cases h⟩
      | some out =>
        dsimp only
        cases out.times[0]? with
        | none => exact ⟨by dsimp only; omega, fun b h => by cases h⟩
        | some t₀ =>
          cases out.times[1]? with
          | none => exact ⟨by dsimp only; omega, fun b h => by cases h⟩
          | some t₁ =>
            dsimp only
            exact ⟨by have := (ih true).1; omega, fun b h => by have := (ih _).2 b h; omega⟩

/-- **C67** How often the section of a group says "Aborted": never for a vote whose first mask is at least `2^240` away from both
ends of the range, and at least once for a vote whose first mask is at most `2^240 - 2^235`. -/
theorem C67_aborted (sha : Bytes → Bytes) (hsha : ∀ m, (sha m).length = 32) (nan64 : BitVec 64) {E : Type} (C : Grp E)
    (hmap : ∀ s, SetupSeed 16 s → ∃ e, C.mapToGroup s = some e) (N bits : ℕ) (Bb : Int) (hr : (N, bits, Bb) ∈ curveTable)
    (hN : C.N = N) (rnds : List CastRand) (hd : ∀ rnd ∈ rnds, CastDrawn bits rnd) :
    groupAborts sha nan64 C rnds ≤ (rnds.map (mostAborts bits)).sum ∧
    (∀ rep, runGroup sha nan64 C rnds = .done rep → (rnds.map leastAborts).sum ≤ groupAborts sha nan64 C rnds) := by
  obtain ⟨D, hD, dep, _⟩ := C47_curves nan64 C hmap N bits Bb hr hN
  obtain ⟨h1, h2⟩ := benchAborts_bounds sha hsha dep rnds hd true
  rw [runGroup_ok hD, groupAborts, hD]
  refine ⟨h1, fun rep h => ?_⟩
  cases hb : benchLoop sha D.pp rnds true with
  | running => rw [hb] at h; cases h
  | panic => rw [hb] at h; cases h
  | done b => exact h2 b hb

/-- the group's section ends well as far as the tapes go, and completely if they hold enough masks -/
def GroupRun.Good (sha : Bytes → Bytes) (nan64 : BitVec 64) (bits : ℕ) (r : GroupRun) : Prop :=
  (∀ i < 1000, CastDrawn bits (r.rnds i)) → RunsOK sha nan64 r.g r.tapes →
    runGroup sha nan64 r.g r.tapes ≠ .panic ∧
    (∀ rep, runGroup sha nan64 r.g r.tapes = .done rep → rep = .formed true) ∧
    ((∀ i < 1000, ∃ s ∈ (r.rnds i).tape, SafeMask bits s.k) → runGroup sha nan64 r.g r.tapes = .done (.formed true)) ∧
    groupAborts sha nan64 r.g r.tapes ≤ (r.tapes.map (mostAborts bits)).sum ∧
    (∀ rep, runGroup sha nan64 r.g r.tapes = .done rep → (r.tapes.map leastAborts).sum ≤ groupAborts sha nan64 r.g r.tapes)

theorem GroupRun.mem_tapes {r : GroupRun} {rnd : CastRand} (h : rnd ∈ r.tapes) : ∃ i < 1000, r.rnds i = rnd := by
  obtain ⟨i, hi, e⟩ := List.mem_map.mp h
  exact ⟨i, List.mem_range.mp hi, e⟩

theorem GroupRun.good_of {sha : Bytes → Bytes} {nan64 : BitVec 64} {bits : ℕ} {E : Type} {g : Grp E}
    (h : ∀ rnds : List CastRand, RunsOK sha nan64 g rnds → (∀ rnd ∈ rnds, CastDrawn bits rnd) →
      runGroup sha nan64 g rnds ≠ .panic ∧
      (∀ r, runGroup sha nan64 g rnds = .done r → r = .formed true) ∧
      ((∀ rnd ∈ rnds, ∃ s ∈ rnd.tape, SafeMask bits s.k) → runGroup sha nan64 g rnds = .done (.formed true)))
    (hsha : ∀ m, (sha m).length = 32) (hmap : ∀ s, SetupSeed 16 s → ∃ e, g.mapToGroup s = some e) {N : ℕ} {Bb : Int}
    (hr : (N, bits, Bb) ∈ curveTable) (hN : g.N = N)
    (rnds : ℕ → CastRand) (dur : Durations) : GroupRun.Good sha nan64 bits ⟨g, rnds, dur⟩ := by
  intro hd hs
  have hd' : ∀ rnd ∈ GroupRun.tapes ⟨g, rnds, dur⟩, CastDrawn bits rnd := fun rnd hm => by
    obtain ⟨i, hi, rfl⟩ := GroupRun.mem_tapes hm
    exact hd i hi
  obtain ⟨h1, h2, h3⟩ := h _ hs hd'
  refine ⟨h1, h2, fun hm => h3 fun rnd hr => ?_, C67_aborted sha hsha nan64 g hmap N bits Bb hr hN _ hd'⟩
  obtain ⟨i, hi, rfl⟩ := GroupRun.mem_tapes hr
  exact hm i hi

/-- the section that `r` prints in full, or begins while its tapes last -/
def Ends (sha : Bytes → Bytes) (nan64 : BitVec 64) (r : GroupRun) (sec : List String) : Prop :=
  (runGroup sha nan64 r.g r.tapes = .running ∧
    header true r.g.name ++ List.replicate (groupAborts sha nan64 r.g r.tapes) "Aborted" <+: sec) ∨
  ∃ rep, runGroup sha nan64 r.g r.tapes = .done rep ∧
    header true r.g.name ++ List.replicate (groupAborts sha nan64 r.g r.tapes) "Aborted" ++ footer r.g.name r.dur rep = sec

/-- what is left to print before and of some sections -/
def toPrint (first : Bool) (ss : List (List String)) : List String :=
  if ss = [] then [] else (if first then [] else [""]) ++ sections ss

theorem toPrint_cons (first : Bool) (s : List String) (ss : List (List String)) :
    toPrint first (s :: ss) = (if first then [] else [""]) ++ s ++ toPrint false ss := by
  cases ss <;> simp [toPrint, sections]

theorem header_eq (first : Bool) (name : String) : header first name = (if first then [] else [""]) ++ header true name := by
  cases first <;> rfl

theorem groupsLoop_spec (sha : Bytes → Bytes) (nan64 : BitVec 64) : ∀ (rs : List GroupRun) (ss : List (List String)) (first : Bool),
    List.Forall₂ (Ends sha nan64) rs ss →
    (groupsLoop sha nan64 first rs).2 ≠ .panicked ∧ (groupsLoop sha nan64 first rs).1 <+: toPrint first ss ∧
    ((∀ r ∈ rs, runGroup sha nan64 r.g r.tapes ≠ .running) →
      groupsLoop sha nan64 first rs = (toPrint first ss, .finished)) := by
  intro rs ss first h
  induction h generalizing first with
  | nil => simp [groupsLoop, toPrint]
  | @cons r s rs ss h _ ih =>
    obtain ⟨i1, i2, i3⟩ := ih false
    rw [toPrint_cons, groupsLoop]
    rcases h with ⟨e, hp⟩ | ⟨rep, e, hs⟩
    · rw [e, printGroup]
      refine ⟨by simp, ?_, fun hn => absurd e (hn r (by simp))⟩
      rw [header_eq, List.append_assoc, List.append_assoc]
      exact (List.prefix_append_right_inj _).mpr (hp.trans (List.prefix_append _ _))
    · rw [e, printGroup]
      rw [header_eq, List.append_assoc _ (header true _), List.append_assoc _ (header true _ ++ _), hs]
      exact ⟨i1, (List.prefix_append_right_inj _).mpr i2, fun hn => by rw [i3 fun r hr => hn r (by simp [hr])]⟩

theorem sep_eq : sep '=' = "============================================================" := by decide +kernel

theorem sep_dash : sep '-' = "------------------------------------------------------------" := by decide +kernel

theorem header_ok (name : String) : header true name = ["============================================================",
    "Generating public parameters for group: " ++ name] := by
  simp only [header, sep_eq]
  rfl

theorem footer_ok (name : String) (d : Durations) : footer name d (.formed true) =
    ["------------------------------------------------------------", "Vote casting", "Prove time: " ++ d.cast,
     "------------------------------------------------------------", "Vote verification", "Verify time BP: " ++ d.verBP,
     "Verify time RP: " ++ d.verRP, "Verify time total: " ++ d.verTotal,
     "------------------------------------------------------------", "Votes were correctly formed: true",
     "============================================================"] := by
  simp only [footer, sep_eq, sep_dash]
  rfl

theorem GroupRun.Good.ends {sha : Bytes → Bytes} {nan64 : BitVec 64} {bits : ℕ} {r : GroupRun} (h : r.Good sha nan64 bits)
    (hd : ∀ i < 1000, CastDrawn bits (r.rnds i)) (hs : RunsOK sha nan64 r.g r.tapes) :
    Ends sha nan64 r (okSection r.g.name (groupAborts sha nan64 r.g r.tapes) r.dur.cast r.dur.verBP r.dur.verRP
      r.dur.verTotal) := by
  obtain ⟨h1, h2, _⟩ := h hd hs
  unfold Ends
  generalize groupAborts sha nan64 r.g r.tapes = a
  cases e : runGroup sha nan64 r.g r.tapes with
  | panic => exact absurd e h1
  | running =>
    refine Or.inl ⟨rfl, ?_⟩
    rw [header_ok, okSection]
    exact List.prefix_append _ _
  | done rep =>
    obtain rfl := h2 rep e
    refine Or.inr ⟨_, rfl, ?_⟩
    rw [header_ok, footer_ok, okSection]

/-- what is asked of the votes of one group: draws in range, no challenge a zero divisor -/
def VotesOK (sha : Bytes → Bytes) (nan64 : BitVec 64) (bits : ℕ) (r : GroupRun) : Prop :=
  (∀ i < 1000, CastDrawn bits (r.rnds i)) ∧ RunsOK sha nan64 r.g r.tapes

/-- every vote of the group finds a safe mask -/
def MasksOK (bits : ℕ) (r : GroupRun) : Prop := ∀ i < 1000, ∃ s ∈ (r.rnds i).tape, SafeMask bits s.k

/-- what the number of lines "Aborted" of a group may be, while its tapes last and when its section is complete -/
def AbortsOK (bits : ℕ) (r : GroupRun) (a : ℕ) : Prop := a ≤ (r.tapes.map (mostAborts bits)).sum

/-- at least the attempts with small masks are discarded -/
def AbortsAll (r : GroupRun) (a : ℕ) : Prop := (r.tapes.map leastAborts).sum ≤ a

/-- the section a group prints when all votes are correctly formed, after `a` discarded attempts -/
def GroupRun.okText (r : GroupRun) (name : String) (a : ℕ) : List String :=
  okSection name a r.dur.cast r.dur.verBP r.dur.verRP r.dur.verTotal

theorem four (sha : Bytes → Bytes) (nan64 : BitVec 64) {r₁ r₂ r₃ r₄ : GroupRun} {b₁ b₂ b₃ b₄ : ℕ} {n₁ n₂ n₃ n₄ : String}
    (e₁ : r₁.g.name = n₁) (e₂ : r₂.g.name = n₂) (e₃ : r₃.g.name = n₃) (e₄ : r₄.g.name = n₄)
    (g₁ : r₁.Good sha nan64 b₁) (g₂ : r₂.Good sha nan64 b₂) (g₃ : r₃.Good sha nan64 b₃) (g₄ : r₄.Good sha nan64 b₄)
    (v₁ : VotesOK sha nan64 b₁ r₁) (v₂ : VotesOK sha nan64 b₂ r₂) (v₃ : VotesOK sha nan64 b₃ r₃) (v₄ : VotesOK sha nan64 b₄ r₄) :
    ∃ a₁ a₂ a₃ a₄, (AbortsOK b₁ r₁ a₁ ∧ AbortsOK b₂ r₂ a₂ ∧ AbortsOK b₃ r₃ a₃ ∧ AbortsOK b₄ r₄ a₄) ∧
    (mainRun sha nan64 [r₁, r₂, r₃, r₄]).2 ≠ .panicked ∧
    (mainRun sha nan64 [r₁, r₂, r₃, r₄]).1 <+:
      r₁.okText n₁ a₁ ++ [""] ++ r₂.okText n₂ a₂ ++ [""] ++ r₃.okText n₃ a₃ ++ [""] ++ r₄.okText n₄ a₄ ∧
    (MasksOK b₁ r₁ → MasksOK b₂ r₂ → MasksOK b₃ r₃ → MasksOK b₄ r₄ →
      (AbortsAll r₁ a₁ ∧ AbortsAll r₂ a₂ ∧ AbortsAll r₃ a₃ ∧ AbortsAll r₄ a₄) ∧ mainRun sha nan64 [r₁, r₂, r₃, r₄] =
      (r₁.okText n₁ a₁ ++ [""] ++ r₂.okText n₂ a₂ ++ [""] ++ r₃.okText n₃ a₃ ++ [""] ++ r₄.okText n₄ a₄, .finished)) := by
  subst e₁ e₂ e₃ e₄
  obtain ⟨q1, q2, q3⟩ := groupsLoop_spec sha nan64 _ _ true
    (.cons (g₁.ends v₁.1 v₁.2) (.cons (g₂.ends v₂.1 v₂.2) (.cons (g₃.ends v₃.1 v₃.2) (.cons (g₄.ends v₄.1 v₄.2) .nil))))
  have u₁ := g₁ v₁.1 v₁.2
  have u₂ := g₂ v₂.1 v₂.2
  have u₃ := g₃ v₃.1 v₃.2
  have u₄ := g₄ v₄.1 v₄.2
  refine ⟨groupAborts sha nan64 r₁.g r₁.tapes, groupAborts sha nan64 r₂.g r₂.tapes, groupAborts sha nan64 r₃.g r₃.tapes,
    groupAborts sha nan64 r₄.g r₄.tapes, ⟨u₁.2.2.2.1, u₂.2.2.2.1, u₃.2.2.2.1, u₄.2.2.2.1⟩, ?_⟩
  generalize groupAborts sha nan64 r₁.g r₁.tapes = a₁ at *
  generalize groupAborts sha nan64 r₂.g r₂.tapes = a₂ at *
  generalize groupAborts sha nan64 r₃.g r₃.tapes = a₃ at *
  generalize groupAborts sha nan64 r₄.g r₄.tapes = a₄ at *
  have ht : toPrint true [r₁.okText r₁.g.name a₁, r₂.okText r₂.g.name a₂, r₃.okText r₃.g.name a₃, r₄.okText r₄.g.name a₄] =
      r₁.okText r₁.g.name a₁ ++ [""] ++ r₂.okText r₂.g.name a₂ ++ [""] ++ r₃.okText r₃.g.name a₃ ++ [""] ++
        r₄.okText r₄.g.name a₄ := by
    simp only [toPrint_cons]
    simp [toPrint]
  rw [← ht]
  refine ⟨q1, q2, fun m₁ m₂ m₃ m₄ => ⟨⟨u₁.2.2.2.2 _ (u₁.2.2.1 m₁), u₂.2.2.2.2 _ (u₂.2.2.1 m₂), u₃.2.2.2.2 _ (u₃.2.2.1 m₃),
    u₄.2.2.2.2 _ (u₄.2.2.1 m₄)⟩, q3 fun r hr => ?_⟩⟩
  simp only [List.mem_cons, List.not_mem_nil, or_false] at hr
  rcases hr with rfl | rfl | rfl | rfl
  · rw [u₁.2.2.1 m₁]; simp
  · rw [u₂.2.2.1 m₂]; simp
  · rw [u₃.2.2.1 m₃]; simp
  · rw [u₄.2.2.1 m₄]; simp

/-- **C67** The program: on its four groups, with the hash functions it uses, `main` does not panic unless a challenge is a zero
divisor; what it prints never departs from the report that all votes were correctly formed, in the order secp256k1, Ristretto255,
P-256, P-384, with a line "Aborted" for every discarded attempt, and it prints all of it if every vote finds a safe mask. -/
theorem C67_main (nan64 : BitVec 64) (L : K1Lib) (hL : L.Identities) (pieces : Bytes → List Bytes)
    (dec256 dec384 : Bytes → Option WPoint) (t₁ t₂ t₃ t₄ : ℕ → CastRand) (d₁ d₂ d₃ d₄ : Durations) (r₁ r₂ r₃ r₄ : GroupRun)
    (h₁ : r₁ = ⟨k1Grp L.real, t₁, d₁⟩) (h₂ : r₂ = ⟨r255Grp (r255Real pieces), t₂, d₂⟩)
    (h₃ : r₃ = ⟨circlGrp (p256Real dec256), t₃, d₃⟩) (h₄ : r₄ = ⟨circlGrp (p384Real dec384), t₄, d₄⟩)
    (v₁ : VotesOK sha256 nan64 256 r₁) (v₂ : VotesOK sha256 nan64 253 r₂)
    (v₃ : VotesOK sha256 nan64 256 r₃) (v₄ : VotesOK sha256 nan64 384 r₄) :
    ∃ a₁ a₂ a₃ a₄, (AbortsOK 256 r₁ a₁ ∧ AbortsOK 253 r₂ a₂ ∧ AbortsOK 256 r₃ a₃ ∧ AbortsOK 384 r₄ a₄) ∧
    (mainRun sha256 nan64 [r₁, r₂, r₃, r₄]).2 ≠ .panicked ∧
    (mainRun sha256 nan64 [r₁, r₂, r₃, r₄]).1 <+:
      r₁.okText "secp256k1" a₁ ++ [""] ++ r₂.okText "ristretto255" a₂ ++ [""] ++ r₃.okText "P-256" a₃ ++ [""] ++
        r₄.okText "P-384" a₄ ∧
    (MasksOK 256 r₁ → MasksOK 253 r₂ → MasksOK 256 r₃ → MasksOK 384 r₄ →
      (AbortsAll r₁ a₁ ∧ AbortsAll r₂ a₂ ∧ AbortsAll r₃ a₃ ∧ AbortsAll r₄ a₄) ∧ mainRun sha256 nan64 [r₁, r₂, r₃, r₄] =
      (r₁.okText "secp256k1" a₁ ++ [""] ++ r₂.okText "ristretto255" a₂ ++ [""] ++ r₃.okText "P-256" a₃ ++ [""] ++
        r₄.okText "P-384" a₄, .finished)) := by
  have g₁ : GroupRun.Good sha256 nan64 256 r₁ := by
    rw [h₁]
    exact GroupRun.good_of (C66_driver nan64 L hL) sha256_length
      (fun s hs => (K1HashOK.legal (C66_seeds L) s hs).imp fun _ h => h.1) k1_row rfl t₁ d₁
  have g₂ : GroupRun.Good sha256 nan64 253 r₂ := by
    rw [h₂]
    exact GroupRun.good_of (C65_driver sha256 sha256_length nan64 pieces) sha256_length (fun s _ => ⟨_, rfl⟩) r255_row rfl t₂ d₂
  have row₃ := RealRow.p256 dec256
  have row₄ := RealRow.p384 dec384
  have g₃ : GroupRun.Good sha256 nan64 256 r₃ := by
    obtain ⟨Bb, hr, _⟩ := row₃.std.table
    rw [h₃]
    exact GroupRun.good_of (C54_curves sha256 sha256_length nan64 _ 256 row₃.std fun s _ => row₃.valid s) sha256_length
      (fun s _ => ⟨_, rfl⟩) hr rfl t₃ d₃
  have g₄ : GroupRun.Good sha256 nan64 384 r₄ := by
    obtain ⟨Bb, hr, _⟩ := row₄.std.table
    rw [h₄]
    exact GroupRun.good_of (C54_curves sha256 sha256_length nan64 _ 384 row₄.std fun s _ => row₄.valid s) sha256_length
      (fun s _ => ⟨_, rfl⟩) hr rfl t₄ d₄
  exact four sha256 nan64 (by rw [h₁]; rfl) (by rw [h₂]; rfl) (by rw [h₃]; rfl) (by rw [h₄]; rfl) g₁ g₂ g₃ g₄ v₁ v₂ v₃ v₄

/-- **C67** A group whose order is too short costs one line and does not touch the sections of the others. -/
theorem C67_skipped (sha : Bytes → Bytes) (nan64 : BitVec 64) (r : GroupRun) (hb : bitLen r.g.N < 242)
    (hmap : ∀ s, SetupSeed 16 s → ∃ e, r.g.mapToGroup s = some e) (first : Bool) (rs : List GroupRun) :
    groupsLoop sha nan64 first (r :: rs) =
      ((if first then [] else [""]) ++ skippedSection r.g.name ++ (groupsLoop sha nan64 false rs).1, (groupsLoop sha nan64 false rs).2) := by
  have h0 : groupAborts sha nan64 r.g r.tapes = 0 := by
    rw [groupAborts, (C47_setup nan64 r.g hmap (by omega)).2 hb]; rfl
  rw [groupsLoop, C54_skipped sha nan64 r.g hmap hb, h0, printGroup, header_eq]
  simp only [header, footer, skippedSection, sep_eq]
  simp [String.append_assoc]

/-- **C67** What was printed before a panic stays printed: the header of the group and its lines "Aborted" are the last thing. -/
theorem C67_panic (sha : Bytes → Bytes) (nan64 : BitVec 64) (r : GroupRun) (first : Bool) (rs : List GroupRun)
    (h : runGroup sha nan64 r.g r.tapes = .panic) :
    groupsLoop sha nan64 first (r :: rs) =
      (header first r.g.name ++ List.replicate (groupAborts sha nan64 r.g r.tapes) "Aborted", .panicked) := by
  rw [groupsLoop, h, printGroup]

/-- a vote with its values in the ranges of the code, the second mask is safe -/
def exVote : CastRand :=
  ⟨5, 9, ⟨1, 2, List.replicate 16 3, List.replicate 16 4, 5, 6, 7⟩,
    ⟨1, 2, List.replicate 16 3, List.replicate 16 4, 5, 6, 7⟩, [⟨7, 1, 2, 3⟩, ⟨2 ^ 254, 1, 2, 3⟩]⟩

/-- C67: what is asked of the votes is met by a run on P-256, shown for a digest that is never a zero divisor; its report is the
one announced, with one line "Aborted" per vote. -/
example (nan64 : BitVec 64) (dec : Bytes → Option WPoint) (d : Durations) (r : GroupRun)
    (hr : r = ⟨circlGrp (p256Real dec), fun _ => exVote, d⟩) :
    VotesOK (fun _ => List.replicate 31 0 ++ [1]) nan64 256 r ∧ MasksOK 256 r ∧
    mainRun (fun _ => List.replicate 31 0 ++ [1]) nan64 [r] = (r.okText "P-256" 1000, .finished) := by
  have row := RealRow.p256 dec
  obtain ⟨Bb, hrow, _⟩ := row.std.table
  have ok := stdCircl_ord row.std.circl
  have := ok.fact'
  let := ok.module
  have hd : ∀ i < 1000, CastDrawn 256 (r.rnds i) := by
    subst hr
    intro i _
    show CastDrawn 256 exVote
    refine ⟨by decide, by decide, fun s hs => ?_⟩
    simp only [exVote, List.mem_cons, List.not_mem_nil, or_false] at hs
    rcases hs with rfl | rfl <;> norm_num
  have hm : MasksOK 256 r := by
    subst hr
    exact fun i _ => ⟨⟨2 ^ 254, 1, 2, 3⟩, by simp [exVote], by norm_num, by norm_num⟩
  have hD : DigestsOK (fun _ => List.replicate 31 0 ++ [1]) (p256Real dec).n := fun _ => by
    show Int.gcd (setBytes (List.replicate 31 0 ++ [1]) : ℕ) p256N = 1
    decide +kernel
  have hruns : RunsOK (fun _ => List.replicate 31 0 ++ [1]) nan64 r.g r.tapes := by
    have hd' : ∀ rnd ∈ r.tapes, CastDrawn 256 rnd := fun rnd h => by
      obtain ⟨i, hi, rfl⟩ := GroupRun.mem_tapes h
      exact hd i hi
    generalize r.tapes = t at hd' ⊢
    subst hr
    exact C54_runs _ (fun _ => rfl) nan64 _ _ 256 Bb hrow ok.lawful
      (fun s _ => ⟨_, rfl, (wLegal_iff _ _).mpr (row.valid s)⟩) t hd' hD
  have good : GroupRun.Good (fun _ => List.replicate 31 0 ++ [1]) nan64 256 r := by
    rw [hr]
    exact GroupRun.good_of (C54_curves _ (fun _ => rfl) nan64 _ 256 row.std fun s _ => row.valid s) (fun _ => rfl)
      (fun s _ => ⟨_, rfl⟩) hrow rfl _ d
  refine ⟨⟨hd, hruns⟩, hm, ?_⟩
  have e : r.g.name = "P-256" := by rw [hr]; rfl
  obtain ⟨_, _, q⟩ := groupsLoop_spec _ nan64 _ _ true (.cons (good.ends hd hruns) .nil)
  have hmost : (r.tapes.map (mostAborts 256)).sum = 1000 := by
    have : r.tapes = List.replicate 1000 exVote := by rw [hr]; show (List.range iterCount).map (fun _ => exVote) = _; simp [iterCount]
    rw [this, List.map_replicate, List.sum_replicate]
    decide +kernel
  have hleast : (r.tapes.map leastAborts).sum = 1000 := by
    have : r.tapes = List.replicate 1000 exVote := by rw [hr]; show (List.range iterCount).map (fun _ => exVote) = _; simp [iterCount]
    rw [this, List.map_replicate, List.sum_replicate]
    decide +kernel
  have ha : groupAborts (fun _ => List.replicate 31 0 ++ [1]) nan64 r.g r.tapes = 1000 := by
    have u := good hd hruns
    have h1 := u.2.2.2.1
    have h2 := u.2.2.2.2 _ (u.2.2.1 hm)
    omega
  rw [e, ha] at q
  refine q fun r' h => ?_
  rw [List.mem_singleton.mp h, (good hd hruns).2.2.1 hm]
  simp

end MscPoc
