import Verif.Lemmas.Recorded256
import Verif.Lemmas.Recorded384
import Verif.Lemmas.RecordedDecode
import Verif.Props.HashToCurve
import Verif.Props.JsonText

/-!
# C69 — the ballots recorded in testdata
-/

set_option autoImplicit false

namespace MscPoc

open JSpec

/-- a curve with circl's `HashToElement`, the bits of its order, and the recorded ballot for it -/
inductive RecRow : CirclCurve → ℕ → RecCurve → RecBallot → Prop
  | p256 (dec : Bytes → Option WPoint) : RecRow (p256Real dec) 256 recCurve256 recBallot256
  | p384 (dec : Bytes → Option WPoint) : RecRow (p384Real dec) 384 recCurve384 recBallot384

section
variable {C : CirclCurve} {bits : ℕ} {K : RecCurve} {b : RecBallot} (row : RecRow C bits K b)
include row

theorem RecRow.real : RealRow C bits K.H K.Uu K.Gg K.Hh := by
  cases row with
  | p256 dec => exact .p256 dec
  | p384 dec => exact .p384 dec

theorem RecRow.gen : K.G = ⟨C.gx, C.gy⟩ := by
  cases row <;> rfl

theorem RecRow.checked : ∃ t₁ t₂ fuel, BPChecked C.num K b.lo t₁ fuel ∧ BPChecked C.num K b.hi t₂ fuel ∧
    SigmaChecked C.num K b fuel := by
  cases row with
  | p256 dec => rw [num256_eq]; exact ⟨_, _, _, recLo256_checked, recHi256_checked, recBallot256_checked⟩
  | p384 dec => rw [num384_eq]; exact ⟨_, _, _, recLo384_checked, recHi384_checked, recBallot384_checked⟩

theorem RecRow.small : (0 ≤ b.Bg ∧ b.Bg < 2 ^ 16) ∧ (-(2 ^ 63) ≤ b.Bb ∧ b.Bb < 2 ^ 63) := by
  cases row <;> decide +kernel

theorem RecRow.ord : CurveOrd C := stdCircl_ord row.real.std.circl

theorem RecRow.std : StdCurve C.c := by
  cases row with
  | p256 dec => exact ⟨dec, Or.inl rfl⟩
  | p384 dec => exact ⟨dec, Or.inr rfl⟩

/-- what `setup` returns -/
theorem RecRow.setup (nan64 : BitVec 64) : ∃ pp, setup nan64 (circlGrp C) = some (.ok pp) ∧
    pp.RPParams.GFF.I = modPGrp rfcGroup ∧ pp.RPParams.GEC.I = circlGrp C ∧
    pp.BPParams = { N := 16, G := K.G, H := K.H, Gg := K.Gg, Hh := K.Hh, GP := circlGrp C } ∧
    pp.RPParams.RangeLo = 101 ∧ pp.RPParams.RangeHi = 2000 := by
  obtain ⟨Bb, hr, _⟩ := row.real.std.table
  obtain ⟨D, hD, dep, _⟩ := C47_curves nan64 (circlGrp C) (fun s _ => ⟨_, rfl⟩) C.n bits Bb hr rfl
  obtain ⟨pp, hpp, g1, g2, g3, g4, _⟩ := C60_generators nan64 row.real
  have e : D.pp = pp := Except.ok.inj (Option.some.inj (hD.symm.trans hpp))
  subst e
  refine ⟨D.pp, hD, dep.FF, dep.EC, ?_, dep.lo, dep.hi⟩
  have : D.pp.BPParams = { N := D.n, G := D.G, H := D.H, Gg := D.Gg, Hh := D.Hh, GP := D.EC } := rfl
  rw [this, dep.n, dep.EC, row.gen]
  have e1 : D.G = _ := g1
  have e2 : D.H = _ := g2
  have e3 : D.Gg = _ := g3
  have e4 : D.Hh = _ := g4
  rw [e1, e2, e3, e4]

/-- **C69** With the parameters of `setup`, `BallotDataUnmarshalJSON` reads every text of the recorded document without an
error or a panic, and the ballot it returns has the recorded values. -/
theorem C69_decode (nan64 : BitVec 64) : ∃ pp, setup nan64 (circlGrp C) = some (.ok pp) ∧
    ∀ t, IsText 10000 t (b.json K) → decBallotText modPCodec (wCodec C.c) pp t = some (.ok (b.ballot C K)) := by
  obtain ⟨pp, hpp, h1, h2, h3, _⟩ := row.setup nan64
  obtain ⟨t₁, t₂, fuel, c1, c2, c3⟩ := row.checked
  refine ⟨pp, hpp, fun t ht => ?_⟩
  rw [C61_same_document _ _ pp t _ ht]
  obtain ⟨l1, _, l3, l4, l5, _⟩ := c1.lens
  obtain ⟨_, _, m3, m4, m5, _⟩ := c2.lens
  refine decBallot_rec row.std pp h1 h2 h3 (ptsOk_spec c1.pts) (ptsOk_spec c2.pts) ?_ ⟨l1, l3, l4, l5⟩ ⟨l1, m3, m4, m5⟩
    row.small.1 row.small.2
  intro P hP
  rcases List.mem_cons.mp hP with rfl | hP
  · rw [row.gen]; exact ⟨row.ord.gen_legal, row.ord.gen_ne⟩
  · refine ptsOk_spec c3.pts P ?_
    simp only [List.mem_cons, List.not_mem_nil, or_false] at hP
    rcases hP with rfl | rfl | rfl
    · exact List.mem_cons_self
    · exact List.mem_cons_of_mem _ List.mem_cons_self
    · exact List.mem_cons_of_mem _ (List.mem_cons_of_mem _ List.mem_cons_self)

/-- **C69** Both recorded range proofs verify, with SHA-256 as the hash. -/
theorem C69_range_proofs : (b.ballot C K).BpLower.verify sha256 = some true ∧ (b.ballot C K).BpUpper.verify sha256 = some true := by
  obtain ⟨t₁, t₂, fuel, c1, c2, c3⟩ := row.checked
  exact ⟨c1.verify row.ord, c2.verify row.ord⟩

/-- **C69** `verifyVote` of the recorded ballot, for every choice of the verifier's parameters over the curve: no panic,
two times, and the verdict is positive exactly for the candidate range 101 … 1000. -/
theorem C69_verdict (rp : ProofParams Int WPoint) (hI : rp.GEC.I = circlGrp C) :
    verifyVote sha256 (b.ballot C K) rp =
      some { result := decide (rp.RangeLo = 101 ∧ rp.RangeHi = 1000), times := [0, 0] } := by
  obtain ⟨t₁, t₂, fuel, c1, c2, c3⟩ := row.checked
  exact recorded_verdict row.ord c1 c2 c3 rp hI

/-- **C69** `unmarshalAndVerify` (main_test.go:22-36) on the recorded text: decoding succeeds, and the verdict under the
parameters of `setup`, whose range ends at 2000, is negative; under the parameters stored in the ballot it is positive. -/
theorem C69_test (nan64 : BitVec 64) (t : Text) (ht : IsText 10000 t (b.json K)) :
    ∃ pp ballot, setup nan64 (circlGrp C) = some (.ok pp) ∧
      decBallotText modPCodec (wCodec C.c) pp t = some (.ok ballot) ∧
      verifyVote sha256 ballot pp.RPParams = some { result := false, times := [0, 0] } ∧
      verifyVote sha256 ballot ballot.VoteProof.Params = some { result := true, times := [0, 0] } := by
  obtain ⟨pp, hpp, h1, h2, h3, h4, h5⟩ := row.setup nan64
  obtain ⟨pp', hpp', hd⟩ := C69_decode row nan64
  have e : pp' = pp := Except.ok.inj (Option.some.inj (hpp'.symm.trans hpp))
  subst e
  refine ⟨pp', _, hpp, hd t ht, ?_, ?_⟩
  · rw [C69_verdict row _ h2, h4, h5]
    rfl
  · rw [C69_verdict row _ rfl]
    rfl

end

theorem plain_recPt (d : ℕ) (P : WPoint) : Plain (d + 1) (recPt P) :=
  .obj d _ fun kv h => by
    simp only [List.mem_cons, List.not_mem_nil, or_false] at h
    rcases h with rfl | rfl <;> exact .num d _

theorem plain_recPts (d : ℕ) (l : List WPoint) : Plain (d + 2) (recPts l) :=
  .arr (d + 1) _ fun v h => by
    obtain ⟨P, _, rfl⟩ := List.mem_map.mp h
    exact plain_recPt d P

theorem plain_recGroup (d : ℕ) (s : String) : Plain (d + 1) (recGroup s) :=
  .obj d _ fun kv h => by
    simp only [List.mem_cons, List.not_mem_nil, or_false] at h
    rw [h]; exact .str d s

/-- the recorded documents are made of integers, strings, arrays and objects -/
theorem rec_plain (K : RecCurve) (b : RecBallot) : Plain 10000 (b.json K) := by
  have hpar : ∀ d, Plain (d + 3) K.bpJson := fun d => .obj (d + 2) _ fun kv h => by
    simp only [List.mem_cons, List.not_mem_nil, or_false] at h
    rcases h with rfl | rfl | rfl | rfl | rfl | rfl
    exacts [.num _ _, plain_recPt _ _, plain_recPt _ _, plain_recPts _ _, plain_recPts _ _, plain_recGroup _ _]
  have hip : ∀ d (p : RecBP), Plain (d + 4) (p.ipJson K) := fun d p => .obj (d + 3) _ fun kv h => by
    simp only [List.mem_cons, List.not_mem_nil, or_false] at h
    rcases h with rfl | rfl | rfl | rfl | rfl | rfl | rfl
    · exact plain_recPt _ _
    · exact .num _ _
    · exact .num _ _
    · exact .num _ _
    · exact plain_recPts _ _
    · exact plain_recPts _ _
    · refine .obj (d + 2) _ fun kv h => ?_
      simp only [List.mem_cons, List.not_mem_nil, or_false] at h
      rcases h with rfl | rfl | rfl | rfl
      exacts [plain_recPts _ _, plain_recPts _ _, plain_recPt _ _, plain_recGroup _ _]
  have hhead : ∀ d (p : RecBP), ∀ kv ∈ p.head K, Plain (d + 4) kv.2 := fun d p kv h => by
    simp only [RecBP.head, List.mem_cons, List.not_mem_nil, or_false] at h
    rcases h with rfl | rfl | rfl | rfl | rfl | rfl | rfl | rfl | rfl
    exacts [plain_recPt _ _, plain_recPt _ _, plain_recPt _ _, plain_recPt _ _, plain_recPt _ _, .num _ _, .num _ _, .num _ _,
      hip d p]
  refine .obj 9999 _ fun kv h => ?_
  simp only [List.mem_cons, List.not_mem_nil, or_false] at h
  rcases h with rfl | rfl | rfl | rfl
  · refine .obj 9998 _ fun kv h => ?_
    simp only [List.mem_cons, List.not_mem_nil, or_false] at h
    rcases h with rfl | rfl <;> exact .num _ _
  · refine .obj 9998 _ fun kv h => ?_
    rcases List.mem_append.mp h with h | h
    · exact hhead 9994 _ kv h
    · rw [List.mem_singleton.mp h]; exact hpar 9995
  · refine .obj 9998 _ fun kv h => ?_
    rcases List.mem_append.mp h with h | h
    · exact hhead 9994 _ kv h
    · simp only [List.mem_cons, List.not_mem_nil, or_false] at h
      rcases h with rfl | rfl
      · exact plain_recPt _ _
      · exact hpar 9995
  · refine .obj 9998 _ fun kv h => ?_
    simp only [List.mem_cons, List.not_mem_nil, or_false] at h
    rcases h with rfl | rfl | rfl | rfl | rfl | rfl | rfl | rfl | rfl | rfl
    · exact .num _ _
    · exact .num _ _
    · exact plain_recPt _ _
    · exact plain_recPt _ _
    · exact .num _ _
    · exact .num _ _
    · exact .num _ _
    · exact .num _ _
    · exact .num _ _
    · refine .obj 9997 _ fun kv h => ?_
      simp only [List.mem_cons, List.not_mem_nil, or_false] at h
      rcases h with rfl | rfl | rfl | rfl | rfl | rfl | rfl | rfl
      · exact .num _ _
      · exact .num _ _
      · exact .num _ _
      · exact .num _ _
      · exact .num _ _
      · exact .num _ _
      · refine .obj 9996 _ fun kv h => ?_
        simp only [List.mem_cons, List.not_mem_nil, or_false] at h
        rcases h with rfl | rfl | rfl | rfl | rfl
        exacts [.num _ _, .num _ _, .num _ _, .num _ _, plain_recGroup _ _]
      · refine .obj 9996 _ fun kv h => ?_
        simp only [List.mem_cons, List.not_mem_nil, or_false] at h
        rcases h with rfl | rfl | rfl | rfl | rfl
        exacts [plain_recPt _ _, plain_recPt _ _, .num _ _, .num _ _, plain_recGroup _ _]

/-- C69: the recorded documents are what `json.Marshal` would write for them -/
theorem rec_text (K : RecCurve) (b : RecBallot) : IsText 10000 (JText.print (b.json K)) (b.json K) :=
  (C61_scanner _ _).mp (C61_print _ (rec_plain K b))

/-- C69: both recorded ballots have texts and different contents -/
example : RecRow (p256Real fun _ => none) 256 recCurve256 recBallot256 ∧ RecRow (p384Real fun _ => none) 384 recCurve384 recBallot384 ∧
    (∃ t, IsText 10000 t (recBallot256.json recCurve256)) ∧ (∃ t, IsText 10000 t (recBallot384.json recCurve384)) ∧
    recBallot256.z ≠ recBallot384.z :=
  ⟨.p256 _, .p384 _, ⟨_, rec_text _ _⟩, ⟨_, rec_text _ _⟩, by decide +kernel⟩

end MscPoc
