import Verif.Props.BallotSound
import Verif.Props.TextDeployed

/-!
# C72 — a forked ballot with its trees

Candidates 1 to 3, ElGamal group of order 2063, curve of order 2053, two-bit range proofs.  The vote is 2, so both range proofs are for 1.
-/

set_option autoImplicit false

namespace MscPoc

def fkElection : Election Int Int where
  FF := toyGrp 2063
  EC := toyGrp 2053
  PK := 13
  n := 2
  G := 1
  H := 7
  Gg := [1003, 1005]
  Hh := [1002, 1004]
  F := 2063
  Bx := 2
  Bc := 8
  Bg := 12
  Bb := 1
  lo := 1
  hi := 3

/-- random numbers of the two range proofs -/
def fkR (t : Bool) : BPRand :=
  { gamma := if t then 17 else 1900, alpha := if t then 5 else 6, sL := [1, 20], sR := [9, 8], rho := 3, tau1 := 2, tau2 := 90 }

def fkCast : CastRand := { rChoice := 0, rEnc := 40, bp1 := fkR true, bp2 := fkR false, tape := [⟨1100, 7, 8, 9⟩] }

/-- digest function of a run: every byte is `d` -/
def fkSha (d : UInt8) : Bytes → Bytes := fun _ => List.replicate 32 d

def fkBallot (d : UInt8) : Option (BallotData Int Int) :=
  match castChoice (fkSha d) fkElection.pp 2 fkCast with
  | .done b => some b
  | _ => none

/-! ## The trees -/

def fkV (t : Bool) : Int := if t then 120 else 983
def fkA (t : Bool) : Int := if t then 34 else 41
def fkS (_ : Bool) : Int := 1220

/-- the transcripts: for each of the challenges 2, …, 5 and each of the second challenges 7, 8, 9 the numbers `T1`, `T2`, `Tprime`, `Taux`,
`Mu`, `P`; the final `a`, `b` for the round challenges 2, …, 5; and `L`, `R` for the first challenges 6 and 11 of the inner-product
argument (`fkPathOk_all` checks that all are accepted) -/
def fkData (t : Bool) : List (List Int) :=
  if t then
   [[179, 959, 826, 386, 26, 2041, 81, 1305, 64, 389, 1085, 2045, 1700, 1445, 359, 1690, 177, 1914],
    [179, 959, 1820, 1738, 29, 1187, 93, 315, 758, 440, 1094, 1598, 1709, 295, 1057, 1597, 1288, 81],
    [179, 959, 1419, 1217, 32, 333, 105, 1378, 1452, 491, 1103, 1151, 1718, 1198, 1907, 1161, 1309, 1383],
    [416, 1119, 2043, 471, 26, 845, 1105, 1448, 745, 601, 1594, 1300, 463, 975, 775, 1398, 469, 240],
    [416, 1119, 1568, 1823, 29, 2044, 1117, 474, 1439, 676, 1603, 885, 472, 1918, 735, 1866, 1759, 1717],
    [416, 1119, 18, 1302, 32, 1190, 1129, 1553, 80, 751, 1612, 470, 481, 808, 923, 1991, 1414, 170],
    [759, 1279, 1879, 590, 26, 1653, 76, 1604, 1426, 1516, 50, 1606, 1279, 946, 493, 1453, 1999, 1653],
    [759, 1279, 41, 1942, 29, 799, 88, 646, 67, 1615, 59, 1223, 1288, 1929, 694, 1372, 1499, 698],
    [759, 1279, 1554, 1421, 32, 1998, 100, 1741, 761, 1714, 68, 840, 1297, 859, 1199, 948, 872, 825],
    [1208, 1439, 310, 743, 26, 359, 1100, 1773, 54, 1081, 559, 910, 42, 1358, 454, 101, 2044, 1809],
    [1208, 1439, 1321, 42, 29, 1558, 1112, 831, 748, 1204, 568, 559, 51, 328, 1875, 1194, 1891, 1672],
    [1208, 1439, 1897, 1574, 32, 704, 1124, 1942, 1442, 1327, 577, 208, 60, 1351, 1623, 1944, 1066, 564]]
  else
   [[179, 959, 826, 1759, 27, 2041, 81, 1305, 64, 389, 1085, 2045, 1700, 1445, 359, 1690, 177, 1914],
    [179, 959, 1820, 1058, 30, 1187, 93, 315, 758, 440, 1094, 1598, 1709, 295, 1057, 1597, 1288, 81],
    [179, 959, 1419, 537, 33, 333, 105, 1378, 1452, 491, 1103, 1151, 1718, 1198, 1907, 1161, 1309, 1383],
    [416, 1119, 2043, 994, 27, 845, 1105, 1448, 745, 601, 1594, 1300, 463, 975, 775, 1398, 469, 240],
    [416, 1119, 1568, 293, 30, 2044, 1117, 474, 1439, 676, 1603, 885, 472, 1918, 735, 1866, 1759, 1717],
    [416, 1119, 18, 1825, 33, 1190, 1129, 1553, 80, 751, 1612, 470, 481, 808, 923, 1991, 1414, 170],
    [759, 1279, 1879, 1976, 27, 1653, 76, 1604, 1426, 1516, 50, 1606, 1279, 946, 493, 1453, 1999, 1653],
    [759, 1279, 41, 1275, 30, 799, 88, 646, 67, 1615, 59, 1223, 1288, 1929, 694, 1372, 1499, 698],
    [759, 1279, 1554, 754, 33, 1998, 100, 1741, 761, 1714, 68, 840, 1297, 859, 1199, 948, 872, 825],
    [1208, 1439, 310, 599, 27, 359, 1100, 1773, 54, 1081, 559, 910, 42, 1358, 454, 101, 2044, 1809],
    [1208, 1439, 1321, 1951, 30, 1558, 1112, 831, 748, 1204, 568, 559, 51, 328, 1875, 1194, 1891, 1672],
    [1208, 1439, 1897, 1430, 33, 704, 1124, 1942, 1442, 1327, 577, 208, 60, 1351, 1623, 1944, 1066, 564]]

def fkNum (t : Bool) (j i n : Nat) : Int := ((fkData t).getD (3 * j + i) []).getD n 0

/-- a digest function that gives the challenges `y`, `x`, `c`, `r` for the strings of `A`, `S`; of `T1`, `T2`; of the first step of
the inner-product argument (always longer than eight characters); and of `L`, `R` -/
def fkShaT (t : Bool) (T : Int × Int) (y x c r : Nat) : Bytes → Bytes := fun b =>
  if b = bigDec (fkA t) ++ bigDec (fkS t) then [UInt8.ofNat y] else if b = bigDec T.1 ++ bigDec T.2 then [UInt8.ofNat x]
  else if 8 < b.length then [UInt8.ofNat c] else [UInt8.ofNat r]

/-- `o` is 14 for the challenge 6 and 16 for the challenge 11 -/
def fkIPT (t : Bool) (j i o : Nat) : IPTree Int (ZMod 2053) 1 :=
  .node (fkNum t j i o) (fkNum t j i (o + 1)) ![2, 3, 4, 5] fun m => .leaf (fkNum t j i (2 * m + 6)) (fkNum t j i (2 * m + 7))
def fkLeaf (t : Bool) (j i : Nat) : BpLeaf Int (ZMod 2053) 1 where
  x := (i + 7 : Nat)
  Tprime := fkNum t j i 2
  Taux := fkNum t j i 3
  Mu := fkNum t j i 4
  P := fkNum t j i 5
  c := 6
  c' := 11
  t := fkIPT t j i 14
  t' := fkIPT t j i 16
def fkTree (t : Bool) : BpTree Int (ZMod 2053) 1 where
  V := fkV t
  A := fkA t
  S := fkS t
  node j := { y := (j : Nat) + 2, T1 := fkNum t j 0 0, T2 := fkNum t j 0 1, leaf := fun i => fkLeaf t j i }

instance : Fact (Nat.Prime 2053) := ⟨by norm_num⟩
instance : Fact (Nat.Prime 2063) := ⟨by norm_num⟩

theorem fkElection_ok : fkElection.OK (toyLawful 2063) (toyLawful 2053) 1 := by
  refine ⟨⟨by decide, by decide⟩, ⟨rfl, ⟨by decide, by decide⟩, ?_, ?_, rfl, rfl, fun _ h => toy_map _ h⟩, by decide +kernel⟩
  · unfold toyLawful fkElection Election.bp; decide
  · unfold toyLawful fkElection Election.bp; decide

/-- the updated generators -/
def fkHp (t : Bool) (j : Fin 4) : List Int :=
  (updateGenerators fkElection.bp.GP fkElection.bp.Hh ((fkTree t).node j).y fkElection.bp.N).getD []

/-- the transcript at `j`, `i`, for the `m`-th answer in the tree for `c` -/
def fkPath (t : Bool) (j : Fin 4) (i : Fin 3) (o : Nat) (m : Fin 4) : IPPath Int (ZMod 2053) :=
  { rounds := [(fkNum t j i o, fkNum t j i (o + 1), ![2, 3, 4, 5] m)]
    A := fkNum t j i (2 * m + 6)
    B := fkNum t j i (2 * m + 7) }

theorem fkIPT_mem (t : Bool) (j : Fin 4) (i : Fin 3) (o : Nat) (p : IPPath Int (ZMod 2053))
    (h : (fkIPT t j i o).Mem p) : ∃ m, p = fkPath t j i o m := by
  obtain ⟨m, u, hu, rfl⟩ := h
  rw [show u = _ from hu]
  exact ⟨m, rfl⟩

/-- acceptance of one transcript -/
def fkPathOk (t : Bool) (j : Fin 4) (i : Fin 3) (c o : Nat) (m : Fin 4) : Bool :=
  let sha := fkShaT t (fkNum t j 0 0, fkNum t j 0 1) (j + 2) (i + 7) c (m + 2)
  let nd := (fkTree t).node j
  let lf := nd.leaf i
  let p := fkPath t j i o m
  decide (roundChallenge sha fkElection.bp.GP (fkTree t).A (fkTree t).S = nd.y) &&
    decide ((roundChallenge sha fkElection.bp.GP nd.T1 nd.T2 : ZMod 2053) = lf.x) &&
    decide ((ippChallenge sha fkElection.bp.GP fkElection.bp.Gg (fkHp t j) lf.P lf.Tprime : ZMod 2053) = c) &&
    decide (∀ r ∈ p.rounds, (roundChallenge sha fkElection.bp.GP r.1 r.2.1 : ZMod 2053) = r.2.2) &&
    decide (((fkTree t).proof fkElection.bp 1455 (fkHp t j) nd lf p).verify sha = some true)

theorem fkPathOk_all : ∀ t j i m, fkPathOk t j i 6 14 m = true ∧ fkPathOk t j i 11 16 m = true := by decide +kernel

theorem fkPathOk_spec {t : Bool} {j : Fin 4} {i : Fin 3} {c o : Nat} {m : Fin 4} (h : fkPathOk t j i c o m = true) :
    (fkTree t).PathOk fkElection.bp 1455 (fkHp t j) ((fkTree t).node j) (((fkTree t).node j).leaf i) c (fkPath t j i o m) := by
  unfold fkPathOk at h
  simp only [Bool.and_eq_true, decide_eq_true_eq] at h
  obtain ⟨⟨⟨⟨h1, h2⟩, h3⟩, h4⟩, h5⟩ := h
  exact ⟨_, h1, h2, h3, h4, h5⟩

theorem fkTree_accepted (t : Bool) : (fkTree t).Accepted fkElection.bp 1455 := by
  intro j
  refine ⟨fkHp t j, ?_, fun i p => ⟨fun h => ?_, fun h => ?_⟩⟩
  · revert t j; decide +kernel
  · obtain ⟨m, rfl⟩ := fkIPT_mem t j i 14 p h
    exact fkPathOk_spec (fkPathOk_all t j i m).1
  · obtain ⟨m, rfl⟩ := fkIPT_mem t j i 16 p h
    exact fkPathOk_spec (fkPathOk_all t j i m).2

theorem fkTree_distinct (t : Bool) : (fkTree t).Distinct := by
  refine ⟨by revert t; decide +kernel, by revert t; decide +kernel, by revert t; decide +kernel, by revert t; decide +kernel,
    fun j i => ⟨?_, ?_⟩⟩
  · exact ⟨by decide, by decide, fun _ => trivial⟩
  · exact ⟨by decide, by decide, fun _ => trivial⟩

theorem fkTree_legal (t : Bool) : (fkTree t).Legal (params := fkElection.bp) (toyLawful 2053) where
  V := by unfold toyLawful; revert t; decide +kernel
  A := by unfold toyLawful; revert t; decide +kernel
  S := by unfold toyLawful; revert t; decide +kernel
  com := by unfold toyLawful; revert t; decide +kernel
  P := by unfold toyLawful; revert t; decide +kernel
  ip := by
    have key : ∀ t j i m, (∀ r ∈ (fkPath t j i 14 m).rounds, (toyLawful 2053).V r.1 ∧ (toyLawful 2053).V r.2.1) ∧
        ∀ r ∈ (fkPath t j i 16 m).rounds, (toyLawful 2053).V r.1 ∧ (toyLawful 2053).V r.2.1 := by
      unfold toyLawful; decide +kernel
    intro j i p hp
    rcases hp with hp | hp
    · obtain ⟨m, rfl⟩ := fkIPT_mem t j i 14 p hp
      exact (key t j i m).1
    · obtain ⟨m, rfl⟩ := fkIPT_mem t j i 16 p hp
      exact (key t j i m).2

theorem fkBallot_params (d : UInt8) (b : BallotData Int Int) (h : fkBallot d = some b) : b.VoteProof.Params = fkElection.rp := by
  unfold fkBallot castChoice at h
  generalize encryptVote _ _ _ _ = a at h
  generalize bpProve (fkSha d) fkElection.pp.BPParams fkCast.bp1 _ = a1 at h
  generalize bpProve (fkSha d) fkElection.pp.BPParams fkCast.bp2 _ = a2 at h
  rcases a with _ | ⟨ct, rp⟩
  · simp at h
  rcases a1 with _ | _ | ⟨b1, r1⟩
  · simp at h
  · simp at h
  rcases a2 with _ | _ | ⟨b2, r2⟩
  · simp at h
  · simp at h
  dsimp only at h
  cases hs : sigmaProve (fkSha d) fkElection.pp.RPParams ((2 : UInt16).toNat : Int) rp r1 (2053 - r2) fkCast.tape with
  | running => rw [show fkElection.pp.ECGroupParams.N = some 2053 from rfl] at h; dsimp only at h; rw [hs] at h; simp at h
  | panic => rw [show fkElection.pp.ECGroupParams.N = some 2053 from rfl] at h; dsimp only at h; rw [hs] at h; simp at h
  | done pf =>
    rw [show fkElection.pp.ECGroupParams.N = some 2053 from rfl] at h
    dsimp only at h
    rw [hs] at h
    simp only [Option.some.injEq] at h
    subst h
    obtain ⟨_, _, _, _, _, _, _, _, _, _, rfl⟩ := ((C30_first_in_range (fkSha d) fkElection.rp (NF := 2063) (NE := 2053) rfl rfl _ _ _ _
      _).1 pf).mp hs
    rfl

/-- the scalars of an extracted opening -/
def openedTo (v r : ZMod 2053) : BpExtracted (ZMod 2053) → Bool
  | .opening v' r' _ _ _ => v' == v && r' == r
  | .relation _ => false

theorem fkTree_lower : openedTo 1 17 (fkTree true).extract = true := by decide +kernel
theorem fkTree_upper : openedTo 1 1900 (fkTree false).extract = true := by decide +kernel

def fkAns : SigmaAns := ⟨3, 1106, 130, 59, 468⟩
def fkAns' : SigmaAns := ⟨200, 1500, 2018, 1355, 1867⟩

theorem fkMerge : (match (ballotMerge 1 3 fkAns fkAns' 1 17 1 1900 :
      BallotExtracted (ZMod 2063) (ZMod 2053)) with
    | .plaintext v₁ r₁ v₂ r₂ x s => v₁ == 1 && r₁ == 17 && v₂ == 1 && r₂ == 1900 && x == 2 && s == 41
    | .relation _ => false) = true := by decide +kernel

theorem fkBallot_3 : (fkBallot 3).isSome = true := by decide +kernel
theorem fkBallot_200 : (fkBallot 200).isSome = true := by decide +kernel

/-- the ballots for the digests 3 and 200 are a legal fork -/
theorem fkFork : ∃ b b', fkBallot 3 = some b ∧ fkBallot 200 = some b' ∧
    BallotFork (fkSha 3) (fkSha 200) b b' fkElection.rp ∧
    ForkLegal (D := fkElection) (toyLawful 2063) (toyLawful 2053) b ∧ b.VoteProof.Answers fkAns ∧ b'.VoteProof.Answers fkAns' ∧
    fkV true = b.BpLower.V ∧ fkV false = b.BpUpper.V ∧ b.BpLower.V ≠ b.BpUpper.V := by
  refine ⟨(fkBallot 3).get fkBallot_3, (fkBallot 200).get fkBallot_200, by simp, by simp,
    ⟨⟨[0, 0], by decide +kernel⟩, ⟨[0, 0], by decide +kernel⟩, fkBallot_params 3 _ (by simp), fkBallot_params 200 _ (by simp),
      ?_, by decide +kernel, by decide +kernel, by decide +kernel, by decide +kernel, by decide +kernel, by decide +kernel,
      by decide +kernel⟩, ?_, ?_, ?_, by decide +kernel, by decide +kernel, by decide +kernel⟩
  · have hU : ((fkBallot 200).get fkBallot_200).Ballot.U = ((fkBallot 3).get fkBallot_3).Ballot.U := by decide +kernel
    have hV : ((fkBallot 200).get fkBallot_200).Ballot.V = ((fkBallot 3).get fkBallot_3).Ballot.V := by decide +kernel
    revert hU hV
    generalize ((fkBallot 200).get fkBallot_200).Ballot = c
    generalize ((fkBallot 3).get fkBallot_3).Ballot = c'
    cases c; cases c'
    rintro rfl rfl
    rfl
  · constructor <;> (unfold toyLawful; decide +kernel)
  · exact ⟨by decide +kernel, by decide +kernel, by decide +kernel, by decide +kernel, by decide +kernel⟩
  · exact ⟨by decide +kernel, by decide +kernel, by decide +kernel, by decide +kernel, by decide +kernel⟩

/-- C72: the trees belong to the fork, all hypotheses of `C72_extract` hold, and the extractor finds the openings 1 and 1 and the
plaintext 2. -/
example : ∃ b b' p p', fkBallot 3 = some b ∧ fkBallot 200 = some b' ∧
    BallotFork (fkSha 3) (fkSha 200) b b' fkElection.rp ∧
    ForkLegal (D := fkElection) (toyLawful 2063) (toyLawful 2053) b ∧ b.VoteProof.Answers p ∧ b'.VoteProof.Answers p' ∧
    (fkTree true).V = b.BpLower.V ∧ (fkTree false).V = b.BpUpper.V ∧ b.BpLower.V ≠ b.BpUpper.V ∧
    vpSetup fkElection.Bx fkElection.Bc fkElection.Bg fkElection.lo fkElection.hi
      { GFF := fkElection.gff, GEC := fkElection.gec } = .ok fkElection.rp ∧
    2 ^ fkElection.Bc.toNat ≤ 2063 ∧ 2 ^ (fkElection.Bg.toNat - 1) ≤ 2053 ∧ fkElection.lo.toNat + 2 * 2 ^ fkElection.n ≤ 2053 ∧
    fkElection.hi.toNat < 2 ^ fkElection.Bx.toNat ∧
    (match (ballotExtract 1 3 p p' (fkTree true) (fkTree false) : BallotExtracted (ZMod 2063) (ZMod 2053)) with
     | .plaintext v₁ r₁ v₂ r₂ x s => v₁ == 1 && r₁ == 17 && v₂ == 1 && r₂ == 1900 && x == 2 && s == 41
     | .relation _ => false) = true := by
  obtain ⟨b, b', h1, h2, h3, h4, h5, h6, h7, h8, h9⟩ := fkFork
  refine ⟨b, b', fkAns, fkAns', h1, h2, h3, h4, h5, h6, h7, h8, h9, rfl, by decide, by decide, by decide, by decide, ?_⟩
  have h1 := fkTree_lower
  have h2 := fkTree_upper
  unfold ballotExtract
  revert h1 h2
  cases (fkTree true).extract with
  | relation w => exact fun h => absurd h (by simp [openedTo])
  | opening v r α aL aR =>
  cases (fkTree false).extract with
  | relation w => exact fun _ h => absurd h (by simp [openedTo])
  | opening v' r' α' aL' aR' =>
  intro h1 h2
  simp only [openedTo, Bool.and_eq_true, beq_iff_eq] at h1 h2
  obtain ⟨rfl, rfl⟩ := h1
  obtain ⟨rfl, rfl⟩ := h2
  exact fkMerge

/-- C72: the two NIST curves meet the hypotheses of `C72_deployed`. -/
example {C : CirclCurve} {bits : ℕ} {H U : WPoint} {Gg Hh : List WPoint} (row : RealRow C bits H U Gg Hh) :
    ∃ (Bb : Int) (M : Type) (_ : AddCommGroup M) (_ : Module (ZMod C.n) M) (L₂ : Lawful (circlGrp C) C.n M),
      (C.n, bits, Bb) ∈ curveTable ∧ C.n.Prime ∧ ∀ s, SetupSeed 16 s → ∃ e, (circlGrp C).mapToGroup s = some e ∧ L₂.V e := by
  have ok := stdCircl_ord row.std.circl
  have := ok.fact'
  let := ok.module
  obtain ⟨Bb, hr, _⟩ := row.std.table
  exact ⟨Bb, _, _, _, ok.lawful, hr, ok.n_prime, fun s _ => ⟨_, rfl, (wLegal_iff _ _).mpr (row.valid s)⟩⟩

end MscPoc
