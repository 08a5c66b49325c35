import Verif.Lemmas.Straus
import Verif.Lemmas.BpCheck
import Verif.Lemmas.SigmaModel
import Verif.Lemmas.Sigma
import Verif.Lemmas.Vote
import Verif.Lemmas.Setup
import Verif.Lemmas.HashToCurve
import Verif.Lemmas.Sha2
import Verif.Model.Sha2
import Verif.Spec.RecordedBallot

/-!
# The recorded ballots: from computed checks to `verifyVote`
-/

set_option autoImplicit false

namespace MscPoc

open H2CSuite (powMod powMod_spec)

/-- the encoding of a point other than the identity -/
def wStr (n : ℕ) (P : WPoint) : Bytes := 4 :: (fillBytes n P.x ++ fillBytes n P.y)

theorem circl_str (C : CirclCurve) {P : WPoint} (h : P ≠ ⟨0, 0⟩) : (circlGrp C).str P = wStr C.num.len P := by
  show WPoint.marshalBinary C.c P = _
  unfold WPoint.marshalBinary
  rw [if_neg h]; rfl

theorem flatten_strs (C : CirclCurve) : ∀ (g h : List WPoint), (∀ P ∈ g, P ≠ ⟨0, 0⟩) → (∀ P ∈ h, P ≠ ⟨0, 0⟩) →
    (List.zipWith (fun a b => (circlGrp C).str a ++ (circlGrp C).str b) g h).flatten =
    (List.zipWith (fun a b => wStr C.num.len a ++ wStr C.num.len b) g h).flatten
  | [], _, _, _ => rfl
  | _ :: _, [], _, _ => rfl
  | a :: g, b :: h, hg, hh => by
    simp only [List.zipWith_cons_cons, List.flatten_cons]
    rw [circl_str C (hg a (by simp)), circl_str C (hh b (by simp)),
      flatten_strs C g h (fun P m => hg P (List.mem_cons_of_mem _ m)) (fun P m => hh P (List.mem_cons_of_mem _ m))]

/-! ## the values a ballot consists of -/

/-- the range proof as the program holds it -/
def RecBP.proof (C : CirclCurve) (K : RecCurve) (p : RecBP) : BulletProof WPoint where
  V := p.V
  A := p.A
  S := p.S
  T1 := p.T1
  T2 := p.T2
  Taux := some p.Taux
  Mu := some p.Mu
  Tprime := some p.Tprime
  InnerProductProof :=
    { P := p.P, Cc := some p.Cc, A := some p.a, B := some p.b, L := p.L, R := p.R,
      Params := { Gg := K.Gg, Hh := p.Hh, Uu := K.Uu, GP := circlGrp C } }
  Params := { N := 16, G := K.G, H := K.H, Gg := K.Gg, Hh := K.Hh, GP := circlGrp C }

/-- the sigma proof as the program holds it -/
def RecBallot.vote (C : CirclCurve) (K : RecCurve) (b : RecBallot) : SigmaProof Int WPoint where
  W := b.W
  Kp := b.Kp
  Kq1 := b.Kq1
  Kq2 := b.Kq2
  Challenge := some b.c
  Z := some b.z
  Sp := some b.sp
  Sq1 := some b.sq1
  Sq2 := some b.sq2
  Params :=
    { Bx := 16, Bc := 128, Bg := UInt16.ofNat b.Bg.toNat, Bb := b.Bb, RangeLo := 101, RangeHi := 1000,
      GFF := { G := 2, H := 8192, N := some recN, F := some recF, I := modPGrp rfcGroup },
      GEC := { G := K.G, H := K.H, N := some K.N, F := some recF, I := circlGrp C } }

/-- the ballot as the program holds it -/
def RecBallot.ballot (C : CirclCurve) (K : RecCurve) (b : RecBallot) : BallotData Int WPoint where
  Ballot := { U := b.u, V := b.v }
  BpLower := b.lo.proof C K
  BpUpper := b.hi.proof C K
  VoteProof := b.vote C K

/-! ## range proofs -/

/-- challenges of a range proof, and inverses -/
structure BPHint where
  y : Int
  yi : Int
  x : Int
  xx : Int
  prs : List (Int × Int)

/-- all points of a range proof -/
def RecBP.pts (K : RecCurve) (p : RecBP) : List WPoint :=
  [p.V, p.A, p.S, p.T1, p.T2, p.P] ++ (p.L ++ (p.R ++ (p.Hh ++ (K.H :: K.Uu :: (K.Gg ++ K.Hh)))))

/-- SHA-256 of two points -/
def chal2 (n : ℕ) (A S : WPoint) : Int := (setBytes (sha256 (wStr n A ++ wStr n S)) : ℕ)

/-- SHA-256 of the inner-product statement -/
def chalI (n : ℕ) (P : WPoint) (g h : List WPoint) (c : Int) : Int :=
  signedVal (sha256 (wStr n P ++ (List.zipWith (fun a b => wStr n a ++ wStr n b) g h).flatten ++ bigDec c))

/-- what has to be computed for a range proof -/
structure BPChecked (C : CNum) (K : RecCurve) (p : RecBP) (t : BPHint) (fuel : ℕ) : Prop where
  pts : ptsOk C (p.pts K) = true
  lens : K.Gg.length = 16 ∧ K.Hh.length = 16 ∧ p.Hh.length = 16 ∧ p.L.length = 4 ∧ p.R.length = 4 ∧ t.prs.length = 4
  y : chal2 C.len p.A p.S = t.y
  x : chal2 C.len p.T1 p.T2 = t.x
  xx : chalI C.len p.P K.Gg p.Hh p.Cc = t.xx
  xs : List.zipWith (chal2 C.len) p.L p.R = t.prs.map Prod.fst
  yi : t.y * t.yi % C.n = 1
  xi : ∀ q ∈ t.prs, q.1 * q.2 % C.n = 1
  e65 : mexpZero C fuel (bpCoefs65 16 t.y t.x p.Tprime p.Taux) [⟨C.gx, C.gy⟩, K.H, p.V, p.T1, p.T2] = true
  e67 : mexpZero C fuel (bpCoefs67 16 t.y t.yi t.x p.Mu) ([K.H, p.P, p.A, p.S] ++ (K.Gg ++ K.Hh)) = true
  eip : mexpZero C fuel (ippCoefs t.xx p.Cc p.a p.b t.prs) (ippPts p.P K.Uu p.L p.R K.Gg p.Hh) = true

theorem BPChecked.verify {C : CirclCurve} (ok : CurveOrd C) {K : RecCurve} {p : RecBP} {t : BPHint} {fuel : ℕ}
    (h : BPChecked C.num K p t fuel) : (p.proof C K).verify sha256 = some true := by
  have := ok.fact'
  have := ok.fact
  have : Fact C.n.Prime := ⟨ok.n_prime⟩
  let _ := ok.module
  have hp := ptsOk_spec h.pts
  have hm : ∀ P, P ∈ p.pts K → WLegal C.c P := fun P m => (hp P m).1
  have h0 : ∀ P, P ∈ p.pts K → P ≠ ⟨0, 0⟩ := fun P m => (hp P m).2
  obtain ⟨l1, l2, l3, l4, l5, l6⟩ := h.lens
  have mG : ∀ P ∈ K.Gg, P ∈ p.pts K := fun P m => by simp [RecBP.pts, m]
  have mH : ∀ P ∈ K.Hh, P ∈ p.pts K := fun P m => by simp [RecBP.pts, m]
  have mh : ∀ P ∈ p.Hh, P ∈ p.pts K := fun P m => by simp [RecBP.pts, m]
  have mL : ∀ P ∈ p.L, P ∈ p.pts K := fun P m => by simp [RecBP.pts, m]
  have mR : ∀ P ∈ p.R, P ∈ p.pts K := fun P m => by simp [RecBP.pts, m]
  have mV : p.V ∈ p.pts K := by simp [RecBP.pts]
  have mA : p.A ∈ p.pts K := by simp [RecBP.pts]
  have mS : p.S ∈ p.pts K := by simp [RecBP.pts]
  have m1 : p.T1 ∈ p.pts K := by simp [RecBP.pts]
  have m2 : p.T2 ∈ p.pts K := by simp [RecBP.pts]
  have mP : p.P ∈ p.pts K := by simp [RecBP.pts]
  have mKH : K.H ∈ p.pts K := by simp [RecBP.pts]
  have mU : K.Uu ∈ p.pts K := by simp [RecBP.pts]
  have c2 : ∀ A S, A ∈ p.pts K → S ∈ p.pts K → roundChallenge sha256 (circlGrp C) A S = chal2 C.num.len A S := by
    intro A S hA hS
    unfold roundChallenge chal2
    rw [circl_str C (h0 A hA), circl_str C (h0 S hS)]
  have hip : (p.proof C K).InnerProductProof.verify sha256 = some true := by
    refine ok.lawful.ipVerify_true sha256 _ p.Cc p.a p.b t.xx t.prs rfl rfl rfl rfl (l4.trans l6.symm) (l5.trans l6.symm) ?_ ?_
      (fun P m => hm P (mG P m)) (fun P m => hm P (mh P m)) (hm _ mU) (hm _ mP) (fun P m => hm P (mL P m))
      (fun P m => hm P (mR P m)) ?_ ?_ h.xi ?_
    · rw [l6]; exact l1
    · rw [l6]; exact l3
    · rw [← h.xs]
      show List.zipWith _ p.L p.R = _
      have : ∀ (l r : List WPoint), (∀ P ∈ l, P ∈ p.pts K) → (∀ P ∈ r, P ∈ p.pts K) →
          List.zipWith (roundChallenge sha256 (circlGrp C)) l r = List.zipWith (chal2 C.num.len) l r := by
        intro l
        induction l with
        | nil => intros; rfl
        | cons a l ih =>
          intro r hl hr
          cases r with
          | nil => rfl
          | cons b r =>
            simp only [List.zipWith_cons_cons]
            rw [c2 a b (hl a (by simp)) (hr b (by simp)), ih r (fun P m => hl P (List.mem_cons_of_mem _ m))
              (fun P m => hr P (List.mem_cons_of_mem _ m))]
      exact this _ _ mL mR
    · rw [← h.xx]
      show signedVal (sha256 ((circlGrp C).str p.P ++ _ ++ _)) = _
      rw [circl_str C (h0 _ mP)]
      show signedVal (sha256 (_ ++ (List.zipWith (fun a b => (circlGrp C).str a ++ (circlGrp C).str b) K.Gg p.Hh).flatten ++ _)) = _
      rw [flatten_strs C K.Gg p.Hh (fun P m => h0 P (mG P m)) (fun P m => h0 P (mh P m))]
      rfl
    · refine mexpZero_spec ok ?_ h.eip
      intro P m
      apply hp
      simp only [ippPts, List.mem_append, List.mem_cons, List.not_mem_nil, or_false] at m
      rcases m with (rfl | rfl) | m | m | m | m
      · exact mP
      · exact mU
      · exact mL P m
      · exact mR P m
      · exact mG P m
      · exact mh P m
  refine ok.lawful.bpVerify_true (p.proof C K) ?_ sha256 p.Tprime p.Taux p.Mu t.y t.yi t.x (by simp [RecBP.proof])
    rfl rfl rfl hip ((c2 _ _ mA mS).trans h.y) ((c2 _ _ m1 m2).trans h.x) h.yi ?_ ?_
  · exact ⟨hm _ mV, hm _ mA, hm _ mS, hm _ m1, hm _ m2, hm _ mKH, fun P m => hm P (mG P m), fun P m => hm P (mH P m), hm _ mP,
      l1, l2⟩
  · refine mexpZero_spec ok ?_ h.e65
    intro P m
    simp only [List.mem_cons, List.not_mem_nil, or_false] at m
    rcases m with rfl | rfl | rfl | rfl | rfl
    · exact ⟨ok.gen_legal, ok.gen_ne⟩
    · exact hp _ mKH
    · exact hp _ mV
    · exact hp _ m1
    · exact hp _ m2
  · have := mexpZero_spec ok (Ps := [K.H, p.P, p.A, p.S] ++ (K.Gg ++ K.Hh)) ?_ h.e67
    · rw [List.map_append, List.map_append] at this
      exact this
    intro P m
    apply hp
    simp only [List.mem_append, List.mem_cons, List.not_mem_nil, or_false] at m
    rcases m with (rfl | rfl | rfl | rfl) | m | m
    · exact mKH
    · exact mP
    · exact mA
    · exact mS
    · exact mG P m
    · exact mH P m

/-! ## the sigma proof -/

/-- what has to be computed for the sigma proof -/
structure SigmaChecked (C : CNum) (K : RecCurve) (b : RecBallot) (fuel : ℕ) : Prop where
  pts : ptsOk C [K.H, b.Kq1, b.Kq2, b.lo.V, b.hi.V] = true
  pos : 0 ≤ b.c ∧ 0 ≤ b.z ∧ 0 ≤ b.sp ∧ 0 ≤ b.u ∧ 0 ≤ b.v
  z : (2 : Int) ^ 144 ≤ b.z ∧ b.z < 2 ^ (144 + b.Bb).toNat ∧ 0 ≤ 144 + b.Bb
  chal : ((setBytes ((sha256 (bigDec b.W ++ bigDec b.Kp ++ wStr C.len b.Kq1 ++ wStr C.len b.Kq2)).take 16) : ℕ) : Int) = b.c
  ff1 : ((powMod modp3072 2 b.sp.toNat : ℕ) : Int) = (powMod modp3072 b.u.toNat b.c.toNat : ℕ) * b.W % modp3072
  ff2 : ((powMod modp3072 2 b.z.toNat : ℕ) : Int) * (powMod modp3072 8192 b.sp.toNat : ℕ) % modp3072 =
    (powMod modp3072 b.v.toNat b.c.toNat : ℕ) * b.Kp % modp3072
  cn : b.c % C.n ≠ 0
  n16 : 65536 < C.n
  ec1 : mexpZero C fuel [b.z - b.c * 101, b.sq1, -b.c, -1] [⟨C.gx, C.gy⟩, K.H, b.lo.V, b.Kq1] = true
  ec2 : mexpZero C fuel [b.z - b.c * 1000, b.sq2, b.c, -1] [⟨C.gx, C.gy⟩, K.H, b.hi.V, b.Kq2] = true

theorem modp_scale (recv x s : Int) (hx : 0 ≤ x) (hs : 0 ≤ s) :
    (modPGrp rfcGroup).scale recv x s = (powMod modp3072 x.toNat s.toNat : ℕ) := by
  show bigExp recv x s (modp3072 : ℕ) = _
  unfold bigExp
  rw [if_pos hs, powMod_spec]
  conv_lhs => rw [← Int.toNat_of_nonneg hx]
  push_cast
  rfl

/-- a Pedersen equation that holds with shift `k` holds with no other 16-bit shift -/
theorem shift_iff {q : ℕ} {M : Type} [Fact q.Prime] [AddCommGroup M] [Module (ZMod q) M] {g H V K : M} (hg : g ≠ 0)
    {z s c t : Int} {k lo : UInt16} (hc : c % q ≠ 0) (hq : 65536 < q)
    (h : msm [g, H, V, K] (castV q [z - c * (k.toNat : ℕ), s, -(c * t), -1]) = 0) :
    (z : ZMod q) • g + (s : ZMod q) • H = (c : ZMod q) • (((lo.toNat : ℕ) : ZMod q) • g + (t : ZMod q) • V) + K ↔ lo = k := by
  simp only [List.map_cons, List.map_nil, msm_cons, msm_nil_left, Int.cast_sub, Int.cast_mul, Int.cast_neg, Int.cast_one,
    Int.cast_natCast] at h
  constructor
  · intro e
    have e0 : ((c : ZMod q) * (((lo.toNat : ℕ) : ZMod q) - ((k.toNat : ℕ) : ZMod q))) • g = 0 := by
      linear_combination (norm := module) h - e
    have hc' : (c : ZMod q) ≠ 0 := by
      intro h0
      exact hc (Int.emod_eq_zero_of_dvd ((ZMod.intCast_zmod_eq_zero_iff_dvd _ _).mp h0))
    have e1 := ((smul_eq_zero.mp e0).resolve_right hg)
    have e2 := sub_eq_zero.mp ((mul_eq_zero.mp e1).resolve_left hc')
    have e3 := (ZMod.natCast_eq_natCast_iff' _ _ _).mp e2
    have h1 := lo.toNat_lt
    have h2 := k.toNat_lt
    rw [Nat.mod_eq_of_lt (by omega), Nat.mod_eq_of_lt (by omega)] at e3
    exact UInt16.toNat_inj.mp e3
  · rintro rfl
    linear_combination (norm := module) h

theorem SigmaChecked.verify {C : CirclCurve} (ok : CurveOrd C) {K : RecCurve} {b : RecBallot} {fuel : ℕ}
    (h : SigmaChecked C.num K b fuel) (rp : ProofParams Int WPoint) (hI : rp.GEC.I = circlGrp C) :
    (b.vote C K).verify sha256 (voteCommitments (b.ballot C K) rp) =
      some (decide (rp.RangeLo = 101 ∧ rp.RangeHi = 1000)) := by
  have := ok.fact'
  have := ok.fact
  have : Fact C.n.Prime := ⟨ok.n_prime⟩
  let _ := ok.module
  have hp := ptsOk_spec h.pts
  have pH := hp K.H (by simp)
  have p1 := hp b.Kq1 (by simp)
  have p2 := hp b.Kq2 (by simp)
  have v1 := hp b.lo.V (by simp)
  have v2 := hp b.hi.V (by simp)
  obtain ⟨c0, z0, s0, u0, w0⟩ := h.pos
  have hch : getFSChallenge sha256 (b.vote C K).Params.GFF.I (b.vote C K).Params.GEC.I (b.vote C K).W (b.vote C K).Kp
      (b.vote C K).Kq1 (b.vote C K).Kq2 (b.vote C K).Params.Bc = some b.c := by
    unfold getFSChallenge fsTranscript
    have e : sliceTo (sha256 ((modPGrp rfcGroup).str b.W ++ (modPGrp rfcGroup).str b.Kp ++ (circlGrp C).str b.Kq1 ++
        (circlGrp C).str b.Kq2)) ((128 : UInt16).toNat / 8) =
        some ((sha256 (bigDec b.W ++ bigDec b.Kp ++ wStr C.num.len b.Kq1 ++ wStr C.num.len b.Kq2)).take 16) := by
      rw [circl_str C p1.2, circl_str C p2.2]
      unfold sliceTo
      rw [if_pos (by rw [sha256_length]; decide)]
      rfl
    refine (congrArg (· >>= fun challenge => some ((setBytes challenge : ℕ) : Int)) e).trans ?_
    show some _ = _
    rw [h.chal]
  rw [sigma_verify_full sha256 (b.vote C K) _ (Z := b.z) (ch := b.c) (c := b.c) (Sp := b.sp) (Sq1 := b.sq1) (Sq2 := b.sq2)
    rfl hch rfl rfl rfl rfl]
  have hz : (b.vote C K).Params.zOk b.z = true := by
    obtain ⟨z1, z2, z3⟩ := h.z
    have e1 : (b.vote C K).Params.zLowerBound = 2 ^ 144 := rfl
    have e2 : (b.vote C K).Params.zUpperBound = 2 ^ (144 + b.Bb).toNat := rfl
    unfold ProofParams.zOk
    rw [e1, e2]
    simp only [Bool.not_eq_true', Bool.or_eq_false_iff, Bool.not_eq_false', decide_eq_true_eq, decide_eq_false_iff_not, not_lt]
    exact ⟨z1, z2⟩
  rw [hz]
  simp only [decide_true, Bool.true_and, Option.some.injEq]
  unfold sigmaChecks
  have f1 : (b.vote C K).Params.GFF.I.isEqual ((b.vote C K).Params.GFF.I.mulGen b.sp)
      ((b.vote C K).Params.GFF.I.add ((b.vote C K).Params.GFF.I.mul (voteCommitments (b.ballot C K) rp).Y b.c)
        (b.vote C K).W) = true := by
    show ((modPGrp rfcGroup).scale _ 2 b.sp == (modPGrp rfcGroup).scale _ b.u b.c * b.W % (modp3072 : ℕ)) = true
    rw [modp_scale _ _ _ (by norm_num) s0, modp_scale _ _ _ u0 c0, beq_iff_eq]
    exact h.ff1
  have f2 : sigmaPedersenCheck b.z b.sp b.c (b.vote C K).Kp (voteCommitments (b.ballot C K) rp).Xp
      (b.vote C K).Params.GFF = true := by
    show ((modPGrp rfcGroup).scale _ 2 b.z * (modPGrp rfcGroup).scale _ 8192 b.sp % (modp3072 : ℕ) ==
      (modPGrp rfcGroup).scale _ b.v b.c * b.Kp % (modp3072 : ℕ)) = true
    rw [modp_scale _ _ _ (by norm_num) z0, modp_scale _ _ _ (by norm_num) s0, modp_scale _ _ _ w0 c0, beq_iff_eq]
    exact h.ff2
  rw [f1, f2, Bool.true_and, Bool.true_and, Bool.decide_and]
  have hcn : b.c % (C.n : Int) ≠ 0 := h.cn
  have q16 : 65536 < C.n := h.n16
  have m1 : ∀ P ∈ [⟨C.gx, C.gy⟩, K.H, b.lo.V, b.Kq1], WLegal C.c P ∧ P ≠ ⟨0, 0⟩ := by
    intro P m
    simp only [List.mem_cons, List.not_mem_nil, or_false] at m
    rcases m with rfl | rfl | rfl | rfl
    exacts [⟨ok.gen_legal, ok.gen_ne⟩, pH, v1, p1]
  have m2 : ∀ P ∈ [⟨C.gx, C.gy⟩, K.H, b.hi.V, b.Kq2], WLegal C.c P ∧ P ≠ ⟨0, 0⟩ := by
    intro P m
    simp only [List.mem_cons, List.not_mem_nil, or_false] at m
    rcases m with rfl | rfl | rfl | rfl
    exacts [⟨ok.gen_legal, ok.gen_ne⟩, pH, v2, p2]
  let L : Lawful (b.vote C K).Params.GEC.I C.n (WGroup C.c) := ok.lawful
  have d1 : L.V (voteCommitments (b.ballot C K) rp).Xq1 ∧ L.den (voteCommitments (b.ballot C K) rp).Xq1 =
      ((rp.RangeLo.toNat : ℕ) : ZMod C.n) • wDen C.c ⟨C.gx, C.gy⟩ + ((1 : Int) : ZMod C.n) • wDen C.c b.lo.V := by
    have e : (voteCommitments (b.ballot C K) rp).Xq1 = rp.GEC.I.add (rp.GEC.I.mulGen rp.RangeLo.toNat) b.lo.V := rfl
    rw [e, hI]
    refine ⟨ok.lawful.V_add (ok.lawful.V_mulGen _) v1.1, (ok.lawful.den_add (ok.lawful.V_mulGen _) v1.1).trans ?_⟩
    rw [ok.lawful.den_mulGen]
    simp only [Int.cast_one, one_smul, Int.cast_natCast]
    rfl
  have d2 : L.V (voteCommitments (b.ballot C K) rp).Xq2 ∧ L.den (voteCommitments (b.ballot C K) rp).Xq2 =
      ((rp.RangeHi.toNat : ℕ) : ZMod C.n) • wDen C.c ⟨C.gx, C.gy⟩ + ((-1 : Int) : ZMod C.n) • wDen C.c b.hi.V := by
    have e : (voteCommitments (b.ballot C K) rp).Xq2 =
      rp.GEC.I.add (rp.GEC.I.mulGen rp.RangeHi.toNat) (rp.GEC.I.mul b.hi.V (-1)) := rfl
    rw [e, hI]
    have hv := ok.lawful.V_mul (-1) v2.1
    refine ⟨ok.lawful.V_add (ok.lawful.V_mulGen _) hv, (ok.lawful.den_add (ok.lawful.V_mulGen _) hv).trans ?_⟩
    rw [ok.lawful.den_mulGen, ok.lawful.den_mul _ v2.1]
    simp only [Int.cast_natCast]
    rfl
  have k1 : sigmaPedersenCheck b.z b.sq1 b.c (b.vote C K).Kq1 (voteCommitments (b.ballot C K) rp).Xq1
      (b.vote C K).Params.GEC = decide (rp.RangeLo = 101) := by
    rw [Bool.eq_iff_iff, pedersenCheck_iff (k := (b.vote C K).Kq1) L pH.1 p1.1 d1.1, d1.2, decide_eq_true_iff]
    refine shift_iff ok.gen_den_ne hcn q16 ?_
    have := mexpZero_spec ok m1 h.ec1
    rw [mul_one]
    exact this
  have k2 : sigmaPedersenCheck b.z b.sq2 b.c (b.vote C K).Kq2 (voteCommitments (b.ballot C K) rp).Xq2
      (b.vote C K).Params.GEC = decide (rp.RangeHi = 1000) := by
    rw [Bool.eq_iff_iff, pedersenCheck_iff (k := (b.vote C K).Kq2) L pH.1 p2.1 d2.1, d2.2, decide_eq_true_iff]
    refine shift_iff ok.gen_den_ne hcn q16 ?_
    have := mexpZero_spec ok m2 h.ec2
    rw [mul_neg, mul_one, neg_neg]
    exact this
  rw [k1, k2]

/-- the verdict about a checked ballot -/
theorem recorded_verdict {C : CirclCurve} (ok : CurveOrd C) {K : RecCurve} {b : RecBallot} {t₁ t₂ : BPHint} {fuel : ℕ}
    (h1 : BPChecked C.num K b.lo t₁ fuel) (h2 : BPChecked C.num K b.hi t₂ fuel) (h3 : SigmaChecked C.num K b fuel)
    (rp : ProofParams Int WPoint) (hI : rp.GEC.I = circlGrp C) :
    verifyVote sha256 (b.ballot C K) rp =
      some { result := decide (rp.RangeLo = 101 ∧ rp.RangeHi = 1000), times := [0, 0] } :=
  verifyVote_true (h1.verify ok) (h2.verify ok) (h3.verify ok rp hI)

end MscPoc
