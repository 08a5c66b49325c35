import Verif.Spec.Robust
import Verif.Lemmas.BpProgress
import Verif.Props.NilTail
import Verif.Props.Ipp
import Verif.Props.Sigma
import Verif.Lemmas.Robust

/-!
# C83 — which ballots crash the server
-/

set_option autoImplicit false

namespace MscPoc

open JSpec

variable {E E₁ E₂ : Type}

theorem updateGeneratorsGo_some_le {GP : Grp E} {yi : Int} : ∀ (n : ℕ) (hs : List E) (e : Int) (r : List E),
    updateGeneratorsGo GP yi hs e n = some r → n ≤ hs.length
  | 0, _, _, _, _ => Nat.zero_le _
  | n + 1, [], e, r, h => by simp [updateGeneratorsGo] at h
  | n + 1, x :: hs, e, r, h => by
    unfold updateGeneratorsGo at h
    unbind h with rest e1
    have := updateGeneratorsGo_some_le n hs _ _ e1
    simpa using this

/-- exactly when the updated generators exist -/
theorem updateGenerators_iff {GP : Grp E} {Hh : List E} {y : Int} {n : ℕ} :
    (∃ hp, updateGenerators GP Hh y n = some hp) ↔ 0 < n ∧ n ≤ Hh.length ∧ (2 ≤ n → Int.gcd y GP.N = 1) := by
  refine ⟨?_, fun ⟨h1, h2, h3⟩ => updateGenerators_isSome h1 h2 h3⟩
  rintro ⟨hp, h⟩
  cases Hh with
  | nil => cases n <;> simp [updateGenerators] at h
  | cons h0 hs => cases n with
    | zero => simp [updateGenerators] at h
    | succ n => cases n with
      | zero => simp
      | succ n =>
        unfold updateGenerators at h
        unbind h with yi e1
        unbind h with rest e2
        have := updateGeneratorsGo_some_le _ _ _ _ e2
        refine ⟨by omega, by simpa using this, fun _ => (modInverse_isSome_iff _ _).mp ⟨_, e1⟩⟩

theorem ip_processable_iff (sha : Bytes → Bytes) (pf : IPProof E) :
    (∃ v, pf.verify sha = some v) ↔ pf.Processable sha := by
  rw [C26_ipp_verify_total_iff]
  exact ⟨fun ⟨a, b, c, d, e, f, g, h, i⟩ => ⟨⟨a, b, c⟩, d, ⟨e, f, g, h⟩, i⟩,
    fun ⟨⟨a, b, c⟩, d, ⟨e, f, g, h⟩, i⟩ => ⟨a, b, c, d, e, f, g, h, i⟩⟩

/-- **C83** Exactly which range proofs the verifier processes without crashing. -/
theorem C83_range (sha : Bytes → Bytes) (pf : BulletProof E) :
    (∃ v, pf.verify sha = some v) ↔ pf.Processable sha := by
  constructor
  · rintro ⟨v, hv⟩
    unfold BulletProof.verify at hv
    unbind hv with hp e1
    unbind hv with Tp e2
    unbind hv with Ta e3
    unbind hv with dl e4
    unbind hv with ga e5
    unbind hv with hx e6
    unbind hv with Mu e7
    unbind hv with ok e8
    obtain ⟨a, b, c⟩ := updateGenerators_iff.mp ⟨hp, e1⟩
    refine ⟨⟨by simp [e3], by simp [e7], by simp [e2]⟩, ⟨a, b, ?_⟩, c, (ip_processable_iff sha _).mp ⟨ok, e8⟩⟩
    unfold vectorExp at e5
    split at e5
    · cases e5
    · rename_i hl
      simpa [vectorCopy] using hl
  · rintro ⟨⟨h1, h2, h3⟩, ⟨h4, h5, h6⟩, h7, h8⟩
    obtain ⟨Ta, h1⟩ := Option.ne_none_iff_exists'.mp h1
    obtain ⟨Mu, h2⟩ := Option.ne_none_iff_exists'.mp h2
    obtain ⟨Tp, h3⟩ := Option.ne_none_iff_exists'.mp h3
    obtain ⟨hp, e1⟩ := updateGenerators_iff.mpr ⟨h4, h5, h7⟩
    have hlen := updateGenerators_len e1
    obtain ⟨ok, e8⟩ := (ip_processable_iff sha _).mpr h8
    obtain ⟨dl, e4⟩ := delta_isSome pf.Params.N pf.Params.GP.N (roundChallenge sha pf.Params.GP pf.A pf.S)
      (hashBP sha pf.Params.GP pf.A pf.S).2
    have e1 : updateGenerators pf.Params.GP pf.Params.Hh (hashBP sha pf.Params.GP pf.A pf.S).1 pf.Params.N = some hp := e1
    have e4 : delta pf.Params.N pf.Params.GP.N (hashBP sha pf.Params.GP pf.A pf.S).1 (hashBP sha pf.Params.GP pf.A pf.S).2 =
      some dl := e4
    have v1 : ∀ z, ∃ r, vectorExp pf.Params.GP pf.Params.Gg (vectorCopy z pf.Params.N) = some r := fun z =>
      ⟨_, if_neg (by simp [vectorCopy, h6])⟩
    have hl : ∀ (y z : Int), (vectorAdd (vectorMul (powerOf y pf.Params.N pf.Params.GP.N) (vectorCopy z pf.Params.N) pf.Params.GP.N)
        (vectorScalarMul (powerOf 2 pf.Params.N pf.Params.GP.N) (z * z % pf.Params.GP.N) pf.Params.GP.N) pf.Params.GP.N).length =
        pf.Params.N := by
      intro y z
      have l1 : (vectorMul (powerOf y pf.Params.N pf.Params.GP.N) (vectorCopy z pf.Params.N) pf.Params.GP.N).length = pf.Params.N := by
        rw [vectorMul_eq (by simp [vectorCopy, powerOf_length])]; simp [vectorCopy, powerOf_length]
      have l2 : (vectorScalarMul (powerOf 2 pf.Params.N pf.Params.GP.N) (z * z % pf.Params.GP.N) pf.Params.GP.N).length =
          pf.Params.N := by simp [vectorScalarMul, powerOf_length]
      rw [vectorAdd_eq (l1.trans l2.symm)]
      simp [l1, l2]
    have v2 : ∀ y z, ∃ r, vectorExp pf.Params.GP hp (vectorAdd (vectorMul (powerOf y pf.Params.N pf.Params.GP.N)
        (vectorCopy z pf.Params.N) pf.Params.GP.N)
        (vectorScalarMul (powerOf 2 pf.Params.N pf.Params.GP.N) (z * z % pf.Params.GP.N) pf.Params.GP.N) pf.Params.GP.N) = some r :=
      fun y z => ⟨_, if_neg (by rw [hl, hlen]; simp)⟩
    obtain ⟨r1, v1⟩ := v1 (pf.Params.GP.N - (hashBP sha pf.Params.GP pf.A pf.S).2)
    obtain ⟨r2, v2⟩ := v2 (hashBP sha pf.Params.GP pf.A pf.S).1 (hashBP sha pf.Params.GP pf.A pf.S).2
    unfold BulletProof.verify
    simp only [e1, h3, h1, e4, v1, v2, h2, e8, Option.bind_eq_bind, Option.bind_some]
    exact ⟨_, rfl⟩

/-- C83: exactly which vote proofs crash the verifier. -/
theorem C83_vote (sha : Bytes → Bytes) (hsha : ∀ m, (sha m).length = 32) (pf : SigmaProof E₁ E₂) (comm : VerCommitments E₁ E₂) :
    pf.verify sha comm = none ↔ pf.Crashes sha comm := by
  have hch : getFSChallenge sha pf.Params.GFF.I pf.Params.GEC.I pf.W pf.Kp pf.Kq1 pf.Kq2 pf.Params.Bc =
      if 264 ≤ pf.Params.Bc.toNat then none else some (fsOf sha pf) := by
    obtain ⟨c1, c2⟩ := C28_challenge sha hsha pf.Params.GFF.I pf.Params.GEC.I pf.W pf.Kp pf.Kq1 pf.Kq2 pf.Params.Bc
    by_cases hb : 264 ≤ pf.Params.Bc.toNat
    · rw [if_pos hb]; exact c1.mpr hb
    · rw [if_neg hb]
      obtain ⟨c, hc⟩ := Option.ne_none_iff_exists'.mp (fun h => hb (c1.mp h))
      rw [hc, (c2 c hc).1]
      rfl
  have hz : ∀ z, (!pf.Params.zOk z) = true ↔ ¬ (2 ^ (pf.Params.Bx.toUInt16 + pf.Params.Bc).toNat ≤ z ∧
      z < 2 ^ ((pf.Params.Bx.toUInt16 + pf.Params.Bc).toNat + pf.Params.Bb).toNat) := by
    intro z
    unfold ProofParams.zOk ProofParams.zLowerBound ProofParams.zUpperBound ProofParams.bxbc
    rw [not_and_or]
    simp
  have ho : ∀ {E : Type} (gp : GroupParams E) (z s c : Int) (k x : E),
      (!sigmaPedersenCheck z s c k x gp) = true ↔ ¬ OpensX gp z s c k x := by
    intro E gp z s c k x
    unfold sigmaPedersenCheck vpCommit OpensX
    simp
  unfold SigmaProof.verify SigmaProof.Crashes
  dsimp only
  rw [hch]
  cases pf.Z with
  | none => simp
  | some Z =>
    simp only [Option.bind_eq_bind, Option.bind_some]
    by_cases h1 : (2 ^ (pf.Params.Bx.toUInt16 + pf.Params.Bc).toNat ≤ Z ∧
      Z < 2 ^ ((pf.Params.Bx.toUInt16 + pf.Params.Bc).toNat + pf.Params.Bb).toNat)
    swap
    · rw [if_pos ((hz Z).mpr h1)]
      simp only [reduceCtorEq, false_iff]
      exact fun h => h1 h.1
    rw [if_neg (fun h => (hz Z).mp h h1)]
    simp only [h1, and_self, true_and]
    by_cases h2 : 264 ≤ pf.Params.Bc.toNat
    · simp [h2]
    simp only [h2, if_false, false_or, Option.bind_some]
    cases pf.Challenge with
    | none => simp
    | some c =>
      simp only [Option.bind_some]
      by_cases h3 : fsOf sha pf = c
      swap
      · simp [h3]
      simp only [h3, ne_eq, not_true_eq_false, if_false, true_and]
      cases pf.Sp with
      | none => simp
      | some Sp =>
        simp only [Option.bind_some]
        by_cases h4 : OpensY pf.Params.GFF Sp c pf.W comm.Y
        swap
        · have h4' : (!pf.Params.GFF.I.isEqual (pf.Params.GFF.I.mulGen Sp)
              (pf.Params.GFF.I.add (pf.Params.GFF.I.mul comm.Y c) pf.W)) = true := by
            unfold OpensY at h4; simpa using h4
          rw [if_pos h4']
          simp [h4]
        have h4' : ¬ (!pf.Params.GFF.I.isEqual (pf.Params.GFF.I.mulGen Sp)
              (pf.Params.GFF.I.add (pf.Params.GFF.I.mul comm.Y c) pf.W)) = true := by
          unfold OpensY at h4; simpa using h4
        rw [if_neg h4']
        by_cases h5 : OpensX pf.Params.GFF Z Sp c pf.Kp comm.Xp
        swap
        · rw [if_pos ((ho _ _ _ _ _ _).mpr h5)]
          simp [h5]
        rw [if_neg (fun h => (ho _ _ _ _ _ _).mp h h5)]
        simp only [h4, h5, true_and]
        cases pf.Sq1 with
        | none => simp
        | some Sq1 =>
          simp only [Option.bind_some]
          by_cases h6 : OpensX pf.Params.GEC Z Sq1 c pf.Kq1 comm.Xq1
          swap
          · rw [if_pos ((ho _ _ _ _ _ _).mpr h6)]
            simp [h6]
          rw [if_neg (fun h => (ho _ _ _ _ _ _).mp h h6)]
          simp only [h6, true_and]
          cases pf.Sq2 with
          | none => simp
          | some Sq2 =>
            simp only [Option.bind_some, reduceCtorEq, iff_false]
            split <;> simp

/-- **C83** Exactly which ballots crash the server: the lower range proof cannot be processed; or it is accepted and the upper one
cannot be processed; or both are accepted and the vote proof crashes.  With arrays of unequal length there is one more way (C70):
nil entries behind `Hh` of a range proof that is reached and has a round. -/
theorem C83_server (sha : Bytes → Bytes) (hsha : ∀ m, (sha m).length = 32) (b : BallotData E₁ E₂) (k m : ℕ × ℕ)
    (rp : ProofParams E₁ E₂) :
    (verifyVote sha b rp = none ↔
      ¬ b.BpLower.Processable sha ∨
      (b.BpLower.verify sha = some true ∧ ¬ b.BpUpper.Processable sha) ∨
      (b.BpLower.verify sha = some true ∧ b.BpUpper.verify sha = some true ∧
        b.VoteProof.Crashes sha (voteCommitments b rp))) ∧
    (verifyVoteN sha (b.withNils k m) rp = none ↔
      (k.1 ≠ 0 ∧ b.BpLower.InnerProductProof.L ≠ []) ∨
      (b.BpLower.verify sha = some true ∧ m.1 ≠ 0 ∧ b.BpUpper.InnerProductProof.L ≠ []) ∨
      verifyVote sha b rp = none) := by
  refine ⟨?_, ?_⟩
  · rw [← C83_range, ← C83_range, ← C83_vote sha hsha]
    unfold verifyVote
    cases b.BpLower.verify sha with
    | none => simp
    | some ok => cases ok with
      | false => simp
      | true => cases b.BpUpper.verify sha with
        | none => simp
        | some ok => cases ok with
          | false => simp
          | true => cases b.VoteProof.verify sha (voteCommitments b rp) <;> simp
  · rw [C70_server]
    split
    · rename_i h; simp [h]
    · rename_i h
      split
      · rename_i h'; simp [h']
      · rename_i h'
        exact ⟨fun e => Or.inr (Or.inr e), fun e => e.elim (fun e => absurd e h) (fun e => e.elim (fun e => absurd e h') id)⟩

theorem decBP_shape {C : Codec E} {params : BPParams E} {r : Raw} {p : BulletProof E} (h : decBP C params r = some (.ok p)) :
    p.Params = params ∧ p.InnerProductProof.Params.GP = params.GP ∧
    p.InnerProductProof.L.length = p.InnerProductProof.R.length ∧
    p.InnerProductProof.Params.Gg.length = p.InnerProductProof.Params.Hh.length := by
  obtain ⟨j, _, h⟩ := decBP_inv h
  unfold decBPRaw at h
  dsimp only at h
  unbind h with ip eip
  unbind h with v ev
  unbind h with a ea
  unbind h with s es
  unbind h with t1 et1
  unbind h with t2 et2
  simp only [Option.some.injEq] at h
  subst h
  unfold decIPProof at eip
  unbind eip with ps eps
  unbind eip with lr elr
  obtain ⟨l, r⟩ := lr
  dsimp only at eip
  unbind eip with p ep
  simp only [Option.some.injEq] at eip
  subst eip
  unfold decIPParams at eps
  unbind eps with u eu
  unbind eps with gh egh
  obtain ⟨gg, hh⟩ := gh
  simp only [Option.some.injEq] at eps
  subst eps
  obtain ⟨-, -, a3, -⟩ := decPairs_forall (Q := fun _ => True) (fun _ _ _ => trivial) elr
  obtain ⟨-, -, b3, -⟩ := decPairs_forall (Q := fun _ => True) (fun _ _ _ => trivial) egh
  exact ⟨rfl, rfl, a3, b3⟩

/-- **C83** A decoded range proof, under parameters with at least two bits, as many generators and a group of prime order `q`: it
is processed exactly when its six integers are there, its own generators can be halved once per round, and `q` divides none of
the challenges of `A`, `S` and of the rounds. -/
theorem C83_decoded (sha : Bytes → Bytes) (C : Codec E) (params : BPParams E) (q : ℕ) (hq : q.Prime) (hN : params.GP.N = q)
    (h2 : 2 ≤ params.N) (lG : params.Gg.length = params.N) (lH : params.Hh.length = params.N) (r : Raw) (p : BulletProof E)
    (h : decBP C params r = some (.ok p)) :
    p.Processable sha ↔
      (p.Taux ≠ none ∧ p.Mu ≠ none ∧ p.Tprime ≠ none ∧ p.InnerProductProof.Cc ≠ none ∧ p.InnerProductProof.A ≠ none ∧
        p.InnerProductProof.B ≠ none) ∧
      (p.InnerProductProof.Params.Gg ≠ [] ∧ 2 ^ p.InnerProductProof.L.length ∣ p.InnerProductProof.Params.Gg.length) ∧
      ¬ (q : Int) ∣ roundChallenge sha params.GP p.A p.S ∧
      ∀ x ∈ List.zip p.InnerProductProof.L p.InnerProductProof.R, ¬ (q : Int) ∣ roundChallenge sha params.GP x.1 x.2 := by
  obtain ⟨h3, h4, h5, h6⟩ := decBP_shape h
  have cop : ∀ x : Int, Int.gcd x (q : Int) = 1 ↔ ¬ (q : Int) ∣ x := by
    intro x
    rw [Int.gcd_comm, ← Int.isCoprime_iff_gcd_eq_one, (Nat.prime_iff_prime_int.mp hq).coprime_iff_not_dvd]
  constructor
  · rintro ⟨⟨a1, a2, a3⟩, ⟨-, -, -⟩, a4, ⟨⟨b1, b2, b3⟩, -, ⟨c1, -, c2, -⟩, d⟩⟩
    rw [h3] at a4
    rw [h4] at d
    simp only [hN, cop] at a4 d
    exact ⟨⟨a1, a2, a3, b1, b2, b3⟩, ⟨List.length_pos_iff.mp c1, c2⟩, a4 h2, d⟩
  · rintro ⟨⟨a1, a2, a3, b1, b2, b3⟩, ⟨c1, c2⟩, a4, d⟩
    refine ⟨⟨a1, a2, a3⟩, by rw [h3]; omega, fun _ => by rw [h3, hN, cop]; exact a4, ⟨⟨b1, b2, b3⟩, h5.le,
      ⟨List.length_pos_iff.mpr c1, h6.le, c2, fun _ => h6.symm⟩, fun x hx => by rw [h4, hN, cop]; exact d x hx⟩⟩

/-- the integers of a ballot, by their place in its document -/
def ballotNumbers : List (List String) :=
  [["lbProof", "Taux"], ["lbProof", "Mu"], ["lbProof", "Tprime"], ["lbProof", "InnerProductProof", "Cc"],
   ["lbProof", "InnerProductProof", "a"], ["lbProof", "InnerProductProof", "b"],
   ["ubProof", "Taux"], ["ubProof", "Mu"], ["ubProof", "Tprime"], ["ubProof", "InnerProductProof", "Cc"],
   ["ubProof", "InnerProductProof", "a"], ["ubProof", "InnerProductProof", "b"],
   ["voteProof", "Challenge"], ["voteProof", "Z"], ["voteProof", "Sp"], ["voteProof", "Sq1"], ["voteProof", "Sq2"]]

theorem encBallot_sigma {C₁ : Codec E₁} {C₂ : Codec E₂} {b : BallotData E₁ E₂} {ct lo hi vp : Json}
    (h : encBallot C₁ C₂ b = some (.ok (.obj [("ballot", ct), ("lbProof", lo), ("ubProof", hi), ("voteProof", vp)]))) :
    encSigma C₁ C₂ b.VoteProof = some (.ok vp) := by
  unfold encBallot at h
  obtain ⟨ct', _, h⟩ := bindEnc_inv h
  obtain ⟨lo', h1, h⟩ := bindEnc_inv h
  obtain ⟨hi', h2, h⟩ := bindEnc_inv h
  obtain ⟨vp', h3, h⟩ := bindEnc_inv h
  simp only [Option.some.injEq, Except.ok.injEq, Json.obj.injEq, List.cons.injEq, Prod.mk.injEq, true_and, and_true] at h
  rw [← h.2.2.2]
  exact h3

theorem edit_ballot (f : Json → Json) (ct lo hi vp : Json) (p : List String) (k : String) : edit f (k :: p)
      (.obj [("ballot", ct), ("lbProof", lo), ("ubProof", hi), ("voteProof", vp)]) =
      .obj [("ballot", if "ballot" = k then edit f p ct else ct), ("lbProof", if "lbProof" = k then edit f p lo else lo),
        ("ubProof", if "ubProof" = k then edit f p hi else hi),
        ("voteProof", if "voteProof" = k then edit f p vp else vp)] := by
  simp only [edit, List.map_cons, List.map_nil]
  congr 2
  · split <;> rfl
  · congr 1
    · split <;> rfl
    · congr 1
      · split <;> rfl
      · congr 1
        split <;> rfl

/-- an accepted ballot, taken apart -/
theorem verifyVote_parts {sha : Bytes → Bytes} {b : BallotData E₁ E₂} {rp : ProofParams E₁ E₂} {t : List Nat}
    (h : verifyVote sha b rp = some ⟨true, t⟩) : b.BpLower.verify sha = some true ∧ b.BpUpper.verify sha = some true ∧
      b.VoteProof.verify sha (voteCommitments b rp) = some true ∧ t = [0, 0] := by
  unfold verifyVote at h
  cases h1 : b.BpLower.verify sha with
  | none => rw [h1] at h; exact absurd h (by simp)
  | some ok => cases ok with
    | false => rw [h1] at h; exact absurd h (by simp)
    | true => cases h2 : b.BpUpper.verify sha with
      | none => rw [h1, h2] at h; exact absurd h (by simp)
      | some ok => cases ok with
        | false => rw [h1, h2] at h; exact absurd h (by simp)
        | true =>
          rw [h1, h2] at h
          cases h3 : b.VoteProof.verify sha (voteCommitments b rp) with
          | none => rw [h3] at h; exact absurd h (by simp)
          | some ok =>
            rw [h3] at h
            simp at h
            exact ⟨rfl, rfl, by rw [h.1], h.2.symm⟩

/-- a vote proof that was accepted, with one of its integers missing -/
theorem sigma_null {sha : Bytes → Bytes} (hsha : ∀ m, (sha m).length = 32) {pf : SigmaProof E₁ E₂} {comm : VerCommitments E₁ E₂}
    (h : pf.verify sha comm = some true) :
    SigmaProof.verify sha { pf with Challenge := none } comm = none ∧ SigmaProof.verify sha { pf with Z := none } comm = none ∧
    SigmaProof.verify sha { pf with Sp := none } comm = none ∧ SigmaProof.verify sha { pf with Sq1 := none } comm = none ∧
    SigmaProof.verify sha { pf with Sq2 := none } comm = none := by
  obtain ⟨Z, c, Sp, Sq1, Sq2, hZ, hc, h1, h2, h3, hz, hch, hk⟩ := (sigma_verify_iff sha pf comm).mp h
  have hz' := (zOk_iff _ _).mp hz
  obtain ⟨c1, c2⟩ := C28_challenge sha hsha pf.Params.GFF.I pf.Params.GEC.I pf.W pf.Kp pf.Kq1 pf.Kq2 pf.Params.Bc
  have hfs : fsOf sha pf = c := ((c2 c hch).1).symm
  unfold sigmaChecks at hk
  simp only [Bool.and_eq_true] at hk
  obtain ⟨⟨⟨k1, k2⟩, k3⟩, k4⟩ := hk
  simp only [C83_vote sha hsha]
  unfold SigmaProof.Crashes
  simp only [hZ, hc, h1, h2, h3]
  have f : ∀ pf' : SigmaProof E₁ E₂, pf'.W = pf.W → pf'.Kp = pf.Kp → pf'.Kq1 = pf.Kq1 → pf'.Kq2 = pf.Kq2 → pf'.Params = pf.Params →
      fsOf sha pf' = c := by
    intro pf' a1 a2 a3 a4 a5
    rw [← hfs]
    unfold fsOf
    rw [a1, a2, a3, a4, a5]
  refine ⟨⟨hz', Or.inr trivial⟩, trivial, ⟨hz', Or.inr ⟨f _ rfl rfl rfl rfl rfl, trivial⟩⟩,
    ⟨hz', Or.inr ⟨f _ rfl rfl rfl rfl rfl, k1, k2, trivial⟩⟩, ⟨hz', Or.inr ⟨f _ rfl rfl rfl rfl rfl, k1, k2, k3, trivial⟩⟩⟩

/-- **C83** Take the document of any ballot the server accepts and replace any one of its 17 integers by `null`: the document is
decoded without an error, and then the server panics. -/
theorem C83_null (sha : Bytes → Bytes) (hsha : ∀ m, (sha m).length = 32) (C₁ : Codec E₁) (C₂ : Codec E₂) (pp : PublicParams E₁ E₂)
    (rp : ProofParams E₁ E₂) (b₀ b : BallotData E₁ E₂) (j : Json) (t : List Nat)
    (he : encBallot C₁ C₂ b₀ = some (.ok j)) (hd : decBallot C₁ C₂ pp (some j) = some (.ok b))
    (hv : verifyVote sha b rp = some ⟨true, t⟩) :
    ∀ path ∈ ballotNumbers, ∃ b', decBallotN C₁ C₂ pp (some (edit (fun _ => .null) path j)) = some (.ok b') ∧
      verifyVoteN sha b' rp = none := by
  obtain ⟨v1, v2, v3, -⟩ := verifyVote_parts hv
  obtain ⟨ct, lo, hi, vp, rfl, e1, e2⟩ := encBallot_doc he
  have e3 := encBallot_sigma he
  rw [decBallot_doc] at hd
  obtain ⟨c, hc, hd⟩ := bindEnc_inv hd
  obtain ⟨l, hl, hd⟩ := bindEnc_inv hd
  obtain ⟨u, hu, hd⟩ := bindEnc_inv hd
  obtain ⟨s, hs, hd⟩ := bindEnc_inv hd
  simp only [Option.some.injEq, Except.ok.injEq] at hd
  subst hd
  have reduce : ∀ j', (∃ b', decBallot C₁ C₂ pp (some j') = some (.ok b') ∧ verifyVote sha b' rp = none) →
      ∃ b', decBallotN C₁ C₂ pp (some j') = some (.ok b') ∧ verifyVoteN sha b' rp = none := by
    rintro j' ⟨b', h1, h2⟩
    obtain ⟨k, m, h3⟩ := (C70_decode C₁ C₂ pp (some j')).2.2 b' h1
    exact ⟨_, h3, ((C83_server sha hsha b' k m rp).2).mpr (Or.inr (Or.inr h2))⟩
  have noproc : ∀ p' : BulletProof E₂, (p'.Taux = none ∨ p'.Mu = none ∨ p'.Tprime = none ∨ p'.InnerProductProof.Cc = none ∨
      p'.InnerProductProof.A = none ∨ p'.InnerProductProof.B = none) → p'.verify sha = none := by
    intro p' h
    by_contra hne
    obtain ⟨v, hv⟩ := Option.ne_none_iff_exists'.mp hne
    have hp := (C83_range sha p').mp ⟨v, hv⟩
    have h1 := hp.numbers
    have h2 := hp.ip.numbers
    tauto
  have lower : ∀ p ∈ bpNumbers, ∃ b', decBallot C₁ C₂ pp (some (edit (fun _ => .null) ("lbProof" :: p)
      (.obj [("ballot", ct), ("lbProof", lo), ("ubProof", hi), ("voteProof", vp)]))) = some (.ok b') ∧
      verifyVote sha b' rp = none := by
    intro p hp
    obtain ⟨p', d, n⟩ := decBP_null e1 hl p hp
    refine ⟨⟨c, p', u, s⟩, ?_, ?_⟩
    · rw [edit_ballot]
      simp only [String.reduceEq, if_true, if_false]
      rw [decBallot_doc, bindEnc_ok hc, bindEnc_ok d, bindEnc_ok hu, bindEnc_ok hs]
    · unfold verifyVote
      rw [noproc p' n]
      rfl
  have upper : ∀ p ∈ bpNumbers, ∃ b', decBallot C₁ C₂ pp (some (edit (fun _ => .null) ("ubProof" :: p)
      (.obj [("ballot", ct), ("lbProof", lo), ("ubProof", hi), ("voteProof", vp)]))) = some (.ok b') ∧
      verifyVote sha b' rp = none := by
    intro p hp
    obtain ⟨p', d, n⟩ := decBP_null e2 hu p hp
    refine ⟨⟨c, l, p', s⟩, ?_, ?_⟩
    · rw [edit_ballot]
      simp only [String.reduceEq, if_true, if_false]
      rw [decBallot_doc, bindEnc_ok hc, bindEnc_ok hl, bindEnc_ok d, bindEnc_ok hs]
    · unfold verifyVote
      dsimp only at v1 ⊢
      rw [v1, noproc p' n]
      rfl
  have vote : ∀ (p : List String) (s' : SigmaProof E₁ E₂),
      decSigma C₁ C₂ pp.RPParams.GFF.I pp.RPParams.GEC.I (some (edit (fun _ => .null) p vp)) = some (.ok s') →
      s'.verify sha (voteCommitments ⟨c, l, u, s⟩ rp) = none →
      ∃ b', decBallot C₁ C₂ pp (some (edit (fun _ => .null) ("voteProof" :: p)
      (.obj [("ballot", ct), ("lbProof", lo), ("ubProof", hi), ("voteProof", vp)]))) = some (.ok b') ∧
      verifyVote sha b' rp = none := by
    intro p s' d n
    refine ⟨⟨c, l, u, s'⟩, ?_, ?_⟩
    · rw [edit_ballot]
      simp only [String.reduceEq, if_true, if_false]
      rw [decBallot_doc, bindEnc_ok hc, bindEnc_ok hl, bindEnc_ok hu, bindEnc_ok d]
    · have n' : s'.verify sha (voteCommitments ⟨c, l, u, s'⟩ rp) = none := n
      unfold verifyVote
      dsimp only at v1 v2 ⊢
      rw [v1, v2, n']
      rfl
  obtain ⟨s1, s2, s3, s4, s5, -⟩ := decSigma_edit e3 hs
  obtain ⟨n1, n2, n3, n4, n5⟩ := sigma_null hsha v3
  intro path hp
  apply reduce
  simp only [ballotNumbers, List.mem_cons, List.not_mem_nil, or_false] at hp
  rcases hp with rfl | rfl | rfl | rfl | rfl | rfl | rfl | rfl | rfl | rfl | rfl | rfl | rfl | rfl | rfl | rfl | rfl
  · exact lower _ (by simp [bpNumbers])
  · exact lower _ (by simp [bpNumbers])
  · exact lower _ (by simp [bpNumbers])
  · exact lower _ (by simp [bpNumbers])
  · exact lower _ (by simp [bpNumbers])
  · exact lower _ (by simp [bpNumbers])
  · exact upper _ (by simp [bpNumbers])
  · exact upper _ (by simp [bpNumbers])
  · exact upper _ (by simp [bpNumbers])
  · exact upper _ (by simp [bpNumbers])
  · exact upper _ (by simp [bpNumbers])
  · exact upper _ (by simp [bpNumbers])
  · exact vote _ _ s1 n1
  · exact vote _ _ s2 n2
  · exact vote _ _ s3 n3
  · exact vote _ _ s4 n4
  · exact vote _ _ s5 n5

/-- **C83** The bound the server computes is chosen by the voter: in the document of an accepted ballot, replace `Bb` by any
larger integer below `2^63`.  It is decoded and accepted, and on the way the server computes the power `2 ^ (Bx + Bc + n)`: a
document longer by less than 20 characters makes the server build a number of up to `2^63` bits. -/
theorem C83_power (sha : Bytes → Bytes) (C₁ : Codec E₁) (C₂ : Codec E₂) (pp : PublicParams E₁ E₂)
    (rp : ProofParams E₁ E₂) (b₀ b : BallotData E₁ E₂) (j : Json) (t : List Nat)
    (he : encBallot C₁ C₂ b₀ = some (.ok j)) (hd : decBallot C₁ C₂ pp (some j) = some (.ok b))
    (hv : verifyVote sha b rp = some ⟨true, t⟩) (n : Int) (h0 : 0 ≤ n) (h1 : b.VoteProof.Params.Bb ≤ n) (h2 : n < 2 ^ 63) :
    ∃ b', decBallot C₁ C₂ pp (some (edit (fun _ => .num n) ["voteProof", "Params", "Bb"] j)) = some (.ok b') ∧
      b'.VoteProof.Params.Bb = n ∧ 2 ^ n.toNat ≤ b'.VoteProof.Params.zUpperBound ∧
      verifyVote sha b' rp = some ⟨true, t⟩ := by
  obtain ⟨v1, v2, v3, rfl⟩ := verifyVote_parts hv
  obtain ⟨ct, lo, hi, vp, rfl, e1, e2⟩ := encBallot_doc he
  have e3 := encBallot_sigma he
  rw [decBallot_doc] at hd
  obtain ⟨c, hc, hd⟩ := bindEnc_inv hd
  obtain ⟨l, hl, hd⟩ := bindEnc_inv hd
  obtain ⟨u, hu, hd⟩ := bindEnc_inv hd
  obtain ⟨s, hs, hd⟩ := bindEnc_inv hd
  simp only [Option.some.injEq, Except.ok.injEq] at hd
  subst hd
  obtain ⟨-, -, -, -, -, s6⟩ := decSigma_edit e3 hs
  have s6 := s6 n ⟨by omega, h2⟩
  refine ⟨⟨c, l, u, { s with Params := { s.Params with Bb := n } }⟩, ?_, rfl, ?_, ?_⟩
  · rw [edit_ballot]
    simp only [String.reduceEq, if_true, if_false]
    rw [decBallot_doc, bindEnc_ok hc, bindEnc_ok hl, bindEnc_ok hu, bindEnc_ok s6]
  · unfold ProofParams.zUpperBound
    exact pow_le_pow_right₀ (by norm_num) (by
      have : (0 : Int) ≤ ({ s.Params with Bb := n } : ProofParams E₁ E₂).bxbc := by
        unfold ProofParams.bxbc; positivity
      dsimp only
      omega)
  · have v4 : SigmaProof.verify sha { s with Params := { s.Params with Bb := n } } (voteCommitments ⟨c, l, u, s⟩ rp) = some true := by
      rw [sigma_verify_iff] at v3 ⊢
      obtain ⟨Z, ch, Sp, Sq1, Sq2, hZ, hc', g1, g2, g3, hz, hch, hk⟩ := v3
      refine ⟨Z, ch, Sp, Sq1, Sq2, hZ, hc', g1, g2, g3, ?_, hch, hk⟩
      rw [zOk_iff] at hz ⊢
      refine ⟨hz.1, hz.2.trans_le (pow_le_pow_right₀ (by norm_num) ?_)⟩
      have hb : ({ s.Params with Bb := n } : ProofParams E₁ E₂).bxbc = s.Params.bxbc := rfl
      dsimp only at h1 ⊢
      rw [hb]
      omega
    have v4' : SigmaProof.verify sha { s with Params := { s.Params with Bb := n } }
        (voteCommitments ⟨c, l, u, { s with Params := { s.Params with Bb := n } }⟩ rp) = some true := v4
    unfold verifyVote
    dsimp only at v1 v2 ⊢
    rw [v1, v2, v4']
    rfl

/-- **C83** The deployed system (P-256, P-384; SHA-256): the ballot of any `castVote` is accepted; with `null` for any one of its
17 integers it is decoded and crashes the server; with a larger `Bb` it is accepted after computing a power of two of that size. -/
theorem C83_deployed (nan64 : BitVec 64) {C : CirclCurve} {bits : ℕ} {H U : WPoint} {Gg Hh : List WPoint}
    (row : RealRow C bits H U Gg Hh) :
    ∃ pp, setup nan64 (circlGrp C) = some (.ok pp) ∧ ∀ (rnd : CastRand) (ballot : BallotData Int WPoint),
      (0 ≤ rnd.rChoice ∧ rnd.rChoice < 1899) →
      (rnd.bp1.sL.length = 16 ∧ rnd.bp1.sR.length = 16 ∧ rnd.bp2.sL.length = 16 ∧ rnd.bp2.sR.length = 16) →
      (∀ s ∈ rnd.tape, 0 ≤ s.k ∧ s.k < 2 ^ (bits - 1)) →
      castVote sha256 pp rnd = .done ballot →
      ∃ j, encBallot modPCodec (wCodec C.c) ballot = some (.ok j) ∧
        (∃ b, decBallot modPCodec (wCodec C.c) pp (some j) = some (.ok b) ∧
          verifyVote sha256 b pp.RPParams = some { result := true, times := [0, 0] }) ∧
        (∀ path ∈ ballotNumbers, ∃ b,
          decBallotN modPCodec (wCodec C.c) pp (some (edit (fun _ => .null) path j)) = some (.ok b) ∧
          verifyVoteN sha256 b pp.RPParams = none) ∧
        ∀ n : Int, (bits : Int) ≤ n → n < 2 ^ 63 → ∃ b,
          decBallot modPCodec (wCodec C.c) pp (some (edit (fun _ => .num n) ["voteProof", "Params", "Bb"] j)) = some (.ok b) ∧
          2 ^ n.toNat ≤ b.VoteProof.Params.zUpperBound ∧
          verifyVote sha256 b pp.RPParams = some { result := true, times := [0, 0] } := by
  have ok := stdCircl_ord row.std.circl
  have := ok.fact'
  let := ok.module
  obtain ⟨Bb, hr, hb1, hb2, _⟩ := row.std.table
  let L₂ := ok.lawful
  obtain ⟨D, hD, dep, _⟩ := C47_curves nan64 (circlGrp C) (fun s _ => ⟨_, rfl⟩) C.n bits Bb hr rfl
  obtain ⟨L₁, L, hok, hV, _⟩ := deployed_legal (circlGrp C) D C.n bits Bb hr L₂
    (fun s e hs he => by injection he with he; exact he ▸ (wLegal_iff _ _).mpr (row.valid s)) dep
  refine ⟨D.pp, hD, fun rnd ballot hc hl ht hcast => ?_⟩
  have good₁ : modPCodec.Good L₁.V := fun e _ => modPCodec_good e trivial
  have good₂ : (wCodec C.c).Good L.V := fun e he => by
    rw [hV] at he
    exact C06_json_roundtrip C.c (stdCircl_curve row.std.circl) e ((wLegal_iff _ _).mp he)
  have vG : L.V D.G := by rw [hV, dep.G]; exact L₂.V_mulGen 1
  have hBb : -(2 ^ 63) ≤ D.Bb ∧ D.Bb < 2 ^ 63 := by rw [dep.Bb]; exact ⟨hb1, hb2⟩
  obtain ⟨j, e1, b, e2, rfl, e3⟩ := C44_end_to_end sha256 D L₁ L modPCodec (wCodec C.c) good₁ good₂ 4 hok vG hBb
    (by rw [dep.lo, dep.hi]; decide) (by rw [dep.lo, dep.hi]; decide) rnd (by rw [dep.lo, dep.hi]; exact hc)
    hl.1 hl.2.1 hl.2.2.1 hl.2.2.2 (by rw [dep.zUpper]; exact ht) ballot hcast
  refine ⟨j, e1, ⟨b, e2, e3⟩, C83_null sha256 sha256_length modPCodec (wCodec C.c) D.pp D.pp.RPParams b b j _ e1 e2 e3, ?_⟩
  intro n h1 h2
  have hb : b.VoteProof.Params.Bb = (bits : Int) - 241 := by
    unfold castVote at hcast
    cases hd : drawChoice D.pp rnd.rChoice with
    | none => rw [hd] at hcast; simp at hcast
    | some choice =>
    rw [hd] at hcast
    obtain ⟨-, -, -, -, -, hP, -⟩ := castChoice_legal sha256 D L₁ L 4 hok vG hBb choice rnd hl.1 hl.2.1 hl.2.2.1 hl.2.2.2 b hcast
    rw [hP]
    exact dep.Bb
  obtain ⟨b', d1, -, d2, d3⟩ := C83_power sha256 modPCodec (wCodec C.c) D.pp D.pp.RPParams b b j _ e1 e2 e3 n (by omega)
    (by rw [hb]; omega) h2
  exact ⟨b', d1, d2, d3⟩

/-- C83 on the toy election: every integer of its ballot replaced by `null` crashes the server; a larger `Bb` does not matter. -/
example : (match castVote exSha3 exElection.pp exCast with
    | .done b => (match encBallot modPCodec modPCodec b with
      | some (.ok j) =>
        ((ballotNumbers.map fun path => edit (fun _ => .null) path j) ++
          [j, edit (fun _ => .num 1000) ["voteProof", "Params", "Bb"] j, edit (fun _ => .num (-1)) ["voteProof", "Params", "Bb"] j]).map fun j =>
        (match decBallotN modPCodec modPCodec exElection.pp (some j) with
          | some (.ok b) => some (verifyVoteN exSha3 b exElection.rp)
          | _ => none)
      | _ => [])
    | _ => []) = List.replicate 17 (some none) ++ [some (some ⟨true, [0, 0]⟩), some (some ⟨true, [0, 0]⟩),
      some (some ⟨false, [0, 0]⟩)] := by decide +kernel

/-- the toy ballot's range proofs can be processed and its vote proof does not crash -/
example : (match castVote exSha3 exElection.pp exCast with
    | .done b => (b.BpLower.verify exSha3).isSome && (b.BpUpper.verify exSha3).isSome &&
        (b.VoteProof.verify exSha3 (voteCommitments b exElection.rp)).isSome
    | _ => false) = true := by decide +kernel

end MscPoc
