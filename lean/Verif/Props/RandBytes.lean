import Verif.Lemmas.RandBytes
import Verif.Props.Rand
import Verif.Props.Attempts

/-!
# C93 — how many random bytes casting a vote reads
-/

set_option autoImplicit false

namespace MscPoc

variable {E₁ E₂ : Type}

/-- **C93** A completed `castVote` depends on the bytes it has read and on nothing after them.  It has read at least one block for every
number it draws: the choice, the ElGamal randomness, `2N + 5` numbers for each range proof, four numbers for each attempt at the vote
proof; and every run of the number-level model happens on a string that is no longer than that. -/
theorem C93_cast (sha : Bytes → Bytes) (pp : PublicParams E₁ E₂) (NF NE : Int) (hF : pp.RPParams.GFF.N = some NF)
    (hE : pp.RPParams.GEC.N = some NE) (kc kn kb kz kf ke : ℕ)
    (bc : Blocks ((pp.candidateMax - pp.candidateMin).toNat : Int) kc) (bn : Blocks (pp.FFGroupParams.I.N - 1) kn)
    (bb : Blocks pp.BPParams.GP.N kb) (bz : Blocks pp.RPParams.zUpperBound kz) (bf : Blocks NF kf) (be : Blocks NE ke) :
    (∀ n tape b rest, castVoteB sha pp n tape = .done (b, rest) → ∃ rnd used, CastBelow pp NF NE rnd ∧ rnd.tape ≠ [] ∧
      rnd.tape.length ≤ n ∧ castVote sha pp rnd = .done b ∧ tape = used ++ rest ∧
      kc + kn + 2 * ((2 * pp.BPParams.N + 5) * kb) + rnd.tape.length * (kz + kf + 2 * ke) ≤ used.length ∧
      (castVoteB sha pp n).Uses used b) ∧
    ∀ rnd b, CastBelow pp NF NE rnd → castVote sha pp rnd = .done b → ∃ used,
      used.length ≤ kc + kn + 2 * ((2 * pp.BPParams.N + 5) * kb) + rnd.tape.length * (kz + kf + 2 * ke) ∧
      (castVoteB sha pp rnd.tape.length).Uses used b := by
  constructor
  · intro n tape b rest h
    unfold castVoteB at h
    obtain ⟨r, _, e1, h⟩ := Draw.bind_done.mp h
    obtain ⟨⟨ct, rp⟩, _, e2, h⟩ := Draw.bind_done.mp h
    obtain ⟨⟨p1, rq1⟩, _, e3, h⟩ := Draw.bind_done.mp h
    obtain ⟨⟨p2, rq2⟩, _, e4, h⟩ := Draw.bind_done.mp h
    obtain ⟨N, _, e5, h⟩ := Draw.bind_done.mp h
    obtain ⟨pf, _, e6, h⟩ := Draw.bind_done.mp h
    simp only [Draw.pure_eq, Outcome.done.injEq, Prod.mk.injEq] at h
    obtain ⟨hb, rfl⟩ := h
    obtain ⟨u1, rfl, l1, U1⟩ := randInt_least bc _ _ _ e1
    obtain ⟨u2, rfl, l2, U2⟩ := ((randInt_least bn).bind fun r => Draw.Least.lift (encryptVote pp.FFGroupParams.I pp.EGPK _ r)) _ _ _ e2
    obtain ⟨u3, rfl, l3, U3⟩ := ((drawBP_least bb).bind fun r => Draw.Least.lift (bpResult (bpProve sha pp.BPParams r _))) _ _ _ e3
    obtain ⟨u4, rfl, l4, U4⟩ := ((drawBP_least bb).bind fun r => Draw.Least.lift (bpResult (bpProve sha pp.BPParams r _))) _ _ _ e4
    obtain ⟨e5', rfl⟩ := Draw.lift_done.mp e5
    obtain ⟨ss, u6, i0, i1, i2, i3, rfl, l6, U6⟩ := sigmaProveB_reads sha _ _ _ _ hF hE bz bf be e6
    have uses : (castVoteB sha pp n).Uses (u1 ++ (u2 ++ (u3 ++ (u4 ++ ([] ++ (u6 ++ [])))))) b := by
      unfold castVoteB
      refine Draw.Uses.bind U1 ?_
      refine Draw.Uses.bind (a := (ct, rp)) U2 ?_
      refine Draw.Uses.bind (a := (p1, rq1)) U3 ?_
      refine Draw.Uses.bind (a := (p2, rq2)) U4 ?_
      refine Draw.Uses.bind (Draw.Uses.lift e5') ?_
      refine Draw.Uses.bind U6 ?_
      rw [← hb]
      exact Draw.Uses.pure _
    unfold encryptVoteB at e2
    obtain ⟨re, _, e2, e2'⟩ := Draw.bind_done.mp e2
    unfold bpProveB at e3 e4
    obtain ⟨r1, _, e3, e3'⟩ := Draw.bind_done.mp e3
    obtain ⟨r2, _, e4, e4'⟩ := Draw.bind_done.mp e4
    refine ⟨⟨r, re, r1, r2, ss⟩, _, ⟨(randInt_done e1).1, (randInt_done e2).1, drawBP_done e3, drawBP_done e4, i2⟩, i0, i1, ?_, ?_, ?_, uses⟩
    · have hpos : (pp.candidateMax - pp.candidateMin).toNat ≠ 0 := by
        have := (randInt_done e1).1; omega
      unfold castVote drawChoice castChoice
      rw [if_neg hpos]
      dsimp only
      rw [(Draw.lift_done.mp e2').1]
      dsimp only
      rw [bpResult_some (Draw.lift_done.mp e3').1]
      dsimp only
      rw [bpResult_some (Draw.lift_done.mp e4').1]
      dsimp only
      rw [e5']
      dsimp only
      rw [i3]
      dsimp only
      rw [hb]
    · simp
    · simp only [List.length_append, List.length_nil]
      omega
  · intro rnd b hr h
    show (castVoteB sha pp rnd.tape.length).Within b _
    have hpos : (pp.candidateMax - pp.candidateMin).toNat ≠ 0 := by have := hr.choice; omega
    unfold castVote drawChoice castChoice at h
    rw [if_neg hpos] at h
    dsimp only at h
    split at h
    · simp at h
    rename_i ct rp e2
    split at h
    · simp at h
    · simp at h
    rename_i p1 rq1 e3
    split at h
    · simp at h
    · simp at h
    rename_i p2 rq2 e4
    split at h
    · simp at h
    rename_i N e5
    split at h
    · simp at h
    · simp at h
    rename_i pf e6
    simp only [Outcome.done.injEq] at h
    rw [show kc + kn + 2 * ((2 * pp.BPParams.N + 5) * kb) + rnd.tape.length * (kz + kf + 2 * ke) =
      kc + ((kn + 0) + (((2 * pp.BPParams.N + 5) * kb + 0) + (((2 * pp.BPParams.N + 5) * kb + 0) +
        (0 + (rnd.tape.length * (kz + kf + 2 * ke) + 0))))) by ring]
    unfold castVoteB
    refine (randInt_within bc hr.choice).bind ?_
    refine Draw.Within.bind (a := (ct, rp)) ((randInt_within bn hr.enc).bind (Draw.Within.lift e2)) ?_
    refine Draw.Within.bind (a := (p1, rq1)) ((drawBP_within bb hr.bp1).bind (Draw.Within.lift (by rw [e3]; rfl))) ?_
    refine Draw.Within.bind (a := (p2, rq2)) ((drawBP_within bb hr.bp2).bind (Draw.Within.lift (by rw [e4]; rfl))) ?_
    refine (Draw.Within.lift e5).bind ?_
    refine (sigmaProveB_within sha _ _ _ _ hF hE bz bf be hr.tape e6).bind ?_
    rw [← h]
    exact Draw.Within.pure _

theorem deployed_blocks {N bits : ℕ} {Bb : Int} (hr : (N, bits, Bb) ∈ curveTable) :
    Blocks (1899 : ℕ) 2 ∧ Blocks ((modp3072Q : ℕ) - 1 : Int) 384 ∧ Blocks ((modp3072Q : ℕ) : Int) 384 ∧
    Blocks (N : Int) ((bits + 7) / 8) ∧ Blocks ((2 : Int) ^ (bits - 1)) ((bits + 7) / 8) := by
  have h1 : (256 : ℕ) ^ 383 < modp3072Q - 1 ∧ modp3072Q ≤ 256 ^ 384 := by decide +kernel
  have h1' : (256 : Int) ^ 383 < (modp3072Q : ℕ) - 1 ∧ ((modp3072Q : ℕ) : Int) ≤ 256 ^ 384 := by
    have a : (256 : ℕ) ^ 383 + 1 < modp3072Q := by omega
    have a' : ((256 ^ 383 + 1 : ℕ) : Int) < (modp3072Q : ℕ) := by exact_mod_cast a
    rw [Nat.cast_add, Nat.cast_pow, Nat.cast_ofNat, Nat.cast_one] at a'
    exact ⟨lt_sub_iff_add_lt.mpr a', by exact_mod_cast h1.2⟩
  have h2 : ∀ r ∈ curveTable, 256 ^ ((r.2.1 + 7) / 8 - 1) < r.1 ∧ r.1 ≤ 256 ^ ((r.2.1 + 7) / 8) ∧
      256 ^ ((r.2.1 + 7) / 8 - 1) < 2 ^ (r.2.1 - 1) ∧ 2 ^ (r.2.1 - 1) ≤ 256 ^ ((r.2.1 + 7) / 8) ∧ 0 < (r.2.1 + 7) / 8 := by
    decide +kernel
  obtain ⟨a, b, c, d, e⟩ := h2 _ hr
  dsimp only at a b c d e
  refine ⟨⟨by norm_num, by norm_num, by norm_num⟩, ⟨by norm_num, h1'.1, (sub_le_self _ zero_le_one).trans h1'.2⟩,
    ⟨by norm_num, h1'.1.trans (by linarith), h1'.2⟩, ⟨e, by exact_mod_cast a, by exact_mod_cast b⟩,
    ⟨e, by exact_mod_cast c, by exact_mod_cast d⟩⟩

/-- **C93** The deployed system on a curve whose numbers fill `cb` bytes: a ballot that took `j` attempts has consumed at least
`386 + 74 cb + j (384 + 3 cb)` bytes and is a function of the consumed bytes; unless some digest is a zero divisor there is a ballot
that takes exactly `770 + 77 cb` bytes. -/
theorem C93_deployed (sha : Bytes → Bytes) (hsha : ∀ m, (sha m).length = 32) (nan64 : BitVec 64)
    {E : Type} (C : Grp E) (N bits : ℕ) (Bb : Int) (hr : (N, bits, Bb) ∈ curveTable)
    {M : Type} [AddCommGroup M] [Module (ZMod N) M] (L₂ : Lawful C N M)
    (hmap : ∀ s, SetupSeed 16 s → ∃ e, C.mapToGroup s = some e ∧ L₂.V e) (cb : ℕ) (hcb : cb = (bits + 7) / 8) :
    ∃ pp, setup nan64 C = some (.ok pp) ∧
      (∀ n tape b rest, castVoteB sha pp n tape = .done (b, rest) → ∃ used rnd, CastDrawn bits rnd ∧ castVote sha pp rnd = .done b ∧
        rnd.tape ≠ [] ∧ tape = used ++ rest ∧ 386 + 74 * cb + rnd.tape.length * (384 + 3 * cb) ≤ used.length ∧
        (castVoteB sha pp n).Uses used b) ∧
      (∀ n tape, tape.length < 770 + 77 * cb → ∀ r, castVoteB sha pp n tape ≠ .done r) ∧
      (DigestsOK sha N → ∃ used b, used.length = 770 + 77 * cb ∧ (castVoteB sha pp 1).Uses used b) := by
  obtain ⟨pp, h1, h2, h4⟩ := C54_cast_completes sha hsha nan64 C N bits Bb hr L₂ hmap
  obtain ⟨D, h1'', dep, _⟩ := C47_curves nan64 C (fun s hs => (hmap s hs).imp fun _ h => h.1) N bits Bb hr L₂.N_eq
  obtain rfl : pp = D.pp := by
    have h := h1.symm.trans h1''
    simp only [Option.some.injEq, Except.ok.injEq] at h
    exact h
  have hb : 253 ≤ bits := by
    have : ∀ r ∈ curveTable, 253 ≤ r.2.1 := by decide
    exact this _ hr
  have hN0 : 0 < N := by
    have : ∀ r ∈ curveTable, 0 < r.1 := by decide
    exact this _ hr
  have hF : D.pp.RPParams.GFF.N = some (modp3072Q : Int) := by
    show some D.FF.N = _; rw [dep.FF]; rfl
  have hE : D.pp.RPParams.GEC.N = some (N : Int) := by
    show some D.EC.N = _; rw [dep.EC, L₂.N_eq]
  have hB : D.pp.BPParams.GP.N = N := by
    show D.EC.N = _; rw [dep.EC, L₂.N_eq]
  have hn : D.pp.BPParams.N = 16 := dep.n
  have hI : D.pp.FFGroupParams.I.N = modp3072Q := by
    show D.FF.N = _; rw [dep.FF]; rfl
  have hc : (D.pp.candidateMax - D.pp.candidateMin).toNat = 1899 := by
    show (D.hi - D.lo).toNat = 1899; rw [dep.hi, dep.lo]; rfl
  have hz : D.pp.RPParams.zUpperBound = 2 ^ (bits - 1) := dep.zUpper
  have hq2 := modp3072Q_prime.two_le
  have drawn : ∀ rnd, CastBelow D.pp modp3072Q N rnd → CastDrawn bits rnd := fun rnd hd =>
    ⟨by have := hd.choice; rw [hc] at this; exact this,
      ⟨hd.bp1.lenL.trans hn, hd.bp1.lenR.trans hn, hd.bp2.lenL.trans hn, hd.bp2.lenR.trans hn⟩,
      fun s hm => by have := (hd.tape s hm).k; rw [hz] at this; exact this⟩
  obtain ⟨k1, k2, k3, k4, k5⟩ := deployed_blocks hr
  rw [← hcb] at k4 k5
  obtain ⟨c1, c2⟩ := C93_cast sha D.pp modp3072Q N hF hE 2 384 cb cb 384 cb (by rw [hc]; exact k1) (by rw [hI]; exact k2)
    (by rw [hB]; exact k4) (by rw [hz]; exact k5) k3 k4
  rw [hn] at c1 c2
  have e : ∀ j, 2 + 384 + 2 * ((2 * 16 + 5) * cb) + j * (cb + 384 + 2 * cb) = 386 + 74 * cb + j * (384 + 3 * cb) := fun j => by ring
  simp only [e] at c1 c2
  clear e
  have first : ∀ n tape b rest, castVoteB sha D.pp n tape = .done (b, rest) → ∃ used rnd, CastDrawn bits rnd ∧
      castVote sha D.pp rnd = .done b ∧ rnd.tape ≠ [] ∧ tape = used ++ rest ∧
      386 + 74 * cb + rnd.tape.length * (384 + 3 * cb) ≤ used.length ∧ (castVoteB sha D.pp n).Uses used b := by
    intro n tape b rest h
    obtain ⟨rnd, used, a1, a2, _, a4, a5, a6, a7⟩ := c1 n tape b rest h
    exact ⟨used, rnd, drawn rnd a1, a4, a2, a5, a6, a7⟩
  have second : ∀ n tape, tape.length < 770 + 77 * cb → ∀ r, castVoteB sha D.pp n tape ≠ .done r := by
    rintro n tape hlt ⟨b, rest⟩ h
    obtain ⟨used, rnd, _, _, a2, rfl, a6, _⟩ := first n tape b rest h
    have : 1 ≤ rnd.tape.length := List.length_pos_iff.mpr a2
    have : 1 * (384 + 3 * cb) ≤ rnd.tape.length * (384 + 3 * cb) := Nat.mul_le_mul_right _ this
    rw [List.length_append] at hlt
    omega
  refine ⟨D.pp, h1, first, second, fun hs => ?_⟩
  have hmask : (2 : Int) ^ (bits - 2) < 2 ^ (bits - 1) - 2 ^ 240 ∧ (2 : Int) ^ 240 ≤ 2 ^ (bits - 2) := by
    obtain ⟨j, rfl⟩ : ∃ j, bits = j + 243 := ⟨bits - 243, by omega⟩
    have e1 : (2 : Int) ^ (j + 243 - 2) = 2 * 2 ^ 240 * 2 ^ j := by
      rw [show j + 243 - 2 = j + 1 + 240 by omega, pow_add, pow_succ]; ring
    have e2 : (2 : Int) ^ (j + 243 - 1) = 4 * 2 ^ 240 * 2 ^ j := by
      rw [show j + 243 - 1 = j + 2 + 240 by omega, pow_add, pow_add]; ring
    have e3 : (1 : Int) ≤ 2 ^ j := one_le_pow₀ (by norm_num)
    rw [e1, e2]
    constructor <;> nlinarith [show (0 : Int) < 2 ^ 240 by positivity]
  have z := BPRand.zero_drawn (N := D.pp.BPParams.GP.N) (by rw [hB]; omega) D.pp.BPParams.N
  have hd : CastBelow D.pp modp3072Q N ⟨0, 0, BPRand.zero D.pp.BPParams.N, BPRand.zero D.pp.BPParams.N, [⟨2 ^ (bits - 2), 0, 0, 0⟩]⟩ := by
    refine ⟨by rw [hc]; constructor <;> dsimp only <;> omega, ⟨le_rfl, by rw [hI]; dsimp only; omega⟩, z, z, fun s hm => ?_⟩
    rw [List.mem_singleton] at hm
    subst hm
    refine ⟨⟨by positivity, ?_⟩, ⟨le_rfl, by dsimp only; omega⟩, ⟨le_rfl, by dsimp only; omega⟩, ⟨le_rfl, by dsimp only; omega⟩⟩
    rw [hz]
    exact pow_lt_pow_right₀ (by norm_num) (by omega)
  obtain ⟨b, e⟩ := (h2 _ (drawn _ hd) (h4 hs _ (drawn _ hd))).2 ⟨⟨2 ^ (bits - 2), 0, 0, 0⟩, by simp, hmask.2, hmask.1⟩
  obtain ⟨used, hl, U⟩ := c2 _ b hd e
  refine ⟨used, b, ?_, U⟩
  have : ¬ used.length < 770 + 77 * cb := fun hlt => second 1 used hlt (b, []) (by simpa using U [])
  rw [List.length_singleton] at hl
  omega

/-- A completed cast has read `base` bytes and `each` bytes for every attempt at the vote proof, or more, and depends on nothing
else; strings shorter than `base + each` are never enough. -/
def CastReads {E : Type} (sha : Bytes → Bytes) (pp : PublicParams Int E) (bits base each : ℕ) : Prop :=
  (∀ n tape b rest, castVoteB sha pp n tape = .done (b, rest) → ∃ used rnd, CastDrawn bits rnd ∧ castVote sha pp rnd = .done b ∧
    rnd.tape ≠ [] ∧ tape = used ++ rest ∧ base + rnd.tape.length * each ≤ used.length ∧ (castVoteB sha pp n).Uses used b) ∧
  ∀ n tape, tape.length < base + each → ∀ r, castVoteB sha pp n tape ≠ .done r

/-- **C93** The four groups of the program, with the hash functions it uses: a vote takes at least 3234 random bytes on secp256k1,
Ristretto255 and P-256, 4466 on P-384, and every further attempt at the vote proof at least 480 (528) more. -/
theorem C93_main (nan64 : BitVec 64) (L : K1Lib) (hL : L.Identities) (pieces : Bytes → List Bytes)
    (dec256 dec384 : Bytes → Option WPoint) :
    (∃ pp, setup nan64 (k1Grp L.real) = some (.ok pp) ∧ CastReads sha256 pp 256 2754 480) ∧
    (∃ pp, setup nan64 (r255Grp (r255Real pieces)) = some (.ok pp) ∧ CastReads sha256 pp 253 2754 480) ∧
    (∃ pp, setup nan64 (circlGrp (p256Real dec256)) = some (.ok pp) ∧ CastReads sha256 pp 256 2754 480) ∧
    (∃ pp, setup nan64 (circlGrp (p384Real dec384)) = some (.ok pp) ∧ CastReads sha256 pp 384 3938 528) := by
  refine ⟨?_, ?_, ?_, ?_⟩
  · let := k1Module
    obtain ⟨pp, h, a, b, _⟩ := C93_deployed sha256 sha256_length nan64 (k1Grp L.real) k1N 256 15 k1_row (k1Lawful (real_identities hL).ok)
      (K1HashOK.legal (C66_seeds L)) 32 rfl
    exact ⟨pp, h, a, b⟩
  · let := r255Module
    obtain ⟨pp, h, a, b, _⟩ := C93_deployed sha256 sha256_length nan64 (r255Grp (r255Real pieces)) r255N 253 12 r255_row (r255Lawful _)
      (r255_hash fun s _ => C65_pieces (pieces s)) 32 rfl
    exact ⟨pp, h, a, b⟩
  · have row := RealRow.p256 dec256
    have ok := stdCircl_ord row.std.circl
    have := ok.fact'
    let := ok.module
    obtain ⟨Bb, hr, _⟩ := row.std.table
    obtain ⟨pp, h, a, b, _⟩ := C93_deployed sha256 sha256_length nan64 (circlGrp (p256Real dec256)) (p256Real dec256).n 256 Bb hr ok.lawful
      (fun s _ => ⟨_, rfl, (wLegal_iff _ _).mpr (row.valid s)⟩) 32 rfl
    exact ⟨pp, h, a, b⟩
  · have row := RealRow.p384 dec384
    have ok := stdCircl_ord row.std.circl
    have := ok.fact'
    let := ok.module
    obtain ⟨Bb, hr, _⟩ := row.std.table
    obtain ⟨pp, h, a, b, _⟩ := C93_deployed sha256 sha256_length nan64 (circlGrp (p384Real dec384)) (p384Real dec384).n 384 Bb hr ok.lawful
      (fun s _ => ⟨_, rfl, (wLegal_iff _ _).mpr (row.valid s)⟩) 48 rfl
    exact ⟨pp, h, a, b⟩

/-- C93: with a digest that is always 1 there is a ballot on P-256 that takes exactly 3234 bytes, whatever follows them. -/
example (nan64 : BitVec 64) (dec : Bytes → Option WPoint) : ∃ pp, setup nan64 (circlGrp (p256Real dec)) = some (.ok pp) ∧
    ∃ used b, used.length = 3234 ∧ ∀ rest, castVoteB (fun _ => List.replicate 31 0 ++ [1]) pp 1 (used ++ rest) = .done (b, rest) := by
  have row := RealRow.p256 dec
  have ok := stdCircl_ord row.std.circl
  have := ok.fact'
  let := ok.module
  obtain ⟨Bb, hr, _⟩ := row.std.table
  obtain ⟨pp, h, _, _, e⟩ := C93_deployed (fun _ => List.replicate 31 0 ++ [1]) (fun _ => rfl) nan64 (circlGrp (p256Real dec))
    (p256Real dec).n 256 Bb hr ok.lawful (fun s _ => ⟨_, rfl, (wLegal_iff _ _).mpr (row.valid s)⟩) 32 rfl
  obtain ⟨used, b, l, U⟩ := e (fun b => by
    rw [show setBytes (List.replicate 31 0 ++ [1]) = 1 by decide +kernel]
    simp)
  exact ⟨pp, h, used, b, l, U⟩

/-- C93_cast: block lengths -/
example : Blocks 1899 2 ∧ Blocks 256 1 ∧ Blocks 257 2 ∧ ¬ Blocks 256 2 ∧ ¬ Blocks 1 0 := by
  refine ⟨⟨?_, ?_, ?_⟩, ⟨?_, ?_, ?_⟩, ⟨?_, ?_, ?_⟩, fun h => ?_, fun h => ?_⟩
  any_goals norm_num
  · exact absurd h.2.1 (by norm_num)
  · exact absurd h.1 (by norm_num)

end MscPoc
