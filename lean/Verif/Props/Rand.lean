import Verif.Lemmas.Rand
import Verif.Props.Driver

/-!
# C57 — randomness: `rand.Int` on the byte stream, and casting a vote from bytes
-/

set_option autoImplicit false

namespace MscPoc

/-- **C57** `rand.Int(rand.Reader, max)`, where `bl` is the number of bits of `max-1` and `k = ⌈bl/8⌉`: it reads blocks of
`k` bytes, takes the block modulo `2^bl`, and returns the first such number below `max`.  It never returns on fewer than
`k` bytes. -/
theorem C57_int_blocks (max : Int) (bl k : ℕ) (h0 : 0 < bl) (h1 : max ≤ 2 ^ bl) (h2 : 2 ^ bl < 2 * max)
    (hk : 8 * (k - 1) < bl ∧ bl ≤ 8 * k) :
    (∀ tape : Bytes, tape.length < k → randInt max tape = .running) ∧
    ∀ blk tape : Bytes, blk.length = k → randInt max (blk ++ tape) =
      if ((setBytes blk % 2 ^ bl : ℕ) : Int) < max then .done (((setBytes blk % 2 ^ bl : ℕ) : Int), tape)
      else randInt max tape :=
  have s : IntShape max bl k := ⟨h0, h1, h2, hk.1, hk.2⟩
  ⟨s.short, s.step⟩

/-- **C57** Panic exactly for bounds that are not positive; results lie in `[0, max)` and the bytes read are a prefix of
the stream; bound 1 reads nothing. -/
theorem C57_int_range (max : Int) (tape : Bytes) :
    (randInt max tape = .panic ↔ max ≤ 0) ∧ randInt 1 tape = .done (0, tape) ∧
    ∀ v rest, randInt max tape = .done (v, rest) → (0 ≤ v ∧ v < max) ∧ ∃ used, tape = used ++ rest := by
  refine ⟨⟨fun h => ?_, fun h => by unfold randInt; rw [if_pos h]⟩, randInt_one tape, fun v rest h => randInt_done h⟩
  by_contra hn
  exact randInt_not_panic max (by omega) tape h

/-- **C57** Uniformity: for each length `L` and each condition `Q` on the unread rest of the stream, all values in
`[0, max)` are returned on the same number of byte strings of length `L`. -/
theorem C57_int_uniform (max : Int) (L : ℕ) (Q : Bytes → Prop) (v w : Int) (hv : 0 ≤ v ∧ v < max) (hw : 0 ≤ w ∧ w < max) :
    Nat.card {t : Bytes // t.length = L ∧ ∃ rest, randInt max t = .done (v, rest) ∧ Q rest} =
    Nat.card {t : Bytes // t.length = L ∧ ∃ rest, randInt max t = .done (w, rest) ∧ Q rest} := by
  rcases (show max = 1 ∨ 2 ≤ max by omega) with rfl | h2
  · rw [show v = w by omega]
  obtain ⟨bl, k, s⟩ := intShape_exists max h2
  obtain ⟨v, rfl⟩ := Int.eq_ofNat_of_zero_le hv.1
  obtain ⟨w, rfl⟩ := Int.eq_ofNat_of_zero_le hw.1
  have bound : ∀ x : ℕ, (x : Int) < max → x < 2 ^ bl := fun x hx => by
    have : (x : Int) < 2 ^ bl := lt_of_lt_of_le hx s.hi
    exact_mod_cast this
  have bv := bound v hv.2
  have bw := bound w hw.2
  have len := fun t : Bytes => tapeSwap_length s bv bw L t
  have inv := fun t : Bytes => tapeSwap_invol s bv bw hv.2 hw.2 L t
  refine Nat.card_congr ⟨fun t => ⟨tapeSwap max bl k v w L t.1, ?_⟩, fun t => ⟨tapeSwap max bl k v w L t.1, ?_⟩,
    fun t => Subtype.ext (inv t.1), fun t => Subtype.ext (inv t.1)⟩
  · obtain ⟨t, hl, rest, hr, hQ⟩ := t
    refine ⟨(len t).trans hl, rest, ?_, hQ⟩
    have := randInt_tapeSwap s bv bw hv.2 hw.2 v rest L t hl.le hr
    rwa [Equiv.swap_apply_left] at this
  · obtain ⟨t, hl, rest, hr, hQ⟩ := t
    refine ⟨(len t).trans hl, rest, ?_, hQ⟩
    have := randInt_tapeSwap s bv bw hv.2 hw.2 w rest L t hl.le hr
    rwa [Equiv.swap_apply_right] at this

/-- blocks of `k` bytes are the numbers below `256^k` -/
theorem card_blocks (k : ℕ) (R : ℕ → Prop) :
    Nat.card {blk : Bytes // blk.length = k ∧ R (setBytes blk)} = Nat.card {n : ℕ // n < 256 ^ k ∧ R n} := by
  refine Nat.card_congr ⟨fun b => ⟨setBytes b.1, ?_, b.2.2⟩, fun n => ⟨fillBytes k n.1, fillBytes_length n.2.1, ?_⟩, ?_, ?_⟩
  · have := setBytes_lt b.1
    rwa [b.2.1] at this
  · rw [setBytes_fillBytes]; exact n.2.2
  · intro b
    apply Subtype.ext
    have := setBytes_lt b.1
    rw [b.2.1] at this
    exact setBytes_inj ((fillBytes_length this).trans b.2.1.symm) (setBytes_fillBytes _ _)
  · intro n
    exact Subtype.ext (setBytes_fillBytes _ _)

/-- **C57** Every candidate below `2^bl` comes from exactly `2^(8k-bl)` of the `256^k` blocks; the chance that a block is
accepted is `max/2^bl`, more than one half by the bounds on `bl`. -/
theorem C57_int_block_count (bl k v : ℕ) (hk : bl ≤ 8 * k) (hv : v < 2 ^ bl) :
    Nat.card {blk : Bytes // blk.length = k ∧ setBytes blk % 2 ^ bl = v} = 2 ^ (8 * k - bl) := by
  rw [card_blocks k (fun n => n % 2 ^ bl = v)]
  have e : (256 : ℕ) ^ k = 2 ^ bl * 2 ^ (8 * k - bl) := by
    rw [← pow_add, Nat.add_sub_cancel' hk, pow_mul]; norm_num
  rw [← Nat.card_fin (2 ^ (8 * k - bl))]
  symm
  refine Nat.card_congr ⟨fun i => ⟨2 ^ bl * i.1 + v, ?_, ?_⟩, fun n => ⟨n.1 / 2 ^ bl, ?_⟩, ?_, ?_⟩
  · rw [e]
    calc 2 ^ bl * i.1 + v < 2 ^ bl * i.1 + 2 ^ bl := by omega
      _ = 2 ^ bl * (i.1 + 1) := by ring
      _ ≤ _ := Nat.mul_le_mul_left _ i.2
  · rw [Nat.mul_add_mod, Nat.mod_eq_of_lt hv]
  · exact Nat.div_lt_of_lt_mul (e ▸ n.2.1)
  · intro i
    apply Fin.ext
    show (2 ^ bl * i.1 + v) / 2 ^ bl = i.1
    rw [Nat.mul_add_div (Nat.two_pow_pos bl), Nat.div_eq_of_lt hv, Nat.add_zero]
  · intro n
    apply Subtype.ext
    show 2 ^ bl * (n.1 / 2 ^ bl) + v = n.1
    have := Nat.div_add_mod n.1 (2 ^ bl)
    rwa [n.2.2] at this

/-- The hypotheses hold for the candidate draw: 1899 values, 11 bits, 2 bytes; 0x07 0x6B (= 1899) is rejected and
0x0F 0x6A (the same with an ignored bit set, minus one) is accepted. -/
example : randInt 1899 [0x07, 0x6B, 0x0F, 0x6A, 9] = .done (1898, [9]) ∧ (2 : Int) ^ 11 < 2 * 1899 ∧ (1899 : Int) ≤ 2 ^ 11 := by
  refine ⟨?_, by norm_num, by norm_num⟩
  have h := (C57_int_blocks 1899 11 2 (by norm_num) (by norm_num) (by norm_num) (by norm_num)).2
  rw [show ([0x07, 0x6B, 0x0F, 0x6A, 9] : Bytes) = [0x07, 0x6B] ++ ([0x0F, 0x6A] ++ [9]) from rfl, h _ _ rfl, h _ _ rfl,
    if_neg (by decide), if_pos (by decide)]
  rfl

variable {E₁ E₂ : Type}

/-- the draws of one `castVote` lie in the ranges the code draws them from -/
structure CastBelow (pp : PublicParams E₁ E₂) (NF NE : Int) (rnd : CastRand) : Prop where
  choice : 0 ≤ rnd.rChoice ∧ rnd.rChoice < ((pp.candidateMax - pp.candidateMin).toNat : Int)
  enc : 0 ≤ rnd.rEnc ∧ rnd.rEnc < pp.FFGroupParams.I.N - 1
  bp1 : BPDrawn pp.BPParams.GP.N pp.BPParams.N rnd.bp1
  bp2 : BPDrawn pp.BPParams.GP.N pp.BPParams.N rnd.bp2
  tape : ∀ s ∈ rnd.tape, SigmaDrawn pp.RPParams.zUpperBound NF NE s

theorem bpResult_some {α : Type} {x : Option (Except String α)} {y : α} (hx : bpResult x = some y) : x = some (.ok y) := by
  rcases x with _ | (e | r)
  · simp [bpResult] at hx
  · simp [bpResult] at hx
  · simpa [bpResult] using hx

theorem bpResult_none {α : Type} {x : Option (Except String α)} (hx : bpResult x = none) : x = none ∨ ∃ e, x = some (.error e) := by
  rcases x with _ | (e | r)
  · exact Or.inl rfl
  · exact Or.inr ⟨e, rfl⟩
  · simp [bpResult] at hx

theorem castVoteB_done {sha : Bytes → Bytes} {pp : PublicParams E₁ E₂} {NF NE : Int} (hF : pp.RPParams.GFF.N = some NF)
    (hE : pp.RPParams.GEC.N = some NE) {n : ℕ} {tape rest : Bytes} {b : BallotData E₁ E₂}
    (h : castVoteB sha pp n tape = .done (b, rest)) :
    ∃ rnd : CastRand, CastBelow pp NF NE rnd ∧ rnd.tape.length ≤ n ∧ castVote sha pp rnd = .done b := by
  unfold castVoteB at h
  obtain ⟨r, _, e1, h⟩ := Draw.bind_done.mp h
  obtain ⟨⟨ct, rp⟩, _, e2, h⟩ := Draw.bind_done.mp h
  obtain ⟨⟨p1, rq1⟩, _, e3, h⟩ := Draw.bind_done.mp h
  obtain ⟨⟨p2, rq2⟩, _, e4, h⟩ := Draw.bind_done.mp h
  obtain ⟨N, _, e5, h⟩ := Draw.bind_done.mp h
  obtain ⟨pf, _, e6, h⟩ := Draw.bind_done.mp h
  unfold encryptVoteB at e2
  obtain ⟨re, _, e2, e2'⟩ := Draw.bind_done.mp e2
  unfold bpProveB at e3 e4
  obtain ⟨r1, _, e3, e3'⟩ := Draw.bind_done.mp e3
  obtain ⟨r2, _, e4, e4'⟩ := Draw.bind_done.mp e4
  obtain ⟨ss, i1, i2, i3⟩ := sigmaProveB_done sha _ _ _ _ hF hE e6
  simp only [Draw.pure_eq, Outcome.done.injEq, Prod.mk.injEq] at h
  refine ⟨⟨r, re, r1, r2, ss⟩, ⟨(randInt_done e1).1, (randInt_done e2).1, drawBP_done e3, drawBP_done e4, i2⟩, i1, ?_⟩
  have hpos : (pp.candidateMax - pp.candidateMin).toNat ≠ 0 := by
    have := (randInt_done e1).1; omega
  unfold castVote drawChoice castChoice
  rw [if_neg hpos]
  dsimp only
  rw [(Draw.lift_done.mp e2').1]
  dsimp only
  rw [bpResult_some (Draw.lift_done.mp e3').1]
  dsimp only
  rw [bpResult_some (Draw.lift_done.mp e4').1]
  dsimp only
  rw [(Draw.lift_done.mp e5).1]
  dsimp only
  rw [i3]
  dsimp only
  rw [h.1]

/-- zero draws -/
def BPRand.zero (n : ℕ) : BPRand := ⟨0, 0, List.replicate n 0, List.replicate n 0, 0, 0, 0⟩

theorem BPRand.zero_drawn {N : Int} (h : 0 < N) (n : ℕ) : BPDrawn N n (BPRand.zero n) where
  gamma := ⟨le_rfl, h⟩
  alpha := ⟨le_rfl, h⟩
  lenL := by simp [BPRand.zero]
  sL := fun x hx => by rw [(List.mem_replicate.mp hx).2]; exact ⟨le_rfl, h⟩
  lenR := by simp [BPRand.zero]
  sR := fun x hx => by rw [(List.mem_replicate.mp hx).2]; exact ⟨le_rfl, h⟩
  rho := ⟨le_rfl, h⟩
  tau1 := ⟨le_rfl, h⟩
  tau2 := ⟨le_rfl, h⟩

theorem castVoteB_panic {sha : Bytes → Bytes} {pp : PublicParams E₁ E₂} {NF NE : Int} (hF : pp.RPParams.GFF.N = some NF)
    (hE : pp.RPParams.GEC.N = some NE) (pF : 0 < NF) (pE : 0 < NE) (pB : 0 < pp.BPParams.GP.N)
    (pC : pp.candidateMax ≠ pp.candidateMin) (pN : 1 < pp.FFGroupParams.I.N) {n : ℕ} {tape : Bytes}
    (h : castVoteB sha pp n tape = .panic) :
    ∃ rnd : CastRand, CastBelow pp NF NE rnd ∧ rnd.tape.length ≤ n ∧ castVote sha pp rnd = .panic := by
  have hpos : (pp.candidateMax - pp.candidateMin).toNat ≠ 0 := by
    intro h0
    apply pC
    apply UInt16.toNat_inj.mp
    rw [UInt16.toNat_sub] at h0
    have h1 := pp.candidateMax.toNat_lt
    have h2 := pp.candidateMin.toNat_lt
    omega
  have hpos' : (0 : Int) < ((pp.candidateMax - pp.candidateMin).toNat : Int) := by
    have := Nat.pos_of_ne_zero hpos
    exact_mod_cast this
  have pN' : 0 < pp.FFGroupParams.I.N - 1 := by linarith
  have z := BPRand.zero_drawn pB pp.BPParams.N
  unfold castVoteB at h
  rcases Draw.bind_panic.mp h with h | ⟨r, _, e1, h⟩
  · exact (randInt_not_panic _ hpos' _ h).elim
  rcases Draw.bind_panic.mp h with h | ⟨⟨ct, rp⟩, _, e2, h⟩
  · unfold encryptVoteB at h
    rcases Draw.bind_panic.mp h with h | ⟨re, _, e2, h⟩
    · exact (randInt_not_panic _ pN' _ h).elim
    · refine ⟨⟨r, re, _, _, []⟩, ⟨(randInt_done e1).1, (randInt_done e2).1, z, z, by simp⟩, by simp, ?_⟩
      unfold castVote drawChoice castChoice
      rw [if_neg hpos]
      dsimp only
      rw [Draw.lift_panic.mp h]
  unfold encryptVoteB at e2
  obtain ⟨re, _, e2, e2'⟩ := Draw.bind_done.mp e2
  rcases Draw.bind_panic.mp h with h | ⟨⟨p1, rq1⟩, _, e3, h⟩
  · unfold bpProveB at h
    rcases Draw.bind_panic.mp h with h | ⟨r1, _, e3, h⟩
    · exact (drawBP_panic pB _ h).elim
    · refine ⟨⟨r, re, r1, _, []⟩, ⟨(randInt_done e1).1, (randInt_done e2).1, drawBP_done e3, z, by simp⟩, by simp, ?_⟩
      unfold castVote drawChoice castChoice
      rw [if_neg hpos]
      dsimp only
      rw [(Draw.lift_done.mp e2').1]
      dsimp only
      rcases bpResult_none (Draw.lift_panic.mp h) with hb | ⟨e, hb⟩ <;> rw [hb]
  unfold bpProveB at e3
  obtain ⟨r1, _, e3, e3'⟩ := Draw.bind_done.mp e3
  rcases Draw.bind_panic.mp h with h | ⟨⟨p2, rq2⟩, _, e4, h⟩
  · unfold bpProveB at h
    rcases Draw.bind_panic.mp h with h | ⟨r2, _, e4, h⟩
    · exact (drawBP_panic pB _ h).elim
    · refine ⟨⟨r, re, r1, r2, []⟩, ⟨(randInt_done e1).1, (randInt_done e2).1, drawBP_done e3, drawBP_done e4, by simp⟩, by simp, ?_⟩
      unfold castVote drawChoice castChoice
      rw [if_neg hpos]
      dsimp only
      rw [(Draw.lift_done.mp e2').1]
      dsimp only
      rw [bpResult_some (Draw.lift_done.mp e3').1]
      dsimp only
      rcases bpResult_none (Draw.lift_panic.mp h) with hb | ⟨e, hb⟩ <;> rw [hb]
  unfold bpProveB at e4
  obtain ⟨r2, _, e4, e4'⟩ := Draw.bind_done.mp e4
  rcases Draw.bind_panic.mp h with h | ⟨N, _, e5, h⟩
  · refine ⟨⟨r, re, r1, r2, []⟩, ⟨(randInt_done e1).1, (randInt_done e2).1, drawBP_done e3, drawBP_done e4, by simp⟩, by simp, ?_⟩
    unfold castVote drawChoice castChoice
    rw [if_neg hpos]
    dsimp only
    rw [(Draw.lift_done.mp e2').1]
    dsimp only
    rw [bpResult_some (Draw.lift_done.mp e3').1]
    dsimp only
    rw [bpResult_some (Draw.lift_done.mp e4').1]
    dsimp only
    rw [Draw.lift_panic.mp h]
  rcases Draw.bind_panic.mp h with h | ⟨pf, _, e6, h⟩
  · obtain ⟨ss, i1, i2, i3⟩ := sigmaProveB_panic sha _ _ _ _ hF hE pF pE h
    refine ⟨⟨r, re, r1, r2, ss⟩, ⟨(randInt_done e1).1, (randInt_done e2).1, drawBP_done e3, drawBP_done e4, i2⟩, i1, ?_⟩
    unfold castVote drawChoice castChoice
    rw [if_neg hpos]
    dsimp only
    rw [(Draw.lift_done.mp e2').1]
    dsimp only
    rw [bpResult_some (Draw.lift_done.mp e3').1]
    dsimp only
    rw [bpResult_some (Draw.lift_done.mp e4').1]
    dsimp only
    rw [(Draw.lift_done.mp e5).1]
    dsimp only
    rw [i3]
  · simp [Draw.pure_eq] at h

/-- **C57** Casting from bytes is casting with numbers: every completed (panicking) run on a byte string is a completed
(panicking) run of the number-level model, with draws in the ranges the code draws them from … -/
theorem C57_cast_refines (sha : Bytes → Bytes) (pp : PublicParams E₁ E₂) (NF NE : Int) (hF : pp.RPParams.GFF.N = some NF)
    (hE : pp.RPParams.GEC.N = some NE) (pos : 0 < NF ∧ 0 < NE ∧ 0 < pp.BPParams.GP.N ∧ 1 < pp.FFGroupParams.I.N)
    (hc : pp.candidateMax ≠ pp.candidateMin) (n : ℕ) (tape : Bytes) :
    (∀ b rest, castVoteB sha pp n tape = .done (b, rest) → ∃ rnd, CastBelow pp NF NE rnd ∧ rnd.tape.length ≤ n ∧ castVote sha pp rnd = .done b) ∧
    (castVoteB sha pp n tape = .panic → ∃ rnd, CastBelow pp NF NE rnd ∧ rnd.tape.length ≤ n ∧ castVote sha pp rnd = .panic) :=
  ⟨fun _ _ h => castVoteB_done hF hE h, fun h => castVoteB_panic hF hE pos.1 pos.2.1 pos.2.2.1 hc pos.2.2.2 h⟩

/-- **C57** … and every such number-level run happens on some byte string. -/
theorem C57_cast_reached (sha : Bytes → Bytes) (pp : PublicParams E₁ E₂) (NF NE : Int) (hF : pp.RPParams.GFF.N = some NF)
    (hE : pp.RPParams.GEC.N = some NE) (rnd : CastRand) (hr : CastBelow pp NF NE rnd) (b : BallotData E₁ E₂)
    (h : castVote sha pp rnd = .done b) :
    ∃ bytes : Bytes, ∀ rest, castVoteB sha pp rnd.tape.length (bytes ++ rest) = .done (b, rest) := by
  show Reaches (castVoteB sha pp rnd.tape.length) b
  have hpos : (pp.candidateMax - pp.candidateMin).toNat ≠ 0 := by have := hr.choice; omega
  unfold castVote drawChoice castChoice at h
  rw [if_neg hpos] at h
  dsimp only at h
  split at h
  · simp at h
  rename_i ct rp e2
  split at h
  · simp at h
  · simp at h
  rename_i p1 rq1 e3
  split at h
  · simp at h
  · simp at h
  rename_i p2 rq2 e4
  split at h
  · simp at h
  rename_i N e5
  split at h
  · simp at h
  · simp at h
  rename_i pf e6
  simp only [Outcome.done.injEq] at h
  unfold castVoteB
  refine (Reaches.int hr.choice).bind ?_
  refine Reaches.bind (a := (ct, rp)) ?_ ?_
  · unfold encryptVoteB
    exact (Reaches.int hr.enc).bind (Reaches.lift e2)
  refine Reaches.bind (a := (p1, rq1)) ?_ ?_
  · unfold bpProveB
    exact (Reaches.bp hr.bp1).bind (Reaches.lift (by rw [e3]; rfl))
  refine Reaches.bind (a := (p2, rq2)) ?_ ?_
  · unfold bpProveB
    exact (Reaches.bp hr.bp2).bind (Reaches.lift (by rw [e4]; rfl))
  refine (Reaches.lift e5).bind ?_
  refine (Reaches.sigmaProve sha _ _ _ _ hF hE hr.tape e6).bind ?_
  rw [← h]
  exact Reaches.pure _

/-- **C57** The deployed system on bytes: `castVote` panics only if a challenge of its range proofs is a zero divisor, every
ballot it completes is accepted, and unless some digest is a zero divisor every candidate 101…1999 is cast (encrypted in an
accepted ballot) on some byte string; 2000 is not. -/
theorem C57_deployed (sha : Bytes → Bytes) (hsha : ∀ m, (sha m).length = 32) (nan64 : BitVec 64)
    {E : Type} (C : Grp E) (N bits : ℕ) (Bb : Int) (hr : (N, bits, Bb) ∈ curveTable)
    {M : Type} [AddCommGroup M] [Module (ZMod N) M] (L₂ : Lawful C N M)
    (hmap : ∀ s, SetupSeed 16 s → ∃ e, C.mapToGroup s = some e ∧ L₂.V e) :
    ∃ pp, setup nan64 C = some (.ok pp) ∧
      (∀ n tape, castVoteB sha pp n tape = .panic →
        ¬ DigestsOK sha N ∧ ∃ rnd, CastDrawn bits rnd ∧ castVote sha pp rnd = .panic ∧ ¬ CastRunOK sha pp rnd) ∧
      (∀ n tape b rest, castVoteB sha pp n tape = .done (b, rest) →
        verifyVote sha b pp.RPParams = some { result := true, times := [0, 0] } ∧
        ∃ c r : ℕ, 101 ≤ c ∧ c < 2000 ∧ b.Ballot.U = pp.FFGroupParams.I.mulGen r ∧
          b.Ballot.V = pp.FFGroupParams.I.add (pp.FFGroupParams.I.mulGen c) (pp.FFGroupParams.I.mul pp.EGPK r)) ∧
      (DigestsOK sha N → ∀ c : ℕ, 101 ≤ c → c < 2000 → ∃ bytes b, ∃ r : ℕ, (∀ rest, castVoteB sha pp 1 (bytes ++ rest) = .done (b, rest)) ∧
        b.Ballot.U = pp.FFGroupParams.I.mulGen r ∧
        b.Ballot.V = pp.FFGroupParams.I.add (pp.FFGroupParams.I.mulGen c) (pp.FFGroupParams.I.mul pp.EGPK r)) := by
  obtain ⟨pp, h1, h2, h4⟩ := C54_cast_completes sha hsha nan64 C N bits Bb hr L₂ hmap
  obtain ⟨pp', h1', h3⟩ := C47_deployment_accepts sha nan64 C N bits Bb hr L₂ hmap
  obtain ⟨D, h1'', dep, _⟩ := C47_curves nan64 C (fun s hs => (hmap s hs).imp fun _ h => h.1) N bits Bb hr L₂.N_eq
  obtain rfl : pp' = pp := by
    have h := h1.symm.trans h1'
    simp only [Option.some.injEq, Except.ok.injEq] at h
    exact h.symm
  obtain rfl : pp' = D.pp := by
    have h := h1.symm.trans h1''
    simp only [Option.some.injEq, Except.ok.injEq] at h
    exact h
  have hb : 253 ≤ bits := by
    have : ∀ r ∈ curveTable, 253 ≤ r.2.1 := by decide
    exact this _ hr
  have hN0 : 0 < N := by
    have : ∀ r ∈ curveTable, 0 < r.1 := by decide
    exact this _ hr
  have hF : D.pp.RPParams.GFF.N = some (modp3072Q : Int) := by
    show some D.FF.N = _; rw [dep.FF]; rfl
  have hE : D.pp.RPParams.GEC.N = some (N : Int) := by
    show some D.EC.N = _; rw [dep.EC, L₂.N_eq]
  have hB : D.pp.BPParams.GP.N = N := by
    show D.EC.N = _; rw [dep.EC, L₂.N_eq]
  have hn : D.pp.BPParams.N = 16 := dep.n
  have hI : D.pp.FFGroupParams.I.N = modp3072Q := by
    show D.FF.N = _; rw [dep.FF]; rfl
  have hc : (D.pp.candidateMax - D.pp.candidateMin).toNat = 1899 := by
    show (D.hi - D.lo).toNat = 1899; rw [dep.hi, dep.lo]; rfl
  have hq2 := modp3072Q_prime.two_le
  have drawn : ∀ rnd, CastBelow D.pp modp3072Q N rnd → CastDrawn bits rnd := fun rnd hd =>
    ⟨by have := hd.choice; rw [hc] at this; exact this,
      ⟨hd.bp1.lenL.trans hn, hd.bp1.lenR.trans hn, hd.bp2.lenL.trans hn, hd.bp2.lenR.trans hn⟩,
      fun s hm => by have := (hd.tape s hm).k; rw [show D.pp.RPParams.zUpperBound = 2 ^ (bits - 1) from dep.zUpper] at this; exact this⟩
  have ref := fun n tape => C57_cast_refines sha D.pp modp3072Q N hF hE
    ⟨by omega, by omega, by rw [hB]; omega, by rw [hI]; omega⟩
    (by show D.hi ≠ D.lo; rw [dep.hi, dep.lo]; decide) n tape
  have enc : ∀ rnd b, castVote sha D.pp rnd = .done b → 0 ≤ rnd.rChoice ∧ rnd.rChoice < 1899 →
      b.Ballot.U = D.pp.FFGroupParams.I.mulGen (rnd.rEnc + 1) ∧
      b.Ballot.V = D.pp.FFGroupParams.I.add (D.pp.FFGroupParams.I.mulGen (rnd.rChoice + 101)) (D.pp.FFGroupParams.I.mul D.pp.EGPK (rnd.rEnc + 1)) := by
    intro rnd b h hrc
    obtain ⟨choice, hch, hcv, _⟩ := C40_choice_range D.pp (by show D.lo < D.hi; rw [dep.lo, dep.hi]; decide) rnd.rChoice
      (by rw [hc]; exact hrc)
    have hcv' : (choice.toNat : Int) = rnd.rChoice + 101 := by
      rw [hcv, show D.pp.candidateMin = 101 from dep.lo, add_comm]; rfl
    unfold castVote castChoice at h
    rw [hch] at h
    dsimp only at h
    unfold encryptVote at h
    rw [if_neg (by rw [hI]; omega)] at h
    dsimp only at h
    split at h
    · simp at h
    · simp at h
    split at h
    · simp at h
    · simp at h
    split at h
    · simp at h
    split at h
    · simp at h
    · simp at h
    simp only [Outcome.done.injEq] at h
    rw [← h, ← hcv']
    exact ⟨rfl, rfl⟩
  refine ⟨D.pp, h1, fun n tape hp => ?_, fun n tape b rest h => ?_, fun hs c hc1 hc2 => ?_⟩
  · obtain ⟨rnd, hd, _, e⟩ := (ref n tape).2 hp
    have bad : ¬ CastRunOK sha D.pp rnd := fun ok => (h2 rnd (drawn rnd hd) ok).1 e
    exact ⟨fun hs => bad (h4 hs rnd (drawn rnd hd)), rnd, drawn rnd hd, e, bad⟩
  · obtain ⟨rnd, hd, _, e⟩ := (ref n tape).1 b rest h
    have d := drawn rnd hd
    have he := hd.enc
    refine ⟨h3 rnd b d.choice d.lens d.masks e, (rnd.rChoice + 101).toNat, (rnd.rEnc + 1).toNat, by have := d.choice; omega,
      by have := d.choice; omega, ?_⟩
    have := enc rnd b e d.choice
    have hc0 := d.choice.1
    rwa [Int.toNat_of_nonneg (show 0 ≤ rnd.rChoice + 101 by omega), Int.toNat_of_nonneg (show 0 ≤ rnd.rEnc + 1 by omega)]
  · have hmask : (2 : Int) ^ (bits - 2) < 2 ^ (bits - 1) - 2 ^ 240 ∧ (2 : Int) ^ 240 ≤ 2 ^ (bits - 2) := by
      obtain ⟨j, rfl⟩ : ∃ j, bits = j + 243 := ⟨bits - 243, by omega⟩
      have e1 : (2 : Int) ^ (j + 243 - 2) = 2 * 2 ^ 240 * 2 ^ j := by
        rw [show j + 243 - 2 = j + 1 + 240 by omega, pow_add, pow_succ]; ring
      have e2 : (2 : Int) ^ (j + 243 - 1) = 4 * 2 ^ 240 * 2 ^ j := by
        rw [show j + 243 - 1 = j + 2 + 240 by omega, pow_add, pow_add]; ring
      have e3 : (1 : Int) ≤ 2 ^ j := one_le_pow₀ (by norm_num)
      rw [e1, e2]
      constructor <;> nlinarith [show (0 : Int) < 2 ^ 240 by positivity]
    have z := BPRand.zero_drawn (N := D.pp.BPParams.GP.N) (by rw [hB]; omega) D.pp.BPParams.N
    have hd : CastBelow D.pp modp3072Q N ⟨(c : Int) - 101, 0, BPRand.zero D.pp.BPParams.N, BPRand.zero D.pp.BPParams.N, [⟨2 ^ (bits - 2), 0, 0, 0⟩]⟩ := by
      refine ⟨by rw [hc]; constructor <;> dsimp only <;> omega, ⟨le_rfl, by rw [hI]; dsimp only; omega⟩, z, z, fun s hm => ?_⟩
      rw [List.mem_singleton] at hm
      subst hm
      refine ⟨⟨by positivity, ?_⟩, ⟨le_rfl, by dsimp only; omega⟩, ⟨le_rfl, by dsimp only; omega⟩, ⟨le_rfl, by dsimp only; omega⟩⟩
      rw [show D.pp.RPParams.zUpperBound = 2 ^ (bits - 1) from dep.zUpper]
      exact pow_lt_pow_right₀ (by norm_num) (by omega)
    obtain ⟨b, e⟩ := (h2 _ (drawn _ hd) (h4 hs _ (drawn _ hd))).2 ⟨⟨2 ^ (bits - 2), 0, 0, 0⟩, by simp, hmask.2, hmask.1⟩
    obtain ⟨bytes, hby⟩ := C57_cast_reached sha D.pp modp3072Q N hF hE _ hd b e
    refine ⟨bytes, b, 1, hby, ?_⟩
    have := enc _ b e (drawn _ hd).choice
    simpa using this

end MscPoc
