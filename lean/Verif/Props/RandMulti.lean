import Verif.Lemmas.RandUniform
import Verif.Props.MultiCrash
import Verif.Props.RandBytes

/-!
# C97 — aggregated proofs from the byte stream
-/

set_option autoImplicit false

namespace MscPoc

variable {E : Type}

theorem drawMulti_least {params : BPParams E} {k : ℕ} (hb : Blocks params.GP.N k) (m : ℕ) :
    (drawMulti params m).Least ((m + 2 * params.N + 4) * k) := by
  have i := randInt_least hb
  have v := sampleRandomVector_least hb params.N
  have := (sampleRandomVector_least hb m).bind fun gammas => i.bind fun alpha => v.bind fun sL => v.bind fun sR => i.bind fun rho =>
    i.bind fun tau1 => i.bind fun tau2 => Draw.Least.pure
      ({ gammas := gammas, alpha := alpha, sL := sL, sR := sR, rho := rho, tau1 := tau1, tau2 := tau2 } : MultiRand)
  rwa [show m * k + (k + (params.N * k + (params.N * k + (k + (k + (k + 0)))))) = (m + 2 * params.N + 4) * k by ring] at this

theorem drawMulti_within {params : BPParams E} {k : ℕ} (hb : Blocks params.GP.N k) {m : ℕ} {rnd : MultiRand}
    (h : rnd.Drawn m params.N params.GP.N) : (drawMulti params m).Within rnd ((m + 2 * params.N + 4) * k) := by
  have i : ∀ {v}, Below params.GP.N v → (randInt params.GP.N).Within v k := fun h => randInt_within hb h
  have v0 := sampleRandomVector_within hb h.gammas
  have v1 := sampleRandomVector_within hb h.sL
  have v2 := sampleRandomVector_within hb h.sR
  rw [h.lenG] at v0
  rw [h.lenL] at v1
  rw [h.lenR] at v2
  rw [show (m + 2 * params.N + 4) * k = m * k + (k + (params.N * k + (params.N * k + (k + (k + (k + 0)))))) by ring]
  exact v0.bind ((i h.alpha).bind (v1.bind (v2.bind ((i h.rho).bind ((i h.tau1).bind ((i h.tau2).bind (Draw.Within.pure _)))))))

theorem drawMulti_panic {params : BPParams E} (hp : 0 < params.GP.N) (m : ℕ) (t : Bytes) : drawMulti params m t ≠ .panic := by
  have i := fun t => randInt_not_panic _ hp t
  have v := fun {n t} => sampleRandomVector_panic hp (n := n) (t := t)
  intro h
  unfold drawMulti at h
  rcases Draw.bind_panic.mp h with h | ⟨_, _, _, h⟩; · exact v h
  rcases Draw.bind_panic.mp h with h | ⟨_, _, _, h⟩; · exact i _ h
  rcases Draw.bind_panic.mp h with h | ⟨_, _, _, h⟩; · exact v h
  rcases Draw.bind_panic.mp h with h | ⟨_, _, _, h⟩; · exact v h
  rcases Draw.bind_panic.mp h with h | ⟨_, _, _, h⟩; · exact i _ h
  rcases Draw.bind_panic.mp h with h | ⟨_, _, _, h⟩; · exact i _ h
  rcases Draw.bind_panic.mp h with h | ⟨_, _, _, h⟩; · exact i _ h
  simp [Draw.pure_eq] at h

/-- a draw of exactly the least number of bytes -/
theorem drawMulti_exact {params : BPParams E} {k : ℕ} (hb : Blocks params.GP.N k) {m : ℕ} {rnd : MultiRand}
    (h : rnd.Drawn m params.N params.GP.N) :
    ∃ used, used.length = (m + 2 * params.N + 4) * k ∧ (drawMulti params m).Uses used rnd := by
  obtain ⟨used, hl, U⟩ := drawMulti_within hb h
  obtain ⟨v, e, hv, _⟩ := drawMulti_least hb m _ _ _ U.nil
  rw [List.append_nil] at e
  subst e
  exact ⟨used, le_antisymm hl hv, U⟩

/-- **C97** `MultiProve` for `m` secrets on the byte stream, where numbers below the group order fill `k` bytes.  What it returns on some
bytes is what the number-level `MultiProve` returns on numbers in the ranges the code draws from; it has read at least
`(m + 2N + 4) k` bytes and depends on nothing after them; and each choice of such numbers comes from a string of exactly that length.
Likewise for panics. -/
theorem C97_multi (sha : Bytes → Bytes) (params : BPParams E) (k : ℕ) (hb : Blocks params.GP.N k) (secrets : List Int)
    (hm : secrets ≠ []) :
    (∀ tape r rest, multiProveB sha params secrets tape = .done (r, rest) → ∃ rnd used,
      rnd.Drawn secrets.length params.N params.GP.N ∧ multiProve sha params rnd secrets = some r ∧ tape = used ++ rest ∧
      (secrets.length + 2 * params.N + 4) * k ≤ used.length ∧ (multiProveB sha params secrets).Uses used r) ∧
    (∀ tape, multiProveB sha params secrets tape = .panic → ∃ rnd, rnd.Drawn secrets.length params.N params.GP.N ∧
      multiProve sha params rnd secrets = none) ∧
    ∀ rnd, rnd.Drawn secrets.length params.N params.GP.N → ∃ used, used.length = (secrets.length + 2 * params.N + 4) * k ∧
      ∀ rest, multiProveB sha params secrets (used ++ rest) = match multiProve sha params rnd secrets with
        | none => .panic
        | some r => .done (r, rest) := by
  have hl : secrets.length ≠ 0 := fun h => hm (List.eq_nil_of_length_eq_zero h)
  have hp : 0 < params.GP.N := (show (0 : Int) ≤ 256 ^ (k - 1) by positivity).trans_lt hb.2.1
  have un := drawMulti_uniform params hp secrets.length
  unfold multiProveB
  rw [if_neg hl]
  refine ⟨?_, ?_, ?_⟩
  · intro tape r rest h
    obtain ⟨rnd, t, e1, e2⟩ := Draw.bind_done.mp h
    obtain ⟨h3, rfl⟩ := Draw.lift_done.mp e2
    obtain ⟨u, e, hu, U⟩ := drawMulti_least hb secrets.length _ _ _ e1
    refine ⟨rnd, u, un.mem _ _ _ e1, h3, e, hu, ?_⟩
    have := U.bind (f := fun rnd => Draw.lift (multiProve sha params rnd secrets)) (Draw.Uses.lift h3)
    rwa [List.append_nil] at this
  · intro tape h
    rcases Draw.bind_panic.mp h with h | ⟨rnd, t, e1, h⟩
    · exact (drawMulti_panic hp _ _ h).elim
    · exact ⟨rnd, un.mem _ _ _ e1, Draw.lift_panic.mp h⟩
  · intro rnd hr
    obtain ⟨used, l, U⟩ := drawMulti_exact hb hr
    refine ⟨used, l, fun rest => ?_⟩
    cases e : multiProve sha params rnd secrets with
    | none => exact Draw.bind_panic.mpr (Or.inr ⟨rnd, rest, U rest, Draw.lift_panic.mpr e⟩)
    | some r => exact Draw.bind_done.mpr ⟨rnd, rest, U rest, Draw.lift_done.mpr ⟨e, rfl⟩⟩

/-- **C97** Without secrets it panics before it reads anything. -/
theorem C97_empty (sha : Bytes → Bytes) (params : BPParams E) (tape : Bytes) : multiProveB sha params [] tape = .panic := rfl

/-- **C97** With generators for `N = 2^i` bits and invertible digests the outcome depends on the number of secrets alone: if it is
positive and divides `N`, `MultiProve` returns a proof on every string it has enough bytes on, and on some strings of
`(m + 2N + 4) k` bytes but on no shorter ones; otherwise it never returns. -/
theorem C97_returns (sha : Bytes → Bytes) (params : BPParams E) (k : ℕ) (hb : Blocks params.GP.N k) (n : ℕ) (hn : params.GP.N = n)
    (i : ℕ) (hN : params.N = 2 ^ i) (lenG : params.Gg.length = 2 ^ i) (lenH : params.Hh.length = 2 ^ i) (Uu : E)
    (eU : params.GP.mapToGroup SEEDU = some Uu)
    (hgood : ∀ l r : E, Int.gcd (roundChallenge sha params.GP l r) params.GP.N = 1) (secrets : List Int) :
    (secrets ≠ [] → secrets.length ∣ params.N →
      (∀ tape, multiProveB sha params secrets tape ≠ .panic) ∧
      (∀ tape r rest, multiProveB sha params secrets tape = .done (r, rest) → ∃ pf gammas, r = .ok (pf, gammas)) ∧
      (∃ used pf gammas, used.length = (secrets.length + 2 * params.N + 4) * k ∧
        (multiProveB sha params secrets).Uses used (.ok (pf, gammas))) ∧
      ∀ tape, tape.length < (secrets.length + 2 * params.N + 4) * k → multiProveB sha params secrets tape = .running) ∧
    (¬ (secrets ≠ [] ∧ secrets.length ∣ params.N) → ∀ tape r, multiProveB sha params secrets tape ≠ .done r) := by
  have hp : 0 < params.GP.N := (show (0 : Int) ≤ 256 ^ (k - 1) by positivity).trans_lt hb.2.1
  have key := fun (rnd : MultiRand) (h : rnd.Drawn secrets.length params.N params.GP.N) =>
    C92_prove params n hn i hN lenG lenH Uu eU sha hgood rnd secrets (h.lenL.trans hN) (h.lenR.trans hN)
  constructor
  · intro hm hd
    obtain ⟨a, b, c⟩ := C97_multi sha params k hb secrets hm
    have np : ∀ tape, multiProveB sha params secrets tape ≠ .panic := by
      intro tape h
      obtain ⟨rnd, hr, e⟩ := b tape h
      rcases (key rnd hr).2.mp e with h | h
      · exact hm h
      · exact h hd
    refine ⟨np, ?_, ?_, ?_⟩
    · intro tape r rest h
      obtain ⟨rnd, used, hr, e, _⟩ := a tape r rest h
      obtain ⟨pf, e'⟩ := (key rnd hr).1.mpr ⟨hm, hd⟩
      rw [e] at e'
      exact ⟨pf, _, Option.some.inj e'⟩
    · have z : (⟨List.replicate secrets.length 0, 0, List.replicate params.N 0, List.replicate params.N 0, 0, 0, 0⟩ : MultiRand).Drawn
          secrets.length params.N params.GP.N := by
        have r : ∀ n : ℕ, ∀ a ∈ List.replicate n (0 : Int), 0 ≤ a ∧ a < params.GP.N := fun n a ha => by
          rw [(List.mem_replicate.mp ha).2]; exact ⟨le_rfl, hp⟩
        exact ⟨by simp, r _, ⟨le_rfl, hp⟩, by simp, by simp, r _, r _, ⟨le_rfl, hp⟩, ⟨le_rfl, hp⟩, ⟨le_rfl, hp⟩⟩
      obtain ⟨used, l, U⟩ := c _ z
      obtain ⟨pf, e'⟩ := (key _ z).1.mpr ⟨hm, hd⟩
      rw [e'] at U
      exact ⟨used, pf, _, l, U⟩
    · intro tape hl
      cases h : multiProveB sha params secrets tape with
      | running => rfl
      | panic => exact (np tape h).elim
      | done r =>
        obtain ⟨rnd, used, _, _, e, l, _⟩ := a tape r.1 r.2 h
        rw [e, List.length_append] at hl
        omega
  · intro h tape r e
    by_cases hm : secrets = []
    · subst hm
      rw [C97_empty] at e
      simp at e
    · obtain ⟨rnd, used, hr, e', _⟩ := (C97_multi sha params k hb secrets hm).1 tape r.1 r.2 e
      have : multiProve sha params rnd secrets = none := (key rnd hr).2.mpr (Or.inr fun hd => h ⟨hm, hd⟩)
      rw [this] at e'
      simp at e'

theorem dvd_sixteen (m : ℕ) (h : m ≠ 0) : m ∣ 16 ↔ m ∈ [1, 2, 4, 8, 16] := by
  constructor
  · intro hd
    have := Nat.le_of_dvd (by norm_num) hd
    interval_cases m <;> revert hd <;> decide
  · intro hm
    simp only [List.mem_cons, List.not_mem_nil, or_false] at hm
    rcases hm with rfl | rfl | rfl | rfl | rfl <;> decide

/-- **C97** The parameters `setup` returns, on a curve whose numbers fill `cb` bytes: one, two, four, eight or sixteen values can be
aggregated and no other number of values; `m` values take `(m + 36) cb` bytes or more. -/
theorem C97_deployed (nan64 : BitVec 64) (C : Grp E) (N bits : ℕ) (Bb : Int) (hr : (N, bits, Bb) ∈ curveTable)
    (hCN : C.N = N) (hmap : ∀ s, SetupSeed 16 s → ∃ e, C.mapToGroup s = some e) (cb : ℕ) (hcb : cb = (bits + 7) / 8) :
    ∃ pp, setup nan64 C = some (.ok pp) ∧ ∀ sha : Bytes → Bytes, DigestsOK sha N → ∀ secrets : List Int,
      (secrets.length ∈ [1, 2, 4, 8, 16] →
        (∀ tape, multiProveB sha pp.BPParams secrets tape ≠ .panic) ∧
        (∀ tape r rest, multiProveB sha pp.BPParams secrets tape = .done (r, rest) → ∃ pf gammas, r = .ok (pf, gammas)) ∧
        (∃ used pf gammas, used.length = (secrets.length + 36) * cb ∧
          (multiProveB sha pp.BPParams secrets).Uses used (.ok (pf, gammas))) ∧
        ∀ tape, tape.length < (secrets.length + 36) * cb → multiProveB sha pp.BPParams secrets tape = .running) ∧
      (secrets.length ∉ [1, 2, 4, 8, 16] → ∀ tape r, multiProveB sha pp.BPParams secrets tape ≠ .done r) := by
  obtain ⟨D, hD, dep, _⟩ := C47_curves nan64 C hmap N bits Bb hr hCN
  obtain ⟨Uu, eU⟩ := hmap SEEDU (Or.inr (Or.inl rfl))
  refine ⟨D.pp, hD, fun sha hs secrets => ?_⟩
  have hG : D.pp.BPParams.GP = C := dep.EC
  have hn : D.pp.BPParams.N = 16 := dep.n
  obtain ⟨_, _, _, k4, _⟩ := deployed_blocks hr
  rw [← hcb] at k4
  have key := C97_returns sha D.pp.BPParams cb (by rw [hG, hCN]; exact k4) N (by rw [hG, hCN]) 4 (by rw [hn]; rfl) dep.lenG dep.lenH Uu
    (by rw [hG]; exact eU) (fun l r => by rw [hG, hCN]; exact hs _) secrets
  rw [hn] at key
  have e : (secrets ≠ [] ∧ secrets.length ∣ 16) ↔ secrets.length ∈ [1, 2, 4, 8, 16] := by
    constructor
    · rintro ⟨h1, h2⟩
      exact (dvd_sixteen _ fun h => h1 (List.eq_nil_of_length_eq_zero h)).mp h2
    · intro h
      have h0 : secrets.length ≠ 0 := by rintro h0; rw [h0] at h; simp at h
      exact ⟨fun h' => h0 (by rw [h']; rfl), (dvd_sixteen _ h0).mpr h⟩
  exact ⟨fun h => key.1 (e.mpr h).1 (e.mpr h).2, fun h => key.2 fun h' => h (e.mp h')⟩

/-- what `C97_deployed` says about a group whose numbers fill `cb` bytes -/
def MultiReads {E : Type} (nan64 : BitVec 64) (C : Grp E) (N cb : ℕ) : Prop :=
  ∃ pp, setup nan64 C = some (.ok pp) ∧ ∀ sha : Bytes → Bytes, DigestsOK sha N → ∀ secrets : List Int,
    (secrets.length ∈ [1, 2, 4, 8, 16] →
      (∀ tape, multiProveB sha pp.BPParams secrets tape ≠ .panic) ∧
      (∀ tape r rest, multiProveB sha pp.BPParams secrets tape = .done (r, rest) → ∃ pf gammas, r = .ok (pf, gammas)) ∧
      (∃ used pf gammas, used.length = (secrets.length + 36) * cb ∧
        (multiProveB sha pp.BPParams secrets).Uses used (.ok (pf, gammas))) ∧
      ∀ tape, tape.length < (secrets.length + 36) * cb → multiProveB sha pp.BPParams secrets tape = .running) ∧
    (secrets.length ∉ [1, 2, 4, 8, 16] → ∀ tape r, multiProveB sha pp.BPParams secrets tape ≠ .done r)

/-- **C97** The four groups of the program: numbers of 32 bytes on secp256k1, Ristretto255 and P-256, 48 on P-384. -/
theorem C97_main (nan64 : BitVec 64) (L : K1Lib) (hL : L.Identities) (pieces : Bytes → List Bytes)
    (dec256 dec384 : Bytes → Option WPoint) :
    MultiReads nan64 (k1Grp L.real) k1N 32 ∧ MultiReads nan64 (r255Grp (r255Real pieces)) r255N 32 ∧
    MultiReads nan64 (circlGrp (p256Real dec256)) (p256Real dec256).n 32 ∧
    MultiReads nan64 (circlGrp (p384Real dec384)) (p384Real dec384).n 48 := by
  refine ⟨?_, ?_, ?_, ?_⟩
  · let := k1Module
    have hm : ∀ s, SetupSeed 16 s → ∃ e, (k1Grp L.real).mapToGroup s = some e ∧ (k1Lawful (real_identities hL).ok).V e :=
      K1HashOK.legal (C66_seeds L)
    exact C97_deployed nan64 (k1Grp L.real) k1N 256 15 k1_row (k1Lawful (real_identities hL).ok).N_eq
      (fun s h => (hm s h).imp fun e h1 => h1.1) 32 rfl
  · let := r255Module
    have hm : ∀ s, SetupSeed 16 s → ∃ e, (r255Grp (r255Real pieces)).mapToGroup s = some e ∧ (r255Lawful (r255Real pieces)).V e :=
      r255_hash fun s _ => C65_pieces (pieces s)
    exact C97_deployed nan64 (r255Grp (r255Real pieces)) r255N 253 12 r255_row (r255Lawful (r255Real pieces)).N_eq
      (fun s h => (hm s h).imp fun e h1 => h1.1) 32 rfl
  · have row := RealRow.p256 dec256
    obtain ⟨Bb, hr, _⟩ := row.std.table
    exact C97_deployed nan64 (circlGrp (p256Real dec256)) (p256Real dec256).n 256 Bb hr rfl (fun s _ => ⟨_, rfl⟩) 32 rfl
  · have row := RealRow.p384 dec384
    obtain ⟨Bb, hr, _⟩ := row.std.table
    exact C97_deployed nan64 (circlGrp (p384Real dec384)) (p384Real dec384).n 384 Bb hr rfl (fun s _ => ⟨_, rfl⟩) 48 rfl

/-- the bytes of the example: one byte per number below 101, the top bit ignored; 110 and 127 are rejected -/
def exMTape : Bytes := [110, 17, 4, 127 + 128, 5 + 128, 1, 20, 3, 4, 9, 8, 77, 6, 3, 2, 90, 200, 201]

/-- C97: the toy order 101 fills one byte; on 16 bytes (two of the candidates are rejected, so not 14) the draws of the other examples
come out, two bytes are left, and a proof is returned; on the first 15 nothing is returned; three secrets panic. -/
example : Blocks exBP.GP.N 1 ∧ drawMulti exBP 2 exMTape = .done (exMRnd, [200, 201]) ∧
    (match multiProveB exSha2 exBP [2, 3] exMTape with
      | .done (.ok (pf, g), rest) => decide (pf.Vs.length = 2 ∧ g = [17, 4] ∧ rest = [200, 201])
      | _ => false) = true ∧
    (match multiProveB exSha2 exBP [2, 3] (exMTape.take 15) with | .running => true | _ => false) = true ∧
    (match multiProveB exSha2 exBP [2, 3, 0] (0 :: exMTape) with | .panic => true | _ => false) = true := by
  refine ⟨⟨by norm_num, by decide, by decide⟩, by rfl, by decide +kernel, by decide +kernel, by decide +kernel⟩

end MscPoc
