import Verif.Props.MultiTotal
import Verif.Props.RandMulti

/-!
# C97 — `MultiProve` on the byte stream under arbitrary digest functions
-/

set_option autoImplicit false

namespace MscPoc

variable {E : Type}

/-- What `MultiProve` does on a byte string, given what it does (`o`) with the digests that have no inverse replaced by 1: the same, if the
digests of that run have inverses. -/
def FollowsPatched (sha : Bytes → Bytes) (params : BPParams E) (real : Outcome (Except String (MultiBulletProof E × List Int) × Bytes)) :
    Outcome (Except String (MultiBulletProof E × List Int) × Bytes) → Prop
  | .running => real = .running
  | .panic => False
  | .done (.error _, _) => False
  | .done (.ok (pf, gs), rest) => pf.Params = params ∧ (MultiChallengesOK sha pf → real = .done (.ok (pf, gs), rest))

/-- **C97** Under every digest function: on fewer than `(m + 2N + 4) k` bytes `MultiProve` is waiting for more, whatever the secrets; if
their number divides `N` it returns a proof as soon as it has enough bytes, unless a digest taken in that very run has no inverse; if
it does not divide `N` it never returns. -/
theorem C97_total (sha : Bytes → Bytes) (params : BPParams E) (k : ℕ) (hb : Blocks params.GP.N k) (n : ℕ) (hn : params.GP.N = n)
    (i : ℕ) (hN : params.N = 2 ^ i) (lenG : params.Gg.length = 2 ^ i) (lenH : params.Hh.length = 2 ^ i) (Uu : E)
    (eU : params.GP.mapToGroup SEEDU = some Uu) (secrets : List Int) (hm : secrets ≠ []) :
    (∀ tape, tape.length < (secrets.length + 2 * params.N + 4) * k → multiProveB sha params secrets tape = .running) ∧
    (secrets.length ∣ params.N → ∀ tape, FollowsPatched sha params (multiProveB sha params secrets tape)
      (multiProveB (patchSha sha params.GP.N) params secrets tape)) ∧
    (¬ secrets.length ∣ params.N → ∀ tape r, multiProveB sha params secrets tape ≠ .done r) := by
  have hp : 0 < params.GP.N := (show (0 : Int) ≤ 256 ^ (k - 1) by positivity).trans_lt hb.2.1
  have hl : secrets.length ≠ 0 := fun h => hm (List.eq_nil_of_length_eq_zero h)
  have un := drawMulti_uniform params hp secrets.length
  have step : ∀ (s : Bytes → Bytes) (tape : Bytes), multiProveB s params secrets tape = match drawMulti params secrets.length tape with
      | .running => .running
      | .panic => .panic
      | .done (rnd, rest) => Draw.lift (multiProve s params rnd secrets) rest := by
    intro s tape
    unfold multiProveB
    rw [if_neg hl]
    show Draw.bind _ _ tape = _
    unfold Draw.bind
    cases drawMulti params secrets.length tape <;> rfl
  refine ⟨fun tape hlt => ?_, fun hd tape => ?_, fun hd tape r e => ?_⟩
  · rw [step]
    cases h : drawMulti params secrets.length tape with
    | running => rfl
    | panic => exact (drawMulti_panic hp _ _ h).elim
    | done r =>
      obtain ⟨u, e, hu, _⟩ := drawMulti_least hb secrets.length _ r.1 r.2 h
      rw [e, List.length_append] at hlt
      omega
  · rw [step, step]
    cases h : drawMulti params secrets.length tape with
    | running => exact rfl
    | panic => exact (drawMulti_panic hp _ _ h).elim
    | done r =>
      obtain ⟨rnd, rest⟩ := r
      have hr := un.mem _ _ _ h
      obtain ⟨pf, e1, e2, e3⟩ := C92_total params n hn i hN lenG lenH Uu eU sha rnd secrets (hr.lenL.trans hN) (hr.lenR.trans hN) hm hd
      dsimp only
      rw [e1]
      refine ⟨e2, fun hc => ?_⟩
      rw [e3 hc]
      rfl
  · obtain ⟨rnd, used, hr, e', _⟩ := (C97_multi sha params k hb secrets hm).1 tape r.1 r.2 e
    exact hd ⟨_, (multiProve_divides params sha rnd secrets _ ⟨n, hn⟩ e').2.symm⟩

/-- what `C97_total` says about the parameters of `setup` for a group whose numbers fill `cb` bytes -/
def MultiReadsAny (sha : Bytes → Bytes) (nan64 : BitVec 64) (C : Grp E) (cb : ℕ) : Prop :=
  ∃ pp, setup nan64 C = some (.ok pp) ∧ ∀ secrets : List Int, secrets ≠ [] →
    (∀ tape, tape.length < (secrets.length + 36) * cb → multiProveB sha pp.BPParams secrets tape = .running) ∧
    (secrets.length ∈ [1, 2, 4, 8, 16] → ∀ tape, FollowsPatched sha pp.BPParams (multiProveB sha pp.BPParams secrets tape)
      (multiProveB (patchSha sha C.N) pp.BPParams secrets tape)) ∧
    (secrets.length ∉ [1, 2, 4, 8, 16] → ∀ tape r, multiProveB sha pp.BPParams secrets tape ≠ .done r)

theorem C97_any (sha : Bytes → Bytes) (nan64 : BitVec 64) (C : Grp E) (N bits : ℕ) (Bb : Int) (hr : (N, bits, Bb) ∈ curveTable)
    (hCN : C.N = N) (hmap : ∀ s, SetupSeed 16 s → ∃ e, C.mapToGroup s = some e) (cb : ℕ) (hcb : cb = (bits + 7) / 8) :
    MultiReadsAny sha nan64 C cb := by
  obtain ⟨D, hD, dep, _⟩ := C47_curves nan64 C hmap N bits Bb hr hCN
  obtain ⟨Uu, eU⟩ := hmap SEEDU (Or.inr (Or.inl rfl))
  refine ⟨D.pp, hD, fun secrets hm => ?_⟩
  have hG : D.pp.BPParams.GP = C := dep.EC
  have hn : D.pp.BPParams.N = 16 := dep.n
  obtain ⟨_, _, _, k4, _⟩ := deployed_blocks hr
  rw [← hcb] at k4
  have key := C97_total sha D.pp.BPParams cb (by rw [hG, hCN]; exact k4) N (by rw [hG, hCN]) 4 (by rw [hn]; rfl) dep.lenG dep.lenH Uu
    (by rw [hG]; exact eU) secrets hm
  rw [hn, dvd_sixteen _ fun h => hm (List.eq_nil_of_length_eq_zero h), hG] at key
  exact key

/-- **C97** The four groups of the program with SHA-256, without an assumption on its values. -/
theorem C97_sha256 (nan64 : BitVec 64) (L : K1Lib) (hL : L.Identities) (pieces : Bytes → List Bytes)
    (dec256 dec384 : Bytes → Option WPoint) :
    MultiReadsAny sha256 nan64 (k1Grp L.real) 32 ∧ MultiReadsAny sha256 nan64 (r255Grp (r255Real pieces)) 32 ∧
    MultiReadsAny sha256 nan64 (circlGrp (p256Real dec256)) 32 ∧ MultiReadsAny sha256 nan64 (circlGrp (p384Real dec384)) 48 := by
  refine ⟨?_, ?_, ?_, ?_⟩
  · let := k1Module
    have hm : ∀ s, SetupSeed 16 s → ∃ e, (k1Grp L.real).mapToGroup s = some e ∧ (k1Lawful (real_identities hL).ok).V e :=
      K1HashOK.legal (C66_seeds L)
    exact C97_any sha256 nan64 (k1Grp L.real) k1N 256 15 k1_row (k1Lawful (real_identities hL).ok).N_eq
      (fun s h => (hm s h).imp fun e h1 => h1.1) 32 rfl
  · let := r255Module
    have hm : ∀ s, SetupSeed 16 s → ∃ e, (r255Grp (r255Real pieces)).mapToGroup s = some e ∧ (r255Lawful (r255Real pieces)).V e :=
      r255_hash fun s _ => C65_pieces (pieces s)
    exact C97_any sha256 nan64 (r255Grp (r255Real pieces)) r255N 253 12 r255_row (r255Lawful (r255Real pieces)).N_eq
      (fun s h => (hm s h).imp fun e h1 => h1.1) 32 rfl
  · have row := RealRow.p256 dec256
    obtain ⟨Bb, hr, _⟩ := row.std.table
    exact C97_any sha256 nan64 (circlGrp (p256Real dec256)) (p256Real dec256).n 256 Bb hr rfl (fun s _ => ⟨_, rfl⟩) 32 rfl
  · have row := RealRow.p384 dec384
    obtain ⟨Bb, hr, _⟩ := row.std.table
    exact C97_any sha256 nan64 (circlGrp (p384Real dec384)) (p384Real dec384).n 384 Bb hr rfl (fun s _ => ⟨_, rfl⟩) 48 rfl

/-- C97_total: on the bytes of the other example the run with patched digests returns, and its digests have inverses although the digest
function also has others; with a digest function that has only others `MultiProve` panics there. -/
example : (setBytes (exSha2 [80]) : ℕ) % 101 = 0 ∧ Blocks exBP.GP.N 1 ∧
    (match multiProveB (patchSha exSha2 101) exBP [2, 3] exMTape with
      | .done (.ok (pf, g), rest) => decide (MultiChallengesOK exSha2 pf ∧ g = [17, 4] ∧ rest = [200, 201])
      | _ => false) = true ∧
    (match multiProveB (fun _ => [101]) exBP [2, 3] exMTape with | .panic => true | _ => false) = true := by
  refine ⟨by decide +kernel, ⟨by norm_num, by decide, by decide⟩, by decide +kernel, by decide +kernel⟩

end MscPoc
