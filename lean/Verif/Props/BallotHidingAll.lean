import Verif.Props.BallotHiding
import Verif.Props.HidingAll

/-!
# C100 — a ballot reveals nothing about the vote but its ciphertext, on all four curves and for any test a reader applies

C74 counts the draws that end in one given ballot and needs one representation per group element.  Here a reader applies any test that
does not tell apart ballots that look alike, and the simulator picks the challenge itself.
-/

set_option autoImplicit false

namespace MscPoc

section
variable {E₁ E₂ : Type} {q₁ q₂ : ℕ} {M₁ M₂ : Type} [AddCommGroup M₁] [Module (ZMod q₁) M₁] [AddCommGroup M₂]
  [Module (ZMod q₂) M₂]

/-- the same vote proof, up to `R` in its two points of the curve -/
structure SigmaProof.Alike (R : E₂ → E₂ → Prop) (pf pf' : SigmaProof E₁ E₂) : Prop where
  W : pf.W = pf'.W
  Kp : pf.Kp = pf'.Kp
  Kq1 : R pf.Kq1 pf'.Kq1
  Kq2 : R pf.Kq2 pf'.Kq2
  Challenge : pf.Challenge = pf'.Challenge
  Z : pf.Z = pf'.Z
  Sp : pf.Sp = pf'.Sp
  Sq1 : pf.Sq1 = pf'.Sq1
  Sq2 : pf.Sq2 = pf'.Sq2
  Params : pf.Params = pf'.Params

/-- the same ballot, up to `R` in the points of the curve outside the inner product arguments -/
structure BallotData.Alike (R : E₂ → E₂ → Prop) (b b' : BallotData E₁ E₂) : Prop where
  Ballot : b.Ballot = b'.Ballot
  BpLower : b.BpLower.Alike R b'.BpLower
  BpUpper : b.BpUpper.Alike R b'.BpUpper
  VoteProof : b.VoteProof.Alike R b'.VoteProof

/-- those points -/
def BallotData.points (b : BallotData E₁ E₂) : List E₂ :=
  b.BpLower.points ++ b.BpUpper.points ++ [b.VoteProof.Kq1, b.VoteProof.Kq2]

/-- the draws of a voter with the given choice and encryption randomness whose ballot passes the test `P` -/
def voterWith (P : BallotData E₁ E₂ → Prop) (sha : Bytes → Bytes) (D : Election E₁ E₂) (choice : UInt16) (rEnc : Int) : Set VoterDraw :=
  {t | t.bp1.Drawn D.n D.EC.N ∧ t.bp2.Drawn D.n D.EC.N ∧ (0 ≤ t.s.k ∧ t.s.k < D.rp.zUpperBound) ∧
    (0 ≤ t.s.tp ∧ t.s.tp < D.FF.N) ∧ (0 ≤ t.s.tq1 ∧ t.s.tq1 < D.EC.N) ∧ (0 ≤ t.s.tq2 ∧ t.s.tq2 < D.EC.N) ∧
    ∃ b, castChoice sha D.pp choice ⟨0, rEnc, t.bp1, t.bp2, [t.s]⟩ = .done b ∧ P b}

/-- the challenges and draws of the simulator, which is given a ciphertext, whose ballot passes the test `P` and has that challenge -/
def simWith (P : BallotData E₁ E₂ → Prop) (sha : Bytes → Bytes) (D : Election E₁ E₂) (ct : Ciphertext E₁) : Set (Int × SimDraw) :=
  {t | t.2.bp1.Drawn D.n D.EC.N ∧ t.2.bp2.Drawn D.n D.EC.N ∧ (D.rp.zLowerBound ≤ t.2.z ∧ t.2.z < D.rp.zUpperBound) ∧
    (0 ≤ t.2.sp ∧ t.2.sp < D.FF.N) ∧ (0 ≤ t.2.s1 ∧ t.2.s1 < D.EC.N) ∧ (0 ≤ t.2.s2 ∧ t.2.s2 < D.EC.N) ∧
    ∃ b, simBallot sha D ct t.1 t.2 = some b ∧
      getFSChallenge sha D.FF D.EC b.VoteProof.W b.VoteProof.Kp b.VoteProof.Kq1 b.VoteProof.Kq2 D.Bc = some t.1 ∧ P b}

/-- looking alike, and being the same element if legal -/
theorem Looks.strict {E : Type} {q : ℕ} {M : Type} [AddCommGroup M] [Module (ZMod q) M] {GP : Grp E} {L : Lawful GP q M}
    {R : E → E → Prop} {good : E → Prop} (hR : Looks L R good) :
    Looks L (fun a b => R a b ∧ (L.V a ↔ L.V b) ∧ (L.V a → L.den a = L.den b)) good where
  refl a := ⟨hR.refl a, Iff.rfl, fun _ => rfl⟩
  symm h := ⟨hR.symm h.1, h.2.1.symm, fun v => (h.2.2 (h.2.1.mpr v)).symm⟩
  trans h h' := ⟨hR.trans h.1 h'.1, h.2.1.trans h'.2.1, fun v => (h.2.2 v).trans (h'.2.2 (h.2.1.mp v))⟩
  str h := hR.str h.1
  good_of h g := hR.good_of h.1 g
  rep ha hb e g := ⟨hR.rep ha hb e g, ⟨fun _ => hb, fun _ => ha⟩, fun _ => e⟩

theorem BulletProof.Alike.mono {E : Type} {R R' : E → E → Prop} (h : ∀ a b, R a b → R' a b) {pf pf' : BulletProof E}
    (a : pf.Alike R pf') : pf.Alike R' pf' :=
  ⟨h _ _ a.V, h _ _ a.A, h _ _ a.S, h _ _ a.T1, h _ _ a.T2, a.Taux, a.Mu, a.Tprime, a.InnerProductProof, a.Params⟩

theorem BulletProof.Alike.rfl' {E : Type} {R : E → E → Prop} (h : ∀ a, R a a) (pf : BulletProof E) : pf.Alike R pf :=
  ⟨h _, h _, h _, h _, h _, rfl, rfl, rfl, rfl, rfl⟩

/-- sets with a map each to the same type, and equally many elements over every value, are in bijection -/
theorem equiv_of_fibres {α α' β : Type} (S : Set α) (S' : Set α') (f : α → β) (f' : α' → β)
    (hf : ∀ b, {a | a ∈ S ∧ f a = b}.Finite) (hf' : ∀ b, {a | a ∈ S' ∧ f' a = b}.Finite)
    (h : ∀ b, {a | a ∈ S ∧ f a = b}.ncard = {a | a ∈ S' ∧ f' a = b}.ncard) : Nonempty (S ≃ S') := by
  classical
  have e : ∀ b, Nonempty ({a : S // f a = b} ≃ {a : S' // f' a = b}) := by
    intro b
    have e1 : {a : S // f a = b} ≃ {a | a ∈ S ∧ f a = b} :=
      ⟨fun a => ⟨a.1.1, a.1.2, a.2⟩, fun a => ⟨⟨a.1, a.2.1⟩, a.2.2⟩, fun _ => rfl, fun _ => rfl⟩
    have e2 : {a : S' // f' a = b} ≃ {a | a ∈ S' ∧ f' a = b} :=
      ⟨fun a => ⟨a.1.1, a.1.2, a.2⟩, fun a => ⟨⟨a.1, a.2.1⟩, a.2.2⟩, fun _ => rfl, fun _ => rfl⟩
    have := (hf b).to_subtype
    have := (hf' b).to_subtype
    have hc := h b
    rw [← Nat.card_coe_set_eq, ← Nat.card_coe_set_eq] at hc
    exact ⟨e1.trans ((Finite.card_eq.mp hc).some.trans e2.symm)⟩
  exact ⟨(Equiv.sigmaFiberEquiv fun a : S => f a).symm.trans
    ((Equiv.sigmaCongrRight fun b => (e b).some).trans (Equiv.sigmaFiberEquiv fun a : S' => f' a))⟩

theorem sampled_finite (pp : ProofParams E₁ E₂) (q₁ q₂ : ℕ) : {s | Sampled pp q₁ q₂ s}.Finite := by
  refine Set.Finite.of_injOn (f := fun s : SigmaSample => (s.k, s.tp, s.tq1, s.tq2)) (t := Set.Ico 0 pp.zUpperBound ×ˢ
    Set.Ico 0 (q₁ : Int) ×ˢ Set.Ico 0 (q₂ : Int) ×ˢ Set.Ico 0 (q₂ : Int)) ?_ ?_
    ((Set.finite_Ico _ _).prod ((Set.finite_Ico _ _).prod ((Set.finite_Ico _ _).prod (Set.finite_Ico _ _))))
  · rintro s ⟨h1, h2, h3, h4⟩
    exact ⟨h1, h2, h3, h4⟩
  · rintro ⟨a, b, c, d⟩ _ ⟨a', b', c', d'⟩ _ h
    simpa using h

/-- the first move that the simulator fits to its responses, against the first move from which the responses come -/
theorem simulate_move (pp : ProofParams E₁ E₂) (L₁ : Lawful pp.GFF.I q₁ M₁) (L₂ : Lawful pp.GEC.I q₂ M₂)
    (inj₁ : ∀ {a b}, L₁.V a → L₁.V b → L₁.den a = L₁.den b → a = b)
    (hH₁ : L₁.V pp.GFF.H) (hH₂ : L₂.V pp.GEC.H) (x rp rq1 rq2 : Int)
    (comm : VerCommitments E₁ E₂) (hY : L₁.V comm.Y) (hXp : L₁.V comm.Xp) (hX1 : L₂.V comm.Xq1) (hX2 : L₂.V comm.Xq2)
    (dY : L₁.den comm.Y = (rp : ZMod q₁) • L₁.g) (dXp : L₁.den comm.Xp = (x : ZMod q₁) • L₁.g + (rp : ZMod q₁) • L₁.den pp.GFF.H)
    (dX1 : L₂.den comm.Xq1 = (x : ZMod q₂) • L₂.g + (rq1 : ZMod q₂) • L₂.den pp.GEC.H)
    (dX2 : L₂.den comm.Xq2 = (x : ZMod q₂) • L₂.g + (rq2 : ZMod q₂) • L₂.den pp.GEC.H)
    (c z k sp tp s1 t1 s2 t2 : Int) (hk : z = k + c * x) (hp : (sp : ZMod q₁) = tp + c * rp) (h1 : (s1 : ZMod q₂) = t1 + c * rq1)
    (h2 : (s2 : ZMod q₂) = t2 + c * rq2) :
    (simulate pp comm c z sp s1 s2).W = pp.GFF.I.mulGen tp ∧ (simulate pp comm c z sp s1 s2).Kp = vpCommit k tp pp.GFF ∧
    (L₂.V (simulate pp comm c z sp s1 s2).Kq1 ∧ L₂.V (vpCommit k t1 pp.GEC) ∧
      L₂.den (simulate pp comm c z sp s1 s2).Kq1 = L₂.den (vpCommit k t1 pp.GEC)) ∧
    (L₂.V (simulate pp comm c z sp s1 s2).Kq2 ∧ L₂.V (vpCommit k t2 pp.GEC) ∧
      L₂.den (simulate pp comm c z sp s1 s2).Kq2 = L₂.den (vpCommit k t2 pp.GEC)) := by
  subst hk
  unfold simulate
  dsimp only
  refine ⟨inj₁ (L₁.V_sub (L₁.V_mulGen _) (L₁.V_mul _ hY)) (L₁.V_mulGen _) ?_,
    inj₁ (L₁.V_sub (V_vpCommit L₁ hH₁ _ _) (L₁.V_mul _ hXp)) (V_vpCommit L₁ hH₁ _ _) ?_,
    ⟨L₂.V_sub (V_vpCommit L₂ hH₂ _ _) (L₂.V_mul _ hX1), V_vpCommit L₂ hH₂ _ _, ?_⟩,
    ⟨L₂.V_sub (V_vpCommit L₂ hH₂ _ _) (L₂.V_mul _ hX2), V_vpCommit L₂ hH₂ _ _, ?_⟩⟩
  · rw [L₁.den_sub (L₁.V_mulGen _) (L₁.V_mul _ hY), L₁.den_mul _ hY, L₁.den_mulGen, L₁.den_mulGen, dY, hp]
    module
  · rw [L₁.den_sub (V_vpCommit L₁ hH₁ _ _) (L₁.V_mul _ hXp), L₁.den_mul _ hXp, den_vpCommit L₁ hH₁, den_vpCommit L₁ hH₁, dXp, hp]
    push_cast; module
  · rw [L₂.den_sub (V_vpCommit L₂ hH₂ _ _) (L₂.V_mul _ hX1), L₂.den_mul _ hX1, den_vpCommit L₂ hH₂, den_vpCommit L₂ hH₂, dX1, h1]
    push_cast; module
  · rw [L₂.den_sub (V_vpCommit L₂ hH₂ _ _) (L₂.V_mul _ hX2), L₂.den_mul _ hX2, den_vpCommit L₂ hH₂, den_vpCommit L₂ hH₂, dX2, h2]
    push_cast; module

/-- One attempt of the vote proof against the simulator, for any test on proofs: the samples of a released attempt and the challenges and
responses of the simulator are in bijection. -/
theorem sigma_swap (sha : Bytes → Bytes) (pp : ProofParams E₁ E₂) (L₁ : Lawful pp.GFF.I q₁ M₁) (L₂ : Lawful pp.GEC.I q₂ M₂)
    (inj₁ : ∀ {a b}, L₁.V a → L₁.V b → L₁.den a = L₁.den b → a = b)
    {R : E₂ → E₂ → Prop} {good : E₂ → Prop} (hR : Looks L₂ R good)
    (hq₁ : 0 < q₁) (hq₂ : 0 < q₂) (hN₁ : pp.GFF.N = some (q₁ : Int)) (hN₂ : pp.GEC.N = some (q₂ : Int))
    (hH₁ : L₁.V pp.GFF.H) (hH₂ : L₂.V pp.GEC.H) (hU : pp.zUpperBound ≤ q₁) (x rp rq1 rq2 : Int)
    (comm : VerCommitments E₁ E₂) (hY : L₁.V comm.Y) (hXp : L₁.V comm.Xp) (hX1 : L₂.V comm.Xq1) (hX2 : L₂.V comm.Xq2)
    (dY : L₁.den comm.Y = (rp : ZMod q₁) • L₁.g) (dXp : L₁.den comm.Xp = (x : ZMod q₁) • L₁.g + (rp : ZMod q₁) • L₁.den pp.GFF.H)
    (dX1 : L₂.den comm.Xq1 = (x : ZMod q₂) • L₂.g + (rq1 : ZMod q₂) • L₂.den pp.GEC.H)
    (dX2 : L₂.den comm.Xq2 = (x : ZMod q₂) • L₂.g + (rq2 : ZMod q₂) • L₂.den pp.GEC.H)
    (hcx : ∀ w Kp Kq1 Kq2 c, getFSChallenge sha pp.GFF.I pp.GEC.I w Kp Kq1 Kq2 pp.Bc = some c → 0 ≤ c * x ∧ c * x ≤ pp.zLowerBound)
    (Q : SigmaProof E₁ E₂ → Prop) (hQ : ∀ a b : SigmaProof E₁ E₂, a.Alike R b → Q b → Q a)
    (hg : ∀ pf, Q pf → good pf.Kq1 ∧ good pf.Kq2) :
    {s : SigmaSample | Sampled pp q₁ q₂ s ∧ ∃ pf, sigmaAttempt sha pp x rp rq1 rq2 s = some (some pf) ∧ Q pf}.ncard =
      {t : Int × Int × Int × Int × Int | (pp.zLowerBound ≤ t.2.1 ∧ t.2.1 < pp.zUpperBound) ∧ (0 ≤ t.2.2.1 ∧ t.2.2.1 < q₁) ∧
        (0 ≤ t.2.2.2.1 ∧ t.2.2.2.1 < q₂) ∧ (0 ≤ t.2.2.2.2 ∧ t.2.2.2.2 < q₂) ∧
        (let pf := simulate pp comm t.1 t.2.1 t.2.2.1 t.2.2.2.1 t.2.2.2.2
         getFSChallenge sha pp.GFF.I pp.GEC.I pf.W pf.Kp pf.Kq1 pf.Kq2 pp.Bc = some t.1 ∧ Q pf)}.ncard := by
  have q1p : (0 : Int) < q₁ := by exact_mod_cast hq₁
  have q2p : (0 : Int) < q₂ := by exact_mod_cast hq₂
  have red : ∀ {q : ℕ} {a b : Int}, 0 ≤ a → a < q → ((a - b) % (q : Int) + b) % q = a := by
    intro q a b ha hb
    rw [Int.emod_add_emod, sub_add_cancel, Int.emod_eq_of_lt ha hb]
  have red' : ∀ {q : ℕ} {a b : Int}, 0 ≤ a → a < q → ((a + b) % (q : Int) - b) % q = a := by
    intro q a b ha hb
    rw [Int.emod_sub_emod, add_sub_cancel_right, Int.emod_eq_of_lt ha hb]
  -- the proof of a released attempt, and its challenge
  have out : ∀ s pf, sigmaAttempt sha pp x rp rq1 rq2 s = some (some pf) → ∃ c,
      getFSChallenge sha pp.GFF.I pp.GEC.I pf.W pf.Kp pf.Kq1 pf.Kq2 pp.Bc = some c ∧ pp.zOk (s.k + c * x) = true ∧
      pf = { W := pp.GFF.I.mulGen s.tp, Kp := vpCommit (s.k % q₁) s.tp pp.GFF,
             Kq1 := vpCommit (s.k % q₁) s.tq1 pp.GEC, Kq2 := vpCommit (s.k % q₁) s.tq2 pp.GEC,
             Challenge := some c, Z := some (s.k + c * x), Sp := some ((s.tp + c * rp) % q₁),
             Sq1 := some ((s.tq1 + c * rq1) % q₂), Sq2 := some ((s.tq2 + c * rq2) % q₂), Params := pp } := by
    intro s pf hs
    cases hc : getFSChallenge sha pp.GFF.I pp.GEC.I (pp.GFF.I.mulGen s.tp) (vpCommit (s.k % q₁) s.tp pp.GFF)
        (vpCommit (s.k % q₁) s.tq1 pp.GEC) (vpCommit (s.k % q₁) s.tq2 pp.GEC) pp.Bc with
    | none => rw [sigmaAttempt_none hN₁ hN₂ hc] at hs; exact absurd hs (by simp)
    | some c' =>
      rw [sigmaAttempt_done hN₁ hN₂ hc] at hs
      split at hs
      swap
      · exact absurd hs (by simp)
      rename_i hz
      simp only [Option.some.injEq] at hs
      subst hs
      exact ⟨c', hc, hz, rfl⟩
  -- the challenge of a run, and the map
  obtain ⟨ch, hch⟩ : ∃ ch : SigmaSample → Int, ch = fun (s : SigmaSample) =>
      (getFSChallenge sha pp.GFF.I pp.GEC.I (pp.GFF.I.mulGen s.tp) (vpCommit (s.k % q₁) s.tp pp.GFF)
        (vpCommit (s.k % q₁) s.tq1 pp.GEC) (vpCommit (s.k % q₁) s.tq2 pp.GEC) pp.Bc).getD 0 := ⟨_, rfl⟩
  have chOf : ∀ {s c}, getFSChallenge sha pp.GFF.I pp.GEC.I (pp.GFF.I.mulGen s.tp) (vpCommit (s.k % q₁) s.tp pp.GFF)
      (vpCommit (s.k % q₁) s.tq1 pp.GEC) (vpCommit (s.k % q₁) s.tq2 pp.GEC) pp.Bc = some c → ch s = c := by
    intro s c h
    rw [hch]
    dsimp only
    rw [h]
    rfl
  refine Set.ncard_congr (fun s _ => (ch s, s.k + ch s * x, (s.tp + ch s * rp) % q₁, (s.tq1 + ch s * rq1) % q₂, (s.tq2 + ch s * rq2) % q₂))
    ?_ ?_ ?_
  · rintro s ⟨⟨hk, ht, h1, h2⟩, pf, hs, hq⟩
    obtain ⟨c, hc, hz, rfl⟩ := out s pf hs
    rw [chOf hc]
    have hkm : s.k % (q₁ : Int) = s.k := Int.emod_eq_of_lt hk.1 (lt_of_lt_of_le hk.2 hU)
    obtain ⟨g1, g2⟩ := hg _ hq
    dsimp only at hc g1 g2
    rw [hkm] at hc g1 g2 hq
    obtain ⟨mW, mKp, ⟨u1, w1, m1⟩, ⟨u2, w2, m2⟩⟩ := simulate_move pp L₁ L₂ inj₁ hH₁ hH₂ x rp rq1 rq2 comm hY hXp hX1 hX2 dY dXp dX1 dX2
      c (s.k + c * x) s.k ((s.tp + c * rp) % q₁) s.tp ((s.tq1 + c * rq1) % q₂) s.tq1 ((s.tq2 + c * rq2) % q₂) s.tq2 rfl
      (by rw [cast_emod]; push_cast; rfl) (by rw [cast_emod]; push_cast; rfl) (by rw [cast_emod]; push_cast; rfl)
    have al : (simulate pp comm c (s.k + c * x) ((s.tp + c * rp) % q₁) ((s.tq1 + c * rq1) % q₂) ((s.tq2 + c * rq2) % q₂)).Alike R
        { W := pp.GFF.I.mulGen s.tp, Kp := vpCommit s.k s.tp pp.GFF, Kq1 := vpCommit s.k s.tq1 pp.GEC,
          Kq2 := vpCommit s.k s.tq2 pp.GEC, Challenge := some c, Z := some (s.k + c * x), Sp := some ((s.tp + c * rp) % q₁),
          Sq1 := some ((s.tq1 + c * rq1) % q₂), Sq2 := some ((s.tq2 + c * rq2) % q₂), Params := pp } :=
      ⟨mW, mKp, hR.rep u1 w1 m1 g1, hR.rep u2 w2 m2 g2, rfl, rfl, rfl, rfl, rfl, rfl⟩
    refine ⟨(zOk_iff _ _).mp hz, ⟨Int.emod_nonneg _ q1p.ne', Int.emod_lt_of_pos _ q1p⟩,
      ⟨Int.emod_nonneg _ q2p.ne', Int.emod_lt_of_pos _ q2p⟩, ⟨Int.emod_nonneg _ q2p.ne', Int.emod_lt_of_pos _ q2p⟩, ?_, hQ _ _ al hq⟩
    rw [← hc]
    unfold getFSChallenge fsTranscript
    rw [al.W, al.Kp, hR.str al.Kq1, hR.str al.Kq2]
  · rintro ⟨k, tp, t1, t2⟩ ⟨k', tp', t1', t2'⟩ ⟨⟨-, ⟨b1, b2⟩, ⟨c1, c2⟩, ⟨d1, d2⟩⟩, -⟩ ⟨⟨-, ⟨b1', b2'⟩, ⟨c1', c2'⟩, ⟨d1', d2'⟩⟩, -⟩ e
    simp only [Prod.mk.injEq] at e
    obtain ⟨e0, e1, e2, e3, e4⟩ := e
    rw [e0] at e1 e2 e3 e4
    dsimp only at b1 b2 c1 c2 d1 d2 b1' b2' c1' c2' d1' d2'
    have hc : ∀ {q : ℕ} {a b t : Int}, 0 ≤ a → a < q → 0 ≤ b → b < q → (a + t) % (q : Int) = (b + t) % q → a = b := by
      intro q a b t ha ha' hb hb' h
      rw [← red' (b := t) ha ha', h, red' hb hb']
    simp only [SigmaSample.mk.injEq]
    exact ⟨add_right_cancel e1, hc b1 b2 b1' b2' e2, hc c1 c2 c1' c2' e3, hc d1 d2 d1' d2' e4⟩
  · rintro ⟨c, z, sp, s1, s2⟩ ⟨hz, ⟨sp0, sp1⟩, ⟨s10, s11⟩, ⟨s20, s21⟩, hc, hq⟩
    dsimp only at hz sp0 sp1 s10 s11 s20 s21 hc hq
    obtain ⟨c0, c1⟩ := hcx _ _ _ _ _ hc
    obtain ⟨g1, g2⟩ := hg _ hq
    have z0 : 0 ≤ z - c * x := sub_nonneg.mpr (le_trans c1 hz.1)
    have z1 : z - c * x < pp.zUpperBound := lt_of_le_of_lt (sub_le_self _ c0) hz.2
    have hkm : (z - c * x) % (q₁ : Int) = z - c * x := Int.emod_eq_of_lt z0 (lt_of_lt_of_le z1 hU)
    obtain ⟨mW, mKp, ⟨u1, w1, m1⟩, ⟨u2, w2, m2⟩⟩ := simulate_move pp L₁ L₂ inj₁ hH₁ hH₂ x rp rq1 rq2 comm hY hXp hX1 hX2 dY dXp dX1 dX2
      c z (z - c * x) sp ((sp - c * rp) % q₁) s1 ((s1 - c * rq1) % q₂) s2 ((s2 - c * rq2) % q₂) (sub_add_cancel _ _).symm
      (by rw [cast_emod]; push_cast; ring) (by rw [cast_emod]; push_cast; ring) (by rw [cast_emod]; push_cast; ring)
    have al : SigmaProof.Alike R
        { W := pp.GFF.I.mulGen ((sp - c * rp) % q₁), Kp := vpCommit (z - c * x) ((sp - c * rp) % q₁) pp.GFF,
          Kq1 := vpCommit (z - c * x) ((s1 - c * rq1) % q₂) pp.GEC, Kq2 := vpCommit (z - c * x) ((s2 - c * rq2) % q₂) pp.GEC,
          Challenge := some c, Z := some z, Sp := some sp, Sq1 := some s1, Sq2 := some s2, Params := pp }
        (simulate pp comm c z sp s1 s2) :=
      ⟨mW.symm, mKp.symm, hR.rep w1 u1 m1.symm g1, hR.rep w2 u2 m2.symm g2, rfl, rfl, rfl, rfl, rfl, rfl⟩
    have hc' : getFSChallenge sha pp.GFF.I pp.GEC.I (pp.GFF.I.mulGen ((sp - c * rp) % q₁))
        (vpCommit ((z - c * x) % q₁) ((sp - c * rp) % q₁) pp.GFF) (vpCommit ((z - c * x) % q₁) ((s1 - c * rq1) % q₂) pp.GEC)
        (vpCommit ((z - c * x) % q₁) ((s2 - c * rq2) % q₂) pp.GEC) pp.Bc = some c := by
      rw [← hc, hkm]
      unfold getFSChallenge fsTranscript
      rw [← al.W, ← al.Kp, ← hR.str al.Kq1, ← hR.str al.Kq2]
    refine ⟨⟨z - c * x, (sp - c * rp) % q₁, (s1 - c * rq1) % q₂, (s2 - c * rq2) % q₂⟩, ⟨?_, _, ?_, hQ _ _ al hq⟩, ?_⟩
    · exact ⟨⟨z0, z1⟩, ⟨Int.emod_nonneg _ q1p.ne', Int.emod_lt_of_pos _ q1p⟩,
        ⟨Int.emod_nonneg _ q2p.ne', Int.emod_lt_of_pos _ q2p⟩, ⟨Int.emod_nonneg _ q2p.ne', Int.emod_lt_of_pos _ q2p⟩⟩
    · rw [sigmaAttempt_done (s := ⟨z - c * x, (sp - c * rp) % q₁, (s1 - c * rq1) % q₂, (s2 - c * rq2) % q₂⟩) hN₁ hN₂ hc']
      dsimp only
      rw [sub_add_cancel, if_pos ((zOk_iff _ _).mpr hz), hkm, red sp0 sp1, red s10 s11, red s20 s21]
    · rw [chOf (s := ⟨z - c * x, (sp - c * rp) % q₁, (s1 - c * rq1) % q₂, (s2 - c * rq2) % q₂⟩) hc']
      dsimp only
      rw [sub_add_cancel, red sp0 sp1, red s10 s11, red s20 s21]

/-- the ballot of the simulator, from the range proofs and the responses -/
def ballotOf (D : Election E₁ E₂) (ct : Ciphertext E₁) (pf₁ pf₂ : BulletProof E₂) (c z sp s1 s2 : Int) : BallotData E₁ E₂ :=
  { Ballot := ct, BpLower := pf₁, BpUpper := pf₂,
    VoteProof := simulate D.rp
      { Y := ct.U, Xp := ct.V, Xq1 := D.EC.add (D.EC.mulGen (D.lo.toNat : Int)) pf₁.V,
        Xq2 := D.EC.add (D.EC.mulGen (D.hi.toNat : Int)) (D.EC.mul pf₂.V (-1)) } c z sp s1 s2 }

/-- the simulator with range proofs for `v₁` and `v₂` instead of 0 -/
def midWith (P : BallotData E₁ E₂ → Prop) (sha : Bytes → Bytes) (D : Election E₁ E₂) (ct : Ciphertext E₁) (v₁ v₂ : Int) :
    Set (Int × SimDraw) :=
  {t | t.2.bp1.Drawn D.n D.EC.N ∧ t.2.bp2.Drawn D.n D.EC.N ∧ (D.rp.zLowerBound ≤ t.2.z ∧ t.2.z < D.rp.zUpperBound) ∧
    (0 ≤ t.2.sp ∧ t.2.sp < D.FF.N) ∧ (0 ≤ t.2.s1 ∧ t.2.s1 < D.EC.N) ∧ (0 ≤ t.2.s2 ∧ t.2.s2 < D.EC.N) ∧
    ∃ pf₁ pf₂, bpProve sha D.bp t.2.bp1 v₁ = some (.ok (pf₁, t.2.bp1.gamma)) ∧ bpProve sha D.bp t.2.bp2 v₂ = some (.ok (pf₂, t.2.bp2.gamma)) ∧
      let b := ballotOf D ct pf₁ pf₂ t.1 t.2.z t.2.sp t.2.s1 t.2.s2
      getFSChallenge sha D.FF D.EC b.VoteProof.W b.VoteProof.Kp b.VoteProof.Kq1 b.VoteProof.Kq2 D.Bc = some t.1 ∧ P b}

theorem simWith_eq (P : BallotData E₁ E₂ → Prop) (sha : Bytes → Bytes) (D : Election E₁ E₂) (ct : Ciphertext E₁) :
    simWith P sha D ct = midWith P sha D ct 0 0 := by
  ext ⟨c, t⟩
  unfold simWith midWith
  rw [Set.mem_ofPred_eq, Set.mem_ofPred_eq]
  refine and_congr_right fun _ => and_congr_right fun _ => and_congr_right fun _ => and_congr_right fun _ => and_congr_right fun _ =>
    and_congr_right fun _ => ?_
  unfold simBallot
  constructor
  · rintro ⟨b, h, hc, hp⟩
    dsimp only at h
    split at h
    swap
    · cases h
    rename_i p1 g1 p2 g2 e1 e2
    injection h with h
    obtain ⟨hg1, _⟩ := (bpProve_iff _ _ _ _ _ _).mp e1
    obtain ⟨hg2, _⟩ := (bpProve_iff _ _ _ _ _ _).mp e2
    subst hg1 hg2
    rw [← h] at hc hp
    exact ⟨p1, p2, e1, e2, hc, hp⟩
  · rintro ⟨p1, p2, e1, e2, hc, hp⟩
    dsimp only at e1 e2 ⊢
    rw [e1, e2]
    exact ⟨_, rfl, hc, hp⟩

theorem castChoice_ct {sha : Bytes → Bytes} {D : Election E₁ E₂} {choice : UInt16} {rnd : CastRand} {b : BallotData E₁ E₂}
    {ct : Ciphertext E₁} {rp : Int} (hct : encryptVote D.FF D.PK choice rnd.rEnc = some (ct, rp))
    (h : castChoice sha D.pp choice rnd = .done b) : b.Ballot = ct := by
  have hct' : encryptVote D.pp.FFGroupParams.I D.pp.EGPK choice rnd.rEnc = some (ct, rp) := hct
  unfold castChoice at h
  rw [hct'] at h
  dsimp only at h
  split at h
  · cases h
  · cases h
  split at h
  · cases h
  · cases h
  split at h
  · cases h
  split at h
  · cases h
  · cases h
  injection h with h
  rw [← h]

/-- changing one range proof for one that looks alike changes the ballot to one that looks alike -/
theorem ballotOf_alike (D : Election E₁ E₂) (L₂ : Lawful D.EC q₂ M₂) (vH : L₂.V D.H)
    {R : E₂ → E₂ → Prop} {good : E₂ → Prop} (hR : Looks L₂ R good)
    (ct : Ciphertext E₁) {a₁ a₂ b₁ b₂ : BulletProof E₂} (c z sp s1 s2 : Int)
    (h₁ : a₁.Alike (fun a b => R a b ∧ (L₂.V a ↔ L₂.V b) ∧ (L₂.V a → L₂.den a = L₂.den b)) b₁)
    (h₂ : a₂.Alike (fun a b => R a b ∧ (L₂.V a ↔ L₂.V b) ∧ (L₂.V a → L₂.den a = L₂.den b)) b₂)
    (v₁ : L₂.V b₁.V) (v₂ : L₂.V b₂.V) (hg : ∀ e ∈ (ballotOf D ct b₁ b₂ c z sp s1 s2).points, good e) :
    (ballotOf D ct a₁ a₂ c z sp s1 s2).Alike R (ballotOf D ct b₁ b₂ c z sp s1 s2) := by
  have u₁ := h₁.V.2.1.mpr v₁
  have u₂ := h₂.V.2.1.mpr v₂
  have d₁ := h₁.V.2.2 u₁
  have d₂ := h₂.V.2.2 u₂
  have vc : ∀ s, L₂.V (vpCommit z s D.gec) := fun s => V_vpCommit (gp := D.gec) L₂ vH _ _
  have x1 : ∀ {p : BulletProof E₂}, L₂.V p.V → L₂.V (D.EC.mul (D.EC.add (D.EC.mulGen (D.lo.toNat : Int)) p.V) c) :=
    fun h => L₂.V_mul _ (L₂.V_add (L₂.V_mulGen _) h)
  have x2 : ∀ {p : BulletProof E₂}, L₂.V p.V →
      L₂.V (D.EC.mul (D.EC.add (D.EC.mulGen (D.hi.toNat : Int)) (D.EC.mul p.V (-1))) c) :=
    fun h => L₂.V_mul _ (L₂.V_add (L₂.V_mulGen _) (L₂.V_mul _ h))
  refine ⟨rfl, h₁.mono fun _ _ h => h.1, h₂.mono fun _ _ h => h.1, rfl, rfl, ?_, ?_, rfl, rfl, rfl, rfl, rfl, rfl⟩
  · refine hR.rep (L₂.V_sub (vc _) (x1 u₁)) (L₂.V_sub (vc _) (x1 v₁)) ?_ (hg _ (by simp [BallotData.points]))
    change L₂.den (D.EC.sub (vpCommit z s1 D.gec) (D.EC.mul (D.EC.add (D.EC.mulGen (D.lo.toNat : Int)) a₁.V) c)) =
      L₂.den (D.EC.sub (vpCommit z s1 D.gec) (D.EC.mul (D.EC.add (D.EC.mulGen (D.lo.toNat : Int)) b₁.V) c))
    rw [L₂.den_sub (vc _) (x1 u₁), L₂.den_sub (vc _) (x1 v₁), L₂.den_mul _ (L₂.V_add (L₂.V_mulGen _) u₁),
      L₂.den_mul _ (L₂.V_add (L₂.V_mulGen _) v₁), L₂.den_add (L₂.V_mulGen _) u₁, L₂.den_add (L₂.V_mulGen _) v₁, d₁]
  · refine hR.rep (L₂.V_sub (vc _) (x2 u₂)) (L₂.V_sub (vc _) (x2 v₂)) ?_ (hg _ (by simp [BallotData.points]))
    change L₂.den (D.EC.sub (vpCommit z s2 D.gec) (D.EC.mul (D.EC.add (D.EC.mulGen (D.hi.toNat : Int)) (D.EC.mul a₂.V (-1))) c)) =
      L₂.den (D.EC.sub (vpCommit z s2 D.gec) (D.EC.mul (D.EC.add (D.EC.mulGen (D.hi.toNat : Int)) (D.EC.mul b₂.V (-1))) c))
    rw [L₂.den_sub (vc _) (x2 u₂), L₂.den_sub (vc _) (x2 v₂), L₂.den_mul _ (L₂.V_add (L₂.V_mulGen _) (L₂.V_mul _ u₂)),
      L₂.den_mul _ (L₂.V_add (L₂.V_mulGen _) (L₂.V_mul _ v₂)), L₂.den_add (L₂.V_mulGen _) (L₂.V_mul _ u₂),
      L₂.den_add (L₂.V_mulGen _) (L₂.V_mul _ v₂), L₂.den_mul _ u₂, L₂.den_mul _ v₂, d₂]

theorem ncard_of_injective {α β : Type} (S : Set α) (T : Set β) (f : α → β) (hf : Function.Injective f) (h : ∀ b, b ∈ T ↔ ∃ a ∈ S, f a = b) :
    T.ncard = S.ncard := by
  have : T = f '' S := Set.ext fun b => h b
  rw [this, Set.ncard_image_of_injective _ hf]

/-- **C100** For every choice of the range and every test `P`: the voter's draws whose ballot passes and the simulator's, who is given the
ciphertext only, are equally many.  The test must not tell apart ballots that look alike, and may pass only ballots of good points whose
last challenges in the range proofs are not zero modulo the order. -/
theorem C100_simulated [Fact q₂.Prime] (sha : Bytes → Bytes) (hsha : ∀ m, (sha m).length = 32) (D : Election E₁ E₂)
    (L₁ : Lawful D.FF q₁ M₁) (L₂ : Lawful D.EC q₂ M₂) (k : ℕ) (ok : D.OK L₁ L₂ k) (hq₁ : 0 < q₁)
    (inj₁ : ∀ {a b}, L₁.V a → L₁.V b → L₁.den a = L₁.den b → a = b)
    {R : E₂ → E₂ → Prop} {good : E₂ → Prop} (hR : Looks L₂ R good)
    (hgen : ∀ m : M₂, ∃ c : ZMod q₂, c • L₂.den D.H = m)
    (hz : 2 ^ D.Bc.toNat * (D.hi.toNat : Int) ≤ D.rp.zLowerBound) (hw : D.hi.toNat - D.lo.toNat < 2 ^ 2 ^ k)
    (choice : UInt16) (hlo : D.lo ≤ choice) (hhi : choice ≤ D.hi) (rEnc : Int) (ct : Ciphertext E₁) (rp : Int)
    (hct : encryptVote D.FF D.PK choice rEnc = some (ct, rp))
    (P : BallotData E₁ E₂ → Prop) (hP : ∀ a b : BallotData E₁ E₂, a.Alike R b → P b → P a)
    (hg : ∀ b, P b → ∀ e ∈ b.points, good e)
    (hx : ∀ b, P b → ¬ D.EC.N ∣ roundChallenge sha D.EC b.BpLower.T1 b.BpLower.T2 ∧
      ¬ D.EC.N ∣ roundChallenge sha D.EC b.BpUpper.T1 b.BpUpper.T2) :
    (voterWith P sha D choice rEnc).Finite ∧ (simWith P sha D ct).Finite ∧
    (voterWith P sha D choice rEnc).ncard = (simWith P sha D ct).ncard := by
  have hq₂ : 0 < q₂ := (Fact.out : q₂.Prime).pos
  have vH : L₂.V D.H := ok.bp.H
  have hn : D.n = 2 ^ k := ok.bp.N
  have hl : D.lo.toNat ≤ choice.toNat := UInt16.le_iff_toNat_le.mp hlo
  have hh : choice.toNat ≤ D.hi.toNat := UInt16.le_iff_toNat_le.mp hhi
  have s1 : ((choice - D.lo).toNat : Int) = choice.toNat - D.lo.toNat := by
    rw [UInt16.toNat_sub_of_le _ _ hlo]; omega
  have s2 : ((D.hi - choice).toNat : Int) = D.hi.toNat - choice.toNat := by
    rw [UInt16.toNat_sub_of_le _ _ hhi]; omega
  have r1 : (0 : Int) ≤ choice.toNat - D.lo.toNat ∧ (choice.toNat - D.lo.toNat : Int) < 2 ^ D.bp.N := by
    refine ⟨by omega, ?_⟩
    change _ < (2 : Int) ^ D.n
    rw [hn]; zify at hw; omega
  have r2 : (0 : Int) ≤ D.hi.toNat - choice.toNat ∧ (D.hi.toNat - choice.toNat : Int) < 2 ^ D.bp.N := by
    refine ⟨by omega, ?_⟩
    change _ < (2 : Int) ^ D.n
    rw [hn]; zify at hw; omega
  have r0 : (0 : Int) ≤ 0 ∧ (0 : Int) < 2 ^ D.bp.N := ⟨le_refl _, by positivity⟩
  have hN₁ : D.rp.GFF.N = some (q₁ : Int) := congrArg some L₁.N_eq
  have hN₂ : D.rp.GEC.N = some (q₂ : Int) := congrArg some L₂.N_eq
  have n1 : D.FF.N = (q₁ : Int) := L₁.N_eq
  have n2 : D.EC.N = (q₂ : Int) := L₂.N_eq
  -- the commitment of a range proof that `Prove` returns
  have com : ∀ (v : Int) (pf : BulletProof E₂) (r : BPRand), r.Drawn D.n D.EC.N → bpProve sha D.bp r v = some (.ok (pf, r.gamma)) →
      L₂.V pf.V ∧ L₂.den pf.V = (v : ZMod q₂) • L₂.g + (r.gamma : ZMod q₂) • L₂.den D.H := by
    intro v pf r hd hr
    obtain ⟨_, hV, _⟩ := bpProve_exact D.bp L₂ k ok.bp sha r (hd.lenL.trans hn) (hd.lenR.trans hn) _ _ _ hr
    rw [hV]
    exact ⟨L₂.V_pedersen vH _ _, L₂.den_pedersen vH _ _⟩
  have ctU : ct.U = D.FF.mulGen rp ∧ ct.V = D.FF.add (D.FF.mulGen (choice.toNat : Int)) (D.FF.mul D.PK rp) := by
    unfold encryptVote at hct
    split at hct
    · cases hct
    simp only [Option.some.injEq, Prod.mk.injEq] at hct
    rw [← hct.1, ← hct.2]
    exact ⟨rfl, rfl⟩
  have range : ∀ w Kp Kq1 Kq2 c, getFSChallenge sha D.FF D.EC w Kp Kq1 Kq2 D.Bc = some c → 0 ≤ c ∧ c < 2 ^ D.Bc.toNat := by
    intro w Kp Kq1 Kq2 c hc
    obtain ⟨-, c0, -, c1⟩ := (C28_challenge sha hsha D.FF D.EC w Kp Kq1 Kq2 D.Bc).2 c hc
    exact ⟨c0, c1⟩
  have hcx : ∀ w Kp Kq1 Kq2 c, getFSChallenge sha D.FF D.EC w Kp Kq1 Kq2 D.Bc = some c →
      0 ≤ c * (choice.toNat : Int) ∧ c * (choice.toNat : Int) ≤ D.rp.zLowerBound := by
    intro w Kp Kq1 Kq2 c hc
    obtain ⟨c0, c1⟩ := range _ _ _ _ _ hc
    exact ⟨by positivity, le_trans (mul_le_mul c1.le (by exact_mod_cast hh) (by positivity) (by positivity)) hz⟩
  have F : (voterWith P sha D choice rEnc).Finite := by
    refine Set.Finite.of_injOn (f := fun t : VoterDraw => (t.bp1, t.bp2, t.s)) (t := {r | r.Drawn D.n D.EC.N} ×ˢ {r | r.Drawn D.n D.EC.N} ×ˢ
      {s | Sampled D.rp q₁ q₂ s}) ?_ ?_ ((drawn_finite _ _).prod ((drawn_finite _ _).prod (sampled_finite _ _ _)))
    · rintro t ⟨h1, h2, h3, h4, h5, h6, _⟩
      rw [n1] at h4
      have h5' := h5
      have h6' := h6
      rw [n2] at h5' h6'
      exact ⟨h1, h2, h3, h4, h5', h6'⟩
    · rintro ⟨a, b, c⟩ _ ⟨a', b', c'⟩ _ h
      simpa using h
  have FM : ∀ v w : Int, (midWith P sha D ct v w).Finite := by
    intro v w
    refine Set.Finite.of_injOn (f := fun t : Int × SimDraw => (t.1, t.2.bp1, t.2.bp2, t.2.z, t.2.sp, t.2.s1, t.2.s2))
      (t := Set.Ico 0 (2 ^ D.Bc.toNat : Int) ×ˢ {r | r.Drawn D.n D.EC.N} ×ˢ {r | r.Drawn D.n D.EC.N} ×ˢ
        Set.Ico D.rp.zLowerBound D.rp.zUpperBound ×ˢ Set.Ico 0 D.FF.N ×ˢ Set.Ico 0 D.EC.N ×ˢ Set.Ico 0 D.EC.N) ?_ ?_
      ((Set.finite_Ico _ _).prod ((drawn_finite _ _).prod ((drawn_finite _ _).prod ((Set.finite_Ico _ _).prod
        ((Set.finite_Ico _ _).prod ((Set.finite_Ico _ _).prod (Set.finite_Ico _ _)))))))
    · rintro t ⟨h1, h2, h3, h4, h5, h6, pf₁, pf₂, _, _, hc, _⟩
      exact ⟨range _ _ _ _ _ hc, h1, h2, h3, h4, h5, h6⟩
    · rintro ⟨c, a1, a2, a3, a4, a5, a6⟩ _ ⟨c', b1, b2, b3, b4, b5, b6⟩ _ h
      simpa using h
  -- first step: the vote proof
  have stepA : Nonempty (voterWith P sha D choice rEnc ≃ midWith P sha D ct (choice.toNat - D.lo.toNat) (D.hi.toNat - choice.toNat)) := by
    refine equiv_of_fibres _ _ (fun t => (t.bp1, t.bp2)) (fun t => (t.2.bp1, t.2.bp2)) (fun _ => F.subset fun _ h => h.1)
      (fun _ => (FM _ _).subset fun _ h => h.1) ?_
    rintro ⟨a1, a2⟩
    by_cases hpf : a1.Drawn D.n D.EC.N ∧ a2.Drawn D.n D.EC.N ∧
        (∃ pf₁, bpProve sha D.bp a1 (choice.toNat - D.lo.toNat) = some (.ok (pf₁, a1.gamma))) ∧
        ∃ pf₂, bpProve sha D.bp a2 (D.hi.toNat - choice.toNat) = some (.ok (pf₂, a2.gamma))
    swap
    · have e1 : {t | t ∈ voterWith P sha D choice rEnc ∧ (t.bp1, t.bp2) = (a1, a2)} = ∅ := by
        rw [Set.eq_empty_iff_forall_notMem]
        rintro t ⟨⟨h1, h2, _, _, _, _, b, hb, _⟩, e⟩
        simp only [Prod.mk.injEq] at e
        obtain ⟨rfl, rfl⟩ := e
        have hB := castChoice_ct hct hb
        rw [castChoice_single (rp := rp) (by rw [hB]; exact hct), s1, s2] at hb
        exact hpf ⟨h1, h2, ⟨_, hb.1⟩, ⟨_, hb.2.1⟩⟩
      have e2 : {t | t ∈ midWith P sha D ct (choice.toNat - D.lo.toNat) (D.hi.toNat - choice.toNat) ∧ (t.2.bp1, t.2.bp2) = (a1, a2)} = ∅ := by
        rw [Set.eq_empty_iff_forall_notMem]
        rintro t ⟨⟨h1, h2, _, _, _, _, pf₁, pf₂, w1, w2, _⟩, e⟩
        simp only [Prod.mk.injEq] at e
        obtain ⟨rfl, rfl⟩ := e
        exact hpf ⟨h1, h2, ⟨_, w1⟩, ⟨_, w2⟩⟩
      rw [e1, e2]
      simp
    obtain ⟨dr1, dr2, ⟨pf₁, p1⟩, ⟨pf₂, p2⟩⟩ := hpf
    obtain ⟨v1, d1⟩ := com _ _ _ dr1 p1
    obtain ⟨v2, d2⟩ := com _ _ _ dr2 p2
    have key := sigma_swap sha D.rp L₁ L₂ inj₁ hR hq₁ hq₂ hN₁ hN₂ ok.pk vH ok.mask (choice.toNat : Int) rp a1.gamma (D.EC.N - a2.gamma)
      { Y := ct.U, Xp := ct.V, Xq1 := D.EC.add (D.EC.mulGen (D.lo.toNat : Int)) pf₁.V,
        Xq2 := D.EC.add (D.EC.mulGen (D.hi.toNat : Int)) (D.EC.mul pf₂.V (-1)) }
      (by dsimp only; rw [ctU.1]; exact L₁.V_mulGen _)
      (by dsimp only; rw [ctU.2]; exact L₁.V_add (L₁.V_mulGen _) (L₁.V_mul _ ok.pk))
      (L₂.V_add (L₂.V_mulGen _) v1) (L₂.V_add (L₂.V_mulGen _) (L₂.V_mul _ v2))
      (by dsimp only; rw [ctU.1]; exact L₁.den_mulGen _)
      (by
        dsimp only
        rw [ctU.2]
        refine (L₁.den_add (L₁.V_mulGen _) (L₁.V_mul _ ok.pk)).trans ?_
        rw [L₁.den_mulGen, L₁.den_mul _ ok.pk]
        rfl)
      (by
        refine (L₂.den_add (L₂.V_mulGen _) v1).trans ?_
        rw [L₂.den_mulGen, d1]
        change _ = (((choice.toNat : Int)) : ZMod q₂) • L₂.g + (a1.gamma : ZMod q₂) • L₂.den D.H
        push_cast; module)
      (by
        refine (L₂.den_add (L₂.V_mulGen _) (L₂.V_mul _ v2)).trans ?_
        rw [L₂.den_mulGen, L₂.den_mul _ v2, d2]
        change _ = (((choice.toNat : Int)) : ZMod q₂) • L₂.g + ((D.EC.N - a2.gamma : Int) : ZMod q₂) • L₂.den D.H
        rw [n2]
        push_cast
        rw [ZMod.natCast_self]
        module)
      hcx (fun pf => P { Ballot := ct, BpLower := pf₁, BpUpper := pf₂, VoteProof := pf })
      (fun a b h hb => hP { Ballot := ct, BpLower := pf₁, BpUpper := pf₂, VoteProof := a }
        { Ballot := ct, BpLower := pf₁, BpUpper := pf₂, VoteProof := b } ⟨rfl, BulletProof.Alike.rfl' hR.refl _, BulletProof.Alike.rfl' hR.refl _, h⟩ hb)
      (fun pf h => ⟨hg _ h _ (by simp [BallotData.points]), hg _ h _ (by simp [BallotData.points])⟩)
    refine Eq.trans (ncard_of_injective _ _ (fun s : SigmaSample => VoterDraw.mk a1 a2 s) ?_ ?_)
      (key.trans (ncard_of_injective _ _ (fun t : Int × Int × Int × Int × Int =>
        (t.1, SimDraw.mk a1 a2 t.2.1 t.2.2.1 t.2.2.2.1 t.2.2.2.2)) ?_ ?_).symm)
    · intro s s' h
      injection h
    · rintro ⟨b1, b2, s⟩
      constructor
      · rintro ⟨⟨_, _, h3, h4, h5, h6, b, hb, hp⟩, e⟩
        simp only [Prod.mk.injEq] at e
        obtain ⟨rfl, rfl⟩ := e
        have hB := castChoice_ct hct hb
        rw [castChoice_single (rp := rp) (by rw [hB]; exact hct), s1, s2] at hb
        obtain ⟨e1, e2, e3⟩ := hb
        rw [p1] at e1
        rw [p2] at e2
        simp only [Option.some.injEq, Except.ok.injEq, Prod.mk.injEq, and_true] at e1 e2
        rw [n1] at h4
        rw [n2] at h5 h6
        refine ⟨s, ⟨⟨h3, h4, h5, h6⟩, b.VoteProof, e3, ?_⟩, rfl⟩
        rw [e1, e2, ← hB]
        exact hp
      · rintro ⟨s', ⟨⟨h3, h4, h5, h6⟩, pf, hs, hp⟩, e⟩
        simp only [VoterDraw.mk.injEq] at e
        obtain ⟨rfl, rfl, rfl⟩ := e
        refine ⟨⟨dr1, dr2, h3, by rw [n1]; exact h4, by rw [n2]; exact h5, by rw [n2]; exact h6, _, ?_, hp⟩, rfl⟩
        rw [castChoice_single (rp := rp) hct, s1, s2]
        exact ⟨p1, p2, hs⟩
    · rintro ⟨a, b, c, d, e⟩ ⟨a', b', c', d', e'⟩ h
      simpa using h
    · rintro ⟨c, b1, b2, z, sp, s1, s2⟩
      constructor
      · rintro ⟨⟨_, _, h3, h4, h5, h6, pf, pf', e1, e2, hc, hp⟩, e⟩
        simp only [Prod.mk.injEq] at e
        obtain ⟨rfl, rfl⟩ := e
        dsimp only at e1 e2
        rw [p1] at e1
        rw [p2] at e2
        simp only [Option.some.injEq, Except.ok.injEq, Prod.mk.injEq, and_true] at e1 e2
        subst e1 e2
        rw [n1] at h4
        rw [n2] at h5 h6
        exact ⟨(c, z, sp, s1, s2), ⟨h3, h4, h5, h6, hc, hp⟩, rfl⟩
      · rintro ⟨⟨c', z', sp', s1', s2'⟩, ⟨h3, h4, h5, h6, hc, hp⟩, e⟩
        simp only [Prod.mk.injEq, SimDraw.mk.injEq] at e
        obtain ⟨rfl, rfl, rfl, rfl, rfl, rfl, rfl⟩ := e
        exact ⟨⟨dr1, dr2, h3, by rw [n1]; exact h4, by rw [n2]; exact h5, by rw [n2]; exact h6, pf₁, pf₂, p1, p2, hc, hp⟩, rfl⟩
  -- second and third step: the range proofs
  have fs : ∀ {a b : BallotData E₁ E₂}, a.Alike R b →
      getFSChallenge sha D.FF D.EC a.VoteProof.W a.VoteProof.Kp a.VoteProof.Kq1 a.VoteProof.Kq2 D.Bc =
      getFSChallenge sha D.FF D.EC b.VoteProof.W b.VoteProof.Kp b.VoteProof.Kq1 b.VoteProof.Kq2 D.Bc := by
    intro a b h
    unfold getFSChallenge fsTranscript
    rw [h.VoteProof.W, h.VoteProof.Kp, hR.str h.VoteProof.Kq1, hR.str h.VoteProof.Kq2]
  have stepB : ∀ v v' w : Int, 0 ≤ v ∧ v < 2 ^ D.bp.N → 0 ≤ v' ∧ v' < 2 ^ D.bp.N →
      Nonempty (midWith P sha D ct v w ≃ midWith P sha D ct v' w) := by
    intro v v' w hv hv'
    refine equiv_of_fibres _ _ (fun t => (t.1, t.2.bp2, t.2.z, t.2.sp, t.2.s1, t.2.s2))
      (fun t => (t.1, t.2.bp2, t.2.z, t.2.sp, t.2.s1, t.2.s2)) (fun _ => (FM _ _).subset fun _ h => h.1)
      (fun _ => (FM _ _).subset fun _ h => h.1) ?_
    rintro ⟨c, a2, z, sp, s1, s2⟩
    obtain ⟨P₁, hP₁⟩ : ∃ P₁ : BulletProof E₂ → Prop, P₁ = fun (pf₁ : BulletProof E₂) =>
        a2.Drawn D.n D.EC.N ∧ (D.rp.zLowerBound ≤ z ∧ z < D.rp.zUpperBound) ∧ (0 ≤ sp ∧ sp < D.FF.N) ∧ (0 ≤ s1 ∧ s1 < D.EC.N) ∧
        (0 ≤ s2 ∧ s2 < D.EC.N) ∧ L₂.V pf₁.V ∧ ∃ pf₂, bpProve sha D.bp a2 w = some (.ok (pf₂, a2.gamma)) ∧
          let b := ballotOf D ct pf₁ pf₂ c z sp s1 s2
          getFSChallenge sha D.FF D.EC b.VoteProof.W b.VoteProof.Kp b.VoteProof.Kq1 b.VoteProof.Kq2 D.Bc = some c ∧ P b := ⟨_, rfl⟩
    have test := C53_test D.bp L₂ k ok.bp hR.strict hgen sha P₁
      (by
        rw [hP₁]
        rintro a b hab ⟨t1, t2, t3, t4, t5, vb, pf₂, e2, hc, hp⟩
        obtain ⟨v2, _⟩ := com _ _ _ t1 e2
        have al := ballotOf_alike D L₂ vH hR ct c z sp s1 s2 hab (BulletProof.Alike.rfl' hR.strict.refl pf₂) vb v2 (hg _ hp)
        exact ⟨t1, t2, t3, t4, t5, hab.V.2.1.mpr vb, pf₂, e2, (fs al).trans hc, hP _ _ al hp⟩)
      (by
        rw [hP₁]
        rintro pf ⟨_, _, _, _, _, _, pf₂, _, _, hp⟩ e he
        exact hg _ hp e (by simp only [BallotData.points, List.mem_append]; exact Or.inl (Or.inl he)))
      (by
        rw [hP₁]
        rintro pf ⟨_, _, _, _, _, _, pf₂, _, _, hp⟩
        exact (hx _ hp).1)
    have fib : ∀ v : Int, {t : Int × SimDraw | t ∈ midWith P sha D ct v w ∧
        (t.1, t.2.bp2, t.2.z, t.2.sp, t.2.s1, t.2.s2) = (c, a2, z, sp, s1, s2)}.ncard = (runsWith P₁ sha D.bp v).ncard := by
      intro v
      refine ncard_of_injective _ _ (fun r : BPRand => (c, SimDraw.mk r a2 z sp s1 s2)) (fun r r' h => by simpa using h) ?_
      rintro ⟨c', a1, a2', z', sp', s1', s2'⟩
      rw [hP₁]
      constructor
      · rintro ⟨⟨h1, h2, h3, h4, h5, h6, pf₁, pf₂, e1, e2, hc, hp⟩, e⟩
        simp only [Prod.mk.injEq] at e
        obtain ⟨rfl, rfl, rfl, rfl, rfl, rfl⟩ := e
        exact ⟨a1, ⟨h1, pf₁, e1, h2, h3, h4, h5, h6, (com _ _ _ h1 e1).1, pf₂, e2, hc, hp⟩, rfl⟩
      · rintro ⟨a1', ⟨h1, pf₁, e1, h2, h3, h4, h5, h6, _, pf₂, e2, hc, hp⟩, e⟩
        simp only [Prod.mk.injEq, SimDraw.mk.injEq] at e
        obtain ⟨rfl, rfl, rfl, rfl, rfl, rfl, rfl⟩ := e
        exact ⟨⟨h1, h2, h3, h4, h5, h6, pf₁, pf₂, e1, e2, hc, hp⟩, rfl⟩
    rw [fib v, fib v']
    exact (test v v' hv hv').2
  have stepC : ∀ v w w' : Int, 0 ≤ w ∧ w < 2 ^ D.bp.N → 0 ≤ w' ∧ w' < 2 ^ D.bp.N →
      Nonempty (midWith P sha D ct v w ≃ midWith P sha D ct v w') := by
    intro v w w' hw hw'
    refine equiv_of_fibres _ _ (fun t => (t.1, t.2.bp1, t.2.z, t.2.sp, t.2.s1, t.2.s2))
      (fun t => (t.1, t.2.bp1, t.2.z, t.2.sp, t.2.s1, t.2.s2)) (fun _ => (FM _ _).subset fun _ h => h.1)
      (fun _ => (FM _ _).subset fun _ h => h.1) ?_
    rintro ⟨c, a1, z, sp, s1, s2⟩
    obtain ⟨P₂, hP₂⟩ : ∃ P₂ : BulletProof E₂ → Prop, P₂ = fun (pf₂ : BulletProof E₂) =>
        a1.Drawn D.n D.EC.N ∧ (D.rp.zLowerBound ≤ z ∧ z < D.rp.zUpperBound) ∧ (0 ≤ sp ∧ sp < D.FF.N) ∧ (0 ≤ s1 ∧ s1 < D.EC.N) ∧
        (0 ≤ s2 ∧ s2 < D.EC.N) ∧ L₂.V pf₂.V ∧ ∃ pf₁, bpProve sha D.bp a1 v = some (.ok (pf₁, a1.gamma)) ∧
          let b := ballotOf D ct pf₁ pf₂ c z sp s1 s2
          getFSChallenge sha D.FF D.EC b.VoteProof.W b.VoteProof.Kp b.VoteProof.Kq1 b.VoteProof.Kq2 D.Bc = some c ∧ P b := ⟨_, rfl⟩
    have test := C53_test D.bp L₂ k ok.bp hR.strict hgen sha P₂
      (by
        rw [hP₂]
        rintro a b hab ⟨t1, t2, t3, t4, t5, vb, pf₁, e1, hc, hp⟩
        obtain ⟨v1, _⟩ := com _ _ _ t1 e1
        have al := ballotOf_alike D L₂ vH hR ct c z sp s1 s2 (BulletProof.Alike.rfl' hR.strict.refl pf₁) hab v1 vb (hg _ hp)
        exact ⟨t1, t2, t3, t4, t5, hab.V.2.1.mpr vb, pf₁, e1, (fs al).trans hc, hP _ _ al hp⟩)
      (by
        rw [hP₂]
        rintro pf ⟨_, _, _, _, _, _, pf₁, _, _, hp⟩ e he
        exact hg _ hp e (by simp only [BallotData.points, List.mem_append]; exact Or.inl (Or.inr he)))
      (by
        rw [hP₂]
        rintro pf ⟨_, _, _, _, _, _, pf₁, _, _, hp⟩
        exact (hx _ hp).2)
    have fib : ∀ w : Int, {t : Int × SimDraw | t ∈ midWith P sha D ct v w ∧
        (t.1, t.2.bp1, t.2.z, t.2.sp, t.2.s1, t.2.s2) = (c, a1, z, sp, s1, s2)}.ncard = (runsWith P₂ sha D.bp w).ncard := by
      intro w
      refine ncard_of_injective _ _ (fun r : BPRand => (c, SimDraw.mk a1 r z sp s1 s2)) (fun r r' h => by simpa using h) ?_
      rintro ⟨c', a1', a2, z', sp', s1', s2'⟩
      rw [hP₂]
      constructor
      · rintro ⟨⟨h1, h2, h3, h4, h5, h6, pf₁, pf₂, e1, e2, hc, hp⟩, e⟩
        simp only [Prod.mk.injEq] at e
        obtain ⟨rfl, rfl, rfl, rfl, rfl, rfl⟩ := e
        exact ⟨a2, ⟨h2, pf₂, e2, h1, h3, h4, h5, h6, (com _ _ _ h2 e2).1, pf₁, e1, hc, hp⟩, rfl⟩
      · rintro ⟨a2', ⟨h2, pf₂, e2, h1, h3, h4, h5, h6, _, pf₁, e1, hc, hp⟩, e⟩
        simp only [Prod.mk.injEq, SimDraw.mk.injEq] at e
        obtain ⟨rfl, rfl, rfl, rfl, rfl, rfl, rfl⟩ := e
        exact ⟨⟨h1, h2, h3, h4, h5, h6, pf₁, pf₂, e1, e2, hc, hp⟩, rfl⟩
    rw [fib w, fib w']
    exact (test w w' hw hw').2
  obtain ⟨A⟩ := stepA
  obtain ⟨B⟩ := stepB _ 0 (D.hi.toNat - choice.toNat) r1 r0
  obtain ⟨C⟩ := stepC 0 _ 0 r2 r0
  rw [simWith_eq]
  have e := A.trans (B.trans C)
  refine ⟨F, ?_, ?_⟩
  · exact FM 0 0
  · rw [← Nat.card_coe_set_eq, ← Nat.card_coe_set_eq]
    exact Nat.card_congr e

end

/-- C100: the hypotheses hold for candidates 3 to 9 and choice 5, with a test that the voter's ballot passes: both last challenges are not
zero and `Z` is above 5000. -/
example : (Nat.Prime 8209 ∧ spElection.OK (toyLawful 16381) (toyLawful 8209) 2) ∧
    Looks (toyLawful 8209) Eq (fun _ => True) ∧
    2 ^ spElection.Bc.toNat * (spElection.hi.toNat : Int) ≤ spElection.rp.zLowerBound ∧
    (match castChoice exSha3 spElection.pp 5 ⟨0, 76, exRnd, exRnd, [⟨5000, 7, 8, 9⟩]⟩ with
      | .done b => decide (roundChallenge exSha3 spElection.EC b.BpLower.T1 b.BpLower.T2 % 8209 ≠ 0 ∧
          roundChallenge exSha3 spElection.EC b.BpUpper.T1 b.BpUpper.T2 % 8209 ≠ 0 ∧ 5000 < b.VoteProof.Z.getD 0)
      | _ => false) = true := by
  refine ⟨⟨by norm_num, spElection_ok⟩, Looks.eq fun ha hb e => int_eq_of_cast (q := 8209) ha hb e, by decide +kernel, by decide +kernel⟩

/-- what C100 says about the parameters that `setup` returns for a group of order `n` -/
def SimulatesFrom {E : Type} (nan64 : BitVec 64) (C : Grp E) (n : ℕ) (R : E → E → Prop) (good : E → Prop) : Prop :=
  ∃ D : Election Int E, setup nan64 C = some (.ok D.pp) ∧ ∀ sha : Bytes → Bytes, (∀ m, (sha m).length = 32) →
    ∀ P : BallotData Int E → Prop, (∀ a b : BallotData Int E, a.Alike R b → P b → P a) → (∀ b, P b → ∀ e ∈ b.points, good e) →
    (∀ b, P b → ¬ (n : Int) ∣ roundChallenge sha C b.BpLower.T1 b.BpLower.T2 ∧ ¬ (n : Int) ∣ roundChallenge sha C b.BpUpper.T1 b.BpUpper.T2) →
    ∀ choice : UInt16, 101 ≤ choice → choice ≤ 2000 →
    ∀ (rEnc rp : Int) (ct : Ciphertext Int), encryptVote (modPGrp rfcGroup) 8192 choice rEnc = some (ct, rp) →
    (voterWith P sha D choice rEnc).Finite ∧ (simWith P sha D ct).Finite ∧
    (voterWith P sha D choice rEnc).ncard = (simWith P sha D ct).ncard

/-- **C100** With the parameters of `setup`, for any curve of the table whose group has as many elements as its order and whose `H` is not
the identity. -/
theorem C100_deployed {E : Type} (nan64 : BitVec 64) (C : Grp E) (N bits : ℕ) (Bb : Int) (row : (N, bits, Bb) ∈ curveTable)
    [Fact N.Prime] {M : Type} [AddCommGroup M] [Module (ZMod N) M] (L₀ : Lawful C N M) (hcard : Nat.card M = N)
    (hm : ∀ s, SetupSeed 16 s → ∃ e, C.mapToGroup s = some e ∧ L₀.V e)
    (hH : ∀ e, C.mapToGroup SEEDH = some e → L₀.den e ≠ 0)
    {R : E → E → Prop} {good : E → Prop} (hR : Looks L₀ R good) : SimulatesFrom nan64 C N R good := by
  obtain ⟨D, hD, dep, _⟩ := C47_curves nan64 C (fun s h => (hm s h).imp fun e h1 => h1.1) N bits Bb row L₀.N_eq
  obtain ⟨L₁, Lw, hok, eV, eD⟩ := deployed_legal C D N bits Bb row L₀ (seeds_legal hm) dep
  have hR' : Looks Lw R good := ⟨hR.refl, hR.symm, hR.trans, fun h => by rw [dep.EC]; exact hR.str h, hR.good_of, fun {a b} ha hb e g => by
    rw [eV] at ha hb
    rw [eD] at e
    exact hR.rep ha hb e g⟩
  have hd : Lw.den D.H ≠ 0 := by
    rw [eD]
    exact hH _ dep.H
  have hlo : D.lo = 101 := dep.lo
  have hhi : D.hi = 2000 := dep.hi
  have hN : D.EC.N = (N : Int) := by rw [dep.EC, L₀.N_eq]
  refine ⟨D, hD, fun sha hsha P hP hg hx choice h1 h2 rEnc rp ct hct => ?_⟩
  refine C100_simulated sha hsha D L₁ Lw 4 hok modp3072Q_prime.pos ?_ hR' ?_ ?_ ?_ choice (hlo ▸ h1) (hhi ▸ h2) rEnc ct rp ?_ P hP hg ?_
  · intro x y hx hy e
    have := (L₁.isEqual_iff hx hy).mpr e
    rw [dep.FF] at this
    have h : (x == y) = true := this
    exact eq_of_beq h
  · intro m
    have : m ∈ AddSubgroup.zmultiples (Lw.den D.H) := mem_zmultiples_of_prime_card hcard hd
    obtain ⟨j, e⟩ := AddSubgroup.mem_zmultiples_iff.mp this
    refine ⟨j, ?_⟩
    rw [← e]
    exact Int.cast_smul_eq_zsmul (ZMod N) j _
  · rw [dep.zLower, dep.Bc, hhi]; decide +kernel
  · rw [hlo, hhi]; decide
  · rw [dep.FF, dep.PK]; exact hct
  · rw [hN, dep.EC]; exact hx

/-- **C100** P-256 and P-384 -/
theorem C100_circl (nan64 : BitVec 64) {C : CirclCurve} {bits : ℕ} {H U : WPoint} {Gg Hh : List WPoint}
    (row : RealRow C bits H U Gg Hh) : SimulatesFrom nan64 (circlGrp C) C.n Eq (fun _ => True) := by
  obtain ⟨Bb, hr, _⟩ := row.std.table
  have ok := stdCircl_ord row.std.circl
  have := ok.fact'
  have : Fact C.n.Prime := ⟨ok.n_prime⟩
  let _ := ok.module
  refine C100_deployed nan64 (circlGrp C) C.n bits Bb hr ok.lawful ok.card
    (fun s _ => ⟨_, rfl, (wLegal_iff _ _).mpr (row.valid s)⟩) ?_ (Looks.eq fun ha hb e => wDen_inj ok.noroot ok.two_ne ha hb e)
  intro e he e0
  obtain rfl : C.hash SEEDH = e := Option.some.inj he
  have h0 : C.hash SEEDH = ⟨0, 0⟩ :=
    wDen_inj ok.noroot ok.two_ne ((wLegal_iff _ _).mpr (row.valid SEEDH)) (Or.inl rfl) (e0.trans wDen_zero.symm)
  exact row.distinct.2 (by rw [← h0, row.vals.1]; simp)

/-- **C100** The four groups of the program.  secp256k1: ballots none of whose points outside the inner product arguments is the identity.
Ristretto255: whatever `circl` hashes the seed of `H` to, unless it is the identity, and tests that see the points through their encodings.
P-256 and P-384: any test. -/
theorem C100_main (nan64 : BitVec 64) (L : K1Lib) (hL : L.Identities) (pieces : Bytes → List Bytes)
    (hp : edEqual (R255.fromPieces (pieces SEEDH)) edZero = false) (dec256 dec384 : Bytes → Option WPoint) :
    SimulatesFrom nan64 (k1Grp L.real) k1N Eq (fun e => (k1Grp L.real).isIdentity e = false) ∧
    SimulatesFrom nan64 (r255Grp (r255Real pieces)) r255N SameCode (fun _ => True) ∧
    SimulatesFrom nan64 (circlGrp (p256Real dec256)) (p256Real dec256).n Eq (fun _ => True) ∧
    SimulatesFrom nan64 (circlGrp (p384Real dec384)) (p384Real dec384).n Eq (fun _ => True) := by
  refine ⟨?_, ?_, ?_, ?_⟩
  · let _ := k1Module
    have : Fact k1N.Prime := ⟨C48_orders.1⟩
    refine C100_deployed nan64 (k1Grp L.real) k1N 256 15 k1_row (k1Lawful (real_identities hL).ok) k1_card
      (K1HashOK.legal (C66_seeds L)) ?_ (looks_k1 (real_identities hL).ok)
    intro e he e0
    obtain ⟨e', h1, hv, h3⟩ := (C66_seeds L SEEDH (Or.inl rfl)).map
    obtain rfl : e' = e := Option.some.inj (h1.symm.trans he)
    obtain ⟨x, y, eh, hx, _⟩ := C66_seeds L SEEDH (Or.inl rfl)
    rcases K1Legal.cases hv with ⟨z, _⟩ | ⟨_, _, hne, _⟩
    · rw [h3, eh] at z
      rcases z with z | z
      · simp at z
      · simp only [K1Point.mk.injEq, Option.some.injEq, Nat.cast_eq_zero] at z
        rw [z.1] at hx
        exact absurd hx (by decide +kernel)
    · have := (k1Den_inj hv (K1Zero.legal (Or.inl rfl))).mp (e0.trans (K1Zero.den (Or.inl rfl)).symm)
      exact hne (this.trans (K1Zero.coords (Or.inl rfl)))
  · let _ := r255Module
    refine C100_deployed nan64 (r255Grp (r255Real pieces)) r255N 253 12 r255_row (r255Lawful (r255Real pieces)) r255Group_card
      (r255_hash fun s _ => C65_pieces (pieces s)) (fun e he e0 => ?_) (looks_r255 pieces)
    obtain rfl : R255.fromPieces (pieces SEEDH) = e := Option.some.inj he
    have hz := ((r255Lawful (r255Real pieces)).isIdentity_iff (R255.fromPieces_even (pieces SEEDH))).mpr e0
    have hz' : edEqual (R255.fromPieces (pieces SEEDH)) edZero = true := hz
    rw [hp] at hz'
    exact Bool.noConfusion hz'
  · exact C100_circl nan64 (RealRow.p256 dec256)
  · exact C100_circl nan64 (RealRow.p384 dec384)

end MscPoc
