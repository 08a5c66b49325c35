import Verif.Props.Codec
import Verif.Lemmas.Sigma
import Verif.Lemmas.ModP

/-!
# C38 — the hashed transcript of the vote proof
-/

set_option autoImplicit false

namespace MscPoc

/-- a byte of a decimal number: '-' or a digit -/
def isDec (b : UInt8) : Bool := b == 45 || (48 ≤ b && b ≤ 57)

theorem natDec_isDec (n : ℕ) : ∀ b ∈ natDec n, isDec b = true := by
  intro b hb
  unfold natDec at hb
  split at hb
  · simp at hb; subst hb; rfl
  · simp only [List.map_reverse, List.mem_reverse, List.mem_map] at hb
    obtain ⟨d, hd, rfl⟩ := hb
    have := Nat.digits_lt_base (by norm_num) hd
    interval_cases d <;> rfl

theorem bigDec_isDec (x : Int) : ∀ b ∈ bigDec x, isDec b = true := by
  intro b hb
  unfold bigDec at hb
  split at hb
  · rcases List.mem_cons.mp hb with rfl | hb
    · rfl
    · exact natDec_isDec _ b hb
  · exact natDec_isDec _ b hb

theorem takeWhile_dec (u r : Bytes) (t : UInt8) (hu : ∀ b ∈ u, isDec b = true) (ht : isDec t = false) :
    (u ++ t :: r).takeWhile isDec = u := by
  induction u with
  | nil => simp [ht]
  | cons a u ih =>
    rw [List.cons_append, List.takeWhile_cons_of_pos (hu a (by simp)), ih (fun b hb => hu b (by simp [hb]))]

theorem marshalBinary_tag (c : WCurve) (e : WPoint) : ∃ t r, e.marshalBinary c = t :: r ∧ isDec t = false := by
  unfold WPoint.marshalBinary
  split
  · exact ⟨0, [], rfl, rfl⟩
  · exact ⟨4, _, rfl, rfl⟩

/-- point encodings are prefix free -/
theorem marshalBinary_prefix (c : WCurve) (hc : StdCurve c) (e e' : WPoint) (he : e.Valid c) (he' : e'.Valid c) (r r' : Bytes)
    (h : e.marshalBinary c ++ r = e'.marshalBinary c ++ r') : e = e' ∧ r = r' := by
  have hlen : (e.marshalBinary c).length = (e'.marshalBinary c).length := by
    obtain ⟨hp, _⟩ := hc.size
    have hfull : ∀ e : WPoint, e.Valid c → e ≠ ⟨0, 0⟩ → (e.marshalBinary c).length = 2 * c.byteLen + 1 := by
      intro e he h0
      obtain ⟨hx, hy, _⟩ := he.resolve_left h0
      unfold WPoint.marshalBinary
      rw [if_neg h0, List.length_cons, List.length_append, fillBytes_length (by omega), fillBytes_length (by omega)]
      omega
    by_cases h1 : e = ⟨0, 0⟩ <;> by_cases h2 : e' = ⟨0, 0⟩
    · rw [h1, h2]
    · unfold WPoint.marshalBinary at h
      rw [if_pos h1, if_neg h2] at h
      simp at h
    · unfold WPoint.marshalBinary at h
      rw [if_neg h1, if_pos h2] at h
      simp at h
    · rw [hfull e he h1, hfull e' he' h2]
  obtain ⟨h1, h2⟩ := List.append_inj h hlen
  exact ⟨C06_injective c hc e e' he he' (Or.inr h1), h2⟩

/-- **C38** Ambiguity: in the safe-prime group with generator 2 the first moves `(W,Kp) = (1, 64)` and `(16, 4)` — powers of the
generator — give the same challenge under every hash function. -/
theorem C38_ambiguous {E₂ : Type} (sha : Bytes → Bytes) (g : ModPGroup) (hg : g.gen = 2) (hp : 64 < g.fieldOrder) (G₂ : Grp E₂)
    (Kq1 Kq2 : E₂) (Bc : UInt16) :
    (modPGrp g).mulGen 0 = 1 ∧ (modPGrp g).mulGen 6 = 64 ∧ (modPGrp g).mulGen 4 = 16 ∧ (modPGrp g).mulGen 2 = 4 ∧
    getFSChallenge sha (modPGrp g) G₂ 1 64 Kq1 Kq2 Bc = getFSChallenge sha (modPGrp g) G₂ 16 4 Kq1 Kq2 Bc := by
  have h : ∀ n : ℕ, (2 : Int) ^ n < g.fieldOrder → (modPGrp g).mulGen n = 2 ^ n := by
    intro n hn
    change bigExp 0 g.gen n g.fieldOrder = 2 ^ n
    unfold bigExp
    rw [if_pos (by omega), hg, Int.toNat_natCast]
    exact Int.emod_eq_of_lt (by positivity) hn
  have e : bigDec 1 ++ bigDec 64 = bigDec 16 ++ bigDec 4 := by decide +kernel
  refine ⟨h 0 (by omega), h 6 (by omega), h 4 (by omega), h 2 (by omega), ?_⟩
  unfold getFSChallenge fsTranscript
  change ((sliceTo (sha (bigDec 1 ++ bigDec 64 ++ G₂.str Kq1 ++ G₂.str Kq2)) _).bind _) =
    ((sliceTo (sha (bigDec 16 ++ bigDec 4 ++ G₂.str Kq1 ++ G₂.str Kq2)) _).bind _)
  rw [e]

/-- C38: that is the only ambiguity for P-256 and P-384 (whose `String()` is the binary encoding). -/
theorem C38_only_ambiguity (c : WCurve) (hc : StdCurve c) (g : ModPGroup) (G₂ : Grp WPoint)
    (hstr : ∀ e, G₂.str e = e.marshalBinary c) (W Kp W' Kp' : Int) (Kq1 Kq2 Kq1' Kq2' : WPoint)
    (v1 : Kq1.Valid c) (v2 : Kq2.Valid c) (v1' : Kq1'.Valid c) (v2' : Kq2'.Valid c) :
    fsTranscript (modPGrp g) G₂ W Kp Kq1 Kq2 = fsTranscript (modPGrp g) G₂ W' Kp' Kq1' Kq2' ↔
      Kq1 = Kq1' ∧ Kq2 = Kq2' ∧ bigDec W ++ bigDec Kp = bigDec W' ++ bigDec Kp' := by
  constructor
  · intro h
    unfold fsTranscript at h
    change bigDec W ++ bigDec Kp ++ G₂.str Kq1 ++ G₂.str Kq2 = bigDec W' ++ bigDec Kp' ++ G₂.str Kq1' ++ G₂.str Kq2' at h
    rw [hstr, hstr, hstr, hstr, List.append_assoc, List.append_assoc (bigDec W' ++ bigDec Kp')] at h
    have hdec : ∀ W Kp : Int, ∀ b ∈ bigDec W ++ bigDec Kp, isDec b = true := by
      intro W Kp b hb
      rcases List.mem_append.mp hb with hb | hb
      · exact bigDec_isDec _ b hb
      · exact bigDec_isDec _ b hb
    have hu : bigDec W ++ bigDec Kp = bigDec W' ++ bigDec Kp' := by
      obtain ⟨t, r, e, ht⟩ := marshalBinary_tag c Kq1
      obtain ⟨t', r', e', ht'⟩ := marshalBinary_tag c Kq1'
      have h' := h
      rw [e, e', List.cons_append, List.cons_append] at h'
      have h2 := congrArg (List.takeWhile isDec) h'
      rwa [takeWhile_dec _ _ _ (hdec W Kp) ht, takeWhile_dec _ _ _ (hdec W' Kp') ht'] at h2
    rw [hu] at h
    have h3 := List.append_cancel_left h
    obtain ⟨e1, h4⟩ := marshalBinary_prefix c hc _ _ v1 v1' _ _ h3
    have h5 : Kq2.marshalBinary c ++ [] = Kq2'.marshalBinary c ++ [] := by rw [h4]
    exact ⟨e1, (marshalBinary_prefix c hc _ _ v2 v2' _ _ h5).1, hu⟩
  · rintro ⟨rfl, rfl, h⟩
    unfold fsTranscript
    change bigDec W ++ bigDec Kp ++ _ ++ _ = bigDec W' ++ bigDec Kp' ++ _ ++ _
    rw [h]

section
variable {E₁ E₂ : Type} {q₁ q₂ : ℕ} {M₁ M₂ : Type} [AddCommGroup M₁] [Module (ZMod q₁) M₁] [AddCommGroup M₂]
  [Module (ZMod q₂) M₂]

/-- The statement solved for after the challenge is known: `ci` are inverses of the challenge modulo the two orders. -/
def chosenStatement (pf : SigmaProof E₁ E₂) (z sp sq1 sq2 ci1 ci2 : Int) : VerCommitments E₁ E₂ :=
  let F := pf.Params.GFF
  let C := pf.Params.GEC
  { Y := F.I.mul (F.I.sub (F.I.mulGen sp) pf.W) ci1
    Xp := F.I.mul (F.I.sub (vpCommit z sp F) pf.Kp) ci1
    Xq1 := C.I.mul (C.I.sub (vpCommit z sq1 C) pf.Kq1) ci2
    Xq2 := C.I.mul (C.I.sub (vpCommit z sq2 C) pf.Kq2) ci2 }

/-- C38: the statement is not hashed.  For every first move and all responses (with `z` in range), a statement chosen after the
challenge makes the proof verify, as soon as the challenge is invertible modulo both orders. -/
theorem C38_statement_after_challenge (sha : Bytes → Bytes) (pf : SigmaProof E₁ E₂) (L₁ : Lawful pf.Params.GFF.I q₁ M₁)
    (L₂ : Lawful pf.Params.GEC.I q₂ M₂) (hHF : L₁.V pf.Params.GFF.H) (hHE : L₂.V pf.Params.GEC.H) (hW : L₁.V pf.W)
    (hKp : L₁.V pf.Kp) (hK1 : L₂.V pf.Kq1) (hK2 : L₂.V pf.Kq2) (z c sp sq1 sq2 ci1 ci2 : Int)
    (hz : pf.Params.zLowerBound ≤ z ∧ z < pf.Params.zUpperBound)
    (hc : getFSChallenge sha pf.Params.GFF.I pf.Params.GEC.I pf.W pf.Kp pf.Kq1 pf.Kq2 pf.Params.Bc = some c)
    (h1 : (c : ZMod q₁) * ci1 = 1) (h2 : (c : ZMod q₂) * ci2 = 1) :
    { pf with Z := some z, Challenge := some c, Sp := some sp, Sq1 := some sq1, Sq2 := some sq2 }.verify sha
      (chosenStatement pf z sp sq1 sq2 ci1 ci2) = some true := by
  have vc := V_vpCommit (gp := pf.Params.GFF) L₁ hHF z sp
  have vc1 := V_vpCommit (gp := pf.Params.GEC) L₂ hHE z sq1
  have vc2 := V_vpCommit (gp := pf.Params.GEC) L₂ hHE z sq2
  have s0 := L₁.V_sub (L₁.V_mulGen sp) hW
  have s1 := L₁.V_sub vc hKp
  have s2 := L₂.V_sub vc1 hK1
  have s3 := L₂.V_sub vc2 hK2
  refine (sigma_verify_iff _ _ _).mpr ⟨z, c, sp, sq1, sq2, rfl, rfl, rfl, rfl, rfl, (zOk_iff _ _).mpr hz, hc, ?_⟩
  refine (sigmaChecks_iff pf.Params L₁ L₂ _ (chosenStatement pf z sp sq1 sq2 ci1 ci2)
    ⟨hHF, hHE, hW, hKp, hK1, hK2, L₁.V_mul _ s0, L₁.V_mul _ s1, L₂.V_mul _ s2, L₂.V_mul _ s3⟩ _ _ _ _ _).mpr ?_
  constructor
  · change _ = (c : ZMod q₁) • L₁.den (pf.Params.GFF.I.mul _ ci1) + L₁.den pf.W
    rw [L₁.den_mul _ s0, L₁.den_sub (L₁.V_mulGen sp) hW, L₁.den_mulGen, smul_smul, h1, one_smul]
    module
  · change _ = (c : ZMod q₁) • L₁.den (pf.Params.GFF.I.mul _ ci1) + L₁.den pf.Kp
    rw [L₁.den_mul _ s1, L₁.den_sub vc hKp, den_vpCommit (gp := pf.Params.GFF) L₁ hHF, smul_smul, h1, one_smul]
    module
  · change _ = (c : ZMod q₂) • L₂.den (pf.Params.GEC.I.mul _ ci2) + L₂.den pf.Kq1
    rw [L₂.den_mul _ s2, L₂.den_sub vc1 hK1, den_vpCommit (gp := pf.Params.GEC) L₂ hHE, smul_smul, h2, one_smul]
    module
  · change _ = (c : ZMod q₂) • L₂.den (pf.Params.GEC.I.mul _ ci2) + L₂.den pf.Kq2
    rw [L₂.den_mul _ s3, L₂.den_sub vc2 hK2, den_vpCommit (gp := pf.Params.GEC) L₂ hHE, smul_smul, h2, one_smul]
    module

end

/-- C38: two transcripts that differ only in a curve element are different. -/
example (d : Bytes → Option WPoint) (g : ModPGroup) (G₂ : Grp WPoint) (hstr : ∀ e, G₂.str e = e.marshalBinary (p256Curve d)) :
    fsTranscript (modPGrp g) G₂ 1 64 p256Gen ⟨0, 0⟩ ≠ fsTranscript (modPGrp g) G₂ 16 4 ⟨0, 0⟩ p256Gen := by
  have v : p256Gen.Valid (p256Curve d) := Or.inr (by unfold p256Gen p256Curve; norm_num)
  rw [Ne, C38_only_ambiguity (p256Curve d) ⟨d, Or.inl rfl⟩ g G₂ hstr _ _ _ _ _ _ _ _ v (Or.inl rfl) (Or.inl rfl) v]
  rintro ⟨h, _⟩
  exact absurd h (by decide)

end MscPoc
