import Verif.Lemmas.Size
import Verif.Props.TextBytes

/-!
# C89 — reduced numbers and sizes
-/

set_option autoImplicit false

namespace MscPoc

section
variable {E E₁ E₂ : Type}

theorem sameMod_eq {q lo hi : Int} (hq : hi - lo ≤ q) {x y : Option Int} (hx : InRange lo hi x) (hy : InRange lo hi y)
    (h : SameMod q x y) : y = x := by
  rcases h with ⟨rfl, rfl⟩ | ⟨v, w, k, rfl, rfl, rfl⟩
  · rfl
  obtain ⟨a, e, a1, a2⟩ := hx
  obtain ⟨b, e', b1, b2⟩ := hy
  simp only [Option.some.injEq] at e e'
  subst e e'
  have hk : k = 0 := by
    rcases lt_trichotomy k 0 with h | h | h
    · nlinarith
    · exact h
    · nlinarith
  subst hk
  simp

/-- **C89** Whatever the random numbers are: the numbers in a ballot built by the voter code are never nil, the six of each range proof
and `Sq1`, `Sq2` are in `[0, q₂)`, `Sp` in `[0, q₁)`, `Z` between its bounds and the challenge in `[0, 2^Bc)`.  (Group laws are not
needed.) -/
theorem C89_reduced (sha : Bytes → Bytes) (hsha : ∀ m, (sha m).length = 32) (D : Election E₁ E₂) (hq₁ : 0 < D.FF.N)
    (hq₂ : 0 < D.EC.N) (choice : UInt16) (rnd : CastRand)
    (ballot : BallotData E₁ E₂) (h : castChoice sha D.pp choice rnd = .done ballot) :
    ballot.Reduced D.FF.N D.EC.N D.rp.zLowerBound D.rp.zUpperBound D.Bc.toNat :=
  (castChoice_reduced sha hsha D hq₁ hq₂ choice rnd ballot h).1

/-- **C89** Two ballots with reduced numbers that have the same elements and whose numbers agree up to multiples of the orders are the
same ballot. -/
theorem C89_unique {q₁ q₂ zlo zhi : Int} {Bc : ℕ} (hz : zhi - zlo ≤ q₁) {b b' : BallotData E₁ E₂}
    (h : b.Reduced q₁ q₂ zlo zhi Bc) (h' : b'.Reduced q₁ q₂ zlo zhi Bc) (hs : b.Same q₁ q₂ b') : b' = b := by
  have bp : ∀ {p p' : BulletProof E₂}, p.Reduced q₂ → p'.Reduced q₂ → p.Same q₂ p' → p' = p := by
    rintro ⟨V, A, S, T1, T2, tx, mu, tp, ⟨P, cc, a, b, L, R, pr⟩, par⟩ ⟨V', A', S', T1', T2', tx', mu', tp', ⟨P', cc', a', b', L', R', pr'⟩, par'⟩
      r r' ⟨⟨e1, e2, e3, e4, e5, e6⟩, ⟨e7, e8, e9, e10⟩, s1, s2, s3, s4, s5, s6⟩
    dsimp only at *
    have h0 : q₂ - 0 ≤ q₂ := by omega
    have z1 : tx' = tx := sameMod_eq h0 r.Taux r'.Taux s1
    have z2 : mu' = mu := sameMod_eq h0 r.Mu r'.Mu s2
    have z3 : tp' = tp := sameMod_eq h0 r.Tprime r'.Tprime s3
    have z4 : cc' = cc := sameMod_eq h0 r.Cc r'.Cc s4
    have z5 : a' = a := sameMod_eq h0 r.A r'.A s5
    have z6 : b' = b := sameMod_eq h0 r.B r'.B s6
    rw [z1, z2, z3, z4, z5, z6, e1, e2, e3, e4, e5, e6, e7, e8, e9, e10]
  have vp : b'.VoteProof = b.VoteProof := by
    have r := h.vote
    have r' := h'.vote
    obtain ⟨⟨e1, e2, e3, e4, e5⟩, e6, s1, s2, s3, s4⟩ := hs.vote
    generalize b.VoteProof = p at *
    generalize b'.VoteProof = p' at *
    obtain ⟨W, Kp, Kq1, Kq2, c, Z, Sp, Sq1, Sq2, pr⟩ := p
    obtain ⟨W', Kp', Kq1', Kq2', c', Z', Sp', Sq1', Sq2', pr'⟩ := p'
    dsimp only at *
    have z1 : Z' = Z := sameMod_eq hz r.Z r'.Z s1
    have z2 : Sp' = Sp := sameMod_eq (by omega) r.Sp r'.Sp s2
    have z3 : Sq1' = Sq1 := sameMod_eq (by omega) r.Sq1 r'.Sq1 s3
    have z4 : Sq2' = Sq2 := sameMod_eq (by omega) r.Sq2 r'.Sq2 s4
    rw [z1, z2, z3, z4, e1, e2, e3, e4, e5, e6]
  have lo := bp h.lower h'.lower hs.lower
  have hi := bp h.upper h'.upper hs.upper
  have ct := hs.ct
  obtain ⟨ct0, lo0, hi0, vp0⟩ := b
  obtain ⟨ct1, lo1, hi1, vp1⟩ := b'
  dsimp only at *
  rw [lo, hi, vp, ct]

theorem bpVerify_same (sha : Bytes → Bytes) {p p' : BulletProof E} (hG : p.Params.GP.ScalarsMod)
    (hG' : p.InnerProductProof.Params.GP.ScalarsMod) (hN : p.InnerProductProof.Params.GP.N = p.Params.GP.N)
    (hs : p.Same p.Params.GP.N p')
    (hc : p'.InnerProductProof.Cc = p.InnerProductProof.Cc) : p'.verify sha = p.verify sha := by
  obtain ⟨V, A, S, T1, T2, tx, mu, tp, ⟨P, cc, a, b, L, R, pr⟩, par⟩ := p
  obtain ⟨V', A', S', T1', T2', tx', mu', tp', ⟨P', cc', a', b', L', R', pr'⟩, par'⟩ := p'
  obtain ⟨⟨e1, e2, e3, e4, e5, e6⟩, ⟨e7, e8, e9, e10⟩, s1, s2, s3, s4, s5, s6⟩ := hs
  dsimp only at *
  subst e1 e2 e3 e4 e5 e6 e7 e8 e9 e10 hc
  have ip : IPProof.verify sha (⟨P', cc', a', b', L', R', pr'⟩ : IPProof E) = IPProof.verify sha ⟨P', cc', a, b, L', R', pr'⟩ := by
    unfold IPProof.verify
    dsimp only
    rcases s5 with ⟨rfl, rfl⟩ | ⟨x, x', k, rfl, rfl, rfl⟩ <;> rcases s6 with ⟨rfl, rfl⟩ | ⟨y, y', l, rfl, rfl, rfl⟩
    · rfl
    · rfl
    · rfl
    · have hab : (x + k * par'.GP.N) * (y + l * par'.GP.N) % pr'.GP.N = x * y % pr'.GP.N := by
        rw [hN, show (x + k * par'.GP.N) * (y + l * par'.GP.N) = x * y + (x * l + k * y + k * l * par'.GP.N) * par'.GP.N by ring,
          Int.add_mul_emod_self_right]
      simp only [Option.bind_eq_bind, Option.bind_some]
      rw [hab, ← hN]
      simp only [hG'.1]
  unfold BulletProof.verify
  dsimp only
  rw [ip]
  have h1 : ∀ f : Int → Int → Option Bool, (∀ x y k l, f (x + k * par'.GP.N) (y + l * par'.GP.N) = f x y) →
      (tp'.bind fun t => tx'.bind fun u => f t u) = (tp.bind fun t => tx.bind fun u => f t u) := by
    intro f hf
    rcases s3 with ⟨rfl, rfl⟩ | ⟨x, x', k, rfl, rfl, rfl⟩ <;> rcases s1 with ⟨rfl, rfl⟩ | ⟨y, y', l, rfl, rfl, rfl⟩
    · rfl
    · rfl
    · rfl
    · exact hf _ _ _ _
  have h2 : ∀ f : Int → Option Bool, (∀ x k, f (x + k * par'.GP.N) = f x) → mu'.bind f = mu.bind f := by
    intro f hf
    rcases s2 with ⟨rfl, rfl⟩ | ⟨x, x', k, rfl, rfl, rfl⟩
    · rfl
    · exact hf _ _
  congr 1
  funext hp
  refine (h1 _ ?_).trans ?_
  · intro x y k l
    simp only [pedersenCommit, hG.1, hG.2]
  · congr 1
    funext t
    congr 1
    funext u
    congr 1
    funext dl
    congr 1
    funext v1
    congr 1
    funext v2
    exact h2 _ fun x k => by simp only [hG.1]

theorem sigmaVerify_same (sha : Bytes → Bytes) {q₁ : Int} {p p' : SigmaProof E₁ E₂} (hG : p.Params.GEC.I.ScalarsMod)
    (hs : p.Same q₁ p.Params.GEC.I.N p') (hZ : p'.Z = p.Z) (hSp : p'.Sp = p.Sp) (comm : VerCommitments E₁ E₂) :
    p'.verify sha comm = p.verify sha comm := by
  obtain ⟨W, Kp, Kq1, Kq2, c, Z, Sp, Sq1, Sq2, pr⟩ := p
  obtain ⟨W', Kp', Kq1', Kq2', c', Z', Sp', Sq1', Sq2', pr'⟩ := p'
  obtain ⟨⟨e1, e2, e3, e4, e5⟩, e6, s1, s2, s3, s4⟩ := hs
  dsimp only at *
  subst e1 e2 e3 e4 e5 e6 hZ hSp
  have hk : ∀ (z s c k : Int) (a x : E₂), sigmaPedersenCheck z (s + k * pr'.GEC.I.N) c a x pr'.GEC = sigmaPedersenCheck z s c a x pr'.GEC := by
    intro z s c k a x
    unfold sigmaPedersenCheck vpCommit
    simp only [hG.1]
  unfold SigmaProof.verify
  dsimp only
  rcases s3 with ⟨rfl, rfl⟩ | ⟨x, x', k, rfl, rfl, rfl⟩ <;> rcases s4 with ⟨rfl, rfl⟩ | ⟨y, y', l, rfl, rfl, rfl⟩ <;>
    simp only [Option.bind_eq_bind, Option.bind_some, hk]

/-- **C89** In a group that takes scalars modulo its order, the verdict on any ballot (legal or not) is also the verdict on every other
ballot that differs from it only by multiples of the order in `Taux`, `Mu`, `Tprime`, `A`, `B` of the range proofs and `Sq1`, `Sq2` of
the vote proof.  So without a check of their ranges, every accepted ballot stands for infinitely many. -/
theorem C89_variants (sha : Bytes → Bytes) (rp : ProofParams E₁ E₂) {GP : Grp E₂} (hG : GP.ScalarsMod) {q₁ : Int} {b b' : BallotData E₁ E₂}
    (g1 : b.BpLower.Params.GP = GP) (g2 : b.BpLower.InnerProductProof.Params.GP = GP) (g3 : b.BpUpper.Params.GP = GP)
    (g4 : b.BpUpper.InnerProductProof.Params.GP = GP) (g5 : b.VoteProof.Params.GEC.I = GP) (hs : b.Same q₁ GP.N b')
    (c1 : b'.BpLower.InnerProductProof.Cc = b.BpLower.InnerProductProof.Cc)
    (c2 : b'.BpUpper.InnerProductProof.Cc = b.BpUpper.InnerProductProof.Cc)
    (hZ : b'.VoteProof.Z = b.VoteProof.Z) (hSp : b'.VoteProof.Sp = b.VoteProof.Sp) :
    verifyVote sha b' rp = verifyVote sha b rp := by
  have v1 := bpVerify_same sha (by rw [g1]; exact hG) (by rw [g2]; exact hG) (by rw [g1, g2]) (by rw [g1]; exact hs.lower) c1
  have v2 := bpVerify_same sha (by rw [g3]; exact hG) (by rw [g4]; exact hG) (by rw [g3, g4]) (by rw [g3]; exact hs.upper) c2
  have v3 := sigmaVerify_same sha (by rw [g5]; exact hG) (by rw [g5]; exact hs.vote) hZ hSp
  have v4 : voteCommitments b' rp = voteCommitments b rp := by
    unfold voteCommitments
    rw [hs.lower.elems.1, hs.upper.elems.1, hs.ct]
  unfold verifyVote
  rw [v1, v2, v4, v3]

/-- the wrappers of P-256 and P-384 do -/
theorem circl_scalarsMod (C : CirclCurve) : (circlGrp C).ScalarsMod := by
  refine ⟨fun e x k => ?_, fun x k => ?_⟩
  · show wMul C e (x + k * C.n) = wMul C e x
    unfold wMul
    rw [Int.add_mul_emod_self_right]
  · show wMul C _ (x + k * C.n) = wMul C _ x
    unfold wMul
    rw [Int.add_mul_emod_self_right]

end

/-! ## Sizes -/

theorem modP_within : modPCodec.Within (fun v => 0 < v ∧ v < (modp3072 : Int)) 925 := by
  rintro e j ⟨h1, h2⟩ h
  change some (Except.ok (Json.num e)) = _ at h
  simp only [Option.some.injEq, Except.ok.injEq] at h
  subst h
  have h3 : (modp3072 : Int) ≤ 10 ^ 925 := by decide +kernel
  exact jsize_num (by norm_num) (by omega) (by omega)

theorem w_within (c : WCurve) (D : ℕ) (h1 : 1 ≤ D) (hD : 256 ^ c.byteLen ≤ 10 ^ D) : (wCodec c).Within (fun _ => True) (11 + 2 * D) := by
  have key : ∀ x y : ℕ, x < 256 ^ c.byteLen → y < 256 ^ c.byteLen → jsize (ecPointJson x y) ≤ 11 + 2 * D := by
    intro x y hx hy
    have b1 : jsize (.num (x : Int)) ≤ D := jsize_u h1 (lt_of_lt_of_le hx hD)
    have b2 : jsize (.num (y : Int)) ≤ D := jsize_u h1 (lt_of_lt_of_le hy hD)
    rw [ecPointJson, jsize_obj _ (by simp)]
    simp only [List.map_cons, List.map_nil, List.sum_cons, List.sum_nil, show tsize (JText.strText "x") = 3 from by decide,
      show tsize (JText.strText "y") = 3 from by decide]
    omega
  intro e j _ h
  change marshalPoint c.byteLen (e.marshalBinary c) = _ at h
  unfold marshalPoint at h
  unbind h with t0 e0
  split at h
  · unbind h with pre e1
    unbind h with xb e2
    unbind h with yb e3
    split at h
    · simp at h
    · rename_i hl
      simp only [Option.some.injEq, Except.ok.injEq] at h
      subst h
      have hx : xb.length = c.byteLen := by by_contra hne; exact hl (Or.inl hne)
      have hy : yb.length = c.byteLen := by by_contra hne; exact hl (Or.inr (by omega))
      have bx := setBytes_lt xb
      have by' := setBytes_lt yb
      rw [hx] at bx
      rw [hy] at by'
      exact key _ _ bx by'
  · simp only [Option.some.injEq, Except.ok.injEq] at h
    subst h
    exact key 0 0 (by positivity) (by positivity)

/-- the size of a completed ballot, in terms of the digits of the curve's coordinates, order and `Z` -/
theorem deployed_size {C : CirclCurve} {D : Election Int WPoint} {bits : ℕ} (dep : Deployed (circlGrp C) bits D)
    {q : ℕ} {M : Type} [AddCommGroup M] [Module (ZMod q) M]
    {L₁ : Lawful D.FF modp3072Q (ModPM modp3072 modp3072Q)} {L₂ : Lawful D.EC q M} (hok : D.OK L₁ L₂ 4) (vG : L₂.V D.G)
    (hV₁ : ∀ v, L₁.V v → 0 < v ∧ v < (modp3072 : Int)) (hBits : 241 ≤ bits ∧ bits < 1000)
    (d z : ℕ) (d1 : 1 ≤ d) (z1 : 1 ≤ z) (hd : 256 ^ C.c.byteLen ≤ 10 ^ d) (hn0 : 0 < C.n) (hn : (C.n : Int) < 10 ^ d)
    (hz : (2 : Int) ^ (bits - 1) ≤ 10 ^ z) (hname : tsize (JText.strText C.name) ≤ 7)
    (choice : UInt16) (rnd : CastRand) (ballot : BallotData Int WPoint) (j : Json)
    (hl : rnd.bp1.sL.length = 16 ∧ rnd.bp1.sR.length = 16 ∧ rnd.bp2.sL.length = 16 ∧ rnd.bp2.sR.length = 16)
    (h : castChoice sha256 D.pp choice rnd = .done ballot) (hj : encBallot modPCodec (wCodec C.c) ballot = some (.ok j)) :
    ballot.Reduced modp3072Q C.n (2 ^ 240) (2 ^ (bits - 1)) 224 ∧ jsize j ≤ 12052 + 347 * d + z := by
  have hFFN : D.FF.N = (modp3072Q : Int) := by rw [dep.FF]; rfl
  have hFFP : D.FF.P = (modp3072 : Int) := by rw [dep.FF]; rfl
  have hECN : D.EC.N = (C.n : Int) := by rw [dep.EC]; rfl
  have hq₁ : (0 : Int) < modp3072Q := by decide +kernel
  have hq₁' : (modp3072Q : Int) < 10 ^ 925 := by decide +kernel
  have hp₁ : (modp3072 : Int) < 10 ^ 925 := by decide +kernel
  have hp₀ : (0 : Int) ≤ modp3072 := by omega
  have hc : (2 : Int) ^ 224 ≤ 10 ^ 68 := by decide +kernel
  have hBb : -(2 ^ 63) ≤ D.Bb ∧ D.Bb < 2 ^ 63 := by rw [dep.Bb]; omega
  obtain ⟨red, gg1, gg2⟩ := castChoice_reduced sha256 sha256_length D (by rw [hFFN]; exact hq₁) (by rw [hECN]; omega) choice rnd ballot h
  obtain ⟨ok, p1, p2, g1, g2, p3, n1, n2⟩ := castChoice_legal sha256 D L₁ L₂ 4 hok vG hBb choice rnd hl.1 hl.2.1 hl.2.2.1 hl.2.2.2
    ballot h
  rw [hFFN, hECN, dep.zLower, dep.zUpper, show D.Bc.toNat = 224 by rw [dep.Bc]; rfl] at red
  refine ⟨red, ?_⟩
  have hw := w_within C.c d d1 hd
  have w₁ : modPCodec.Within L₁.V 925 := fun e j he hj => modP_within e j (hV₁ e he) hj
  have w₂ : (wCodec C.c).Within L₂.V (11 + 2 * d) := fun e j _ hj => hw e j trivial hj
  have hs₂ : tsize (JText.strText D.EC.name) ≤ 7 := by rw [dep.EC]; exact hname
  have bp : ∀ (p : BulletProof WPoint), BPOk L₂.V p → p.Reduced (C.n : Int) → p.Params = D.bp → p.InnerProductProof.Params.GP = D.EC →
      p.InnerProductProof.Params.Gg = D.Gg → p.InnerProductProof.L.length = 4 → ∀ j, encBP (wCodec C.c) p = some (.ok j) →
      jsize j ≤ 212 + 4 * (16 * ((11 + 2 * d) + 1)) + 2 * (4 * ((11 + 2 * d) + 1)) + 9 * (11 + 2 * d) + 2 * 7 + 6 * d := by
    intro p ok red hp hg hgg hL j hj
    exact encBP_size w₂ ok red (by rw [hp]; exact dep.n) (by rw [hp]; exact dep.lenG) (by rw [hp]; exact dep.lenH)
      (by rw [hgg]; exact dep.lenG) (by norm_num) (by norm_num) (by rw [hp]; exact hs₂) (by rw [hg]; exact hs₂) hL (by norm_num) d1
      hn.le hj
  have sg := fun j => encSigma_size (j := j) (f₁ := 925) (f₂ := 925) (d₁ := 925) (c := 68) (s₁ := 22) (s₂ := 7) w₁ w₂ ok.sigma red.vote
    ⟨by norm_num, d1, by norm_num, by norm_num, z1, by norm_num⟩ hq₁'.le hn.le (by positivity) hz hc
    (by rw [p3]; exact ⟨_, rfl, by rw [hFFN]; omega, by rw [hFFN]; exact hq₁'⟩)
    (by rw [p3]; exact ⟨_, rfl, by rw [hECN]; omega, by rw [hECN]; exact hn⟩)
    (by rw [p3]; exact ⟨_, rfl, by rw [hFFP]; exact hp₀, by rw [hFFP]; exact hp₁⟩)
    (by rw [p3]; exact ⟨_, rfl, by rw [dep.F]; exact hp₀, by rw [dep.F]; exact hp₁⟩)
    (by rw [p3]; show tsize (JText.strText D.FF.name) ≤ 22; rw [dep.FF]; show tsize (JText.strText "RFC3526ModPGroup3072") ≤ 22; decide)
    (by rw [p3]; exact hs₂)
    (by rw [p3]; show D.Bc.toNat < 1000; rw [dep.Bc]; decide)
    (by rw [p3]; show D.Bg.toNat < 1000; rw [dep.Bg]; exact hBits.2)
    (by rw [p3]; show 0 ≤ D.Bb ∧ D.Bb < 1000; rw [dep.Bb]; omega)
    (by rw [p3]; show D.lo.toNat < 1000; rw [dep.lo]; decide)
    (by rw [p3]; show D.hi.toNat < 10000; rw [dep.hi]; decide)
  have := encBallot_size w₁ ok.U ok.V (bp _ ok.lower red.lower p1 g1 gg1 n1) (bp _ ok.upper red.upper p2 g2 gg2 n2)
    sg hj
  omega

/-- **C89** With SHA-256 and circl's hash to the curve: every ballot that `castVote` completes has reduced numbers and is marshalled to at
most 39195 bytes on P-256, at most 52420 on P-384; and decoding those bytes gives the same, accepted ballot.  So a server that refuses
longer messages, and ballots whose numbers are out of these ranges, refuses no voter, and leaves of all the variants of a ballot in
`C89_variants` at most one. -/
theorem C89_deployed (nan64 : BitVec 64) {C : CirclCurve} {bits : ℕ} {H U : WPoint} {Gg Hh : List WPoint}
    (row : RealRow C bits H U Gg Hh) :
    ∃ pp, setup nan64 (circlGrp C) = some (.ok pp) ∧ ∀ (rnd : CastRand) (ballot : BallotData Int WPoint),
      (0 ≤ rnd.rChoice ∧ rnd.rChoice < 1899) →
      (rnd.bp1.sL.length = 16 ∧ rnd.bp1.sR.length = 16 ∧ rnd.bp2.sL.length = 16 ∧ rnd.bp2.sR.length = 16) →
      (∀ s ∈ rnd.tape, 0 ≤ s.k ∧ s.k < 2 ^ (bits - 1)) →
      castVote sha256 pp rnd = .done ballot →
      ballot.Reduced modp3072Q C.n (2 ^ 240) (2 ^ (bits - 1)) 224 ∧
      ∃ t, encBallotText modPCodec (wCodec C.c) ballot = some (.ok t) ∧ (Utf8.encode t).length ≤ maxBytes bits ∧
        decBallotBytes modPCodec (wCodec C.c) pp (Utf8.encode t) = some (.ok ballot) ∧
        verifyVote sha256 ballot pp.RPParams = some { result := true, times := [0, 0] } := by
  obtain ⟨pp, hpp, hon⟩ := C75_deployed nan64 row
  obtain ⟨Bb, hr, -, -, -, -⟩ := row.std.table
  obtain ⟨D, hD, dep, _⟩ := C47_curves nan64 (circlGrp C) (fun s _ => ⟨_, rfl⟩) _ bits Bb hr rfl
  rw [hD] at hpp
  simp only [Option.some.injEq, Except.ok.injEq] at hpp
  subst hpp
  refine ⟨D.pp, hD, fun rnd ballot h1 h2 h3 h4 => ?_⟩
  obtain ⟨t, v, e1, -, -, e2, e3, -⟩ := hon rnd ballot h1 h2 h3 h4
  have ord := stdCircl_ord row.std.circl
  have := ord.fact'
  let := ord.module
  let L₂ := ord.lawful
  obtain ⟨L₁, L, hok, hV, _⟩ := deployed_legal (circlGrp C) D _ bits Bb hr L₂
    (fun s e hs he => by injection he with he; exact he ▸ (wLegal_iff _ _).mpr (row.valid s)) dep
  have vG : L.V D.G := by rw [hV, dep.G]; exact L₂.V_mulGen 1
  obtain ⟨L₁', hV₁, hok'⟩ : ∃ L₁' : Lawful D.FF modp3072Q (ModPM modp3072 modp3072Q),
      (∀ v, L₁'.V v → 0 < v ∧ v < (modp3072 : Int)) ∧ D.OK L₁' L 4 := by
    have key : ∀ (F : Grp Int), F = modPGrp rfcGroup → ∃ L' : Lawful F modp3072Q (ModPM modp3072 modp3072Q),
        (∀ v, L'.V v ↔ ModPMem modp3072 modp3072Q v) := by
      rintro F rfl
      exact ⟨modPLawful rfcGroup_ok, fun v => Iff.rfl⟩
    obtain ⟨L', hL'⟩ := key D.FF dep.FF
    refine ⟨L', fun v hv => ⟨((hL' v).mp hv).1, ((hL' v).mp hv).2.1⟩, ⟨(hL' _).mpr ?_, hok.bp, hok.mask⟩⟩
    have hpk : (8192 : Int) = (modPGrp rfcGroup).mulGen 13 := by decide +kernel
    rw [dep.PK, hpk]
    exact (modPLawful rfcGroup_ok).V_mulGen 13
  unfold castVote at h4
  cases hd : drawChoice D.pp rnd.rChoice with
  | none => rw [hd] at h4; simp at h4
  | some choice =>
  rw [hd] at h4
  obtain ⟨j, ej, et⟩ : ∃ j, encBallot modPCodec (wCodec C.c) ballot = some (.ok j) ∧ t = JText.print j := by
    unfold encBallotText at e1
    obtain ⟨j, e, e1⟩ := JText.encInv e1
    simp only [Option.some.injEq, Except.ok.injEq] at e1
    exact ⟨j, e, e1.symm⟩
  cases row with
  | p256 dec =>
    obtain ⟨r, hs⟩ := deployed_size dep hok' vG hV₁ (by norm_num) 78 77 (by norm_num) (by norm_num)
      (show 256 ^ 32 ≤ 10 ^ 78 by decide +kernel) (show 0 < p256N by decide +kernel) (show (p256N : Int) < 10 ^ 78 by decide +kernel)
      (show (2 : Int) ^ 255 ≤ 10 ^ 77 by decide +kernel) (show tsize (JText.strText "P-256") ≤ 7 by decide) choice rnd ballot j h2 h4 ej
    exact ⟨r, t, e1, by rw [et]; exact hs, e2, e3⟩
  | p384 dec =>
    obtain ⟨r, hs⟩ := deployed_size dep hok' vG hV₁ (by norm_num) 116 116 (by norm_num) (by norm_num)
      (show 256 ^ 48 ≤ 10 ^ 116 by decide +kernel) (show 0 < p384N by decide +kernel) (show (p384N : Int) < 10 ^ 116 by decide +kernel)
      (show (2 : Int) ^ 383 ≤ 10 ^ 116 by decide +kernel) (show tsize (JText.strText "P-384") ≤ 7 by decide) choice rnd ballot j h2 h4 ej
    exact ⟨r, t, e1, by rw [et]; exact hs, e2, e3⟩

/-- the ballot with the curve order 1031 added to `Mu`, taken from `A` and added to `Sq2` -/
def exVariant (b : BallotData Int Int) : BallotData Int Int :=
  { b with BpLower := { b.BpLower with Mu := b.BpLower.Mu.map (· + 1031),
                                       InnerProductProof := { b.BpLower.InnerProductProof with
                                         A := b.BpLower.InnerProductProof.A.map (· - 1031) } }
           VoteProof := { b.VoteProof with Sq2 := b.VoteProof.Sq2.map (· + 1031) } }

/-- evaluated in the toy election: the numbers of a cast ballot are in range; those of the variant are not, and it is accepted too -/
example : (match castVote exSha3 exElection.pp exCast with
    | .done b => ([b.BpLower.Taux, b.BpLower.Mu, b.BpLower.Tprime, b.BpLower.InnerProductProof.Cc, b.BpLower.InnerProductProof.A,
          b.BpLower.InnerProductProof.B, b.VoteProof.Sq2].all (fun x => x.any fun v => 0 ≤ v ∧ v < 1031),
        [(exVariant b).BpLower.Mu, (exVariant b).BpLower.InnerProductProof.A, (exVariant b).VoteProof.Sq2].any
          (fun x => x.any fun v => 0 ≤ v ∧ v < 1031),
        verifyVote exSha3 (exVariant b) exElection.rp)
    | _ => (false, true, none)) = (true, false, some ⟨true, [0, 0]⟩) := by decide +kernel

/-- the toy group takes scalars modulo its order -/
example : (toyGrp 1031).ScalarsMod := by
  refine ⟨fun e x k => ?_, fun x k => ?_⟩
  · show (x + k * 1031) * e % 1031 = x * e % 1031
    rw [show (x + k * 1031) * e = x * e + k * e * 1031 by ring, Int.add_mul_emod_self_right]
  · show (x + k * 1031) % 1031 = x % 1031
    rw [Int.add_mul_emod_self_right]

/-- both curves are rows of that kind -/
example (dec : Bytes → Option WPoint) : RealRow (p256Real dec) 256 recH256 recU256 recGg256 recHh256 ∧
    RealRow (p384Real dec) 384 recH384 recU384 recGg384 recHh384 := ⟨.p256 dec, .p384 dec⟩

end MscPoc
