import Verif.Lemmas.Ristretto
import Verif.Props.K1

/-!
# C59 — the Ristretto255 group, and the system deployed on it
-/

set_option autoImplicit false

namespace MscPoc

/-- reduced coordinates with `-x² + y² = 1 + d x² y²` modulo `p` -/
def WPoint.OnEd (P : WPoint) : Prop :=
  P.x < r255P ∧ P.y < r255P ∧
    ((P.y : Int) ^ 2 - (P.x : Int) ^ 2 - (1 + (r255D : Int) * (P.x : Int) ^ 2 * (P.y : Int) ^ 2)) % r255P = 0

/-- points that stand for Ristretto elements: doubles of points of the curve -/
def WPoint.Even (P : WPoint) : Prop := P.OnEd ∧ ∃ Q : WPoint, Q.OnEd ∧ P = edAdd Q Q

theorem onEd_iff (P : WPoint) : P.OnEd ↔ EdLegal P := (edLegal_iff P).symm

theorem even_iff (P : WPoint) : P.Even ↔ R255Legal P := by
  unfold WPoint.Even R255Legal
  simp only [onEd_iff]

theorem even_eq : WPoint.Even = R255Legal := funext fun P => propext (even_iff P)

/-- **C59** The addition law is complete: for two points of the curve no denominator vanishes modulo `p`, so no division by
zero is ever attempted, and the sum is a point of the curve. -/
theorem C59_complete (P Q : WPoint) (hP : P.OnEd) (hQ : Q.OnEd) :
    Int.gcd (1 + (r255D : Int) * P.x * Q.x * P.y * Q.y) r255P = 1 ∧
    Int.gcd (1 - (r255D : Int) * P.x * Q.x * P.y * Q.y) r255P = 1 ∧ (edAdd P Q).OnEd := by
  rw [onEd_iff] at *
  obtain ⟨h1, h2⟩ := edAdd_dens hP hQ
  have hg : ∀ n : Int, (n : ZMod r255P) ≠ 0 → Int.gcd n r255P = 1 := by
    intro n hn
    have hd : ¬ (r255P : Int) ∣ n := fun hd => hn ((ZMod.intCast_zmod_eq_zero_iff_dvd _ _).mpr hd)
    rw [Int.gcd_comm, ← Int.isCoprime_iff_gcd_eq_one]
    exact (Prime.coprime_iff_not_dvd (Nat.prime_iff_prime_int.mp r255Fact.out)).mpr hd
  exact ⟨hg _ h1, hg _ h2, edAdd_legal hP hQ⟩

/-- **C59** On the points that stand for elements the wrapper methods obey the laws of a group, with `IsEqual` as equality. -/
theorem C59_group_laws (L : R255Lib) : GroupLawsUpTo (r255Grp L) WPoint.Even := by
  let := r255Module
  rw [even_eq]
  exact (r255Lawful L).upTo

/-- **C59** `IsEqual` holds between exactly four points: `(x, y)`, `(-x, -y)`, `(iy, ix)` and `(-iy, -ix)`, where `i² = -1`.  They
are pairwise different. -/
theorem C59_representatives (L : R255Lib) (P : WPoint) (hP : P.OnEd) :
    (r255I : Int) ^ 2 % r255P = r255P - 1 ∧
    [P, ⟨(r255P - P.x) % r255P, (r255P - P.y) % r255P⟩, ⟨r255I * P.y % r255P, r255I * P.x % r255P⟩,
      ⟨(r255P - r255I) * P.y % r255P, (r255P - r255I) * P.x % r255P⟩].Nodup ∧
    ∀ Q : WPoint, Q.OnEd → ((r255Grp L).isEqual P Q = true ↔
      Q ∈ [P, ⟨(r255P - P.x) % r255P, (r255P - P.y) % r255P⟩, ⟨r255I * P.y % r255P, r255I * P.x % r255P⟩,
        ⟨(r255P - r255I) * P.y % r255P, (r255P - r255I) * P.x % r255P⟩]) := by
  rw [onEd_iff] at hP
  have hpos : 0 < r255P := r255Fact.out.pos
  have hi : r255I ≤ r255P := by decide +kernel
  have csub : ∀ n : ℕ, n ≤ r255P → ((r255P - n : ℕ) : ZMod r255P) = -(n : ZMod r255P) := by
    intro n hn
    rw [Nat.cast_sub hn, ZMod.natCast_self, zero_sub]
  -- the coordinates of the four points
  have hcoord : ∀ (R : R255E) (x y : ℕ), (x : ZMod r255P) = R.x → (y : ZMod r255P) = R.y →
      ∀ Q : WPoint, ∀ hQ : EdLegal Q, hQ.pt = R ↔ Q = ⟨x % r255P, y % r255P⟩ := by
    intro R x y hx hy Q hQ
    have hl : EdLegal ⟨x % r255P, y % r255P⟩ := by
      refine ⟨Nat.mod_lt _ hpos, Nat.mod_lt _ hpos, ?_⟩
      dsimp only
      rw [cast_mod, cast_mod, hx, hy]
      exact R.on
    have hpt : hl.pt = R := by
      refine EdPt.ext ?_ ?_
      · exact (cast_mod x).trans hx
      · exact (cast_mod y).trans hy
    constructor
    · intro h
      exact EdLegal.inj hQ hl (h.trans hpt.symm)
    · rintro rfl
      exact hpt
  have e2 := hcoord (hP.pt + EdPt.t2) (r255P - P.x) (r255P - P.y)
    (by rw [csub _ hP.1.le, EdPt.add_t2_x, hP.pt_x]) (by rw [csub _ hP.2.1.le, EdPt.add_t2_y, hP.pt_y])
  have e3 := hcoord (hP.pt + EdPt.t4) (r255I * P.y) (r255I * P.x)
    (by rw [Nat.cast_mul, EdPt.add_t4_x, hP.pt_y, r255C_i]) (by rw [Nat.cast_mul, EdPt.add_t4_y, hP.pt_x, r255C_i])
  have e4 := hcoord (hP.pt + EdPt.t4 + EdPt.t2) ((r255P - r255I) * P.y) ((r255P - r255I) * P.x)
    (by rw [EdPt.add_t2_x, EdPt.add_t4_x, Nat.cast_mul, csub _ hi, neg_mul, hP.pt_y, r255C_i])
    (by rw [EdPt.add_t2_y, EdPt.add_t4_y, Nat.cast_mul, csub _ hi, neg_mul, hP.pt_x, r255C_i])
  have e1 : ∀ Q : WPoint, ∀ hQ : EdLegal Q, hQ.pt = hP.pt ↔ Q = P :=
    fun Q hQ => ⟨fun h => EdLegal.inj hQ hP h, fun h => by subst h; rfl⟩
  have l2 : EdLegal ⟨(r255P - P.x) % r255P, (r255P - P.y) % r255P⟩ := by
    have := (e2 (R255E.coords (hP.pt + EdPt.t2)) (coords_legal _)).mp (coords_pt _)
    rw [← this]; exact coords_legal _
  have l3 : EdLegal ⟨r255I * P.y % r255P, r255I * P.x % r255P⟩ := by
    have := (e3 (R255E.coords (hP.pt + EdPt.t4)) (coords_legal _)).mp (coords_pt _)
    rw [← this]; exact coords_legal _
  have l4 : EdLegal ⟨(r255P - r255I) * P.y % r255P, (r255P - r255I) * P.x % r255P⟩ := by
    have := (e4 (R255E.coords (hP.pt + EdPt.t4 + EdPt.t2)) (coords_legal _)).mp (coords_pt _)
    rw [← this]; exact coords_legal _
  refine ⟨by decide +kernel, ?_, ?_⟩
  · -- differences are points of order 2 or 4
    have n2 : (EdPt.t2 : R255E) ≠ 0 := EdPt.t2_ne
    have n4 : (EdPt.t4 : R255E) ≠ 0 := by
      intro h
      apply n2
      rw [← EdPt.t4_add, h, add_zero]
    have n42 : (EdPt.t4 : R255E) ≠ EdPt.t2 := by
      intro h
      apply n2
      have := EdPt.t4_add (C := r255C)
      rw [h, EdPt.t2_add] at this
      exact this.symm
    have n6 : (EdPt.t4 : R255E) + EdPt.t2 ≠ 0 := by
      intro h
      apply n42
      rw [add_eq_zero_iff_eq_neg] at h
      rw [h, neg_eq_iff_add_eq_zero, EdPt.t2_add]
    rw [List.nodup_cons, List.nodup_cons, List.nodup_cons]
    refine ⟨?_, ?_, ?_, List.nodup_singleton _⟩
    · intro h
      simp only [List.mem_cons, List.not_mem_nil, or_false] at h
      rcases h with h | h | h
      · exact n2 (by have := (e2 P hP).mpr h; exact (left_eq_add.mp this))
      · exact n4 (by have := (e3 P hP).mpr h; exact (left_eq_add.mp this))
      · exact n6 (by have := (e4 P hP).mpr h; rw [add_assoc] at this; exact (left_eq_add.mp this))
    · intro h
      simp only [List.mem_cons, List.not_mem_nil, or_false] at h
      have p2 := (e2 _ l2).mpr rfl
      rcases h with h | h
      · have := (e3 _ l2).mpr h
        rw [p2] at this
        exact n42 (add_left_cancel this).symm
      · have := (e4 _ l2).mpr h
        rw [p2, add_assoc] at this
        exact n4 (right_eq_add.mp (add_left_cancel this))
    · intro h
      simp only [List.mem_cons, List.not_mem_nil, or_false] at h
      have p3 := (e3 _ l3).mpr rfl
      have := (e4 _ l3).mpr h
      rw [p3] at this
      exact n2 (left_eq_add.mp this)
  · intro Q hQ
    rw [onEd_iff] at hQ
    show edEqual P Q = true ↔ _
    rw [edEqual_iff hP hQ, ← EdPt.ristretto_eq, EdPt.ristretto_iff, e1 Q hQ, e2 Q hQ, e3 Q hQ, e4 Q hQ]
    simp only [List.mem_cons, List.not_mem_nil, or_false]

/-- **C59** The order of the group is the declared one: every even point is `IsEqual` to `BaseScale(k)` for exactly one
`0 ≤ k < N`, and `N` is prime. -/
theorem C59_order (L : R255Lib) : (r255Grp L).N = r255N ∧ r255N.Prime ∧
    ∀ e : WPoint, e.Even → ∃! k : Int, 0 ≤ k ∧ k < (r255Grp L).N ∧ (r255Grp L).isEqual ((r255Grp L).mulGen k) e = true := by
  have hp := r255NFact.out
  refine ⟨rfl, hp, fun e he => ?_⟩
  rw [even_iff] at he
  have hm : ∀ k : Int, ((r255Grp L).isEqual ((r255Grp L).mulGen k) e = true) ↔ k • r255Den edBase = r255Den e := by
    intro k
    obtain ⟨l, d⟩ := r255Mul_spec edBase_even k
    rw [← d]
    exact edEqual_den l he
  have ho : addOrderOf (r255Den edBase) = r255N := addOrderOf_eq_prime (r255Sub_nsmul _) r255Base_ne
  have hcard := r255Group_card
  obtain ⟨k, hk, e1⟩ : ∃ k : ℕ, k < r255N ∧ k • r255Den edBase = r255Den e := by
    have hm : r255Den e ∈ AddSubgroup.zmultiples (r255Den edBase) := mem_zmultiples_of_prime_card hcard r255Base_ne
    rw [← mem_multiples_iff_mem_zmultiples, AddSubmonoid.mem_multiples_iff] at hm
    obtain ⟨k, hk⟩ := hm
    exact ⟨k % r255N, Nat.mod_lt _ hp.pos, by rw [← hk]; conv_lhs => rw [← ho, mod_addOrderOf_nsmul]⟩
  refine ⟨k, ⟨by positivity, ?_, ?_⟩, ?_⟩
  · show (k : Int) < r255N
    exact_mod_cast hk
  · rw [hm, natCast_zsmul, e1]
  · rintro k' ⟨h0, h1, h2⟩
    have h1' : k' < r255N := h1
    rw [hm, ← e1, ← natCast_zsmul] at h2
    have hz : (k' - (k : Int)) • r255Den edBase = 0 := by rw [sub_zsmul, h2, add_neg_cancel]
    rw [← addOrderOf_dvd_iff_zsmul_eq_zero, ho] at hz
    have hk' : (k : Int) < r255N := by exact_mod_cast hk
    have := Int.eq_zero_of_abs_lt_dvd hz (by rw [abs_lt]; omega)
    omega

/-- **C59** Evenness is needed: for a point of the curve, `Scale(e, N-1) + e` is the identity exactly when the point is even.
There are points of the curve that are not. -/
theorem C59_even (L : R255Lib) : (∀ (r e : WPoint), e.OnEd →
      ((r255Grp L).isEqual ((r255Grp L).add ((r255Grp L).scale r e ((r255Grp L).N - 1)) e) (r255Grp L).identity = true ↔ e.Even)) ∧
    ∃ e : WPoint, e.OnEd ∧ ¬ e.Even := by
  have h1 : ∀ (r e : WPoint), e.OnEd →
      ((r255Grp L).isEqual ((r255Grp L).add ((r255Grp L).scale r e ((r255Grp L).N - 1)) e) (r255Grp L).identity = true ↔ e.Even) := by
    intro r e he
    rw [onEd_iff] at he
    rw [even_iff, r255Legal_iff he]
    obtain ⟨hm, em⟩ := edMul_legal he ((r255N : Int) - 1)
    have hs : ((r255N : Int) - 1) % r255N = r255N - 1 := by decide +kernel
    show edEqual (edAdd (edMul e ((r255N : Int) - 1)) e) edZero = true ↔ _
    rw [edEqual_iff (edAdd_legal hm he) edZero_legal, edZero_pt, edAdd_pt hm he, em, hs, nsmul_zero, sub_zsmul, one_zsmul,
      natCast_zsmul, neg_add_cancel_right, ← mul_nsmul']
  refine ⟨h1, edT8, (onEd_iff _).mpr edT8_legal, ?_⟩
  rw [even_iff, r255Legal_iff edT8_legal, ← addOrderOf_dvd_iff_nsmul_eq_zero, edT8_order]
  decide +kernel

theorem r255_row : (r255N, 253, (12 : Int)) ∈ curveTable := by simp [curveTable]

theorem r255_hash {L : R255Lib} (h : ∀ s, SetupSeed 16 s → (L.hash s).Even) (s : Bytes) (hs : SetupSeed 16 s) :
    ∃ e, (r255Grp L).mapToGroup s = some e ∧ R255Legal e :=
  ⟨L.hash s, rfl, (even_iff _).mp (h s hs)⟩

/-- **C59** The deployed system on Ristretto255: setup succeeds and every ballot `castVote` completes is accepted. -/
theorem C59_honest (sha : Bytes → Bytes) (nan64 : BitVec 64) (L : R255Lib)
    (hash : ∀ s, SetupSeed 16 s → (L.hash s).Even) :
    ∃ pp, setup nan64 (r255Grp L) = some (.ok pp) ∧ ∀ (rnd : CastRand) (ballot : BallotData Int WPoint),
      (0 ≤ rnd.rChoice ∧ rnd.rChoice < 1899) →
      (rnd.bp1.sL.length = 16 ∧ rnd.bp1.sR.length = 16 ∧ rnd.bp2.sL.length = 16 ∧ rnd.bp2.sR.length = 16) →
      (∀ s ∈ rnd.tape, 0 ≤ s.k ∧ s.k < 2 ^ 252) →
      castVote sha pp rnd = .done ballot →
      verifyVote sha ballot pp.RPParams = some { result := true, times := [0, 0] } := by
  let := r255Module
  exact C47_deployment_accepts sha nan64 (r255Grp L) r255N 253 12 r255_row (r255Lawful L) (r255_hash hash)

/-- **C59** A voter who casts any other number with the honest code is rejected, unless the challenge is zero. -/
theorem C59_any_choice (sha : Bytes → Bytes) (hsha : ∀ m, (sha m).length = 32) (nan64 : BitVec 64)
    (L : R255Lib) (hash : ∀ s, SetupSeed 16 s → (L.hash s).Even) :
    ∃ pp, setup nan64 (r255Grp L) = some (.ok pp) ∧
    ∀ (choice : UInt16) (rnd : CastRand) (ballot : BallotData Int WPoint),
      (rnd.bp1.sL.length = 16 ∧ rnd.bp1.sR.length = 16 ∧ rnd.bp2.sL.length = 16 ∧ rnd.bp2.sR.length = 16) →
      (∀ s ∈ rnd.tape, 0 ≤ s.k ∧ s.k < 2 ^ 252) →
      castChoice sha pp choice rnd = .done ballot →
      ∃ c b, ballot.VoteProof.Challenge = some c ∧
        verifyVote sha ballot pp.RPParams = some { result := b, times := [0, 0] } ∧
        (b = true ↔ (101 ≤ choice ∧ choice ≤ 2000) ∨ c = 0) := by
  let := r255Module
  let L₂ := r255Lawful L
  have hmap := r255_hash hash
  obtain ⟨D, hD, dep, _⟩ := C47_curves nan64 (r255Grp L) (fun s hs => (hmap s hs).imp fun _ h => h.1) r255N 253 12 r255_row rfl
  obtain ⟨L₁, LE, hok, hV, hden⟩ := deployed_legal (r255Grp L) D r255N 253 12 r255_row L₂ (seeds_legal hmap) dep
  refine ⟨D.pp, hD, fun choice rnd ballot hl ht hcast => ?_⟩
  have hfree : ∀ c : ZMod r255N, c • LE.g = 0 → c = 0 := by
    intro c hc
    by_contra hne
    have h := smul_cancel hne hc
    rw [smul_zero] at h
    unfold Lawful.g at h
    rw [hden, dep.EC] at h
    exact r255Base_ne h
  obtain ⟨c, b, h1, h2, h3⟩ := C42_any_choice sha D L₁ LE hfree 4 (le_refl 4) hok choice rnd hl.1 hl.2.1 hl.2.2.1 hl.2.2.2
    (by rw [dep.zUpper]; exact ht) ballot hcast
  refine ⟨c, b, h1, h2, ?_⟩
  rw [dep.lo, dep.hi] at h3
  refine ⟨fun hb => ?_, fun h => h3.mpr (h.imp_right fun h => by rw [h]; simp)⟩
  rcases h3.mp hb with h | h
  · exact Or.inl h
  · right
    have hacc := (verifyVote_accept_iff.mp ⟨_, hb ▸ h2⟩).2.2
    obtain ⟨Z, c', _, _, _, _, hc', _, _, _, _, hch, _⟩ := (sigma_verify_iff _ _ _).mp hacc
    rw [h1] at hc'
    cases hc'
    obtain ⟨_, _, _, _, _, hP, _⟩ := castChoice_legal sha D L₁ LE 4 hok (by rw [hV, dep.G]; exact L₂.V_mulGen 1)
      (by rw [dep.Bb]; norm_num) choice rnd hl.1 hl.2.1 hl.2.2.1 hl.2.2.2 ballot hcast
    obtain ⟨_, h0, _, hlt⟩ := (C28_challenge sha hsha _ _ _ _ _ _ _).2 c hch
    have hBc : ballot.VoteProof.Params.Bc = 224 := by rw [hP]; exact dep.Bc
    rw [hBc] at hlt
    have hlt' : c < r255N := lt_trans hlt (by
      have : (2 : Int) ^ (224 : UInt16).toNat = ((2 ^ 224 : ℕ) : Int) := by push_cast
      rw [this]; decide +kernel)
    exact (C42_rejected (by decide +kernel) h0 hlt').mp h

/-- **C59** The driver on Ristretto255 does not panic unless a challenge is a zero divisor, never reports malformed
votes, and reports success when every tape holds a safe mask. -/
theorem C59_driver (sha : Bytes → Bytes) (hsha : ∀ m, (sha m).length = 32) (nan64 : BitVec 64)
    (L : R255Lib) (hash : ∀ s, SetupSeed 16 s → (L.hash s).Even)
    (rnds : List CastRand) (hs : RunsOK sha nan64 (r255Grp L) rnds) (hd : ∀ rnd ∈ rnds, CastDrawn 253 rnd) :
    runGroup sha nan64 (r255Grp L) rnds ≠ .panic ∧
    (∀ r, runGroup sha nan64 (r255Grp L) rnds = .done r → r = .formed true) ∧
    ((∀ rnd ∈ rnds, ∃ s ∈ rnd.tape, SafeMask 253 s.k) → runGroup sha nan64 (r255Grp L) rnds = .done (.formed true)) := by
  let := r255Module
  exact C54_driver sha hsha nan64 (r255Grp L) r255N 253 12 r255_row (r255Lawful L) (r255_hash hash) rnds hs hd

/-- A library whose hash is constant. -/
def exR255 : R255Lib where
  hash := fun _ => edBase
  enc := fun P => natBytes P.y

/-- C59: the hypotheses are met; the base point is even, it doubles to `BaseScale(2)`, minus it is `BaseScale(-1)`, and the
point `(-x, -y)` is another representative of it. -/
example : (∀ s, (exR255.hash s).Even) ∧ edBase.OnEd ∧ (r255Grp exR255).mulGen r255N = edZero ∧
    (r255Grp exR255).add edBase edBase = (r255Grp exR255).mulGen 2 ∧
    (r255Grp exR255).isEqual ((r255Grp exR255).neg edZero edBase) ((r255Grp exR255).mulGen (-1)) = true ∧
    (r255Grp exR255).isEqual edBase ⟨r255P - edBase.x, r255P - edBase.y⟩ = true ∧
    (r255Grp exR255).isEqual edBase ((r255Grp exR255).mulGen 2) = false := by
  refine ⟨fun s => (even_iff _).mpr edBase_even, (onEd_iff _).mpr edBase_legal, ?_, ?_, ?_, ?_, ?_⟩
  all_goals decide +kernel

end MscPoc
