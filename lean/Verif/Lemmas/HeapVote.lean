import Verif.Lemmas.HeapProve

/-!
# Refinement between the heap model and the pure model: sigma proofs, ballots, the driver
-/

set_option autoImplicit false

namespace MscPoc

variable {E₁ E₂ : Type}

/-- both heaps are only extended -/
def Fr2 (h h' : HS E₁ × HS E₂) : Prop := Fr noW h.1 h'.1 ∧ Fr noW h.2 h'.2

theorem Fr2.refl (h : HS E₁ × HS E₂) : Fr2 h h := ⟨Fr.refl _ _, Fr.refl _ _⟩
theorem Fr2.trans {h h' h'' : HS E₁ × HS E₂} (a : Fr2 h h') (b : Fr2 h' h'') : Fr2 h h'' :=
  ⟨a.1.trans b.1 (fun _ _ h => h), a.2.trans b.2 (fun _ _ h => h)⟩

/-- On the heaps `h` the computation `m` panics exactly when the pure one does; otherwise the results are related and only
new cells are written. -/
def Spec2 {α β : Type} (h : HS E₁ × HS E₂) (m : HM2 E₁ E₂ α) (o : Option β) (R : HS E₁ × HS E₂ → α → β → Prop) : Prop :=
  match o with
  | none => m h = none
  | some b => ∃ a h', m h = some (a, h') ∧ Fr2 h h' ∧ R h' a b

namespace Spec2
variable {α β γ δ : Type} {h : HS E₁ × HS E₂}

theorem bind_some {m : HM2 E₁ E₂ α} {f : α → HM2 E₁ E₂ γ} {a : α} {h' : HS E₁ × HS E₂} (hm : m h = some (a, h')) :
    (m >>= f) h = f a h' := by
  show (match m h with | none => none | some (a, h') => f a h') = _
  rw [hm]

theorem bind_panic {m : HM2 E₁ E₂ α} {f : α → HM2 E₁ E₂ γ} (hm : m h = none) : (m >>= f) h = none := by
  show (match m h with | none => none | some (a, h') => f a h') = none
  rw [hm]

theorem pure {R : HS E₁ × HS E₂ → α → β → Prop} {a : α} {b : β} (hr : R h a b) :
    Spec2 h (Pure.pure a : HM2 E₁ E₂ α) (some b) R := ⟨a, h, rfl, Fr2.refl h, hr⟩

theorem panic {R : HS E₁ × HS E₂ → α → β → Prop} : Spec2 h (HM2.lift none : HM2 E₁ E₂ α) none R := rfl

theorem bind {m : HM2 E₁ E₂ α} {o : Option β} {R : HS E₁ × HS E₂ → α → β → Prop} {f : α → HM2 E₁ E₂ γ} {g : β → Option δ}
    {S : HS E₁ × HS E₂ → γ → δ → Prop} (hm : Spec2 h m o R)
    (hf : ∀ a b h', Fr2 h h' → R h' a b → Spec2 h' (f a) (g b) S) : Spec2 h (m >>= f) (o >>= g) S := by
  cases o with
  | none => exact bind_panic hm
  | some b =>
    obtain ⟨a, h', e, fr, r⟩ := hm
    have s := hf a b h' fr r
    change Spec2 h (m >>= f) (g b) S
    cases hg : g b with
    | none =>
      rw [hg] at s
      exact (bind_some e).trans s
    | some d =>
      rw [hg] at s
      obtain ⟨c, h'', e', fr', r'⟩ := s
      exact ⟨c, h'', (bind_some e).trans e', fr.trans fr', r'⟩

theorem step {m : HM2 E₁ E₂ α} {b : β} {R : HS E₁ × HS E₂ → α → β → Prop} {f : α → HM2 E₁ E₂ γ} {o : Option δ}
    {S : HS E₁ × HS E₂ → γ → δ → Prop} (hm : Spec2 h m (some b) R)
    (hf : ∀ a h', Fr2 h h' → R h' a b → Spec2 h' (f a) o S) : Spec2 h (m >>= f) o S := by
  obtain ⟨a, h', e, fr, r⟩ := hm
  have s := hf a h' fr r
  cases o with
  | none => exact (bind_some e).trans s
  | some d =>
    obtain ⟨c, h'', e', fr', r'⟩ := s
    exact ⟨c, h'', (bind_some e).trans e', fr.trans fr', r'⟩

theorem ite {c d : Prop} [Decidable c] [Decidable d] {m m' : HM2 E₁ E₂ α} {o o' : Option β}
    {R : HS E₁ × HS E₂ → α → β → Prop} (hcd : c ↔ d) (h1 : Spec2 h m o R) (h2 : Spec2 h m' o' R) :
    Spec2 h (if c then m else m') (if d then o else o') R := by
  by_cases hc : c
  · rw [if_pos hc, if_pos (hcd.mp hc)]; exact h1
  · rw [if_neg hc, if_neg (fun hd => hc (hcd.mpr hd))]; exact h2

theorem conseq {m : HM2 E₁ E₂ α} {o : Option β} {R R' : HS E₁ × HS E₂ → α → β → Prop} (hm : Spec2 h m o R)
    (hr : ∀ h' a b, Fr2 h h' → R h' a b → R' h' a b) : Spec2 h m o R' := by
  cases o with
  | none => exact hm
  | some b => obtain ⟨a, h', e, fr, r⟩ := hm; exact ⟨a, h', e, fr, hr _ _ _ fr r⟩

theorem lift {o : Option α} : Spec2 h (HM2.lift o : HM2 E₁ E₂ α) o (fun h' a b => a = b ∧ h' = h) := by
  cases o with
  | none => rfl
  | some a => exact ⟨a, h, rfl, Fr2.refl h, rfl, rfl⟩

theorem on1 {m : HM E₁ α} {o : Option β} {R : HS E₁ → α → β → Prop} (hm : Spec noW h.1 m o R) :
    Spec2 h (HM2.on1 m : HM2 E₁ E₂ α) o (fun h' a b => R h'.1 a b) := by
  cases o with
  | none =>
    have hm : m h.1 = none := hm
    show (match m h.1 with | none => none | some (a, h1) => some (a, h1, h.2)) = none
    rw [hm]
  | some b =>
    obtain ⟨a, h', e, fr, r⟩ := hm
    refine ⟨a, (h', h.2), ?_, ⟨fr, Fr.refl _ _⟩, r⟩
    show (match m h.1 with | none => none | some (a, h1) => some (a, h1, h.2)) = _
    rw [e]

theorem on2 {m : HM E₂ α} {o : Option β} {R : HS E₂ → α → β → Prop} (hm : Spec noW h.2 m o R) :
    Spec2 h (HM2.on2 m : HM2 E₁ E₂ α) o (fun h' a b => R h'.2 a b) := by
  cases o with
  | none =>
    have hm : m h.2 = none := hm
    show (match m h.2 with | none => none | some (a, h2) => some (a, h.1, h2)) = none
    rw [hm]
  | some b =>
    obtain ⟨a, h', e, fr, r⟩ := hm
    refine ⟨a, (h.1, h'), ?_, ⟨Fr.refl _ _, fr⟩, r⟩
    show (match m h.2 with | none => none | some (a, h2) => some (a, h.1, h2)) = _
    rw [e]

end Spec2

/-! ## Contents are stable -/

theorem Pt.mono1 {h h' : HS E₁ × HS E₂} {p : ℕ} {v : E₁} (a : Pt h.1 p v) (f : Fr2 h h') : Pt h'.1 p v := a.mono f.1 noW.not
theorem Pt.mono2 {h h' : HS E₁ × HS E₂} {p : ℕ} {v : E₂} (a : Pt h.2 p v) (f : Fr2 h h') : Pt h'.2 p v := a.mono f.2 noW.not

theorem Fr2.el1 {h h' : HS E₁ × HS E₂} (f : Fr2 h h') {p : ℕ} (hp : p < h.1.next) : h'.1.el p = h.1.el p :=
  f.1.2 p hp noW.not
theorem Fr2.el2 {h h' : HS E₁ × HS E₂} (f : Fr2 h h') {p : ℕ} (hp : p < h.2.next) : h'.2.el p = h.2.el p :=
  f.2.2 p hp noW.not

theorem ProofParamsH.Live.mono {h h' : HS E₁ × HS E₂} {p : ProofParamsH E₁ E₂} (a : p.Live h) (f : Fr2 h h') : p.Live h' :=
  ⟨⟨lt_of_lt_of_le a.1.1 f.1.1, lt_of_lt_of_le a.1.2 f.1.1⟩, lt_of_lt_of_le a.2.1 f.2.1, lt_of_lt_of_le a.2.2 f.2.1⟩

theorem ProofParamsH.deref_frame {h h' : HS E₁ × HS E₂} {p : ProofParamsH E₁ E₂} (a : p.Live h) (f : Fr2 h h') :
    p.deref h' = p.deref h := by
  unfold ProofParamsH.deref GroupParamsH.deref
  rw [f.el1 a.1.1, f.el1 a.1.2, f.el2 a.2.1, f.el2 a.2.2]

theorem SigmaProofH.Live.mono {h h' : HS E₁ × HS E₂} {p : SigmaProofH E₁ E₂} (a : p.Live h) (f : Fr2 h h') : p.Live h' :=
  ⟨⟨lt_of_lt_of_le a.1.1 f.1.1, lt_of_lt_of_le a.1.2 f.1.1⟩,
    ⟨lt_of_lt_of_le a.2.1.1 f.2.1, lt_of_lt_of_le a.2.1.2 f.2.1⟩, a.2.2.mono f⟩

theorem SigmaProofH.deref_frame {h h' : HS E₁ × HS E₂} {p : SigmaProofH E₁ E₂} (a : p.Live h) (f : Fr2 h h') :
    p.deref h' = p.deref h := by
  unfold SigmaProofH.deref
  rw [f.el1 a.1.1, f.el1 a.1.2, f.el2 a.2.1.1, f.el2 a.2.1.2, ProofParamsH.deref_frame a.2.2 f]

theorem BallotDataH.Live.mono {h h' : HS E₁ × HS E₂} {b : BallotDataH E₁ E₂} (a : b.Live h) (f : Fr2 h h') : b.Live h' :=
  ⟨⟨lt_of_lt_of_le a.1.1 f.1.1, lt_of_lt_of_le a.1.2 f.1.1⟩, fun p hp => lt_of_lt_of_le (a.2.1 p hp) f.2.1,
    fun p hp => lt_of_lt_of_le (a.2.2.1 p hp) f.2.1, a.2.2.2.mono f⟩

theorem BallotDataH.deref_frame {h h' : HS E₁ × HS E₂} {b : BallotDataH E₁ E₂} (a : b.Live h) (f : Fr2 h h') :
    b.deref h' = b.deref h := by
  unfold BallotDataH.deref
  rw [f.el1 a.1.1, f.el1 a.1.2, SigmaProofH.deref_frame a.2.2.2 f, b.BpLower.deref_frame b.GPL f.2 a.2.1,
    b.BpUpper.deref_frame b.GPU f.2 a.2.2.1]

theorem PublicParamsH.Live.mono {h h' : HS E₁ × HS E₂} {p : PublicParamsH E₁ E₂} (a : p.Live h) (f : Fr2 h h') : p.Live h' :=
  ⟨⟨lt_of_lt_of_le a.1.1 f.1.1, lt_of_lt_of_le a.1.2 f.1.1⟩, ⟨lt_of_lt_of_le a.2.1.1 f.2.1, lt_of_lt_of_le a.2.1.2 f.2.1⟩,
    lt_of_lt_of_le a.2.2.1 f.1.1, fun q hq => lt_of_lt_of_le (a.2.2.2.1 q hq) f.2.1, a.2.2.2.2.mono f⟩

theorem BPParamsH.deref_frame {E : Type} (GP : Grp E) (p : BPParamsH) {h h' : HS E} (f : Fr noW h h')
    (hl : ∀ q ∈ p.ptrs, q < h.next) : p.deref GP h' = p.deref GP h := by
  have key : ∀ q ∈ p.ptrs, h'.el q = h.el q := fun q hq => f.2 q (hl q hq) noW.not
  have keyL : ∀ l : List ℕ, (∀ q ∈ l, q ∈ p.ptrs) → l.map h'.el = l.map h.el := fun l hl' =>
    List.map_congr_left (fun q hq => key q (hl' q hq))
  unfold BPParamsH.deref
  rw [key p.G (by simp [ptrs]), key p.H (by simp [ptrs]), keyL p.Gg (by simp +contextual [ptrs]),
    keyL p.Hh (by simp +contextual [ptrs])]

theorem PublicParamsH.deref_frame {h h' : HS E₁ × HS E₂} {p : PublicParamsH E₁ E₂} (a : p.Live h) (f : Fr2 h h') :
    p.deref h' = p.deref h := by
  unfold PublicParamsH.deref GroupParamsH.deref
  rw [f.el1 a.1.1, f.el1 a.1.2, f.el2 a.2.1.1, f.el2 a.2.1.2, f.el1 a.2.2.1, ProofParamsH.deref_frame a.2.2.2.2 f,
    p.BPParams.deref_frame p.GP f.2 a.2.2.2.1]

/-! ## Sigma proofs -/

namespace Spec
variable {E : Type} {h : HS E}

theorem vpCommit (m r : Int) (gp : GroupParamsH E) {v : E} (hH : Pt h gp.H v) :
    Spec noW h (HM.vpCommit m r gp) (some (gp.I.add (gp.I.mulGen m) (gp.I.mul v r))) (fun h' p v => h.next ≤ p ∧ Pt h' p v) := by
  unfold HM.vpCommit
  refine step (newBaseScale gp.I) ?_
  rintro b h1 f1 ⟨_, pb⟩
  refine step (newScale gp.I (hH.mono f1 noW.not)) ?_
  rintro l h2 f2 ⟨_, pl⟩
  refine (newAdd gp.I (pb.mono f2 noW.not) pl).conseq ?_
  rintro h3 p v _ ⟨hp, pp⟩
  exact ⟨(f1.1.trans f2.1).trans hp, pp⟩

theorem sigmaPedersenCheck (z s c : Int) (k x : ℕ) (gp : GroupParamsH E) (gv : GroupParams E) {kv xv : E} (hI : gv.I = gp.I)
    (hH : Pt h gp.H gv.H) (hk : Pt h k kv) (hx : Pt h x xv) :
    Spec noW h (HM.sigmaPedersenCheck z s c k x gp) (some (MscPoc.sigmaPedersenCheck z s c kv xv gv)) (fun _ a b => a = b) := by
  unfold HM.sigmaPedersenCheck MscPoc.sigmaPedersenCheck MscPoc.vpCommit
  rw [hI]
  refine step (vpCommit z s gp hH) ?_
  rintro l h1 f1 ⟨_, pl⟩
  refine step (newScale gp.I (hx.mono f1 noW.not)) ?_
  rintro r h2 f2 ⟨_, pr⟩
  refine step (newAdd gp.I pr ((hk.mono f1 noW.not).mono f2 noW.not)) ?_
  rintro r2 h3 f3 ⟨_, pr2⟩
  refine step (read ((pl.mono f2 noW.not).mono f3 noW.not)) ?_
  rintro _ h3 _ ⟨rfl, rfl⟩
  refine step (read pr2) ?_
  rintro _ h3 _ ⟨rfl, rfl⟩
  exact pure rfl

theorem encryptVote (FFG : Grp E) (egPK : ℕ) (choice : UInt16) (r : Int) {v : E} (hv : Pt h egPK v) :
    Spec noW h (HM.encryptVote FFG egPK choice r) (MscPoc.encryptVote FFG v choice r)
      (fun h' a b => (h.next ≤ a.1.1 ∧ Pt h' a.1.1 b.1.U) ∧ (h.next ≤ a.1.2 ∧ Pt h' a.1.2 b.1.V) ∧ a.2 = b.2) := by
  unfold HM.encryptVote MscPoc.encryptVote
  split
  · exact panic
  · refine step (newBaseScale FFG) ?_
    rintro m h1 f1 ⟨_, pm⟩
    refine step (newScale FFG (hv.mono f1 noW.not)) ?_
    rintro k h2 f2 ⟨_, pk⟩
    refine step (newBaseScale FFG) ?_
    rintro U h3 f3 ⟨nU, pU⟩
    refine step (newAdd FFG ((pm.mono f2 noW.not).mono f3 noW.not) (pk.mono f3 noW.not)) ?_
    rintro V h4 f4 ⟨nV, pV⟩
    exact pure ⟨⟨(f1.1.trans f2.1).trans nU, pU.mono f4 noW.not⟩,
      ⟨((f1.1.trans f2.1).trans f3.1).trans nV, pV⟩, rfl⟩

theorem shiftedCommitments (I : Grp E) (VL VU : ℕ) (lo hi : UInt16) {vl vu : E} (hl : Pt h VL vl) (hu : Pt h VU vu) :
    Spec noW h (HM.shiftedCommitments I VL VU lo hi)
      (some (I.add (I.mulGen (lo.toNat : Int)) vl, I.add (I.mulGen (hi.toNat : Int)) (I.mul vu (-1))))
      (fun h' a b => Pt h' a.1 b.1 ∧ Pt h' a.2 b.2) := by
  unfold HM.shiftedCommitments
  refine step (newBaseScale I) ?_
  rintro a h1 f1 ⟨_, pa⟩
  refine step (newAdd I pa (hl.mono f1 noW.not)) ?_
  rintro X1 h2 f2 ⟨_, pX1⟩
  refine step (newBaseScale I) ?_
  rintro b h3 f3 ⟨_, pb⟩
  refine step (newScale I (((hu.mono f1 noW.not).mono f2 noW.not).mono f3 noW.not)) ?_
  rintro c h4 f4 ⟨_, pc⟩
  refine step (newAdd I (pb.mono f4 noW.not) pc) ?_
  rintro X2 h5 f5 ⟨_, pX2⟩
  exact pure ⟨((pX1.mono f3 noW.not).mono f4 noW.not).mono f5 noW.not, pX2⟩

end Spec

/-- the bounds test as it is written in the code -/
theorem zOk_not (p : ProofParams E₁ E₂) (z : Int) : ((!p.zOk z) = true) ↔
    (z < 2 ^ (p.Bx.toUInt16 + p.Bc).toNat ∨ 2 ^ (((p.Bx.toUInt16 + p.Bc).toNat : Int) + p.Bb).toNat ≤ z) := by
  unfold ProofParams.zOk ProofParams.zLowerBound ProofParams.zUpperBound ProofParams.bxbc
  simp only [Bool.not_not, Bool.or_eq_true, decide_eq_true_eq, Bool.not_eq_true', decide_eq_false_iff_not, not_lt]

/-- how a sigma proof made on the heaps is related to the pure one -/
structure SigmaRel (h : HS E₁ × HS E₂) (params : ProofParamsH E₁ E₂) (h' : HS E₁ × HS E₂) (p : SigmaProofH E₁ E₂)
    (v : SigmaProof E₁ E₂) : Prop where
  deref : p.deref h' = v
  live : p.Live h'
  new : (h.1.next ≤ p.W ∧ h.1.next ≤ p.Kp) ∧ h.2.next ≤ p.Kq1 ∧ h.2.next ≤ p.Kq2
  params : p.Params = params

/-- related optional results -/
def OptRel {α β : Type} (R : α → β → Prop) : Option α → Option β → Prop
  | none, none => True
  | some a, some b => R a b
  | _, _ => False

namespace Spec2
variable {h : HS E₁ × HS E₂}

theorem getFSChallenge (sha : Bytes → Bytes) (G₁ : Grp E₁) (G₂ : Grp E₂) {w Kp Kq1 Kq2 : ℕ} {wv kpv : E₁} {k1 k2 : E₂}
    (b : UInt16) (hw : Pt h.1 w wv) (hp : Pt h.1 Kp kpv) (h1 : Pt h.2 Kq1 k1) (h2 : Pt h.2 Kq2 k2) :
    Spec2 h (HM2.getFSChallenge sha G₁ G₂ w Kp Kq1 Kq2 b) (MscPoc.getFSChallenge sha G₁ G₂ wv kpv k1 k2 b)
      (fun _ a b => a = b) := by
  unfold HM2.getFSChallenge
  refine step (on1 (Spec.read hw)) ?_
  rintro _ h' f1 ⟨rfl, _⟩
  refine step (on1 (Spec.read (hp.mono1 f1))) ?_
  rintro _ h'' f2 ⟨rfl, _⟩
  refine step (on2 (Spec.read ((h1.mono2 f1).mono2 f2))) ?_
  rintro _ h3 f3 ⟨rfl, _⟩
  refine step (on2 (Spec.read (((h2.mono2 f1).mono2 f2).mono2 f3))) ?_
  rintro _ h4 f4 ⟨rfl, _⟩
  exact lift.conseq (fun _ _ _ _ r => r.1)

theorem sigmaAttempt (sha : Bytes → Bytes) (params : ProofParamsH E₁ E₂) (secret rp rq1 rq2 : Int) (s : SigmaSample)
    (hl : params.Live h) :
    Spec2 h (HM2.sigmaAttempt sha params secret rp rq1 rq2 s) (MscPoc.sigmaAttempt sha (params.deref h) secret rp rq1 rq2 s)
      (fun h' => OptRel (SigmaRel h params h')) := by
  have hF : Pt h.1 params.GFF.H (h.1.el params.GFF.H) := ⟨hl.1.2, rfl⟩
  have hE : Pt h.2 params.GEC.H (h.2.el params.GEC.H) := ⟨hl.2.2, rfl⟩
  unfold HM2.sigmaAttempt MscPoc.sigmaAttempt
  dsimp only [ProofParamsH.deref, GroupParamsH.deref, MscPoc.vpCommit]
  refine bind lift ?_
  rintro NF _ h _ ⟨rfl, rfl⟩
  refine bind lift ?_
  rintro NE _ h _ ⟨rfl, rfl⟩
  refine step (on1 (Spec.newBaseScale params.GFF.I)) ?_
  rintro w h1 f1 ⟨nw, pw⟩
  refine step (on1 (Spec.vpCommit _ _ params.GFF (hF.mono1 f1))) ?_
  rintro Kp h2 f2 ⟨nKp, pKp⟩
  have f02 := f1.trans f2
  refine step (on2 (Spec.vpCommit _ _ params.GEC (hE.mono2 f02))) ?_
  rintro Kq1 h3 f3 ⟨nKq1, pKq1⟩
  have f03 := f02.trans f3
  refine step (on2 (Spec.vpCommit _ _ params.GEC (hE.mono2 f03))) ?_
  rintro Kq2 h4 f4 ⟨nKq2, pKq2⟩
  have f04 := f03.trans f4
  have qw := (pw.mono1 (f2.trans f3)).mono1 f4
  have qKp := (pKp.mono1 f3).mono1 f4
  have qKq1 := pKq1.mono2 f4
  refine bind (getFSChallenge sha _ _ params.Bc qw qKp qKq1 pKq2) ?_
  rintro c _ h5 f5 rfl
  have f05 := f04.trans f5
  refine ite (zOk_not (params.deref h) (s.k + c * secret)).symm (pure trivial) ?_
  · have rw' := qw.mono1 f5
    have rKp := qKp.mono1 f5
    have rKq1 := qKq1.mono2 f5
    have rKq2 := pKq2.mono2 f5
    have g1 := f1.1.1; have g2 := f2.1.1; have g3 := f3.1.1; have k1 := f1.2.1; have k2 := f2.2.1; have k3 := f3.2.1
    refine pure (show SigmaRel h params h5 _ _ from ⟨?_, ⟨⟨rw'.1, rKp.1⟩, ⟨rKq1.1, rKq2.1⟩, hl.mono f05⟩,
      ⟨⟨nw, g1.trans nKp⟩, (k1.trans k2).trans nKq1, ((k1.trans k2).trans k3).trans nKq2⟩, rfl⟩)
    unfold SigmaProofH.deref
    dsimp only
    rw [rw'.2, rKp.2, rKq1.2, rKq2.2, ProofParamsH.deref_frame hl f05]
    rfl

theorem sigmaVerify (sha : Bytes → Bytes) (p : SigmaProofH E₁ E₂) (v : SigmaProof E₁ E₂) (comm : VerCommitmentsH)
    (cv : VerCommitments E₁ E₂) (hl : p.Live h) (hd : p.deref h = v) (hY : Pt h.1 comm.Y cv.Y) (hXp : Pt h.1 comm.Xp cv.Xp)
    (hX1 : Pt h.2 comm.Xq1 cv.Xq1) (hX2 : Pt h.2 comm.Xq2 cv.Xq2) :
    Spec2 h (HM2.sigmaVerify sha p comm) (v.verify sha cv) (fun _ a b => a = b) := by
  subst hd
  have hF : Pt h.1 p.Params.GFF.H (h.1.el p.Params.GFF.H) := ⟨hl.2.2.1.2, rfl⟩
  have hE : Pt h.2 p.Params.GEC.H (h.2.el p.Params.GEC.H) := ⟨hl.2.2.2.2, rfl⟩
  have hW : Pt h.1 p.W (h.1.el p.W) := ⟨hl.1.1, rfl⟩
  have hKp : Pt h.1 p.Kp (h.1.el p.Kp) := ⟨hl.1.2, rfl⟩
  have hK1 : Pt h.2 p.Kq1 (h.2.el p.Kq1) := ⟨hl.2.1.1, rfl⟩
  have hK2 : Pt h.2 p.Kq2 (h.2.el p.Kq2) := ⟨hl.2.1.2, rfl⟩
  unfold HM2.sigmaVerify SigmaProof.verify
  dsimp only
  refine bind lift ?_
  rintro Z _ h _ ⟨rfl, rfl⟩
  refine ite (zOk_not (p.deref h).Params Z).symm (pure rfl) ?_
  · refine bind (getFSChallenge sha _ _ p.Params.Bc hW hKp hK1 hK2) ?_
    rintro ch _ h1 f1 rfl
    refine bind lift ?_
    rintro c _ h1 _ ⟨rfl, rfl⟩
    refine ite Iff.rfl (pure rfl) ?_
    · unfold HM2.sigmaEqs
      dsimp only
      refine bind lift ?_
      rintro Sp _ h1 _ ⟨rfl, rfl⟩
      refine step (on1 (Spec.newBaseScale p.Params.GFF.I)) ?_
      rintro l h2 f2 ⟨_, pl⟩
      have f02 := f1.trans f2
      refine step (on1 (Spec.newScale p.Params.GFF.I (hY.mono1 f02))) ?_
      rintro r h3 f3 ⟨_, pr⟩
      have f03 := f02.trans f3
      refine step (on1 (Spec.newAdd p.Params.GFF.I pr (hW.mono1 f03))) ?_
      rintro r2 h4 f4 ⟨_, pr2⟩
      refine step (on1 (Spec.read ((pl.mono1 f3).mono1 f4))) ?_
      rintro _ h5 f5 ⟨rfl, _⟩
      refine step (on1 (Spec.read (pr2.mono1 f5))) ?_
      rintro _ h6 f6 ⟨rfl, _⟩
      have f06 := ((f03.trans f4).trans f5).trans f6
      refine ite Iff.rfl (pure rfl) ?_
      refine step (on1 (Spec.sigmaPedersenCheck Z Sp c p.Kp comm.Xp p.Params.GFF (p.deref h).Params.GFF rfl (hF.mono1 f06)
        (hKp.mono1 f06) (hXp.mono1 f06))) ?_
      rintro ok h7 f7 rfl
      have f07 := f06.trans f7
      refine ite Iff.rfl (pure rfl) ?_
      refine bind lift ?_
      rintro Sq1 _ h7 _ ⟨rfl, rfl⟩
      refine step (on2 (Spec.sigmaPedersenCheck Z Sq1 c p.Kq1 comm.Xq1 p.Params.GEC (p.deref h).Params.GEC rfl (hE.mono2 f07)
        (hK1.mono2 f07) (hX1.mono2 f07))) ?_
      rintro ok h8 f8 rfl
      have f08 := f07.trans f8
      refine ite Iff.rfl (pure rfl) ?_
      refine bind lift ?_
      rintro Sq2 _ h8 _ ⟨rfl, rfl⟩
      refine step (on2 (Spec.sigmaPedersenCheck Z Sq2 c p.Kq2 comm.Xq2 p.Params.GEC (p.deref h).Params.GEC rfl (hE.mono2 f08)
        (hK2.mono2 f08) (hX2.mono2 f08))) ?_
      rintro ok h9 f9 rfl
      exact ite Iff.rfl (pure rfl) (pure rfl)

end Spec2

end MscPoc
