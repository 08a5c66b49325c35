import Verif.Model.HeapBp
import Verif.Lemmas.Vec

/-!
# Refinement between the heap model and the pure model of verification
-/

set_option autoImplicit false

namespace MscPoc

variable {E : Type}

/-- `h'` extends `h`: cells that existed are unchanged, except those in `W`. -/
def Fr (W : ℕ → Prop) (h h' : HS E) : Prop := h.next ≤ h'.next ∧ ∀ i < h.next, ¬ W i → h'.el i = h.el i

/-- the cell `p` exists and holds `v` -/
def Pt (h : HS E) (p : ℕ) (v : E) : Prop := p < h.next ∧ h.el p = v

/-- the cells `ps` exist and hold `vs` -/
def Pts (h : HS E) (ps : List ℕ) (vs : List E) : Prop := List.Forall₂ (Pt h) ps vs

/-- no cell -/
def noW : ℕ → Prop := fun _ => False
/-- only the cell `e` -/
def One (e : ℕ) : ℕ → Prop := fun i => i = e
theorem One.self (e : ℕ) : One e e := rfl
theorem noW.not {i : ℕ} : ¬ noW i := fun h => h

/-- On heap `h` the heap computation `m` panics exactly when the pure one does; otherwise the results are related
and only cells in `W` and new cells are written. -/
def Spec {α β : Type} (W : ℕ → Prop) (h : HS E) (m : HM E α) (o : Option β) (R : HS E → α → β → Prop) : Prop :=
  match o with
  | none => m h = none
  | some b => ∃ a h', m h = some (a, h') ∧ Fr W h h' ∧ R h' a b

theorem Fr.refl (W : ℕ → Prop) (h : HS E) : Fr W h h := ⟨le_rfl, fun _ _ _ => rfl⟩

theorem Fr.trans {W W' : ℕ → Prop} {h h' h'' : HS E} (a : Fr W h h') (b : Fr W' h' h'')
    (hw : ∀ i < h.next, W' i → W i) : Fr W h h'' :=
  ⟨a.1.trans b.1, fun i hi hn => by rw [b.2 i (lt_of_lt_of_le hi a.1) (fun h => hn (hw i hi h)), a.2 i hi hn]⟩

theorem Pt.mono {W : ℕ → Prop} {h h' : HS E} {p : ℕ} {v : E} (a : Pt h p v) (f : Fr W h h') (hp : ¬ W p) : Pt h' p v :=
  ⟨lt_of_lt_of_le a.1 f.1, by rw [f.2 p a.1 hp, a.2]⟩

theorem Pts.mono {W : ℕ → Prop} {h h' : HS E} {ps : List ℕ} {vs : List E} (a : Pts h ps vs) (f : Fr W h h')
    (hp : ∀ p ∈ ps, ¬ W p) : Pts h' ps vs := by
  induction a with
  | nil => exact .nil
  | cons x xs ih => exact .cons (x.mono f (hp _ (by simp))) (ih (fun p h => hp p (by simp [h])))

theorem Pts.lt {h : HS E} {ps : List ℕ} {vs : List E} (a : Pts h ps vs) : ∀ p ∈ ps, p < h.next := by
  induction a with
  | nil => simp
  | cons x xs ih => simp only [List.mem_cons, forall_eq_or_imp]; exact ⟨x.1, ih⟩

theorem Pts.of_map {h : HS E} {ps : List ℕ} (hl : ∀ p ∈ ps, p < h.next) : Pts h ps (ps.map h.el) := by
  induction ps with
  | nil => exact .nil
  | cons p ps ih =>
    exact .cons ⟨hl p (by simp), rfl⟩ (ih (fun q hq => hl q (by simp [hq])))

theorem Pts.length {h : HS E} {ps : List ℕ} {vs : List E} (a : Pts h ps vs) : ps.length = vs.length :=
  List.Forall₂.length_eq a

namespace Spec
variable {α β γ δ : Type} {W W' : ℕ → Prop} {h : HS E}

theorem pure {R : HS E → α → β → Prop} {a : α} {b : β} (hr : R h a b) : Spec W h (pure a : HM E α) (some b) R :=
  ⟨a, h, rfl, Fr.refl W h, hr⟩

theorem panic {R : HS E → α → β → Prop} : Spec W h (HM.lift none : HM E α) none R := rfl

/-- sequencing -/
theorem bind' {W₁ W₂ : ℕ → Prop} {m : HM E α} {o : Option β} {R : HS E → α → β → Prop} {f : α → HM E γ} {g : β → Option δ}
    {S : HS E → γ → δ → Prop} (hm : Spec W₁ h m o R) (h₁ : ∀ i < h.next, W₁ i → W i)
    (h₂ : ∀ i < h.next, W₂ i → W i)
    (hf : ∀ a b h', Fr W₁ h h' → R h' a b → Spec W₂ h' (f a) (g b) S) :
    Spec W h (m >>= f) (o >>= g) S := by
  cases o with
  | none =>
    have hm : m h = none := hm
    show (match m h with | none => none | some (a, h') => f a h') = none
    rw [hm]
  | some b =>
    obtain ⟨a, h', e, fr, r⟩ := hm
    have s := hf a b h' fr r
    show Spec W h (m >>= f) (g b) S
    cases hg : g b with
    | none =>
      rw [hg] at s
      have s : f a h' = none := s
      show (match m h with | none => none | some (a, h') => f a h') = none
      rw [e]; exact s
    | some d =>
      rw [hg] at s
      obtain ⟨c, h'', e', fr', r'⟩ := s
      refine ⟨c, h'', ?_, ((Fr.refl W h).trans fr h₁).trans fr' h₂, r'⟩
      show (match m h with | none => none | some (a, h') => f a h') = _
      rw [e]; exact e'

/-- first step writes nothing old -/
theorem bind {m : HM E α} {o : Option β} {R : HS E → α → β → Prop} {f : α → HM E γ} {g : β → Option δ}
    {S : HS E → γ → δ → Prop} (hm : Spec noW h m o R)
    (hf : ∀ a b h', Fr noW h h' → R h' a b → Spec W h' (f a) (g b) S) :
    Spec W h (m >>= f) (o >>= g) S :=
  bind' hm (fun _ _ h => h.elim) (fun _ _ h => h) hf

/-- sequencing when the pure side has no step -/
theorem step' {W₁ W₂ : ℕ → Prop} {m : HM E α} {b : β} {R : HS E → α → β → Prop} {f : α → HM E γ} {o : Option δ}
    {S : HS E → γ → δ → Prop} (hm : Spec W₁ h m (some b) R) (h₁ : ∀ i < h.next, W₁ i → W i)
    (hf : ∀ a h', Fr W₁ h h' → R h' a b → (∀ i < h.next, W₂ i → W i) ∧ Spec W₂ h' (f a) o S) :
    Spec W h (m >>= f) o S := by
  obtain ⟨a, h', e, fr, r⟩ := hm
  obtain ⟨h₂, s⟩ := hf a h' fr r
  cases o with
  | none =>
    have s : f a h' = none := s
    show (match m h with | none => none | some (a, h') => f a h') = none
    rw [e]; exact s
  | some d =>
    obtain ⟨c, h'', e', fr', r'⟩ := s
    refine ⟨c, h'', ?_, ((Fr.refl W h).trans fr h₁).trans fr' h₂, r'⟩
    show (match m h with | none => none | some (a, h') => f a h') = _
    rw [e]; exact e'

/-- first step writes nothing old -/
theorem step {m : HM E α} {b : β} {R : HS E → α → β → Prop} {f : α → HM E γ} {o : Option δ}
    {S : HS E → γ → δ → Prop} (hm : Spec noW h m (some b) R)
    (hf : ∀ a h', Fr noW h h' → R h' a b → Spec W h' (f a) o S) : Spec W h (m >>= f) o S :=
  step' (W₂ := W) hm (fun _ _ h => h.elim) (fun a h' fr r => ⟨fun _ _ h => h, hf a h' fr r⟩)

/-- a step that overwrites the cell `e` -/
theorem stepOne {e : ℕ} {m : HM E α} {b : β} {R : HS E → α → β → Prop} {f : α → HM E γ} {o : Option δ}
    {S : HS E → γ → δ → Prop} (hm : Spec (One e) h m (some b) R)
    (hf : ∀ a h', Fr (One e) h h' → R h' a b → Spec (One e) h' (f a) o S) : Spec (One e) h (m >>= f) o S :=
  step' (W₂ := One e) hm (fun _ _ h => h) (fun a h' fr r => ⟨fun _ _ h => h, hf a h' fr r⟩)

/-- what follows may overwrite the cell `e` allocated by the first step -/
theorem stepNew {m : HM E ℕ} {b : β} {R : HS E → ℕ → β → Prop} {f : ℕ → HM E γ} {o : Option δ}
    {S : HS E → γ → δ → Prop} (hm : Spec noW h m (some b) R)
    (hf : ∀ e h', Fr noW h h' → R h' e b → h.next ≤ e ∧ Spec (One e) h' (f e) o S) : Spec W h (m >>= f) o S := by
  obtain ⟨a, h', e, fr, r⟩ := hm
  obtain ⟨hle, s⟩ := hf a h' fr r
  exact step' (W₁ := noW) (W₂ := One a) (R := fun h'' a' _ => a' = a ∧ h'' = h') (b := b) ⟨a, h', e, fr, rfl, rfl⟩ (fun _ _ h => h.elim)
    (by rintro _ _ _ ⟨rfl, rfl⟩; exact ⟨fun i hi h => by unfold One at h; omega, s⟩)

/-- as `step'` with the second write set depending on the first result -/
theorem stepE {W₁ : ℕ → Prop} {m : HM E α} {b : β} {R : HS E → α → β → Prop} {f : α → HM E γ} {o : Option δ}
    {S : HS E → γ → δ → Prop} (hm : Spec W₁ h m (some b) R) (h₁ : ∀ i < h.next, W₁ i → W i)
    (hf : ∀ a h', Fr W₁ h h' → R h' a b → ∃ W₂, (∀ i < h.next, W₂ i → W i) ∧ Spec W₂ h' (f a) o S) :
    Spec W h (m >>= f) o S := by
  obtain ⟨a, h', e, fr, r⟩ := hm
  obtain ⟨W₂, h₂, s⟩ := hf a h' fr r
  exact step' (W₂ := W₂) (R := fun h'' a' _ => a' = a ∧ h'' = h') (b := b) ⟨a, h', e, fr, rfl, rfl⟩ h₁
    (by rintro _ _ _ ⟨rfl, rfl⟩; exact ⟨h₂, s⟩)

theorem conseq {m : HM E α} {o : Option β} {R R' : HS E → α → β → Prop} (hm : Spec W h m o R)
    (hr : ∀ h' a b, Fr W h h' → R h' a b → R' h' a b) : Spec W h m o R' := by
  cases o with
  | none => exact hm
  | some b => obtain ⟨a, h', e, fr, r⟩ := hm; exact ⟨a, h', e, fr, hr _ _ _ fr r⟩

/-- a smaller write set is better -/
theorem widen {m : HM E α} {o : Option β} {R : HS E → α → β → Prop} (hm : Spec W' h m o R)
    (hw : ∀ i < h.next, W' i → W i) : Spec W h m o R := by
  cases o with
  | none => exact hm
  | some b => obtain ⟨a, h', e, fr, r⟩ := hm; exact ⟨a, h', e, (Fr.refl W h).trans fr hw, r⟩

theorem any {m : HM E α} {o : Option β} {R : HS E → α → β → Prop} (hm : Spec noW h m o R) : Spec W h m o R :=
  hm.widen (fun _ _ h => h.elim)

theorem lift {o : Option α} : Spec W h (HM.lift o : HM E α) o (fun h' a b => a = b ∧ h' = h) := by
  cases o with
  | none => rfl
  | some a => exact ⟨a, h, rfl, Fr.refl W h, rfl, rfl⟩

theorem read {p : ℕ} {v : E} (hp : Pt h p v) : Spec W h (HM.read p) (some v) (fun h' a b => a = b ∧ h' = h) :=
  ⟨h.el p, h, rfl, Fr.refl W h, hp.2, rfl⟩

theorem alloc (v : E) : Spec noW h (HM.alloc v) (some v) (fun h' p v => p = h.next ∧ Pt h' p v) := by
  refine ⟨_, _, rfl, ⟨Nat.le_succ _, fun i hi _ => ?_⟩, rfl, ⟨Nat.lt_succ_self _, by simp⟩⟩
  exact if_neg hi.ne

theorem write {e : ℕ} (he : e < h.next) (hw : W e) (v : E) :
    Spec W h (HM.write e v) (some v) (fun h' p v => p = e ∧ Pt h' p v) := by
  refine ⟨_, _, rfl, ⟨le_rfl, fun i hi hn => ?_⟩, rfl, ⟨he, by simp⟩⟩
  exact if_neg (fun (e' : i = e) => hn (by rw [e']; exact hw))

variable (GP : Grp E)

theorem add {e a b : ℕ} {x y : E} (he : e < h.next) (hw : W e) (ha : Pt h a x) (hb : Pt h b y) :
    Spec W h (HM.add GP e a b) (some (GP.add x y)) (fun h' p v => p = e ∧ Pt h' p v) := by
  unfold HM.add
  refine step (read ha) ?_
  rintro _ _ _ ⟨rfl, rfl⟩
  refine step (read hb) ?_
  rintro _ _ _ ⟨rfl, rfl⟩
  exact write he hw _

theorem scale {e a : ℕ} {r x : E} {s : Int} (he : Pt h e r) (hw : W e) (ha : Pt h a x) :
    Spec W h (HM.scale GP e a s) (some (GP.scale r x s)) (fun h' p v => p = e ∧ Pt h' p v) := by
  unfold HM.scale
  refine step (read he) ?_
  rintro _ _ _ ⟨rfl, rfl⟩
  refine step (read ha) ?_
  rintro _ _ _ ⟨rfl, rfl⟩
  exact write he.1 hw _

theorem baseScale {e : ℕ} {r : E} {s : Int} (he : Pt h e r) (hw : W e) :
    Spec W h (HM.baseScale GP e s) (some (GP.baseScale r s)) (fun h' p v => p = e ∧ Pt h' p v) := by
  unfold HM.baseScale
  refine step (read he) ?_
  rintro _ _ _ ⟨rfl, rfl⟩
  exact write he.1 hw _

theorem negate {e a : ℕ} {r x : E} (he : Pt h e r) (hw : W e) (ha : Pt h a x) :
    Spec W h (HM.negate GP e a) (some (GP.neg r x)) (fun h' p v => p = e ∧ Pt h' p v) := by
  unfold HM.negate
  refine step (read he) ?_
  rintro _ _ _ ⟨rfl, rfl⟩
  refine step (read ha) ?_
  rintro _ _ _ ⟨rfl, rfl⟩
  exact write he.1 hw _

theorem newScale {a : ℕ} {x : E} {s : Int} (ha : Pt h a x) :
    Spec noW h (HM.newScale GP a s) (some (GP.mul x s)) (fun h' p v => h.next ≤ p ∧ Pt h' p v) := by
  unfold HM.newScale HM.element
  refine stepNew (alloc _) ?_
  rintro e h' fr ⟨rfl, he⟩
  refine ⟨le_rfl, (scale GP he (One.self _) (ha.mono fr noW.not)).conseq ?_⟩
  rintro h'' _ _ _ ⟨rfl, hp⟩
  exact ⟨le_rfl, hp⟩

theorem newBaseScale {s : Int} :
    Spec noW h (HM.newBaseScale GP s) (some (GP.mulGen s)) (fun h' p v => h.next ≤ p ∧ Pt h' p v) := by
  unfold HM.newBaseScale HM.element
  refine stepNew (alloc _) ?_
  rintro e h' fr ⟨rfl, he⟩
  refine ⟨le_rfl, (baseScale GP he (One.self _)).conseq ?_⟩
  rintro h'' _ _ _ ⟨rfl, hp⟩
  exact ⟨le_rfl, hp⟩

theorem newAdd {a b : ℕ} {x y : E} (ha : Pt h a x) (hb : Pt h b y) :
    Spec noW h (HM.newAdd GP a b) (some (GP.add x y)) (fun h' p v => h.next ≤ p ∧ Pt h' p v) := by
  unfold HM.newAdd HM.element
  refine stepNew (alloc _) ?_
  rintro e h' fr ⟨rfl, he⟩
  refine ⟨le_rfl, (add GP he.1 (One.self _) (ha.mono fr noW.not) (hb.mono fr noW.not)).conseq ?_⟩
  rintro h'' _ _ _ ⟨rfl, hp⟩
  exact ⟨le_rfl, hp⟩

theorem subtract {e a b : ℕ} {x y : E} (he : e < h.next) (hw : W e) (ha : Pt h a x) (hb : Pt h b y) :
    Spec W h (HM.subtract GP e a b) (some (GP.sub x y)) (fun h' p v => p = e ∧ Pt h' p v) := by
  unfold HM.subtract HM.identity
  refine step' (W₁ := noW) (W₂ := fun i => W i ∨ i = h.next) (alloc _) (fun _ _ h => h.elim) ?_
  rintro t h1 f1 ⟨rfl, ht⟩
  refine ⟨fun i hi h => h.elim id (fun e => by omega), ?_⟩
  refine step' (W₁ := One h.next) (W₂ := W) (negate GP ht (One.self _) (hb.mono f1 noW.not)) (fun _ _ h => Or.inr h) ?_
  rintro _ h2 f2 ⟨rfl, ht2⟩
  refine ⟨fun _ _ h => Or.inl h, add GP ?_ hw ?_ ht2⟩
  · exact lt_of_lt_of_le he (f1.1.trans f2.1)
  · exact (ha.mono f1 noW.not).mono f2 (by unfold One; exact ha.1.ne)

theorem vectorExpGo {n : ℕ} : ∀ (as : List ℕ) (bs : List Int) (acc : ℕ) (vs : List E) (v : E) (h : HS E), Pts h as vs →
    Pt h acc v → n ≤ acc →
    Spec noW h (HM.vectorExpGo GP as bs acc) (some (MscPoc.vectorExpGo GP vs bs v)) (fun h' p v => n ≤ p ∧ Pt h' p v) := by
  intro as
  induction as with
  | nil =>
    intro bs acc vs v h hl hp hn
    cases hl
    exact pure ⟨hn, hp⟩
  | cons a as ih =>
    intro bs acc vs v h hl hp hn
    cases hl with
    | cons ha hl =>
      rename_i x xs
      cases bs with
      | nil => exact pure ⟨hn, hp⟩
      | cons b bs =>
        unfold HM.vectorExpGo MscPoc.vectorExpGo HM.element
        refine stepNew (alloc _) ?_
        rintro r h1 f1 ⟨rfl, hr⟩
        refine ⟨le_rfl, ?_⟩
        refine step (newScale GP (ha.mono f1 noW.not)) ?_
        rintro t h2 f2 ⟨_, ht⟩
        refine stepOne (add GP (hr.mono f2 noW.not).1 (One.self _) ((hp.mono f1 noW.not).mono f2 noW.not) ht) ?_
        rintro _ h3 f3 ⟨rfl, hr3⟩
        refine any (ih bs _ xs _ h3 ?_ hr3 ?_)
        · refine ((Pts.mono hl f1 (fun _ _ => noW.not)).mono f2 (fun _ _ => noW.not)).mono f3 (fun p hp' => ?_)
          exact (Pts.lt hl p hp').ne
        · exact hn.trans hp.1.le

theorem vectorExp {as : List ℕ} {bs : List Int} {vs : List E} (hl : Pts h as vs) :
    Spec noW h (HM.vectorExp GP as bs) (MscPoc.vectorExp GP vs bs) (fun h' p v => h.next ≤ p ∧ Pt h' p v) := by
  unfold HM.vectorExp MscPoc.vectorExp HM.identity
  rw [hl.length]
  split
  · exact panic
  · refine step (alloc _) ?_
    rintro r h1 f1 ⟨rfl, hr⟩
    exact vectorExpGo GP as bs _ vs _ h1 (hl.mono f1 (fun _ _ => noW.not)) hr le_rfl

theorem mapScale (s : Int) : ∀ (as : List ℕ) (vs : List E) (h : HS E), Pts h as vs →
    Spec noW h (HM.mapScale GP s as) (some (vs.map (fun x => GP.mul x s)))
      (fun h' ps vs => Pts h' ps vs ∧ ∀ p ∈ ps, h.next ≤ p) := by
  intro as
  induction as with
  | nil => intro vs h hl; cases hl; exact pure ⟨.nil, by simp⟩
  | cons a as ih =>
    intro vs h hl
    cases hl with
    | cons ha hl =>
      rename_i x xs
      unfold HM.mapScale
      refine step (newScale GP ha) ?_
      rintro r h1 f1 ⟨hr, pr⟩
      refine step (ih xs h1 (Pts.mono hl f1 (fun _ _ => noW.not))) ?_
      rintro rs h2 f2 ⟨prs, hrs⟩
      refine pure ⟨.cons (pr.mono f2 noW.not) prs, ?_⟩
      simp only [List.mem_cons, forall_eq_or_imp]
      exact ⟨hr, fun p hp => f1.1.trans (hrs p hp)⟩

theorem vectorScalarExp {as : List ℕ} {b : Option Int} {vs : List E} (hl : Pts h as vs) :
    Spec noW h (HM.vectorScalarExp GP as b) (MscPoc.vectorScalarExp GP vs b)
      (fun h' ps vs => Pts h' ps vs ∧ ∀ p ∈ ps, h.next ≤ p) := by
  cases hl with
  | nil => exact pure ⟨.nil, by simp⟩
  | cons ha hl =>
    cases b with
    | none => exact panic
    | some s => exact mapScale GP s _ _ h (.cons ha hl)

theorem zipAdd : ∀ (as bs : List ℕ) (vs ws : List E) (h : HS E), Pts h as vs → Pts h bs ws →
    Spec noW h (HM.zipAdd GP as bs) (some (List.zipWith GP.add vs ws))
      (fun h' ps vs => Pts h' ps vs ∧ ∀ p ∈ ps, h.next ≤ p) := by
  intro as
  induction as with
  | nil => intro bs vs ws h hl hl'; cases hl; exact pure ⟨.nil, by simp⟩
  | cons a as ih =>
    intro bs vs ws h hl hl'
    cases hl with
    | cons ha hl =>
      rename_i x xs
      cases hl' with
      | nil => exact pure ⟨.nil, by simp⟩
      | cons hb hl' =>
        unfold HM.zipAdd
        refine step (newAdd GP ha hb) ?_
        rintro r h1 f1 ⟨hr, pr⟩
        refine step (ih _ xs _ h1 (Pts.mono hl f1 (fun _ _ => noW.not)) (Pts.mono hl' f1 (fun _ _ => noW.not))) ?_
        rintro rs h2 f2 ⟨prs, hrs⟩
        refine pure ⟨.cons (pr.mono f2 noW.not) prs, ?_⟩
        simp only [List.mem_cons, forall_eq_or_imp]
        exact ⟨hr, fun p hp => f1.1.trans (hrs p hp)⟩

theorem vectorECAdd {as bs : List ℕ} {vs ws : List E} (hl : Pts h as vs) (hl' : Pts h bs ws) :
    Spec noW h (HM.vectorECAdd GP as bs) (some (MscPoc.vectorECAdd GP vs ws))
      (fun h' ps vs => Pts h' ps vs ∧ ∀ p ∈ ps, h.next ≤ p) := by
  unfold HM.vectorECAdd MscPoc.vectorECAdd vectorECAddE
  rw [hl.length, hl'.length]
  split
  · exact pure ⟨.nil, by simp⟩
  · exact zipAdd GP as bs vs ws h hl hl'

theorem sliceTo {as : List ℕ} {vs : List E} (n : ℕ) (hl : Pts h as vs) :
    Spec noW h (HM.lift (MscPoc.sliceTo as n)) (MscPoc.sliceTo vs n) (fun h' ps vs => h' = h ∧ Pts h ps vs ∧ ∀ p ∈ ps, p ∈ as) := by
  unfold MscPoc.sliceTo
  rw [hl.length]
  split
  · exact ⟨_, h, rfl, Fr.refl _ _, rfl, List.forall₂_take n hl, fun p hp => List.mem_of_mem_take hp⟩
  · exact panic

theorem sliceFrom {as : List ℕ} {vs : List E} (n : ℕ) (hl : Pts h as vs) :
    Spec noW h (HM.lift (MscPoc.sliceFrom as n)) (MscPoc.sliceFrom vs n) (fun h' ps vs => h' = h ∧ Pts h ps vs ∧ ∀ p ∈ ps, p ∈ as) := by
  unfold MscPoc.sliceFrom
  rw [hl.length]
  split
  · exact ⟨_, h, rfl, Fr.refl _ _, rfl, List.forall₂_drop n hl, fun p hp => List.mem_of_mem_drop hp⟩
  · exact panic

theorem foldGens {g hh : List ℕ} {gv hv : List E} (x : Int) (nprime : ℕ) (hg : Pts h g gv) (hh' : Pts h hh hv) :
    Spec noW h (HM.foldGens GP g hh x nprime) (MscPoc.foldGens GP gv hv x nprime)
      (fun h' ps vs => (Pts h' ps.1 vs.1 ∧ ∀ p ∈ ps.1, h.next ≤ p) ∧ Pts h' ps.2 vs.2 ∧ ∀ p ∈ ps.2, h.next ≤ p) := by
  unfold HM.foldGens MscPoc.foldGens
  refine bind (sliceTo nprime hg) ?_
  rintro gl glv _ _ ⟨rfl, pgl, _⟩
  refine bind (vectorScalarExp GP pgl) ?_
  rintro g1 g1v h1 f1 ⟨pg1, ng1⟩
  refine bind (sliceFrom nprime (Pts.mono hg f1 (fun _ _ => noW.not))) ?_
  rintro gr grv _ _ ⟨rfl, pgr, _⟩
  refine bind (vectorScalarExp GP pgr) ?_
  rintro g2 g2v h2 f2 ⟨pg2, ng2⟩
  refine step (vectorECAdd GP (Pts.mono pg1 f2 (fun _ _ => noW.not)) pg2) ?_
  rintro g' h3 f3 ⟨pg', ng'⟩
  have f123 := (f1.trans f2 (fun _ _ h => h)).trans f3 (fun _ _ h => h)
  refine bind (sliceTo nprime (Pts.mono hh' f123 (fun _ _ => noW.not))) ?_
  rintro hl hlv _ _ ⟨rfl, phl, _⟩
  refine bind (vectorScalarExp GP phl) ?_
  rintro k1 k1v h4 f4 ⟨pk1, nk1⟩
  refine bind (sliceFrom nprime ((Pts.mono hh' f123 (fun _ _ => noW.not)).mono f4 (fun _ _ => noW.not))) ?_
  rintro hr hrv _ _ ⟨rfl, phr, _⟩
  refine bind (vectorScalarExp GP phr) ?_
  rintro k2 k2v h5 f5 ⟨pk2, nk2⟩
  refine step (vectorECAdd GP (Pts.mono pk1 f5 (fun _ _ => noW.not)) pk2) ?_
  rintro k' h6 f6 ⟨pk', nk'⟩
  refine pure ⟨⟨((Pts.mono pg' f4 (fun _ _ => noW.not)).mono f5 (fun _ _ => noW.not)).mono f6 (fun _ _ => noW.not), ?_⟩, pk', ?_⟩
  · exact fun p hp => (f1.1.trans f2.1).trans (ng' p hp)
  · exact fun p hp => (f123.1.trans (f4.1.trans f5.1)).trans (nk' p hp)

theorem hashBP (sha : Bytes → Bytes) {A S : ℕ} {a s : E} (ha : Pt h A a) (hs : Pt h S s) :
    Spec noW h (HM.hashBP GP sha A S) (some (MscPoc.hashBP sha GP a s)) (fun h' p v => p = v ∧ h' = h) := by
  unfold HM.hashBP
  refine step (read ha) ?_
  rintro _ _ _ ⟨rfl, rfl⟩
  refine step (read hs) ?_
  rintro _ _ _ ⟨rfl, rfl⟩
  exact pure ⟨rfl, rfl⟩

theorem hashIPLoop : ∀ (g hh : List ℕ) (gv hv : List E), Pts h g gv → Pts h hh hv →
    Spec noW h (HM.hashIPLoop GP g hh) (MscPoc.hashIPLoop GP gv hv) (fun h' p v => p = v ∧ h' = h) := by
  intro g
  induction g with
  | nil => intro hh gv hv hg _; cases hg; exact pure ⟨rfl, rfl⟩
  | cons a as ih =>
    intro hh gv hv hg hh'
    cases hg with
    | cons ha hg =>
      cases hh' with
      | nil => exact panic
      | cons hb hh' =>
        unfold HM.hashIPLoop MscPoc.hashIPLoop
        refine step (read ha) ?_
        rintro _ _ _ ⟨rfl, rfl⟩
        refine step (read hb) ?_
        rintro _ _ _ ⟨rfl, rfl⟩
        refine bind (ih _ _ _ hg hh') ?_
        rintro _ _ _ _ ⟨rfl, rfl⟩
        exact pure ⟨rfl, rfl⟩

theorem hashIP (sha : Bytes → Bytes) {g hh : List ℕ} {gv hv : List E} {P : ℕ} {p : E} (c : Int) (hg : Pts h g gv)
    (hh' : Pts h hh hv) (hp : Pt h P p) :
    Spec noW h (HM.hashIP GP sha g hh P c) (MscPoc.hashIP sha GP gv hv p c) (fun h' p v => p = v ∧ h' = h) := by
  unfold HM.hashIP MscPoc.hashIP
  refine bind (hashIPLoop GP _ _ _ _ hg hh') ?_
  rintro _ _ _ _ ⟨rfl, rfl⟩
  refine step (read hp) ?_
  rintro _ _ _ ⟨rfl, rfl⟩
  exact pure ⟨rfl, rfl⟩

/-- the loop overwrites the accumulator `P` and nothing else that existed -/
theorem ipVerifyLoop (sha : Bytes → Bytes) : ∀ (Ls Rs g hh : List ℕ) (Lv Rv gv hv : List E) (P : ℕ) (p : E) (nprime : ℕ)
    (h : HS E), Pts h Ls Lv → Pts h Rs Rv → Pts h g gv → Pts h hh hv → Pt h P p →
    (∀ i ∈ Ls, i ≠ P) → (∀ i ∈ Rs, i ≠ P) → (∀ i ∈ g, i ≠ P) → (∀ i ∈ hh, i ≠ P) →
    Spec (One P) h (HM.ipVerifyLoop GP sha Ls Rs g hh P nprime) (MscPoc.ipVerifyLoop sha GP Lv Rv gv hv p nprime)
      (fun h' ps vs => Pts h' ps.1 vs.1 ∧ Pts h' ps.2 vs.2.1 ∧ Pt h' P vs.2.2 ∧ (∀ i ∈ ps.1, i ≠ P) ∧ ∀ i ∈ ps.2, i ≠ P) := by
  intro Ls
  induction Ls with
  | nil =>
    intro Rs g hh Lv Rv gv hv P p nprime h hL hR hg hh' hp _ _ ng nh
    cases hL
    exact pure ⟨hg, hh', hp, ng, nh⟩
  | cons L Ls ih =>
    intro Rs g hh Lv Rv gv hv P p nprime h hL hR hg hh' hp nL nR ng nh
    cases hL with
    | cons pL hL =>
      cases hR with
      | nil => exact panic
      | cons pR hR =>
        unfold HM.ipVerifyLoop MscPoc.ipVerifyLoop
        dsimp only
        refine step (hashBP GP sha pL pR) ?_
        rintro _ h _ ⟨rfl, rfl⟩
        refine bind (foldGens GP _ _ hg hh') ?_
        rintro gh ghv h1 f1 ⟨⟨pg1, ng1⟩, ph1, nh1⟩
        refine step (newScale GP (pL.mono f1 noW.not)) ?_
        rintro t h2 f2 ⟨_, pt⟩
        have f12 := f1.trans f2 (fun _ _ h => h)
        refine stepOne (add GP (hp.mono f12 noW.not).1 (One.self _) (hp.mono f12 noW.not) pt) ?_
        rintro _ h3 f3 ⟨rfl, pP⟩
        refine bind (lift) ?_
        rintro _ x2inv _ _ ⟨rfl, rfl⟩
        refine step (newScale GP ((pR.mono f12 noW.not).mono f3 (nR _ (by simp)))) ?_
        rintro t2 h4 f4 ⟨_, pt2⟩
        refine stepOne (add GP (pP.mono f4 noW.not).1 (One.self _) (pP.mono f4 noW.not) pt2) ?_
        rintro _ h5 f5 ⟨rfl, pP5⟩
        have keep : ∀ {ps : List ℕ} {vs : List E}, Pts h ps vs → (∀ i ∈ ps, ¬ One _ i) → Pts h5 ps vs := fun a b =>
          (((a.mono f12 (fun _ _ => noW.not)).mono f3 b).mono f4 (fun _ _ => noW.not)).mono f5 b
        have keep2 : ∀ {ps : List ℕ} {vs : List E}, Pts h1 ps vs → (∀ i ∈ ps, ¬ One _ i) → Pts h5 ps vs := fun a b =>
          (((a.mono f2 (fun _ _ => noW.not)).mono f3 b).mono f4 (fun _ _ => noW.not)).mono f5 b
        have n1 : ∀ i ∈ gh.1, i ≠ _ := fun i hi => (lt_of_lt_of_le hp.1 (ng1 i hi)).ne'
        have n2 : ∀ i ∈ gh.2, i ≠ _ := fun i hi => (lt_of_lt_of_le hp.1 (nh1 i hi)).ne'
        exact ih _ _ _ _ _ _ _ _ _ _ h5 (keep hL (fun i hi => nL i (by simp [hi]))) (keep hR (fun i hi => nR i (by simp [hi])))
          (keep2 pg1 n1) (keep2 ph1 n2) pP5 (fun i hi => nL i (by simp [hi])) (fun i hi => nR i (by simp [hi])) n1 n2

theorem computePP {P Uu : ℕ} {p : E} {params : IPParams E} (hGP : params.GP = GP) (c x : Int) (hp : Pt h P p)
    (hu : Pt h Uu params.Uu) :
    Spec noW h (HM.computePP GP P c x Uu) (some (MscPoc.computePP p c x params))
      (fun h' ps vs => (h.next ≤ ps.1 ∧ Pt h' ps.1 vs.1) ∧ Pt h' ps.2 vs.2 ∧ ps.2 ≠ ps.1) := by
  subst hGP
  unfold HM.computePP MscPoc.computePP
  refine step (newScale _ hu) ?_
  rintro ux h1 f1 ⟨_, pux⟩
  refine step (newScale _ pux) ?_
  rintro uxc h2 f2 ⟨_, puxc⟩
  refine step (newAdd _ ((hp.mono f1 noW.not).mono f2 noW.not) puxc) ?_
  rintro PP h3 f3 ⟨hPP, pPP⟩
  exact pure ⟨⟨(f1.1.trans f2.1).trans hPP, pPP⟩, (pux.mono f2 noW.not).mono f3 noW.not,
    (lt_of_lt_of_le pux.1 (f2.1.trans hPP)).ne⟩

theorem getElem? {ps : List ℕ} {vs : List E} (hl : Pts h ps vs) (i : ℕ) :
    Spec noW h (HM.lift ps[i]?) vs[i]? (fun h' p v => h' = h ∧ Pt h p v) := by
  have hlen := hl.length
  by_cases hi : i < ps.length
  · have hi' : i < vs.length := hlen ▸ hi
    rw [List.getElem?_eq_getElem hi, List.getElem?_eq_getElem hi']
    refine ⟨_, h, rfl, Fr.refl _ _, rfl, ?_⟩
    exact List.Forall₂.get hl hi hi'
  · rw [List.getElem?_eq_none (by omega), List.getElem?_eq_none (by omega)]
    exact panic

/-- the end of `IPProof.verify` as a separate function -/
def _root_.MscPoc.ipFinalPure (GP : Grp E) (A B : Option Int) (g h : List E) (P ux : E) : Option Bool := do
  let A ← A
  let B ← B
  let rhs := GP.mul (← g[0]?) A
  let hb := GP.mul (← h[0]?) B
  some (GP.isIdentity (GP.add (GP.neg GP.elt P) (GP.add (GP.add rhs hb) (GP.mul ux (A * B % GP.N)))))

theorem ipFinal (A B : Option Int) {g hh : List ℕ} {gv hv : List E} {P ux : ℕ} {p u : E} (hg : Pts h g gv) (hh' : Pts h hh hv)
    (hp : Pt h P p) (hu : Pt h ux u) :
    Spec noW h (HM.ipFinal GP A B g hh P ux) (ipFinalPure GP A B gv hv p u) (fun _ a b => a = b) := by
  unfold HM.ipFinal ipFinalPure HM.element
  refine bind lift ?_
  rintro _ A h _ ⟨rfl, rfl⟩
  refine bind lift ?_
  rintro _ B h _ ⟨rfl, rfl⟩
  refine bind (getElem? hg 0) ?_
  rintro g0 g0v h _ ⟨rfl, pg0⟩
  refine step (newScale GP pg0) ?_
  rintro rhs h1 f1 ⟨_, prhs⟩
  refine bind (getElem? (hh'.mono f1 (fun _ _ => noW.not)) 0) ?_
  rintro k0 k0v h1 _ ⟨rfl, pk0⟩
  refine step (newScale GP pk0) ?_
  rintro hb h2 f2 ⟨_, phb⟩
  refine step (newAdd GP (prhs.mono f2 noW.not) phb) ?_
  rintro rhs2 h3 f3 ⟨_, prhs2⟩
  refine stepNew (alloc _) ?_
  rintro e h4 f4 ⟨rfl, pe⟩
  refine ⟨le_rfl, ?_⟩
  have f24 := (f2.trans f3 (fun _ _ h => h)).trans f4 (fun _ _ h => h)
  have f14 := f1.trans f24 (fun _ _ h => h)
  refine step (newScale GP (hu.mono f14 noW.not)) ?_
  rintro t h5 f5 ⟨_, pt⟩
  refine stepOne (add GP (pe.mono f5 noW.not).1 (One.self _) ((prhs2.mono f4 noW.not).mono f5 noW.not) pt) ?_
  rintro _ h6 f6 ⟨rfl, prhs3⟩
  refine stepNew (alloc _) ?_
  rintro nP h7 f7 ⟨rfl, pnP⟩
  refine ⟨le_rfl, ?_⟩
  have hP7 : Pt h7 P p := (((hp.mono f14 noW.not).mono f5 noW.not).mono f6
    (lt_of_lt_of_le hp.1 (f1.1.trans (f2.1.trans f3.1))).ne).mono f7 noW.not
  refine stepOne (negate GP pnP (One.self _) hP7) ?_
  rintro _ h8 f8 ⟨rfl, pnP8⟩
  refine stepOne (add GP pnP8.1 (One.self _) pnP8 ((prhs3.mono f7 noW.not).mono f8 prhs3.1.ne)) ?_
  rintro _ h9 f9 ⟨rfl, pnP9⟩
  refine step (read pnP9) ?_
  rintro _ _ _ ⟨rfl, rfl⟩
  exact pure rfl

end Spec

theorem ip_verify_split (sha : Bytes → Bytes) (pf : IPProof E) : pf.verify sha = (do
    let Cc ← pf.Cc
    let x ← hashIP sha pf.Params.GP pf.Params.Gg pf.Params.Hh pf.P Cc
    let r ← ipVerifyLoop sha pf.Params.GP pf.L pf.R pf.Params.Gg pf.Params.Hh (computePP pf.P Cc x pf.Params).1 pf.Params.Gg.length
    ipFinalPure pf.Params.GP pf.A pf.B r.1 r.2.1 r.2.2 (computePP pf.P Cc x pf.Params).2) := rfl

theorem ipVerify_refines (GP : Grp E) (sha : Bytes → Bytes) (pf : IPProofH) (h : HS E) (hl : ∀ p ∈ pf.ptrs, p < h.next) :
    Spec noW h (pf.verify GP sha) ((pf.deref GP h).verify sha) (fun _ a b => a = b) := by
  have hP : Pt h pf.P (h.el pf.P) := ⟨hl _ (by simp [IPProofH.ptrs]), rfl⟩
  have hU : Pt h pf.Uu (h.el pf.Uu) := ⟨hl _ (by simp [IPProofH.ptrs]), rfl⟩
  have hL : Pts h pf.L _ := Pts.of_map (fun p hp => hl p (by simp [IPProofH.ptrs, hp]))
  have hR : Pts h pf.R _ := Pts.of_map (fun p hp => hl p (by simp [IPProofH.ptrs, hp]))
  have hG : Pts h pf.Gg _ := Pts.of_map (fun p hp => hl p (by simp [IPProofH.ptrs, hp]))
  have hH : Pts h pf.Hh _ := Pts.of_map (fun p hp => hl p (by simp [IPProofH.ptrs, hp]))
  rw [ip_verify_split]
  unfold IPProofH.verify
  refine Spec.bind Spec.lift ?_
  rintro Cc _ h _ ⟨rfl, rfl⟩
  refine Spec.bind (Spec.hashIP GP sha _ hG hH hP) ?_
  rintro x _ h _ ⟨rfl, rfl⟩
  refine Spec.stepE (Spec.computePP GP (params := (pf.deref GP h).Params) rfl Cc x hP hU) (fun _ _ h => h.elim) ?_
  rintro pp h1 f1 ⟨⟨nPP, pPP⟩, pux, hne⟩
  refine ⟨One pp.1, fun i hi h => by unfold One at h; omega, ?_⟩
  have old : ∀ {ps : List ℕ} {vs : List E}, Pts h ps vs → ∀ i ∈ ps, i ≠ pp.1 := fun a i hi =>
    (lt_of_lt_of_le (a.lt i hi) nPP).ne
  have keep : ∀ {ps : List ℕ} {vs : List E}, Pts h ps vs → Pts h1 ps vs := fun a => a.mono f1 (fun _ _ => noW.not)
  have hloop := Spec.ipVerifyLoop GP sha pf.L pf.R pf.Gg pf.Hh _ _ _ _ pp.1 _ pf.Gg.length h1 (keep hL) (keep hR) (keep hG)
    (keep hH) pPP (old hL) (old hR) (old hG) (old hH)
  have e : (pf.deref GP h).Params.Gg.length = pf.Gg.length := by simp [IPProofH.deref]
  rw [e]
  refine Spec.bind' (W₂ := One pp.1) hloop (fun _ _ h => h) (fun _ _ h => h) ?_
  rintro gh ghv h2 f2 ⟨pg, ph, pP, _, _⟩
  exact Spec.any (Spec.ipFinal GP pf.A pf.B pg ph pP (pux.mono f2 hne))


namespace Spec
variable {h : HS E} (GP : Grp E)

theorem updateGeneratorsGo (yInv : Int) : ∀ (hs : List ℕ) (yExp : Int) (n : ℕ) (vs : List E) (h : HS E), Pts h hs vs →
    Spec noW h (HM.updateGeneratorsGo GP yInv hs yExp n) (MscPoc.updateGeneratorsGo GP yInv vs yExp n)
      (fun h' ps vs => Pts h' ps vs) := by
  intro hs
  induction hs with
  | nil =>
    intro yExp n vs h hl
    cases hl
    cases n with
    | zero => exact pure .nil
    | succ n => exact panic
  | cons a as ih =>
    intro yExp n vs h hl
    cases hl with
    | cons ha hl =>
      cases n with
      | zero => exact pure .nil
      | succ n =>
        unfold HM.updateGeneratorsGo MscPoc.updateGeneratorsGo
        refine step (newScale GP ha) ?_
        rintro e h1 f1 ⟨_, pe⟩
        refine bind (ih (yExp * yInv) n _ h1 (Pts.mono hl f1 (fun _ _ => noW.not))) ?_
        rintro rs rsv h2 f2 prs
        exact pure (.cons (pe.mono f2 noW.not) prs)

theorem updateGenerators {Hh : List ℕ} {vs : List E} (y : Int) (N : ℕ) (hl : Pts h Hh vs) :
    Spec noW h (HM.updateGenerators GP Hh y N) (MscPoc.updateGenerators GP vs y N) (fun h' ps vs => Pts h' ps vs) := by
  cases hl with
  | nil => cases N <;> exact panic
  | cons ha hl =>
    match N with
    | 0 => exact panic
    | 1 => exact pure (.cons ha .nil)
    | n + 2 =>
      unfold HM.updateGenerators MscPoc.updateGenerators
      refine bind lift ?_
      rintro yInv _ h _ ⟨rfl, rfl⟩
      refine bind (updateGeneratorsGo GP yInv _ _ _ _ h hl) ?_
      rintro rs rsv h2 f2 prs
      exact pure (.cons (ha.mono f2 noW.not) prs)

theorem pedersenCommit (x r : Int) {H : ℕ} {v : E} (hH : Pt h H v) :
    Spec noW h (HM.pedersenCommit GP x r H) (some (MscPoc.pedersenCommit GP x r v)) (fun h' p v => h.next ≤ p ∧ Pt h' p v) := by
  unfold HM.pedersenCommit
  refine step (newBaseScale GP) ?_
  rintro C h1 f1 ⟨_, pC⟩
  refine step (newScale GP (hH.mono f1 noW.not)) ?_
  rintro Hr h2 f2 ⟨_, pHr⟩
  refine (newAdd GP (pC.mono f2 noW.not) pHr).conseq ?_
  rintro h3 p v _ ⟨hp, pp⟩
  exact ⟨(f1.1.trans f2.1).trans hp, pp⟩

end Spec

/-- bulletproofs/bp.go:268-288 as a separate function -/
def cond65Pure (pf : BulletProof E) (x y z : Int) : Option Bool := do
  let GP := pf.Params.GP
  let Tprime ← pf.Tprime
  let Taux ← pf.Taux
  let dlt ← delta pf.Params.N GP.N y z
  some (GP.isEqual (GP.add (GP.add (GP.add (GP.mul pf.V (z * z % GP.N)) (GP.mulGen dlt)) (GP.mul pf.T1 x))
    (GP.mul pf.T2 (x * x % GP.N))) (pedersenCommit GP Tprime Taux pf.Params.H))

/-- bulletproofs/bp.go:290-316 as a separate function -/
def lPPure (pf : BulletProof E) (hp : List E) (x y z : Int) : Option E := do
  let GP := pf.Params.GP
  let mod := GP.N
  let gpmz ← vectorExp GP pf.Params.Gg (vectorCopy (mod - z) pf.Params.N)
  let hpExp ← vectorExp GP hp (vectorAdd (vectorMul (powerOf y pf.Params.N mod) (vectorCopy z pf.Params.N) mod)
    (vectorScalarMul (powerOf 2 pf.Params.N mod) (z * z % mod) mod) mod)
  some (GP.add (GP.add (GP.add pf.A (GP.mul pf.S x)) gpmz) hpExp)

/-- bulletproofs/bp.go:318-326 as a separate function -/
def cond67Pure (pf : BulletProof E) (lP : E) : Option Bool := do
  let GP := pf.Params.GP
  let Mu ← pf.Mu
  some (GP.isIdentity (GP.sub (GP.add (GP.mul pf.Params.H Mu) pf.InnerProductProof.P) lP))

theorem bp_verify_split (sha : Bytes → Bytes) (pf : BulletProof E) : pf.verify sha = (do
    let GP := pf.Params.GP
    let xs := hashBP sha GP pf.T1 pf.T2
    let yz := hashBP sha GP pf.A pf.S
    let hp ← updateGenerators GP pf.Params.Hh yz.1 pf.Params.N
    let c65 ← cond65Pure pf xs.1 yz.1 yz.2
    let lP ← lPPure pf hp xs.1 yz.1 yz.2
    let c67 ← cond67Pure pf lP
    let ok ← pf.InnerProductProof.verify sha
    some (c65 && c67 && ok)) := by
  unfold BulletProof.verify cond65Pure lPPure cond67Pure
  simp only [Option.bind_eq_bind, Option.bind_assoc, Option.bind_some]

namespace Spec
variable (GP : Grp E)

theorem cond65 (pf : BulletProofH) (h0 h : HS E) (f0 : Fr noW h0 h) (hl : ∀ p ∈ pf.ptrs, p < h0.next) (x y z : Int) :
    Spec noW h (HM.cond65 GP pf x y z) (cond65Pure (pf.deref GP h0) x y z) (fun _ a b => a = b) := by
  have old : ∀ p ∈ pf.ptrs, Pt h p (h0.el p) := fun p hp => Pt.mono (h := h0) ⟨hl p hp, rfl⟩ f0 noW.not
  unfold HM.cond65 cond65Pure
  refine bind lift ?_
  rintro Tprime _ h _ ⟨rfl, rfl⟩
  refine bind lift ?_
  rintro Taux _ h _ ⟨rfl, rfl⟩
  refine step (pedersenCommit GP Tprime Taux (old pf.H (by simp [BulletProofH.ptrs]))) ?_
  rintro lhs h1 f1 ⟨_, plhs⟩
  refine stepNew (newScale GP ((old pf.V (by simp [BulletProofH.ptrs])).mono f1 noW.not)) ?_
  rintro rhs h2 f2 ⟨nrhs, prhs⟩
  refine ⟨nrhs, ?_⟩
  have f12 := f1.trans f2 (fun _ _ h => h)
  refine bind lift ?_
  rintro dlt _ h2 _ ⟨rfl, rfl⟩
  refine step (newBaseScale GP) ?_
  rintro gD h3 f3 ⟨_, pgD⟩
  refine stepOne (add GP (prhs.mono f3 noW.not).1 (One.self _) (prhs.mono f3 noW.not) pgD) ?_
  rintro _ h4 f4 ⟨rfl, prhs4⟩
  have keep : ∀ {p : ℕ} {v : E}, Pt h1 p v → Pt h4 p v := fun a =>
    ((a.mono f2 noW.not).mono f3 noW.not).mono f4 (lt_of_lt_of_le a.1 nrhs).ne
  refine step (newScale GP (keep ((old pf.T1 (by simp [BulletProofH.ptrs])).mono f1 noW.not))) ?_
  rintro T1x h5 f5 ⟨nT1, pT1⟩
  refine step (newScale GP ((keep ((old pf.T2 (by simp [BulletProofH.ptrs])).mono f1 noW.not)).mono f5 noW.not)) ?_
  rintro T2x h6 f6 ⟨nT2, pT2⟩
  have prhs6 := (prhs4.mono f5 noW.not).mono f6 noW.not
  refine stepOne (add GP prhs6.1 (One.self _) prhs6 (pT1.mono f6 noW.not)) ?_
  rintro _ h7 f7 ⟨rfl, prhs7⟩
  refine stepOne (add GP prhs7.1 (One.self _) prhs7 (pT2.mono f7 (lt_of_lt_of_le prhs4.1 (f5.1.trans nT2)).ne')) ?_
  rintro _ h8 f8 ⟨rfl, prhs8⟩
  refine step (read prhs8) ?_
  rintro _ h8 _ ⟨rfl, rfl⟩
  have hne := (lt_of_lt_of_le plhs.1 nrhs).ne
  refine step (read (((((keep plhs).mono f5 noW.not).mono f6 noW.not).mono f7 hne).mono f8 hne)) ?_
  rintro _ h8 _ ⟨rfl, rfl⟩
  exact pure rfl

theorem computeLP (pf : BulletProofH) (h0 h : HS E) (f0 : Fr noW h0 h) (hl : ∀ p ∈ pf.ptrs, p < h0.next) {hp : List ℕ}
    {hpv : List E} (php : Pts h hp hpv) (x y z : Int) :
    Spec noW h (HM.computeLP GP pf hp x y z) (lPPure (pf.deref GP h0) hpv x y z) (fun h' p v => Pt h' p v) := by
  have old : ∀ p ∈ pf.ptrs, Pt h p (h0.el p) := fun p hp => Pt.mono (h := h0) ⟨hl p hp, rfl⟩ f0 noW.not
  have hG : Pts h pf.Gg (pf.Gg.map h0.el) :=
    (Pts.of_map (h := h0) (fun p hp => hl p (by simp [BulletProofH.ptrs, hp]))).mono f0 (fun _ _ => noW.not)
  unfold HM.computeLP lPPure
  refine step (newScale GP (old pf.S (by simp [BulletProofH.ptrs]))) ?_
  rintro Sx h1 f1 ⟨_, pSx⟩
  refine step (newAdd GP ((old pf.A (by simp [BulletProofH.ptrs])).mono f1 noW.not) pSx) ?_
  rintro ASx h2 f2 ⟨_, pASx⟩
  have f12 := f1.trans f2 (fun _ _ h => h)
  refine bind (vectorExp GP (Pts.mono hG f12 (fun _ _ => noW.not))) ?_
  rintro gpmz gpv h3 f3 ⟨_, pgp⟩
  refine stepNew (newAdd GP (pASx.mono f3 noW.not) pgp) ?_
  rintro lP h4 f4 ⟨nlP, plP⟩
  refine ⟨nlP, ?_⟩
  have f14 := (f12.trans f3 (fun _ _ h => h)).trans f4 (fun _ _ h => h)
  refine bind (vectorExp GP (Pts.mono php f14 (fun _ _ => noW.not))) ?_
  rintro hpE hpEv h5 f5 ⟨_, phE⟩
  refine (add GP (plP.mono f5 noW.not).1 (One.self _) (plP.mono f5 noW.not) phE).conseq ?_
  rintro h6 _ _ _ ⟨rfl, hp⟩
  exact hp

theorem cond67 (pf : BulletProofH) (h0 h : HS E) (f0 : Fr noW h0 h) (hl : ∀ p ∈ pf.ptrs, p < h0.next) {lP : ℕ}
    {lPv : E} (plP : Pt h lP lPv) :
    Spec noW h (HM.cond67 GP pf lP) (cond67Pure (pf.deref GP h0) lPv) (fun _ a b => a = b) := by
  have old : ∀ p ∈ pf.ptrs, Pt h p (h0.el p) := fun p hp => Pt.mono (h := h0) ⟨hl p hp, rfl⟩ f0 noW.not
  unfold HM.cond67 cond67Pure
  refine bind lift ?_
  rintro Mu _ h _ ⟨rfl, rfl⟩
  refine stepNew (newScale GP (old pf.H (by simp [BulletProofH.ptrs]))) ?_
  rintro rP h1 f1 ⟨nrP, prP⟩
  refine ⟨nrP, ?_⟩
  refine stepOne (add GP prP.1 (One.self _) prP ((old pf.ip.P (by simp [BulletProofH.ptrs, IPProofH.ptrs])).mono f1 noW.not)) ?_
  rintro _ h2 f2 ⟨rfl, prP2⟩
  refine stepOne (subtract GP prP2.1 (One.self _) prP2 ((plP.mono f1 noW.not).mono f2 (lt_of_lt_of_le plP.1 nrP).ne)) ?_
  rintro _ h3 f3 ⟨rfl, prP3⟩
  refine step (read prP3) ?_
  rintro _ h3 _ ⟨rfl, rfl⟩
  exact pure rfl

end Spec

/-- the contents of a proof do not change when only new cells are written -/
theorem IPProofH.deref_frame (GP : Grp E) (pf : IPProofH) {h h' : HS E} (f : Fr noW h h') (hl : ∀ p ∈ pf.ptrs, p < h.next) :
    pf.deref GP h' = pf.deref GP h := by
  have key : ∀ p ∈ pf.ptrs, h'.el p = h.el p := fun p hp => f.2 p (hl p hp) noW.not
  have keyL : ∀ l : List ℕ, (∀ p ∈ l, p ∈ pf.ptrs) → l.map h'.el = l.map h.el := fun l hl' =>
    List.map_congr_left (fun p hp => key p (hl' p hp))
  unfold IPProofH.deref
  rw [key pf.P (by simp [ptrs]), key pf.Uu (by simp [ptrs]), keyL pf.L (by simp +contextual [ptrs]),
    keyL pf.R (by simp +contextual [ptrs]), keyL pf.Gg (by simp +contextual [ptrs]), keyL pf.Hh (by simp +contextual [ptrs])]

theorem BulletProofH.deref_frame (GP : Grp E) (pf : BulletProofH) {h h' : HS E} (f : Fr noW h h')
    (hl : ∀ p ∈ pf.ptrs, p < h.next) : pf.deref GP h' = pf.deref GP h := by
  have key : ∀ p ∈ pf.ptrs, h'.el p = h.el p := fun p hp => f.2 p (hl p hp) noW.not
  have keyL : ∀ l : List ℕ, (∀ p ∈ l, p ∈ pf.ptrs) → l.map h'.el = l.map h.el := fun l hl' =>
    List.map_congr_left (fun p hp => key p (hl' p hp))
  unfold BulletProofH.deref
  rw [key pf.V (by simp [ptrs]), key pf.A (by simp [ptrs]), key pf.S (by simp [ptrs]), key pf.T1 (by simp [ptrs]),
    key pf.T2 (by simp [ptrs]), key pf.G (by simp [ptrs]), key pf.H (by simp [ptrs]), keyL pf.Gg (by simp +contextual [ptrs]),
    keyL pf.Hh (by simp +contextual [ptrs]), pf.ip.deref_frame GP f (fun p hp => hl p (by simp [ptrs, hp]))]

theorem bpVerify_refines (GP : Grp E) (sha : Bytes → Bytes) (pf : BulletProofH) (h : HS E) (hl : ∀ p ∈ pf.ptrs, p < h.next) :
    Spec noW h (pf.verify GP sha) ((pf.deref GP h).verify sha) (fun _ a b => a = b) := by
  have old : ∀ p ∈ pf.ptrs, Pt h p (h.el p) := fun p hp => ⟨hl p hp, rfl⟩
  have hH : Pts h pf.Hh (pf.Hh.map h.el) := Pts.of_map (fun p hp => hl p (by simp [BulletProofH.ptrs, hp]))
  rw [bp_verify_split]
  unfold BulletProofH.verify
  refine Spec.step (Spec.hashBP GP sha (old pf.T1 (by simp [BulletProofH.ptrs])) (old pf.T2 (by simp [BulletProofH.ptrs]))) ?_
  rintro xs h _ ⟨rfl, rfl⟩
  refine Spec.step (Spec.hashBP GP sha (old pf.A (by simp [BulletProofH.ptrs])) (old pf.S (by simp [BulletProofH.ptrs]))) ?_
  rintro yz h _ ⟨rfl, rfl⟩
  refine Spec.bind (Spec.updateGenerators GP _ _ hH) ?_
  rintro hp hpv h1 f1 php
  refine Spec.bind (Spec.cond65 GP pf h h1 f1 hl _ _ _) ?_
  rintro c65 _ h2 f2 rfl
  have f12 := f1.trans f2 (fun _ _ h => h)
  refine Spec.bind (Spec.computeLP GP pf h h2 f12 hl (php.mono f2 (fun _ _ => noW.not)) _ _ _) ?_
  rintro lP lPv h3 f3 plP
  have f13 := f12.trans f3 (fun _ _ h => h)
  refine Spec.bind (Spec.cond67 GP pf h h3 f13 hl plP) ?_
  rintro c67 _ h4 f4 rfl
  have f14 := f13.trans f4 (fun _ _ h => h)
  have hip : ∀ p ∈ pf.ip.ptrs, p < h.next := fun p hp => hl p (by simp [BulletProofH.ptrs, hp])
  have e : (pf.deref GP h).InnerProductProof = pf.ip.deref GP h4 := (pf.ip.deref_frame GP f14 hip).symm
  rw [e]
  refine Spec.bind (ipVerify_refines GP sha pf.ip h4 (fun p hp => lt_of_lt_of_le (hip p hp) f14.1)) ?_
  rintro ok _ h5 f5 rfl
  exact Spec.pure rfl

end MscPoc
