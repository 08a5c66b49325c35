import Mathlib.SetTheory.Cardinal.Finite
import Mathlib.Data.Fintype.Sigma
import Mathlib.Data.Set.Finite.List
import Verif.Lemmas.RandBytes
import Verif.Props.Rand
import Verif.Model.RandMulti
import Verif.Lemmas.MultiHide

/-!
# Lemmas for C97 and C98: the draws are uniform on the byte stream
-/

set_option autoImplicit false

namespace MscPoc

variable {α β : Type}

instance : Finite UInt8 := Finite.of_injective (β := Fin 256) UInt8.toFin fun _ _ h => UInt8.toFin_inj.mp h

theorem bytes_finite (j : ℕ) (p : Bytes → Prop) : Finite {u : Bytes // u.length = j ∧ p u} :=
  ((List.finite_length_eq UInt8 j).subset (fun _ h => h.1 : {u : Bytes | u.length = j ∧ p u} ⊆ {u | u.length = j})).to_subtype

/-- the strings of length `j` that the computation reads completely and returns `a` on -/
abbrev Draw.Strings (x : Draw α) (a : α) (j : ℕ) : Type := {u : Bytes // u.length = j ∧ x.Uses u a}

/-- all values of `S`, and no others, are returned; each on equally many strings of every length -/
structure Draw.Uniform (x : Draw α) (S : α → Prop) : Prop where
  least : x.Least 0
  mem : ∀ t a r, x t = .done (a, r) → S a
  card : ∀ j a b, S a → S b → Nat.card (x.Strings a j) = Nat.card (x.Strings b j)

theorem Draw.Uses.nil {x : Draw α} {u : Bytes} {a : α} (h : x.Uses u a) : x u = .done (a, []) := by
  have := h []
  rwa [List.append_nil] at this

theorem Draw.Least.uses_iff {x : Draw α} {k : ℕ} (h : x.Least k) {u : Bytes} {a : α} : x.Uses u a ↔ x u = .done (a, []) := by
  refine ⟨Draw.Uses.nil, fun e => ?_⟩
  obtain ⟨v, rfl, _, V⟩ := h u a [] e
  rwa [List.append_nil]

theorem Draw.Uniform.uses_mem {x : Draw α} {S : α → Prop} (h : x.Uniform S) {u : Bytes} {a : α} (e : x.Uses u a) : S a :=
  h.mem _ _ _ e.nil

theorem Draw.Least.zero {x : Draw α} {k : ℕ} (h : x.Least k) : x.Least 0 := fun t a r e => by
  obtain ⟨u, h1, _, h2⟩ := h t a r e
  exact ⟨u, h1, Nat.zero_le _, h2⟩

/-- The same for a family of computations: every value of every member is returned on equally many strings. -/
structure Draw.UniformF {ι : Type} (x : ι → Draw α) (S : ι → α → Prop) : Prop where
  least : ∀ i, (x i).Least 0
  mem : ∀ i t a r, x i t = .done (a, r) → S i a
  card : ∀ j i i' a b, S i a → S i' b → Nat.card ((x i).Strings a j) = Nat.card ((x i').Strings b j)

theorem Draw.UniformF.pure {ι : Type} (g : ι → α) : Draw.UniformF (fun i => (Pure.pure (g i) : Draw α)) fun i a => a = g i where
  least := fun i => .pure (g i)
  mem := fun i t a r h => by
    simp only [Draw.pure_eq, Outcome.done.injEq, Prod.mk.injEq] at h
    exact h.1.symm
  card := by
    rintro j i i' _ _ rfl rfl
    have e : ∀ i (u : Bytes), (Pure.pure (g i) : Draw α).Uses u (g i) ↔ u = [] := by
      intro i u
      rw [(Draw.Least.pure (g i)).uses_iff]
      simp [Draw.pure_eq]
    exact Nat.card_congr (Equiv.subtypeEquivRight fun u => by rw [e, e])

/-- the strings of a sequence are pairs of strings -/
noncomputable def Draw.splitStrings {x : Draw α} {f : α → Draw β} {T : α → β → Prop} (hT : ∀ a a' b, T a b → T a' b → a = a')
    (hx : x.Least 0) (hf : ∀ a, (f a).Least 0) (hm : ∀ a t b r, f a t = .done (b, r) → T a b) (a : α) (b : β) (hab : T a b) (j : ℕ) :
    (Σ i : Fin (j + 1), x.Strings a i × (f a).Strings b (j - i)) ≃ (x >>= f).Strings b j := by
  refine Equiv.ofBijective (fun s => ⟨s.2.1.1 ++ s.2.2.1, ?_, s.2.1.2.2.bind s.2.2.2.2⟩) ⟨?_, ?_⟩
  · have := s.1.2
    rw [List.length_append, s.2.1.2.1, s.2.2.2.1]; omega
  · rintro ⟨i, ⟨u, hu, U⟩, ⟨v, hv, V⟩⟩ ⟨i', ⟨u', hu', U'⟩, ⟨v', hv', V'⟩⟩ h
    simp only [Subtype.mk.injEq] at h
    have e := U v
    rw [h, U' v'] at e
    simp only [Outcome.done.injEq, Prod.mk.injEq, true_and] at e
    subst e
    have e' := List.append_cancel_right h
    subst e'
    obtain rfl : i = i' := Fin.ext (hu.symm.trans hu')
    rfl
  · rintro ⟨w, hw, W⟩
    obtain ⟨a', m, e1, e2⟩ := Draw.bind_done.mp W.nil
    obtain rfl := hT _ _ _ (hm _ _ _ _ e2) hab
    obtain ⟨u, rfl, _, U⟩ := hx _ _ _ e1
    have V := (hf a').uses_iff.mpr e2
    rw [List.length_append] at hw
    exact ⟨⟨⟨u.length, by omega⟩, ⟨u, rfl, U⟩, ⟨m, by simp; omega, V⟩⟩, rfl⟩

theorem Draw.UniformF.bind {ι : Type} {x : Draw α} {S : α → Prop} (hx : x.Uniform S) {f : ι → α → Draw β} {T : ι → α → β → Prop}
    (hf : Draw.UniformF (fun p : ι × α => f p.1 p.2) fun p => T p.1 p.2) (hT : ∀ i a a' b, T i a b → T i a' b → a = a') :
    Draw.UniformF (fun i => x >>= f i) fun i b => ∃ a, S a ∧ T i a b where
  least := fun i => hx.least.bind fun a => hf.least (i, a)
  mem := by
    intro i t b r h
    obtain ⟨a, m, e1, e2⟩ := Draw.bind_done.mp h
    exact ⟨a, hx.mem _ _ _ e1, hf.mem (i, a) _ _ _ e2⟩
  card := by
    rintro j i i' b b' ⟨a, sa, tb⟩ ⟨a', sa', tb'⟩
    rw [← Nat.card_congr (Draw.splitStrings (hT i) hx.least (fun a => hf.least (i, a)) (fun a => hf.mem (i, a)) a b tb j),
      ← Nat.card_congr (Draw.splitStrings (hT i') hx.least (fun a => hf.least (i', a)) (fun a => hf.mem (i', a)) a' b' tb' j)]
    have : ∀ (i : ι) (a : α) (b : β) (l : Fin (j + 1)), Finite (x.Strings a l × (f i a).Strings b (j - l)) := fun i a b l => by
      have : Finite (x.Strings a l) := bytes_finite _ _
      have : Finite ((f i a).Strings b (j - l)) := bytes_finite _ _
      infer_instance
    rw [Nat.card_sigma, Nat.card_sigma]
    refine Finset.sum_congr rfl fun l _ => ?_
    rw [Nat.card_prod, Nat.card_prod, hx.card _ a a' sa sa', hf.card _ (i, a) (i', a') b b' tb tb']

/-- a family with one member -/
theorem Draw.UniformF.single {x : Draw α} {S T : α → Prop} (h : Draw.UniformF (fun _ : Unit => x) fun _ => S) (hS : ∀ a, S a ↔ T a) :
    x.Uniform T :=
  ⟨h.least (), fun t a r e => (hS a).mp (h.mem () t a r e),
    fun j a b ha hb => h.card j () () a b ((hS a).mpr ha) ((hS b).mpr hb)⟩

theorem randInt_uniform (max : Int) (h : 0 < max) : (randInt max).Uniform (Below max) := by
  have hl : (randInt max).Least 0 := by
    rcases (show max = 1 ∨ 2 ≤ max by omega) with rfl | h2
    · intro t a r e
      rw [randInt_one] at e
      simp only [Outcome.done.injEq, Prod.mk.injEq] at e
      obtain ⟨rfl, rfl⟩ := e
      exact ⟨[], rfl, Nat.zero_le _, fun _ => randInt_one _⟩
    · obtain ⟨bl, k, s⟩ := intShape_exists max h2
      refine (randInt_least (k := k) ⟨s.kpos, ?_, ?_⟩).zero
      · have a1 : (2 : Int) ^ (8 * (k - 1) + 1) ≤ 2 ^ bl := pow_le_pow_right₀ (by norm_num) s.k1
        rw [pow_succ] at a1
        have := s.lo
        rw [show (256 : Int) = 2 ^ 8 by norm_num, ← pow_mul]
        omega
      · refine s.hi.trans ?_
        have := s.lt_pow
        exact_mod_cast this
  refine ⟨hl, fun t a r e => (randInt_done e).1, fun j a b ha hb => ?_⟩
  have := C57_int_uniform max j (fun r => r = []) a b ha hb
  have e : ∀ (a : Int) (u : Bytes), (u.length = j ∧ (randInt max).Uses u a) ↔
      (u.length = j ∧ ∃ rest, randInt max u = .done (a, rest) ∧ rest = []) := by
    intro a u
    rw [hl.uses_iff]
    simp
  rwa [← Nat.card_congr (Equiv.subtypeEquivRight (e a)), ← Nat.card_congr (Equiv.subtypeEquivRight (e b))] at this

theorem sampleRandomVector_uniform (mod : Int) (h : 0 < mod) : ∀ n, (sampleRandomVector mod n).Uniform
    fun l => l.length = n ∧ ∀ x ∈ l, Below mod x
  | 0 => Draw.UniformF.single (Draw.UniformF.pure fun _ => []) fun l => by
      constructor
      · rintro rfl; simp
      · rintro ⟨h, _⟩; exact List.eq_nil_of_length_eq_zero h
  | n + 1 => by
    refine Draw.UniformF.single (Draw.UniformF.bind (ι := Unit) (T := fun _ x l => ∃ xs, (xs.length = n ∧ ∀ y ∈ xs, Below mod y) ∧ l = x :: xs)
      (randInt_uniform mod h) (Draw.UniformF.bind (sampleRandomVector_uniform mod h n)
        (Draw.UniformF.pure fun p : (Unit × Int) × List Int => p.1.2 :: p.2) ?_) ?_) fun l => ?_
    · rintro i a a' b rfl h; injection h
    · rintro i a a' b ⟨_, _, rfl⟩ ⟨_, _, h⟩; injection h
    · constructor
      · rintro ⟨x, hx, xs, ⟨hl, hxs⟩, rfl⟩
        simp only [List.length_cons, List.mem_cons, forall_eq_or_imp]
        exact ⟨by omega, hx, hxs⟩
      · rintro ⟨hl, hxs⟩
        cases l with
        | nil => simp at hl
        | cons x xs =>
          simp only [List.length_cons, List.mem_cons, forall_eq_or_imp, Nat.add_right_cancel_iff] at hl hxs
          exact ⟨x, hxs.1, xs, ⟨hl, hxs.2⟩, rfl⟩

/-- `r` is made from six draws in range -/
def RestOf (mod : Int) (n : ℕ) (g : Int → List Int → List Int → Int → Int → Int → β) (r : β) : Prop :=
  ∃ a, Below mod a ∧ ∃ b, (b.length = n ∧ ∀ x ∈ b, Below mod x) ∧ ∃ c, (c.length = n ∧ ∀ x ∈ c, Below mod x) ∧
    ∃ d, Below mod d ∧ ∃ e, Below mod e ∧ ∃ f, Below mod f ∧ r = g a b c d e f

/-- the end of both draws: everything after the blinding factors of the commitments -/
theorem drawRest_uniform {ι : Type} (mod : Int) (h : 0 < mod) (n : ℕ)
    (g : ι → Int → List Int → List Int → Int → Int → Int → β)
    (hg : ∀ i a b c d e f i' a' b' c' d' e' f', g i a b c d e f = g i' a' b' c' d' e' f' →
      a = a' ∧ b = b' ∧ c = c' ∧ d = d' ∧ e = e' ∧ f = f') :
    Draw.UniformF (fun i => do
      let alpha ← randInt mod
      let sL ← sampleRandomVector mod n
      let sR ← sampleRandomVector mod n
      let rho ← randInt mod
      let tau1 ← randInt mod
      let tau2 ← randInt mod
      pure (g i alpha sL sR rho tau1 tau2)) fun i r => RestOf mod n (g i) r := by
  have I := randInt_uniform mod h
  have V := sampleRandomVector_uniform mod h n
  refine Draw.UniformF.bind I (Draw.UniformF.bind V (Draw.UniformF.bind V (Draw.UniformF.bind I (Draw.UniformF.bind I
    (Draw.UniformF.bind I (Draw.UniformF.pure fun p : (((((ι × Int) × List Int) × List Int) × Int) × Int) × Int =>
      g p.1.1.1.1.1.1 p.1.1.1.1.1.2 p.1.1.1.1.2 p.1.1.1.2 p.1.1.2 p.1.2 p.2) ?_) ?_) ?_) ?_) ?_) ?_
  · rintro p a a' b rfl h1; exact (hg _ _ _ _ _ _ _ _ _ _ _ _ _ _ h1).2.2.2.2.2
  · rintro p a a' b ⟨_, _, rfl⟩ ⟨_, _, h1⟩; exact (hg _ _ _ _ _ _ _ _ _ _ _ _ _ _ h1).2.2.2.2.1
  · rintro p a a' b ⟨_, _, _, _, rfl⟩ ⟨_, _, _, _, h1⟩; exact (hg _ _ _ _ _ _ _ _ _ _ _ _ _ _ h1).2.2.2.1
  · rintro p a a' b ⟨_, _, _, _, _, _, rfl⟩ ⟨_, _, _, _, _, _, h1⟩; exact (hg _ _ _ _ _ _ _ _ _ _ _ _ _ _ h1).2.2.1
  · rintro p a a' b ⟨_, _, _, _, _, _, _, _, rfl⟩ ⟨_, _, _, _, _, _, _, _, h1⟩; exact (hg _ _ _ _ _ _ _ _ _ _ _ _ _ _ h1).2.1
  · rintro p a a' b ⟨_, _, _, _, _, _, _, _, _, _, rfl⟩ ⟨_, _, _, _, _, _, _, _, _, _, h1⟩; exact (hg _ _ _ _ _ _ _ _ _ _ _ _ _ _ h1).1

theorem drawBP_uniform {E : Type} (params : BPParams E) (h : 0 < params.GP.N) :
    (drawBP params).Uniform fun rnd => rnd.Drawn params.N params.GP.N := by
  have D := drawRest_uniform params.GP.N h params.N
    (fun (p : Unit × Int) alpha sL sR rho tau1 tau2 => (⟨p.2, alpha, sL, sR, rho, tau1, tau2⟩ : BPRand)) (by
      rintro i a b c d e f i' a' b' c' d' e' f' h
      injection h with _ h1 h2 h3 h4 h5 h6
      exact ⟨h1, h2, h3, h4, h5, h6⟩)
  have B := Draw.UniformF.bind (ι := Unit) (randInt_uniform _ h) (f := fun _ g => do
      let alpha ← randInt params.GP.N
      let sL ← sampleRandomVector params.GP.N params.N
      let sR ← sampleRandomVector params.GP.N params.N
      let rho ← randInt params.GP.N
      let tau1 ← randInt params.GP.N
      let tau2 ← randInt params.GP.N
      pure (⟨g, alpha, sL, sR, rho, tau1, tau2⟩ : BPRand))
      (T := fun _ g => RestOf params.GP.N params.N fun alpha sL sR rho tau1 tau2 => ⟨g, alpha, sL, sR, rho, tau1, tau2⟩) D (by
    rintro i a a' b ⟨_, _, _, _, _, _, _, _, _, _, _, _, rfl⟩ ⟨_, _, _, _, _, _, _, _, _, _, _, _, h1⟩
    injection h1)
  refine Draw.UniformF.single B fun r => ?_
  · constructor
    · rintro ⟨g, hg, a, ha, b, ⟨lb, hb⟩, c, ⟨lc, hc⟩, d, hd, e, he, f, hf, rfl⟩
      exact ⟨hg, ha, lb, lc, hb, hc, hd, he, hf⟩
    · rintro ⟨hg, ha, lb, lc, hb, hc, hd, he, hf⟩
      exact ⟨_, hg, _, ha, _, ⟨lb, hb⟩, _, ⟨lc, hc⟩, _, hd, _, he, _, hf, rfl⟩

theorem drawMulti_uniform {E : Type} (params : BPParams E) (h : 0 < params.GP.N) (m : ℕ) :
    (drawMulti params m).Uniform fun rnd => rnd.Drawn m params.N params.GP.N := by
  have D := drawRest_uniform params.GP.N h params.N
    (fun (p : Unit × List Int) alpha sL sR rho tau1 tau2 => (⟨p.2, alpha, sL, sR, rho, tau1, tau2⟩ : MultiRand)) (by
      rintro i a b c d e f i' a' b' c' d' e' f' h
      injection h with _ h1 h2 h3 h4 h5 h6
      exact ⟨h1, h2, h3, h4, h5, h6⟩)
  have B := Draw.UniformF.bind (ι := Unit) (sampleRandomVector_uniform _ h m) (f := fun _ g => do
      let alpha ← randInt params.GP.N
      let sL ← sampleRandomVector params.GP.N params.N
      let sR ← sampleRandomVector params.GP.N params.N
      let rho ← randInt params.GP.N
      let tau1 ← randInt params.GP.N
      let tau2 ← randInt params.GP.N
      pure (⟨g, alpha, sL, sR, rho, tau1, tau2⟩ : MultiRand))
      (T := fun _ g => RestOf params.GP.N params.N fun alpha sL sR rho tau1 tau2 => ⟨g, alpha, sL, sR, rho, tau1, tau2⟩) D (by
    rintro i a a' b ⟨_, _, _, _, _, _, _, _, _, _, _, _, rfl⟩ ⟨_, _, _, _, _, _, _, _, _, _, _, _, h1⟩
    injection h1)
  refine Draw.UniformF.single B fun r => ?_
  · constructor
    · rintro ⟨g, ⟨lg, hg⟩, a, ha, b, ⟨lb, hb⟩, c, ⟨lc, hc⟩, d, hd, e, he, f, hf, rfl⟩
      exact ⟨lg, hg, ha, lb, lc, hb, hc, hd, he, hf⟩
    · rintro ⟨lg, hg, ha, lb, lc, hb, hc, hd, he, hf⟩
      exact ⟨_, ⟨lg, hg⟩, _, ha, _, ⟨lb, hb⟩, _, ⟨lc, hc⟩, _, hd, _, he, _, hf, rfl⟩

/-- how many strings end in a result with some property: the number of draws that give it, times the strings per draw -/
theorem Draw.Uniform.count {x : Draw α} {S : α → Prop} (hx : x.Uniform S) (f : α → Option β) (P : β → Prop) (j : ℕ) (a₀ : α) (h0 : S a₀)
    (hfin : {a | S a ∧ ∃ b, f a = some b ∧ P b}.Finite) :
    Nat.card {u : Bytes // u.length = j ∧ ∃ b, P b ∧ (x >>= fun a => Draw.lift (f a)).Uses u b} =
      {a | S a ∧ ∃ b, f a = some b ∧ P b}.ncard * Nat.card (x.Strings a₀ j) := by
  have E : (Σ a : {a | S a ∧ ∃ b, f a = some b ∧ P b}, x.Strings a.1 j) ≃
      {u : Bytes // u.length = j ∧ ∃ b, P b ∧ (x >>= fun a => Draw.lift (f a)).Uses u b} := by
    refine Equiv.ofBijective (fun s => ⟨s.2.1, s.2.2.1, ?_⟩) ⟨?_, ?_⟩
    · obtain ⟨b, hb, pb⟩ := s.1.2.2
      have := s.2.2.2.bind (f := fun a => Draw.lift (f a)) (Draw.Uses.lift hb)
      rw [List.append_nil] at this
      exact ⟨b, pb, this⟩
    · rintro ⟨⟨a, ha⟩, ⟨u, hu, U⟩⟩ ⟨⟨a', ha'⟩, ⟨u', hu', U'⟩⟩ h
      simp only [Subtype.mk.injEq] at h
      subst h
      have e := U.nil
      rw [U'.nil] at e
      simp only [Outcome.done.injEq, Prod.mk.injEq, and_true] at e
      subst e
      rfl
    · rintro ⟨u, hu, b, pb, U⟩
      obtain ⟨a, m, e1, e2⟩ := Draw.bind_done.mp U.nil
      obtain ⟨e3, rfl⟩ := Draw.lift_done.mp e2
      exact ⟨⟨⟨a, hx.mem _ _ _ e1, b, e3, pb⟩, ⟨u, hu, hx.least.uses_iff.mpr e1⟩⟩, rfl⟩
  rw [← Nat.card_congr E]
  have := hfin.to_subtype
  have : ∀ a : {a | S a ∧ ∃ b, f a = some b ∧ P b}, Finite (x.Strings a.1 j) := fun a => bytes_finite _ _
  have := Fintype.ofFinite {a | S a ∧ ∃ b, f a = some b ∧ P b}
  rw [Nat.card_sigma, Finset.sum_congr rfl (fun a _ => hx.card j a.1 a₀ a.2.1 h0), Finset.sum_const, smul_eq_mul, Finset.card_univ,
    ← Nat.card_eq_fintype_card]
  rfl

end MscPoc
