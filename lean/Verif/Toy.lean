import Verif.Spec.Lawful

/-!
# A small computable lawful group

The additive group of the integers modulo `q`, with generator 1.  It is used only to show that the
hypotheses of theorems can be met and to run the model on concrete inputs.  Its `MapToGroup` sums the bytes.
-/

set_option autoImplicit false

namespace MscPoc

/-- integers modulo `q` as a `Grp` -/
def toyGrp (q : ℕ) : Grp Int where
  name := "toy"
  P := q
  N := q
  elt := 0
  generator := 1 % q
  identity := 0
  add := fun a b => (a + b) % q
  neg := fun _ a => (-a) % q
  scale := fun _ a s => (s * a) % q
  baseScale := fun _ s => s % q
  isEqual := fun a b => a == b
  isIdentity := fun a => a == 0
  str := bigDec
  mapToGroup := fun s => some ((s.foldl (fun acc d => 3 * acc + d.toNat) 1 : Int) % q)

theorem cast_emod (q : ℕ) (a : Int) : ((a % (q : Int) : Int) : ZMod q) = (a : ZMod q) :=
  ZMod.intCast_mod a q

theorem toy_eq_iff (q : ℕ) [NeZero q] {a b : Int} (ha : 0 ≤ a ∧ a < q) (hb : 0 ≤ b ∧ b < q) :
    a = b ↔ (a : ZMod q) = (b : ZMod q) := by
  constructor
  · rintro rfl; rfl
  · intro h
    rw [ZMod.intCast_eq_intCast_iff] at h
    have := h
    unfold Int.ModEq at this
    rwa [Int.emod_eq_of_lt ha.1 ha.2, Int.emod_eq_of_lt hb.1 hb.2] at this

/-- The toy group is lawful. -/
def toyLawful (q : ℕ) [NeZero q] : Lawful (toyGrp q) q (ZMod q) where
  V := fun a => 0 ≤ a ∧ a < q
  den := fun a => (a : ZMod q)
  N_eq := rfl
  V_gen := ⟨Int.emod_nonneg _ (by simpa using NeZero.ne q), Int.emod_lt_of_pos _ (by
    have := NeZero.pos q; exact_mod_cast this)⟩
  V_ident := ⟨le_refl _, show (0 : Int) < q by have := NeZero.pos q; exact_mod_cast this⟩
  den_ident := by simp [toyGrp]
  V_add := fun _ _ => ⟨Int.emod_nonneg _ (by simpa using NeZero.ne q), Int.emod_lt_of_pos _ (by
    have := NeZero.pos q; exact_mod_cast this)⟩
  den_add := fun _ _ => by simp [toyGrp]
  V_neg := fun _ => ⟨Int.emod_nonneg _ (by simpa using NeZero.ne q), Int.emod_lt_of_pos _ (by
    have := NeZero.pos q; exact_mod_cast this)⟩
  den_neg := fun _ => by simp only [toyGrp, cast_emod]; push_cast; rfl
  V_scale := fun _ => ⟨Int.emod_nonneg _ (by simpa using NeZero.ne q), Int.emod_lt_of_pos _ (by
    have := NeZero.pos q; exact_mod_cast this)⟩
  den_scale := fun _ => by simp [toyGrp]
  V_baseScale := ⟨Int.emod_nonneg _ (by simpa using NeZero.ne q), Int.emod_lt_of_pos _ (by
    have := NeZero.pos q; exact_mod_cast this)⟩
  den_baseScale := by
    intro recv s
    simp only [toyGrp, cast_emod]
    simp
  isEqual_iff := fun ha hb => by
    simp only [toyGrp, beq_iff_eq]; exact toy_eq_iff q ha hb
  isIdentity_iff := fun {a} ha => by
    have h0 : (0 : Int) ≤ 0 ∧ (0 : Int) < q := ⟨le_refl _, by have := NeZero.pos q; exact_mod_cast this⟩
    simp only [toyGrp, beq_iff_eq]
    rw [toy_eq_iff q ha h0]; simp

theorem toy_map (q : ℕ) [NeZero q] {s : Bytes} {e : Int} (h : (toyGrp q).mapToGroup s = some e) : (toyLawful q).V e := by
  simp only [toyGrp, Option.some.injEq] at h
  subst h
  exact ⟨Int.emod_nonneg _ (by simpa using NeZero.ne q), Int.emod_lt_of_pos _ (by
    have := NeZero.pos q; exact_mod_cast this)⟩

end MscPoc
