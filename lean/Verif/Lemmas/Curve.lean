import Verif.Lemmas.Affine

/-!
# The P-256 and P-384 wrapper groups are lawful
-/

set_option autoImplicit false
set_option linter.unusedSectionVars false

namespace MscPoc

open WeierstrassCurve

/-- the facts about the constants of one curve -/
structure CurveOK (C : CirclCurve) : Prop where
  p_prime : C.c.p.Prime
  p_big : 3 < C.c.p
  n_prime : C.n.Prime
  bound : 2 * C.c.p + 1 < 3 * C.n
  noroot : ∀ x : ZMod C.c.p, x ^ 3 + (-3) * x + (C.c.b : ZMod C.c.p) ≠ 0
  gx_lt : C.gx < C.c.p
  gy_lt : C.gy < C.c.p
  g_on : C.c.onCurve ⟨C.gx, C.gy⟩ = true

/-- legal library elements: the identity, or reduced coordinates on the curve -/
def WLegal (c : WCurve) (P : WPoint) : Prop := P = ⟨0, 0⟩ ∨ (P.x < c.p ∧ P.y < c.p ∧ c.onCurve P = true)

theorem onCurve_zmod (c : WCurve) (P : WPoint) :
    c.onCurve P = true ↔ (P.y : ZMod c.p) ^ 2 = (P.x : ZMod c.p) ^ 3 + (-3) * (P.x : ZMod c.p) + (c.b : ZMod c.p) := by
  unfold WCurve.onCurve
  rw [beq_iff_eq, ← Int.dvd_iff_emod_eq_zero, ← ZMod.intCast_zmod_eq_zero_iff_dvd, ← sub_eq_zero (a := (P.y : ZMod c.p) ^ 2)]
  push_cast
  constructor <;> intro h <;> linear_combination h

section
variable {c : WCurve} [hp : Fact c.p.Prime]

/-- the group of the curve -/
abbrev WGroup (c : WCurve) [Fact c.p.Prime] : Type := (swCurve (-3 : ZMod c.p) (c.b : ZMod c.p)).Point

/-- the curve point a coordinate pair stands for -/
noncomputable def wDen (c : WCurve) [Fact c.p.Prime] (P : WPoint) : WGroup c := aDen (-3) (c.b : ZMod c.p) P

theorem wLegal_aLegal {P : WPoint} : WLegal c P ↔ ALegal (-3) (c.b : ZMod c.p) P := by
  unfold WLegal ALegal
  rw [onCurve_zmod]

theorem wDen_zero : wDen c ⟨0, 0⟩ = 0 := aDen_zero

theorem a3 : ((-3 : Int) : ZMod c.p) = -3 := by push_cast; rfl

variable (noroot : ∀ x : ZMod c.p, x ^ 3 + (-3) * x + (c.b : ZMod c.p) ≠ 0) (h2 : (2 : ZMod c.p) ≠ 0)

include noroot h2

theorem WLegal.cases {P : WPoint} (h : WLegal c P) :
    (P = ⟨0, 0⟩ ∧ wDen c P = 0) ∨
    (P ≠ ⟨0, 0⟩ ∧ P.x < c.p ∧ P.y < c.p ∧
      ∃ hn : (swCurve (-3 : ZMod c.p) (c.b : ZMod c.p)).Nonsingular (P.x : ZMod c.p) (P.y : ZMod c.p),
        wDen c P = Affine.Point.some _ _ hn) :=
  (wLegal_aLegal.mp h).cases noroot h2

theorem wDen_inj {P Q : WPoint} (hP : WLegal c P) (hQ : WLegal c Q) (h : wDen c P = wDen c Q) : P = Q :=
  aDen_inj noroot h2 (wLegal_aLegal.mp hP) (wLegal_aLegal.mp hQ) h

theorem wNeg_spec {P : WPoint} (hP : WLegal c P) : WLegal c (wNeg c P) ∧ wDen c (wNeg c P) = -wDen c P := by
  rw [wLegal_aLegal]
  exact affNeg_spec noroot h2 (wLegal_aLegal.mp hP)

theorem wAdd_spec {P Q : WPoint} (hP : WLegal c P) (hQ : WLegal c Q) :
    WLegal c (wAdd c P Q) ∧ wDen c (wAdd c P Q) = wDen c P + wDen c Q := by
  rw [wLegal_aLegal]
  exact affAdd_spec a3 noroot h2 (wLegal_aLegal.mp hP) (wLegal_aLegal.mp hQ)

theorem wMulGo_spec {P : WPoint} (hP : WLegal c P) (fuel k : ℕ) (hk : k < 2 ^ fuel) :
    WLegal c (wMulGo c fuel k P) ∧ wDen c (wMulGo c fuel k P) = k • wDen c P := by
  rw [wLegal_aLegal]
  exact affMulGo_spec a3 noroot h2 (wLegal_aLegal.mp hP) fuel k hk

end
end MscPoc
