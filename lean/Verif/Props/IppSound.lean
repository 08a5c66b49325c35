import Verif.Lemmas.IppSound2
import Verif.Props.Ipp

/-!
# C50 — knowledge soundness of the inner-product argument
-/

set_option autoImplicit false

namespace MscPoc

variable {E : Type} {GP : Grp E} {q : ℕ} {M : Type} [AddCommGroup M] [Module (ZMod q) M]

/-- the first `n` entries as a list -/
def firstN {F : Type} (n : ℕ) (f : ℕ → F) : List F := (List.range n).map f

/-- **C50** One halving round.  The commitment folded with challenge `xᵢ` is opened by `(aᵢ, bᵢ)` to `⟨aᵢ,bᵢ⟩`, for four
challenges with different squares.  Then either `roundRelation` vanishes and `roundOpening` opens the unfolded commitment to
its inner product, or `roundRelation` is a non-trivial relation between the unfolded generators. -/
theorem C50_round [Fact q.Prime] (L : Lawful GP q M) (n : ℕ) (hn : 0 < n) (g h : List E) (u P Le Re : E)
    (hg : g.length = 2 * n) (hh : h.length = 2 * n) (vg : ∀ e ∈ g, L.V e) (vh : ∀ e ∈ h, L.V e)
    (x : Fin 4 → Int) (hd : ∀ i j, (x i : ZMod q) ^ 2 = (x j : ZMod q) ^ 2 → i = j)
    (g' h' : Fin 4 → List E) (hf : ∀ i, foldGens GP g h (x i) n = some (g' i, h' i))
    (a b : Fin 4 → List (ZMod q)) (ha : ∀ i, (a i).length = n) (hb : ∀ i, (b i).length = n)
    (ho : ∀ i, L.den P + (x i : ZMod q) ^ 2 • L.den Le + (x i : ZMod q)⁻¹ ^ 2 • L.den Re =
      msm (L.denV (g' i)) (a i) + msm (L.denV (h' i)) (b i) + dot (a i) (b i) • L.den u)
    (w : Fin 4 → Comb (ZMod q)) (hw : w = fun i => ((fun j => (a i).getD j 0), (fun j => (b i).getD j 0), dot (a i) (b i)))
    (o r : Comb (ZMod q)) (ho' : o = roundOpening n (fun i => (x i : ZMod q)) w)
    (hr' : r = roundRelation n (fun i => (x i : ZMod q)) w) :
    ((∀ i < 2 * n, r.1 i = 0) ∧ (∀ i < 2 * n, r.2.1 i = 0) ∧ r.2.2 = 0 ∧
      L.den P = msm (L.denV g) (firstN (2 * n) o.1) + msm (L.denV h) (firstN (2 * n) o.2.1) +
        dot (firstN (2 * n) o.1) (firstN (2 * n) o.2.1) • L.den u) ∨
    (((∃ i < 2 * n, r.1 i ≠ 0) ∨ (∃ i < 2 * n, r.2.1 i ≠ 0) ∨ r.2.2 ≠ 0) ∧
      msm (L.denV g) (firstN (2 * n) r.1) + msm (L.denV h) (firstN (2 * n) r.2.1) + r.2.2 • L.den u = 0) := by
  have hxi : ∀ i, ((x i : Int) : ZMod q) ≠ 0 := by
    intro i h0
    obtain ⟨xi, _, hxx, _⟩ := L.foldGens_spec hn hg hh vg vh (hf i)
    rw [h0, zero_mul] at hxx
    exact zero_ne_one hxx
  obtain ⟨r1, r2⟩ := round_extract n (fun j => (L.denV g).getD j 0) (fun j => (L.denV h).getD j 0) (L.den u) (L.den P)
    (L.den Le) (L.den Re) (fun i => (x i : ZMod q)) w hxi hd (by
      intro i
      obtain ⟨xi, _, hxx, lg', lh', vg', vh', dg', dh'⟩ := L.foldGens_spec hn hg hh vg vh (hf i)
      have hinv : ((xi : Int) : ZMod q) = (x i : ZMod q)⁻¹ := eq_inv_of_mul_eq_one_right hxx
      refine ⟨?_, ?_⟩
      · rw [ho i, msm_eq_sum _ _ n (by simp [lg']) (ha i), msm_eq_sum _ _ n (by simp [lh']) (hb i), hw]
        refine Comb.val_congr n _ (fun j => (L.denV (g' i)).getD j 0) _ (fun j => (L.denV (h' i)).getD j 0) _ _ ?_ ?_
        · intro j hj; rw [dg', getD_fold _ _ (by simp [hg]) _ _ j hj, hinv]
        · intro j hj; rw [dh', getD_fold _ _ (by simp [hh]) _ _ j hj, hinv]
      · rw [hw]; exact dot_eq_sum _ _ n (ha i) (hb i))
  rw [← ho', ← hr'] at r1
  rw [← hr'] at r2
  unfold firstN
  rw [msm_firstN _ _ _ (by simp [hg]), msm_firstN _ _ _ (by simp [hh]), msm_firstN _ _ _ (by simp [hg]),
    msm_firstN _ _ _ (by simp [hh]), dot_firstN]
  by_cases hz : r.Zero (2 * n)
  · left
    obtain ⟨v1, v2⟩ := r1 hz
    exact ⟨hz.1, hz.2.1, hz.2.2, by rw [← v2]; exact v1.symm⟩
  · right
    obtain ⟨v1, v2⟩ := r2 hz
    refine ⟨?_, v1⟩
    by_contra hcon
    simp only [not_or, not_exists, not_and, not_not] at hcon
    exact v2 hcon

/-- a transcript is accepted by `InnerProductProof.Verify` under some digest function that gives its challenges -/
def PathAccepted (q : ℕ) (params : IPParams E) (P : E) (Cc : Int) (y : ZMod q) (p : IPPath E (ZMod q)) : Prop :=
  ∃ sha : Bytes → Bytes, (ippChallenge sha params.GP params.Gg params.Hh P Cc : ZMod q) = y ∧
    (∀ r ∈ p.rounds, (roundChallenge sha params.GP r.1 r.2.1 : ZMod q) = r.2.2) ∧
    (p.proof params P Cc).verify sha = some true

/-- **C50** The whole argument.  Two trees of accepted transcripts for the same `P` and `Cc`, with different non-zero
first challenges and four challenges at each round: `ipExtract` computes either an opening of `P` whose inner product is
`Cc`, or a non-trivial relation between the generators `Gg`, `Hh` and `Uu`. -/
theorem C50_extract [Fact q.Prime] (params : IPParams E) (L : Lawful params.GP q M) (k : ℕ) (P : E) (Cc : Int)
    (hg : params.Gg.length = 2 ^ k) (hh : params.Hh.length = 2 ^ k)
    (vg : ∀ e ∈ params.Gg, L.V e) (vh : ∀ e ∈ params.Hh, L.V e) (vu : L.V params.Uu) (vP : L.V P)
    (y y' : ZMod q) (hy : y ≠ 0) (hy' : y' ≠ 0) (hyy : y ≠ y') (t t' : IPTree E (ZMod q) k) (ht : t.Good) (ht' : t'.Good)
    (vt : ∀ p, t.Mem p ∨ t'.Mem p → ∀ r ∈ p.rounds, L.V r.1 ∧ L.V r.2.1)
    (hacc : ∀ p, t.Mem p → PathAccepted q params P Cc y p) (hacc' : ∀ p, t'.Mem p → PathAccepted q params P Cc y' p) :
    match ipExtract (Cc : ZMod q) y y' t t' with
    | .opening w =>
        L.den P = msm (L.denV params.Gg) (firstN (2 ^ k) w.1) + msm (L.denV params.Hh) (firstN (2 ^ k) w.2.1) ∧
        (Cc : ZMod q) = dot (firstN (2 ^ k) w.1) (firstN (2 ^ k) w.2.1)
    | .relation w =>
        ((∃ i < 2 ^ k, w.1 i ≠ 0) ∨ (∃ i < 2 ^ k, w.2.1 i ≠ 0) ∨ w.2.2 ≠ 0) ∧
        msm (L.denV params.Gg) (firstN (2 ^ k) w.1) + msm (L.denV params.Hh) (firstN (2 ^ k) w.2.1) +
          w.2.2 • L.den params.Uu = 0 := by
  have key : ∀ (z : ZMod q) (s : IPTree E (ZMod q) k), (∀ p, s.Mem p → ∀ r ∈ p.rounds, L.V r.1 ∧ L.V r.2.1) →
      (∀ p, s.Mem p → PathAccepted q params P Cc z p) → ∀ p, s.Mem p →
      RoundsHold (z • L.den params.Uu) (p.A : ZMod q) p.B (p.rounds.map (fun r => (L.den r.1, L.den r.2.1, r.2.2)))
        (fun i => (L.denV params.Gg).getD i 0) (fun i => (L.denV params.Hh).getD i 0)
        (L.den P + (z * Cc) • L.den params.Uu) := by
    intro z s vs hs p hp
    obtain ⟨sha, h1, h2, h3⟩ := hs p hp
    have hlen := s.length_of_mem p hp
    exact L.rounds_of_verify sha params rfl P Cc p (by rw [hlen, hg]) (by rw [hlen, hh]) vg vh vu vP (vs p hp) h2 z h1 h3
  have hv := ipExtract_valid L.den (L.den params.Uu) (Cc : ZMod q) y y' hy hy' hyy t t' ht ht' _ _ _
    (key y t (fun p hp => vt p (Or.inl hp)) hacc) (key y' t' (fun p hp => vt p (Or.inr hp)) hacc')
  have lg : (L.denV params.Gg).length = 2 ^ k := by simp [hg]
  have lh : (L.denV params.Hh).length = 2 ^ k := by simp [hh]
  cases he : ipExtract (Cc : ZMod q) y y' t t' with
  | opening w =>
    rw [he] at hv
    obtain ⟨v1, v2, _⟩ := hv
    simp only [firstN, msm_firstN _ _ _ lg, msm_firstN _ _ _ lh, dot_firstN]
    refine ⟨?_, v2⟩
    rw [← v1]
    simp only [Comb.val, zero_smul, add_zero]
  | relation w =>
    rw [he] at hv
    obtain ⟨v1, v2⟩ := hv
    simp only [firstN, msm_firstN _ _ _ lg, msm_firstN _ _ _ lh]
    refine ⟨?_, v1⟩
    by_contra hcon
    simp only [not_or, not_exists, not_and, not_not] at hcon
    exact v2 hcon

/-! Non-vacuity: `P = 1.3 + 2.5 + 5.2 + 6.4`, `Cc = 17`, in the additive group modulo 101, one round with challenges 2, 3, 4, 5. -/

/-- two generators on each side -/
def exIP2 : IPParams Int := { Gg := [3, 5], Hh := [2, 4], Uu := 11, GP := toyGrp 101 }

/-- digest giving round challenge `x` and first challenge `y` -/
def exShaYX (y x : Nat) : Bytes → Bytes := fun b => if b.length < 7 then [UInt8.ofNat x] else [UInt8.ofNat y]

/-- four answers to `L`, `R` -/
def exTree (L R : Int) (A B : Fin 4 → Int) : IPTree Int (ZMod 101) 1 :=
  .node L R ![2, 3, 4, 5] (fun i => .leaf (A i) (B i))

theorem exTree_good (L R : Int) (A B : Fin 4 → Int) : (exTree L R A B).Good := by
  refine ⟨by decide, by decide, fun _ => trivial⟩

theorem exTree_accepted (y : Nat) (L R : Int) (A B : Fin 4 → Int)
    (hip : (ippChallenge (exShaYX y 0) (toyGrp 101) [3, 5] [2, 4] 47 17 : ZMod 101) = y)
    (hrc : ∀ i, (roundChallenge (exShaYX y (![2, 3, 4, 5] i)) (toyGrp 101) L R : ZMod 101) = ![2, 3, 4, 5] i)
    (h : ∀ i, (IPPath.proof { rounds := [(L, R, (0 : ZMod 101))], A := A i, B := B i } exIP2 47 17).verify
      (exShaYX y (![2, 3, 4, 5] i)) = some true) :
    ∀ p, (exTree L R A B).Mem p → PathAccepted 101 exIP2 47 17 y p := by
  rintro p ⟨i, t, ht, rfl⟩
  rw [show t = _ from ht]
  refine ⟨exShaYX y (![2, 3, 4, 5] i), ?_, ?_, h i⟩
  · rw [← hip]; rfl
  · intro r hr
    simp only [List.mem_cons, List.not_mem_nil, or_false] at hr
    subst hr
    exact hrc i

/-- C50: honest answers; all hypotheses hold and the extractor recovers `a = [1,2]`, `b = [5,6]`. -/
example :
    (∀ p, (exTree 75 89 ![3, 71, 55, 66] ![65, 87, 0, 31]).Mem p → PathAccepted 101 exIP2 47 17 (7 : ℕ) p) ∧
    (∀ p, (exTree 40 98 ![3, 71, 55, 66] ![65, 87, 0, 31]).Mem p → PathAccepted 101 exIP2 47 17 (8 : ℕ) p) ∧
    (match ipExtract (17 : ZMod 101) 7 8 (exTree 75 89 ![3, 71, 55, 66] ![65, 87, 0, 31])
        (exTree 40 98 ![3, 71, 55, 66] ![65, 87, 0, 31]) with
      | .opening w => firstN 2 w.1 == [1, 2] && firstN 2 w.2.1 == [5, 6]
      | .relation _ => false) = true := by
  refine ⟨exTree_accepted 7 75 89 _ _ (by decide +kernel) (by decide +kernel) (by decide +kernel),
    exTree_accepted 8 40 98 _ _ (by decide +kernel) (by decide +kernel) (by decide +kernel), by decide +kernel⟩

/-- C50: with another accepted answer to the fourth challenge the extractor returns a relation (generators modulo 101
have relations: `aᵢ, bᵢ, c` below sum to 0). -/
example :
    (∀ p, (exTree 75 89 ![3, 71, 55, 0] ![65, 87, 0, 96]).Mem p → PathAccepted 101 exIP2 47 17 (7 : ℕ) p) ∧
    (match (exTree 75 89 ![3, 71, 55, 0] ![65, 87, 0, 96]).extract with
      | .opening _ => false
      | .relation w => w.1 0 * 3 + w.1 1 * 5 + w.2.1 0 * 2 + w.2.1 1 * 4 + w.2.2 * (7 * 11) == 0 && w.1 0 != 0) = true := by
  refine ⟨exTree_accepted 7 75 89 _ _ (by decide +kernel) (by decide +kernel) (by decide +kernel), by decide +kernel⟩

/-- C50: the same numbers as an instance of the one-round theorem (`u = 7.11`, `P` shifted by `17.u`). -/
example : ∀ i : Fin 4,
    (match foldGens (toyGrp 101) [3, 5] [2, 4] (![2, 3, 4, 5] i) 1 with
     | some ([g], [h]) =>
       decide ((47 + 17 * 77 : ZMod 101) + (![2, 3, 4, 5] i) ^ 2 * 75 + (![2, 3, 4, 5] i)⁻¹ ^ 2 * 89 =
        ![3, 71, 55, 66] i * g + ![65, 87, 0, 31] i * h + ![3, 71, 55, 66] i * ![65, 87, 0, 31] i * 77)
     | _ => false) = true := by
  decide +kernel

end MscPoc
