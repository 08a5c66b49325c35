import Verif.Lemmas.Ipp2

/-!
# When the inner-product prover returns

One round of the prover in closed form; from it: the prover returns when all round challenges are invertible, and its
result depends only on the digests it actually asks for.
-/

set_option autoImplicit false

namespace MscPoc
variable {E : Type} {GP : Grp E}

/-- `L` of one round -/
def roundL (GP : Grp E) (a b : List Int) (g h : List E) (u : E) (m : ℕ) : E :=
  GP.add (GP.add (vectorExpGo GP (g.drop m) (a.take m) GP.identity) (vectorExpGo GP (h.take m) (b.drop m) GP.identity))
    (GP.mul u (scalarProductGo GP.N (a.take m) (b.drop m) 0))

/-- `R` of one round -/
def roundR (GP : Grp E) (a b : List Int) (g h : List E) (u : E) (m : ℕ) : E :=
  GP.add (GP.add (vectorExpGo GP (g.take m) (a.drop m) GP.identity) (vectorExpGo GP (h.drop m) (b.take m) GP.identity))
    (GP.mul u (scalarProductGo GP.N (a.drop m) (b.take m) 0))

theorem bip_step (sha : Bytes → Bytes) (a b : List Int) (g h : List E) (u P : E) (m : ℕ) (Ls Rs : List E)
    (hm : 0 < m) (ha : a.length = 2 * m) (hb : b.length = 2 * m) (hg : g.length = 2 * m) (hh : h.length = 2 * m)
    (x xi x2i : Int) (hx : roundChallenge sha GP (roundL GP a b g h u m) (roundR GP a b g h u m) = x)
    (hi : modInverse x GP.N = some xi) (hi2 : modInverse (x * x % GP.N) GP.N = some x2i) :
    computeBipRecursive sha GP a b g h u P (2 * m) Ls Rs =
    computeBipRecursive sha GP
      (vectorAdd (vectorScalarMul (a.take m) x GP.N) (vectorScalarMul (a.drop m) xi GP.N) GP.N)
      (vectorAdd (vectorScalarMul (b.take m) xi GP.N) (vectorScalarMul (b.drop m) x GP.N) GP.N)
      (List.zipWith GP.add ((g.take m).map (fun e => GP.mul e xi)) ((g.drop m).map (fun e => GP.mul e x)))
      (List.zipWith GP.add ((h.take m).map (fun e => GP.mul e x)) ((h.drop m).map (fun e => GP.mul e xi)))
      u (GP.add (GP.add (GP.mul (roundL GP a b g h u m) (x * x % GP.N)) P) (GP.mul (roundR GP a b g h u m) x2i)) m
      (Ls ++ [roundL GP a b g h u m]) (Rs ++ [roundR GP a b g h u m]) := by
  have hhalf : 2 * m / 2 = m := by omega
  have st : ∀ {α : Type} (l : List α), l.length = 2 * m → sliceTo l m = some (l.take m) := by
    intro α l hl; unfold sliceTo; rw [if_pos (by omega)]
  have sf : ∀ {α : Type} (l : List α), l.length = 2 * m → sliceFrom l m = some (l.drop m) := by
    intro α l hl; unfold sliceFrom; rw [if_pos (by omega)]
  have sp : ∀ (c d : List Int), c.length = d.length → scalarProduct c d GP.N = some (scalarProductGo GP.N c d 0) := by
    intro c d hcd; unfold scalarProduct; rw [if_neg (by omega)]
  have ve : ∀ (c : List E) (d : List Int), c.length = d.length →
      vectorExp GP c d = some (vectorExpGo GP c d GP.identity) := by
    intro c d hcd; unfold vectorExp; rw [if_neg (by omega)]
  conv_lhs => unfold computeBipRecursive
  rw [if_neg (by omega), if_neg (by omega)]
  have e1 : (hashBP sha GP (roundL GP a b g h u m) (roundR GP a b g h u m)).1 = x := hx
  rw [hhalf]
  runs st a ha
  runs sf a ha
  runs st b hb
  runs sf b hb
  runs st g hg
  runs sf g hg
  runs st h hh
  runs sf h hh
  runs sp _ _ (by simp; omega)
  runs sp _ _ (by simp; omega)
  runs ve _ _ (by simp; omega)
  runs ve _ _ (by simp; omega)
  runs ve _ _ (by simp; omega)
  runs ve _ _ (by simp; omega)
  unfold roundL roundR at e1
  dsimp only
  rw [e1]
  runs foldGens_eq hi hg hh
  runs hi2
  runs hi
  rfl

/-- The prover returns when every round challenge is invertible. -/
theorem bip_isSome (sha : Bytes → Bytes) (hgood : ∀ l r : E, Int.gcd (roundChallenge sha GP l r) GP.N = 1) (k : ℕ) :
    ∀ (a b : List Int) (g h : List E) (u P : E) (Ls Rs : List E),
    a.length = 2 ^ k → b.length = 2 ^ k → g.length = 2 ^ k → h.length = 2 ^ k →
    ∃ r, computeBipRecursive sha GP a b g h u P (2 ^ k) Ls Rs = some r := by
  induction k with
  | zero =>
    intro a b g h u P Ls Rs ha hb hg hh
    obtain ⟨a0, rfl⟩ := List.length_eq_one_iff.mp ha
    obtain ⟨b0, rfl⟩ := List.length_eq_one_iff.mp hb
    exact ⟨(a0, b0, Ls, Rs), by unfold computeBipRecursive; simp⟩
  | succ k ih =>
    intro a b g h u P Ls Rs ha hb hg hh
    have hpos : 0 < 2 ^ k := Nat.two_pow_pos k
    have h2 : 2 ^ (k + 1) = 2 * 2 ^ k := by rw [pow_succ]; ring
    rw [h2] at ha hb hg hh ⊢
    obtain ⟨xi, hi⟩ := (modInverse_isSome_iff _ _).mpr (hgood (roundL GP a b g h u (2 ^ k)) (roundR GP a b g h u (2 ^ k)))
    obtain ⟨x2i, hi2⟩ := (modInverse_isSome_iff _ _).mpr
      (gcd_sq _ _ (hgood (roundL GP a b g h u (2 ^ k)) (roundR GP a b g h u (2 ^ k))))
    rw [bip_step sha a b g h u P (2 ^ k) Ls Rs hpos ha hb hg hh _ xi x2i rfl hi hi2]
    apply ih
    · rw [vectorAdd_eq (by simp [vectorScalarMul]; omega)]; simp [vectorScalarMul]; omega
    · rw [vectorAdd_eq (by simp [vectorScalarMul]; omega)]; simp [vectorScalarMul]; omega
    · simp; omega
    · simp; omega

/-- The prover's result depends only on the digests of the pairs `(L_j, R_j)` it outputs. -/
theorem bip_agree (sha sha' : Bytes → Bytes) (hgood : ∀ l r : E, Int.gcd (roundChallenge sha' GP l r) GP.N = 1) (k : ℕ) :
    ∀ (a b : List Int) (g h : List E) (u P : E) (Ls Rs : List E),
    a.length = 2 ^ k → b.length = 2 ^ k → g.length = 2 ^ k → h.length = 2 ^ k →
    ∃ pa pb Ls' Rs', computeBipRecursive sha' GP a b g h u P (2 ^ k) Ls Rs = some (pa, pb, Ls ++ Ls', Rs ++ Rs') ∧
      Ls'.length = k ∧ Rs'.length = k ∧
      ((∀ p ∈ List.zip Ls' Rs', roundChallenge sha GP p.1 p.2 = roundChallenge sha' GP p.1 p.2) →
        computeBipRecursive sha GP a b g h u P (2 ^ k) Ls Rs = some (pa, pb, Ls ++ Ls', Rs ++ Rs')) := by
  induction k with
  | zero =>
    intro a b g h u P Ls Rs ha hb hg hh
    obtain ⟨a0, rfl⟩ := List.length_eq_one_iff.mp ha
    obtain ⟨b0, rfl⟩ := List.length_eq_one_iff.mp hb
    refine ⟨a0, b0, [], [], ?_, rfl, rfl, fun _ => ?_⟩ <;> · unfold computeBipRecursive; simp
  | succ k ih =>
    intro a b g h u P Ls Rs ha hb hg hh
    have hpos : 0 < 2 ^ k := Nat.two_pow_pos k
    have h2 : 2 ^ (k + 1) = 2 * 2 ^ k := by rw [pow_succ]; ring
    rw [h2] at ha hb hg hh ⊢
    set l := roundL GP a b g h u (2 ^ k) with hl
    set r := roundR GP a b g h u (2 ^ k) with hr
    obtain ⟨xi, hi⟩ := (modInverse_isSome_iff _ _).mpr (hgood l r)
    obtain ⟨x2i, hi2⟩ := (modInverse_isSome_iff _ _).mpr (gcd_sq _ _ (hgood l r))
    have hstep := fun s (hs : roundChallenge s GP l r = roundChallenge sha' GP l r) =>
      bip_step s a b g h u P (2 ^ k) Ls Rs hpos ha hb hg hh (roundChallenge sha' GP l r) xi x2i (by rw [← hl, ← hr]; exact hs)
        hi hi2
    obtain ⟨pa, pb, Ls', Rs', h1, h3, h4, h5⟩ := ih
      (vectorAdd (vectorScalarMul (a.take (2 ^ k)) (roundChallenge sha' GP l r) GP.N)
        (vectorScalarMul (a.drop (2 ^ k)) xi GP.N) GP.N)
      (vectorAdd (vectorScalarMul (b.take (2 ^ k)) xi GP.N)
        (vectorScalarMul (b.drop (2 ^ k)) (roundChallenge sha' GP l r) GP.N) GP.N)
      (List.zipWith GP.add ((g.take (2 ^ k)).map (fun e => GP.mul e xi))
        ((g.drop (2 ^ k)).map (fun e => GP.mul e (roundChallenge sha' GP l r))))
      (List.zipWith GP.add ((h.take (2 ^ k)).map (fun e => GP.mul e (roundChallenge sha' GP l r)))
        ((h.drop (2 ^ k)).map (fun e => GP.mul e xi)))
      u (GP.add (GP.add (GP.mul l (roundChallenge sha' GP l r * roundChallenge sha' GP l r % GP.N)) P) (GP.mul r x2i))
      (Ls ++ [l]) (Rs ++ [r])
      (by rw [vectorAdd_eq (by simp [vectorScalarMul]; omega)]; simp [vectorScalarMul]; omega)
      (by rw [vectorAdd_eq (by simp [vectorScalarMul]; omega)]; simp [vectorScalarMul]; omega)
      (by simp; omega) (by simp; omega)
    refine ⟨pa, pb, l :: Ls', r :: Rs', ?_, by simp [h3], by simp [h4], ?_⟩
    · rw [hstep sha' rfl, h1]; simp
    · intro hall
      rw [hstep sha (hall (l, r) (by simp)), h5 (fun p hp => hall p (by simp [hp]))]
      simp

end MscPoc
