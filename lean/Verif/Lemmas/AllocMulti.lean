import Verif.Lemmas.Alloc
import Verif.Lemmas.BpModel
import Verif.Model.HeapMulti

/-!
# Counting the elements created for aggregated proofs
-/

set_option autoImplicit false

namespace MscPoc

namespace Creates

variable {E : Type} (GP : Grp E)

theorem commitAll (H : ℕ) (ss : List Int) : ∀ gs : List Int, ss.length = gs.length →
    Creates (HM.commitAll GP H ss gs) fun r d => d = 3 * ss.length ∧ r.length = ss.length := by
  induction ss with
  | nil => intro gs _; exact pure ⟨rfl, rfl⟩
  | cons s ss ih =>
    intro gs hl
    cases gs with
    | nil => cases hl
    | cons g gs =>
      unfold HM.commitAll
      refine bind (pedersenCommit GP _ _ _) fun _ _ h1 => ?_
      refine bind (ih gs (Nat.succ.inj hl)) fun _ _ h2 => ?_
      exact pure (by rw [List.length_cons, List.length_cons]; omega)

theorem zPowersTimesTwo_len {N m bits : ℕ} {z q : Int} {v : List Int} (h : zPowersTimesTwo N m bits z q = some v) : m * bits = N := by
  unfold zPowersTimesTwo at h
  dsimp only at h
  split at h
  · next e => rw [← e]; simp [List.length_flatten, Function.comp_def, powerOf_length]
  · cases h

/-- lengths in a proof made by `MultiProve` -/
structure MultiShaped (params : BPParamsH) (k m : ℕ) (p : MultiProofH) : Prop where
  Params : p.Params = params
  Vs : p.Vs.length = m
  L : p.ip.L.length = k
  Gg : p.ip.Gg = params.Gg
  Hh : p.ip.Hh.length = params.N
  Dvd : m * (params.N / m) = params.N

set_option maxHeartbeats 800000 in
theorem multiProve (sha : Bytes → Bytes) (params : BPParamsH) (rnd : MultiRand) (secrets : List Int) (k : ℕ)
    (hN : params.N = 2 ^ k) (hg : params.Gg.length = 2 ^ k) (hl : secrets.length = rnd.gammas.length) :
    Creates (HM.multiProve GP sha params rnd secrets) fun r d => ∀ p, r = .ok p →
      d = 23 * 2 ^ k + 8 * k + 3 * secrets.length ∧ MultiShaped params k secrets.length p.1 := by
  unfold HM.multiProve
  dsimp only
  split
  · exact panic
  refine bind (commitAll GP _ _ _ hl) fun Vs _ h0 => ?_
  refine bind (commitVector GP _ _ _ _ _ _ _) fun _ _ h1 => ?_
  refine bind (commitVectorBig GP _ _ _ _ _ _ _) fun _ _ h2 => ?_
  refine bind (hashBP GP _ _ _) fun _ _ h3 => ?_
  refine bind (lift _) fun _ _ h17 => ?_
  have hd := zPowersTimesTwo_len h17.2
  replace h17 := h17.1
  subst h17
  refine bind (lift0 _) fun _ _ h4 => ?_
  subst h4
  refine bind (lift0 _) fun _ _ h5 => ?_
  subst h5
  refine bind (lift0 _) fun _ _ h6 => ?_
  subst h6
  refine bind (lift0 _) fun _ _ h7 => ?_
  subst h7
  refine bind (lift0 _) fun _ _ h8 => ?_
  subst h8
  refine bind (pedersenCommit GP _ _ _) fun _ _ h9 => ?_
  refine bind (pedersenCommit GP _ _ _) fun _ _ h10 => ?_
  refine bind (hashBP GP _ _ _) fun _ _ h11 => ?_
  refine bind (lift0 _) fun _ _ h12 => ?_
  subst h12
  refine bind (updateGenerators GP _ _ _) fun hp _ h13 => ?_
  refine bind (setupInnerProduct GP _) fun U _ h14 => ?_
  cases U with
  | error e => exact pure fun p h => by cases h
  | ok U =>
    have h14 := h14 U rfl
    dsimp only
    refine bind (commitInnerProduct GP _ _ _ _) fun _ _ h15 => ?_
    have l15 := h15.2.1.symm.trans hg
    have l13 := h13.2.trans hN
    replace h15 := h15.1
    refine bind (proveInnerProduct GP _ _ _ _ _ _ _ _ k l15 hg l13) fun ip _ h16 => ?_
    cases ip with
    | error e => exact panic
    | ok ip =>
      obtain ⟨h16, l1, l2, l3⟩ := h16 ip rfl
      refine pure fun p h => ?_
      obtain rfl := Except.ok.inj h
      have h13' := h13.1
      have l := h13.2
      have h0' := h0.1
      have l0 := h0.2
      clear h h13 l15 l13 h0
      subst h1 h2 h3 h9 h10 h11 h14 h15
      refine ⟨?_, ⟨rfl, l0, l1, l2, by rw [l3]; exact l, hd⟩⟩
      rw [l, hg, hN]
      rw [hN] at h13'
      clear hd hN hg l l1 l2 l3 l0 hl
      generalize 2 ^ k = K at *
      generalize secrets.length = m at *
      omega

theorem multiRhs (z2 : Int) (vs : List ℕ) : ∀ (ps : List Int) (rhs : ℕ), vs.length = ps.length →
    Creates (HM.multiRhs GP z2 vs ps rhs) fun _ d => d = vs.length := by
  induction vs with
  | nil => intro ps rhs _; exact pure rfl
  | cons v vs ih =>
    intro ps rhs hl
    cases ps with
    | nil => cases hl
    | cons p ps =>
      unfold HM.multiRhs
      refine bind (newScale GP _ _) fun _ _ h1 => ?_
      refine bind (add GP _ _ _) fun _ _ h2 => ?_
      exact (ih ps _ (Nat.succ.inj hl)).mono fun _ _ h => by rw [List.length_cons]; omega

theorem multiCond65 (p : MultiProofH) (x y z : Int) : Creates (HM.multiCond65 GP p x y z) fun _ d => d = 7 + p.Vs.length := by
  unfold HM.multiCond65
  dsimp only
  refine bind (lift0 _) fun _ _ h1 => ?_
  refine bind (lift0 _) fun _ _ h2 => ?_
  refine bind (pedersenCommit GP _ _ _) fun _ _ h3 => ?_
  refine bind (identity GP) fun _ _ h4 => ?_
  refine bind (multiRhs GP _ _ _ _ (by rw [powerOf_length])) fun _ _ h5 => ?_
  refine bind (lift0 _) fun _ _ h6 => ?_
  refine bind (newBaseScale GP _) fun _ _ h7 => ?_
  refine bind (add GP _ _ _) fun _ _ h8 => ?_
  refine bind (newScale GP _ _) fun _ _ h9 => ?_
  refine bind (newScale GP _ _) fun _ _ h10 => ?_
  refine bind (add GP _ _ _) fun _ _ h11 => ?_
  refine bind (add GP _ _ _) fun _ _ h12 => ?_
  refine bind (read _) fun _ _ h13 => ?_
  refine bind (read _) fun _ _ h14 => ?_
  exact pure (by omega)

theorem multiSlides (hp : List ℕ) (pw : List Int) (z : Int) (bits : ℕ) (js : List ℕ) : ∀ prod : ℕ,
    Creates (HM.multiSlides GP hp pw z bits js prod) fun _ d => d = js.length * (1 + 2 * bits) := by
  induction js with
  | nil => intro prod; exact pure (by simp)
  | cons j js ih =>
    intro prod
    unfold HM.multiSlides
    dsimp only
    refine bind (lift _) fun up _ h1 => ?_
    refine bind (lift _) fun sl _ h2 => ?_
    refine bind (vectorExp0 GP _ _) fun _ _ h3 => ?_
    refine bind (add GP _ _ _) fun _ _ h4 => ?_
    refine (ih _).mono fun _ _ h => ?_
    have l1 := (sliceTo_len h1.2).2
    have l2 := (sliceFrom_len h2.2).2
    have e : sl.length = bits := by rw [l2, l1, Nat.add_mul]; omega
    rw [e] at h3
    rw [List.length_cons, Nat.add_mul]
    omega

theorem multiLP (p : MultiProofH) (hp : List ℕ) (x y z : Int) : Creates (HM.multiLP GP p hp x y z) fun _ d =>
    d = 7 + 2 * p.Params.N + 2 * hp.length + p.Vs.length * (1 + 2 * (p.Params.N / p.Vs.length)) := by
  unfold HM.multiLP
  dsimp only
  refine bind (newScale GP _ _) fun _ _ h1 => ?_
  refine bind (newAdd GP _ _) fun _ _ h2 => ?_
  refine bind (vectorExp GP _ _) fun _ _ h3 => ?_
  refine bind (vectorExp0 GP _ _) fun _ _ h4 => ?_
  refine bind (identity GP) fun _ _ h5 => ?_
  refine bind (multiSlides GP _ _ _ _ _ _) fun _ _ h6 => ?_
  refine bind (newAdd GP _ _) fun _ _ h7 => ?_
  refine bind (newAdd GP _ _) fun _ _ h8 => ?_
  refine (add GP _ _ _).mono fun _ _ h => ?_
  have : (vectorCopy (GP.N - z) p.Params.N).length = p.Params.N := by simp [vectorCopy]
  rw [List.length_range] at h6
  omega

theorem multiCond67 (p : MultiProofH) (lP : ℕ) : Creates (HM.multiCond67 GP p lP) fun _ d => d = 2 := by
  unfold HM.multiCond67
  refine bind (lift _) fun _ _ h1 => ?_
  refine bind (newScale GP _ _) fun _ _ h2 => ?_
  refine bind (add GP _ _ _) fun _ _ h3 => ?_
  refine bind (subtract GP _ _ _) fun _ _ h4 => ?_
  refine bind (read _) fun _ _ h5 => ?_
  exact pure (by omega)

theorem multiVerify (sha : Bytes → Bytes) (p : MultiProofH) {K : ℕ → Prop} (hK : Creates (p.ip.verify GP sha) fun _ d => K d) :
    Creates (p.verify GP sha) fun _ d => ∃ e, K e ∧
      d = 5 * p.Params.N + 2 * (p.Vs.length * (p.Params.N / p.Vs.length)) + 2 * p.Vs.length + 15 + e := by
  unfold MultiProofH.verify MultiProofH.checks
  split
  · exact bind (K := fun _ _ => False) panic fun _ _ h => h.elim
  refine bind (K := fun _ d => ∃ e, K e ∧ d = 5 * p.Params.N + 2 * (p.Vs.length * (p.Params.N / p.Vs.length)) + 2 * p.Vs.length + 15 + e) ?_
    fun _ _ h => pure (by simpa using h)
  refine bind (hashBP GP _ _ _) fun _ _ h1 => ?_
  refine bind (hashBP GP _ _ _) fun _ _ h2 => ?_
  refine bind (updateGenerators GP _ _ _) fun _ _ h3 => ?_
  refine bind (multiCond65 GP _ _ _ _) fun _ _ h4 => ?_
  refine bind (multiLP GP _ _ _ _ _) fun _ _ h5 => ?_
  refine bind (multiCond67 GP _ _) fun _ _ h6 => ?_
  refine bind hK fun _ e h7 => ?_
  refine pure ⟨e, h7, ?_⟩
  rw [Nat.mul_add, Nat.mul_one, Nat.mul_left_comm] at h5
  omega

end Creates

end MscPoc
