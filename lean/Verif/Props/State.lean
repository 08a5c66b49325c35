import Verif.Lemmas.HeapBp
import Verif.Props.Bp

/-!
# C49 — challenges and state in verification
-/

set_option autoImplicit false

namespace MscPoc

/-- **C49** Verification on the heap, with in-place accumulators: same verdict (or panic) as a function of the contents of
the proof, and no cell that existed before is changed. -/
theorem C49_no_mutation {E : Type} (GP : Grp E) (sha : Bytes → Bytes) (pf : BulletProofH) (h : HS E)
    (hl : ∀ p ∈ pf.ptrs, p < h.next) :
    (pf.verify GP sha h = none ↔ (pf.deref GP h).verify sha = none) ∧
    ∀ b h', pf.verify GP sha h = some (b, h') →
      (pf.deref GP h).verify sha = some b ∧ h.next ≤ h'.next ∧ (∀ i < h.next, h'.el i = h.el i) := by
  have hs := bpVerify_refines GP sha pf h hl
  cases hv : (pf.deref GP h).verify sha with
  | none =>
    rw [hv] at hs
    have hs : pf.verify GP sha h = none := hs
    rw [hs]
    exact ⟨by simp, by simp⟩
  | some b =>
    rw [hv] at hs
    obtain ⟨a, h', e, f, rfl⟩ := hs
    rw [e]
    refine ⟨by simp, ?_⟩
    rintro b h'' heq
    simp only [Option.some.injEq, Prod.mk.injEq] at heq
    obtain ⟨rfl, rfl⟩ := heq
    exact ⟨rfl, f.1, fun i hi => f.2 i hi noW.not⟩

/-- **C49** The same for the inner product argument. -/
theorem C49_ip_no_mutation {E : Type} (GP : Grp E) (sha : Bytes → Bytes) (pf : IPProofH) (h : HS E)
    (hl : ∀ p ∈ pf.ptrs, p < h.next) :
    (pf.verify GP sha h = none ↔ (pf.deref GP h).verify sha = none) ∧
    ∀ b h', pf.verify GP sha h = some (b, h') →
      (pf.deref GP h).verify sha = some b ∧ h.next ≤ h'.next ∧ (∀ i < h.next, h'.el i = h.el i) := by
  have hs := ipVerify_refines GP sha pf h hl
  cases hv : (pf.deref GP h).verify sha with
  | none =>
    rw [hv] at hs
    have hs : pf.verify GP sha h = none := hs
    rw [hs]
    exact ⟨by simp, by simp⟩
  | some b =>
    rw [hv] at hs
    obtain ⟨a, h', e, f, rfl⟩ := hs
    rw [e]
    refine ⟨by simp, ?_⟩
    rintro b h'' heq
    simp only [Option.some.injEq, Prod.mk.injEq] at heq
    obtain ⟨rfl, rfl⟩ := heq
    exact ⟨rfl, f.1, fun i hi => f.2 i hi noW.not⟩

/-- **C49** No hidden state: verifying any proof first (the same one, or one sharing elements with it) does not change
the verdict on a second proof, nor its contents. -/
theorem C49_order_independent {E : Type} (GP : Grp E) (sha : Bytes → Bytes) (pf pf2 : BulletProofH) (h h' : HS E)
    (hl : ∀ p ∈ pf.ptrs, p < h.next) (hl2 : ∀ p ∈ pf2.ptrs, p < h.next) (b : Bool) (e : pf.verify GP sha h = some (b, h')) :
    (pf2.verify GP sha h').map Prod.fst = (pf2.verify GP sha h).map Prod.fst ∧ pf2.deref GP h' = pf2.deref GP h := by
  obtain ⟨_, e1, e2⟩ := (C49_no_mutation GP sha pf h hl).2 b h' e
  have hd : pf2.deref GP h' = pf2.deref GP h := pf2.deref_frame GP ⟨e1, fun i hi _ => e2 i hi⟩ hl2
  have key : ∀ h0 : HS E, (∀ p ∈ pf2.ptrs, p < h0.next) →
      (pf2.verify GP sha h0).map Prod.fst = (pf2.deref GP h0).verify sha := by
    intro h0 hl0
    obtain ⟨c1, c2⟩ := C49_no_mutation GP sha pf2 h0 hl0
    cases hr : pf2.verify GP sha h0 with
    | none => rw [c1.mp hr]; rfl
    | some r => rw [(c2 r.1 r.2 hr).1]; rfl
  refine ⟨?_, hd⟩
  rw [key h' (fun p hp => lt_of_lt_of_le (hl2 p hp) e1), key h hl2, hd]

/-- **C49** The prover's responses are computed from the challenges the verifier recomputes from the returned proof. -/
theorem C49_same_challenges {E : Type} (sha : Bytes → Bytes) (params : BPParams E) (rnd : BPRand) (secret : Int)
    (pf : BulletProof E) (gamma : Int) (h : bpProve sha params rnd secret = some (.ok (pf, gamma))) (x z : Int)
    (hx : x = setBytes (sha (params.GP.str pf.T1 ++ params.GP.str pf.T2)))
    (hz : z = setBytes (sha (params.GP.str pf.A ++ params.GP.str pf.S))) :
    pf.Taux = some ((rnd.tau2 * x ^ 2 + rnd.tau1 * x + z ^ 2 * rnd.gamma) % params.GP.N) ∧
    pf.Mu = some ((rnd.alpha + rnd.rho * x) % params.GP.N) ∧
    pf.V = params.GP.add (params.GP.mulGen secret) (params.GP.mul params.H rnd.gamma) ∧
    gamma = rnd.gamma ∧ pf.Params = params := by
  unfold bpProve at h
  dsimp only at h
  unbind h with r hr
  cases r with
  | error e => simp at h
  | ok p =>
    simp only [Option.some.injEq, Except.ok.injEq, Prod.mk.injEq] at h
    obtain ⟨rfl, rfl⟩ := h
    unfold proveFrom at hr
    unbind hr with A hA
    unbind hr with S hS
    unbind hr with a1 ha1
    unbind hr with a2 ha2
    unbind hr with t1 ht1
    unbind hr with t2 ht2
    unbind hr with t3 ht3
    unbind hr with t4 ht4
    unbind hr with hp hhp
    unbind hr with ipp hipp
    cases ipp with
    | error e => simp at hr
    | ok ipp =>
      dsimp only at hr
      unbind hr with cm hcm
      unbind hr with ip hip
      cases ip with
      | error e => simp at hr
      | ok ip =>
        simp only [Option.some.injEq, Except.ok.injEq] at hr
        subst hr
        dsimp only at hx hz ⊢
        have e1 : ∀ a b : E, (hashBP sha params.GP a b).1 = setBytes (sha (params.GP.str a ++ params.GP.str b)) := fun _ _ => rfl
        have e2 : ∀ a b : E, (hashBP sha params.GP a b).2 = setBytes (sha (params.GP.str a ++ params.GP.str b)) := fun _ _ => rfl
        simp only [e1, e2] at hx hz ⊢
        rw [← hx, ← hz]
        refine ⟨?_, ?_, rfl, trivial, trivial⟩
        · congr 2; ring
        · congr 2; ring

/-- **C49** The commitment `V` enters no challenge: in an accepted proof it can be replaced by any `V'` with
`z².V' = z².V`, and by no other. -/
theorem C49_V_not_hashed {E : Type} {q : ℕ} {M : Type} [AddCommGroup M] [Module (ZMod q) M] (pf : BulletProof E)
    (L : Lawful pf.Params.GP q M) (vV : L.V pf.V) (vT1 : L.V pf.T1)
    (vT2 : L.V pf.T2) (vH : L.V pf.Params.H) (sha : Bytes → Bytes) (h : pf.verify sha = some true) (V' : E) (vV' : L.V V')
    (z : ZMod q) (hz : z = ((setBytes (sha (pf.Params.GP.str pf.A ++ pf.Params.GP.str pf.S)) : ℕ) : ZMod q)) :
    ∃ b, BulletProof.verify sha { pf with V := V' } = some b ∧ (b = true ↔ z ^ 2 • L.den V' = z ^ 2 • L.den pf.V) := by
  rw [bp_verify_split] at h ⊢
  dsimp only at h ⊢
  unbind h with hp ehp
  unbind h with c65 e65
  unbind h with lP elP
  unbind h with c67 e67
  unbind h with ok eok
  simp only [Option.some.injEq, Bool.and_eq_true] at h
  obtain ⟨⟨rfl, rfl⟩, rfl⟩ := h
  unfold cond65Pure at e65
  unbind e65 with tp etp
  unbind e65 with tx etx
  unbind e65 with dl edl
  simp only [Option.some.injEq] at e65
  rw [L.isEqual_iff (by
    exact L.V_add (L.V_add (L.V_add (L.V_mul _ vV) (L.V_mulGen _)) (L.V_mul _ vT1)) (L.V_mul _ vT2)) (L.V_pedersen vH _ _)] at e65
  refine ⟨pf.Params.GP.isEqual (pf.Params.GP.add (pf.Params.GP.add (pf.Params.GP.add (pf.Params.GP.mul V'
      ((hashBP sha pf.Params.GP pf.A pf.S).2 * (hashBP sha pf.Params.GP pf.A pf.S).2 % pf.Params.GP.N))
      (pf.Params.GP.mulGen dl)) (pf.Params.GP.mul pf.T1 (hashBP sha pf.Params.GP pf.T1 pf.T2).1))
      (pf.Params.GP.mul pf.T2 ((hashBP sha pf.Params.GP pf.T1 pf.T2).1 * (hashBP sha pf.Params.GP pf.T1 pf.T2).1 % pf.Params.GP.N)))
      (pedersenCommit pf.Params.GP tp tx pf.Params.H), ?_, ?_⟩
  · have e2 : ∀ hp x y z, lPPure { pf with V := V' } hp x y z = lPPure pf hp x y z := fun _ _ _ _ => rfl
    have e3 : ∀ lP, cond67Pure { pf with V := V' } lP = cond67Pure pf lP := fun _ => rfl
    have e1 : ∀ x y z, cond65Pure { pf with V := V' } x y z = (do
        let tp ← pf.Tprime
        let tx ← pf.Taux
        let dl ← delta pf.Params.N pf.Params.GP.N y z
        some (pf.Params.GP.isEqual (pf.Params.GP.add (pf.Params.GP.add (pf.Params.GP.add (pf.Params.GP.mul V'
          (z * z % pf.Params.GP.N)) (pf.Params.GP.mulGen dl)) (pf.Params.GP.mul pf.T1 x))
          (pf.Params.GP.mul pf.T2 (x * x % pf.Params.GP.N))) (pedersenCommit pf.Params.GP tp tx pf.Params.H))) := fun _ _ _ => rfl
    simp only [e1, e2, e3, ehp, elP, e67, eok, Option.bind_eq_bind, Option.bind_some, Bool.and_true]
    simp only [etp, etx, edl, Option.bind_some]
  · rw [L.isEqual_iff (by
      exact L.V_add (L.V_add (L.V_add (L.V_mul _ vV') (L.V_mulGen _)) (L.V_mul _ vT1)) (L.V_mul _ vT2)) (L.V_pedersen vH _ _), ← e65]
    rw [L.den_add (L.V_add (L.V_add (L.V_mul _ vV') (L.V_mulGen _)) (L.V_mul _ vT1)) (L.V_mul _ vT2),
      L.den_add (L.V_add (L.V_mul _ vV') (L.V_mulGen _)) (L.V_mul _ vT1), L.den_add (L.V_mul _ vV') (L.V_mulGen _),
      L.den_add (L.V_add (L.V_add (L.V_mul _ vV) (L.V_mulGen _)) (L.V_mul _ vT1)) (L.V_mul _ vT2),
      L.den_add (L.V_add (L.V_mul _ vV) (L.V_mulGen _)) (L.V_mul _ vT1), L.den_add (L.V_mul _ vV) (L.V_mulGen _),
      add_left_inj, add_left_inj, add_left_inj, L.den_mul _ vV', L.den_mul _ vV, L.cast_modN]
    have : (((hashBP sha pf.Params.GP pf.A pf.S).2 * (hashBP sha pf.Params.GP pf.A pf.S).2 : Int) : ZMod q) = z ^ 2 := by
      have e2 : (hashBP sha pf.Params.GP pf.A pf.S).2 =
        (setBytes (sha (pf.Params.GP.str pf.A ++ pf.Params.GP.str pf.S)) : Int) := rfl
      rw [e2, hz]; push_cast; ring
    rw [this]

/-! Non-vacuity: a concrete proof laid out in memory (sharing cells), verified twice. -/

/-- lay out a list of values from address 0 -/
def layout (l : List Int) : HS Int := { el := fun i => l.getD i 0, next := l.length }

/-- pointers into `layout [V, A, S, T1, T2, H, P, U, g.., h.., h'.., L.., R..]` for a 4-bit proof -/
def exPtrs (pf : BulletProof Int) : BulletProofH :=
  { V := 0, A := 1, S := 2, T1 := 3, T2 := 4, Taux := pf.Taux, Mu := pf.Mu, Tprime := pf.Tprime, N := 4, G := 1, H := 5,
    Gg := [8, 9, 10, 11], Hh := [12, 13, 14, 15],
    ip := { P := 6, Uu := 7, Cc := pf.InnerProductProof.Cc, A := pf.InnerProductProof.A, B := pf.InnerProductProof.B,
            L := [20, 21], R := [22, 23], Gg := [8, 9, 10, 11], Hh := [12, 17, 18, 19] } }

example : (match bpProve exSha2 exBP exRnd 13 with
    | some (.ok (pf, _)) =>
      let ip := pf.InnerProductProof
      let h := layout ([pf.V, pf.A, pf.S, pf.T1, pf.T2, 7, ip.P, ip.Params.Uu] ++ pf.Params.Gg ++ pf.Params.Hh ++
        ip.Params.Hh ++ ip.L ++ ip.R)
      let p := exPtrs pf
      decide (∀ q ∈ p.ptrs, q < h.next) &&
      (match p.verify (toyGrp 101) exSha2 h with
       | some (b, h') => b && decide (h.next < h'.next) && ((p.verify (toyGrp 101) exSha2 h').map Prod.fst == some true)
       | none => false)
    | _ => false) = true := by decide +kernel

end MscPoc
