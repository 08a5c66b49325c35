import Verif.Lemmas.BpRepaired
import Verif.Props.Setup

/-!
# C78 — The challenges of a range proof do not depend on the commitment

Repairing C21–C23 (two different challenges, the claim and the generators of the inner-product argument checked) leaves a forgery:
`V` is not hashed, so a prover may name it after `x` and `z` are known.
-/

set_option autoImplicit false

namespace MscPoc

variable {E : Type} {q : ℕ} {M : Type} [AddCommGroup M] [Module (ZMod q) M]

/-- **C78** `Verify` is the repaired verifier with the program's challenges and without the consistency checks. -/
theorem C78_same (sha : Bytes → Bytes) (pf : BulletProof E) :
    pf.verifyC (programChallenges sha pf.Params.GP) sha = pf.verify sha := rfl

/-- C78: `Prove` from the vectors on is the repaired prover with the program's challenges, up to the element added to `T1`. -/
theorem C78_same_prover (sha : Bytes → Bytes) (params : BPParams E) (hadd : ∀ e, params.GP.add e params.GP.identity = e)
    (rnd : BPRand) (V : E) (aL aR : List Int) :
    proveC (programChallenges sha params.GP) sha params rnd params.GP.identity (fun _ _ => V) aL aR =
      proveFrom sha params rnd V aL aR := by
  unfold proveC proveFrom programChallenges
  simp only [hadd]
  rfl

section
variable (params : BPParams E) (L : Lawful params.GP q M) (k : ℕ) (hO : ParamsOK params L k) (ch : Challenges E)
  (sha : Bytes → Bytes) (rnd : BPRand) (lsL : rnd.sL.length = 2 ^ k) (lsR : rnd.sR.length = 2 ^ k)
include hO lsL lsR

/-- C78: verdict of the repaired verifier on a proof built from the bits of `v` with any `D` and any commitment. -/
theorem C78_exact (D : E) (vD : L.V D) (V : Int → Int → E) (vV : ∀ z x, L.V (V z x)) (v : Int) (pf : BulletProof E)
    (h : proveC ch sha params rnd D V (decompose v 2 params.N) ((decompose v 2 params.N).map (· - 1)) = some (.ok pf)) :
    pf.Consistent ch ∧ pf.Params = params ∧ pf.V = V (ch.z pf.A pf.S) (ch.x pf.T1 pf.T2) ∧
    ∃ b, pf.verifyC ch sha = some b ∧ (b = true ↔
      (((ch.z pf.A pf.S) ^ 2 * (v % 2 ^ (2 ^ k)) : Int) : ZMod q) • L.g +
        (((ch.z pf.A pf.S) ^ 2 * rnd.gamma : Int) : ZMod q) • L.den params.H =
      ((ch.z pf.A pf.S ^ 2 : Int) : ZMod q) • L.den pf.V + ((ch.x pf.T1 pf.T2 : Int) : ZMod q) • L.den D) := by
  have hlen : (decompose v 2 params.N).length = 2 ^ k := by rw [decompose_length, hO.N]
  have hb : ∀ d ∈ decompose v 2 params.N, d = 0 ∨ d = 1 := by
    intro d hd
    have := decompose_digit (by norm_num) _ _ _ hd
    omega
  obtain ⟨hV, hP, hC, _, h1, h2, h3, h4, hver⟩ := proveC_exact params L k hO ch sha rnd D vD V vV _ _ pf hlen
    (by simpa using hlen) lsL lsR h
  obtain ⟨b, hb1, hb2⟩ := hver _ _ _ rfl rfl rfl
  refine ⟨⟨hC, by rw [h1, hP], by rw [h2, hP], by rw [h3, hP], by rw [h4, hP]⟩, hP, hV, b, hb1, hb2.trans ?_⟩
  have hr := rangeForm_bits (q := q) (decompose v 2 params.N) hb (ch.y pf.A pf.S : Int) (ch.z pf.A pf.S : Int)
  rw [hlen] at hr
  rw [hr, decompose_value (by norm_num), hO.N]
  push_cast
  rfl

/-- C78: the repair keeps honest proofs. -/
theorem C78_honest (D : E) (vD : L.V D) (hD : L.den D = 0) (v : Int) (hv : 0 ≤ v ∧ v < 2 ^ 2 ^ k) (pf : BulletProof E)
    (h : proveC ch sha params rnd D (fun _ _ => pedersenCommit params.GP v rnd.gamma params.H) (decompose v 2 params.N)
      ((decompose v 2 params.N).map (· - 1)) = some (.ok pf)) :
    pf.AcceptedC ch sha ∧ L.den pf.V = (v : ZMod q) • L.g + (rnd.gamma : ZMod q) • L.den params.H := by
  obtain ⟨hc, _, hV, b, h1, h2⟩ := C78_exact params L k hO ch sha rnd lsL lsR D vD _ (fun _ _ => L.V_pedersen hO.H _ _) v pf h
  have dV : L.den pf.V = (v : ZMod q) • L.g + (rnd.gamma : ZMod q) • L.den params.H := by rw [hV, L.den_pedersen hO.H]
  refine ⟨⟨hc, ?_⟩, dV⟩
  rw [h1, h2.mpr]
  rw [dV, hD, Int.emod_eq_of_lt hv.1 hv.2]
  push_cast
  module

/-- C78: the repair stops the prover who follows the steps with a value out of range, unless `z = 0`. -/
theorem C78_out_of_range (hfree : ∀ c : ZMod q, c • L.g = 0 → c = 0) (D : E) (vD : L.V D) (hD : L.den D = 0) (v : Int)
    (pf : BulletProof E)
    (h : proveC ch sha params rnd D (fun _ _ => pedersenCommit params.GP v rnd.gamma params.H) (decompose v 2 params.N)
      ((decompose v 2 params.N).map (· - 1)) = some (.ok pf)) :
    pf.AcceptedC ch sha ↔ (q : Int) ∣ (ch.z pf.A pf.S) ^ 2 * (v - v % 2 ^ (2 ^ k)) := by
  obtain ⟨hc, _, hV, b, h1, h2⟩ := C78_exact params L k hO ch sha rnd lsL lsR D vD _ (fun _ _ => L.V_pedersen hO.H _ _) v pf h
  have dV : L.den pf.V = (v : ZMod q) • L.g + (rnd.gamma : ZMod q) • L.den params.H := by rw [hV, L.den_pedersen hO.H]
  rw [dV, hD] at h2
  unfold BulletProof.AcceptedC
  rw [h1, ← ZMod.intCast_zmod_eq_zero_iff_dvd]
  simp only [Option.some.injEq, hc, true_and, h2]
  push_cast
  constructor
  · intro h
    apply hfree
    linear_combination (norm := module) -h
  · intro h
    have h' := congrArg (· • L.g) h
    simp only [zero_smul] at h'
    linear_combination (norm := module) -h'

/-- C78: the forger's proofs are accepted, whatever the challenges are, for every element `D` of the group.
The commitment is that of `v` shifted by `(x / z²) D`. -/
theorem C78_forge (D : E) (vD : L.V D) (v : Int) (hv : 0 ≤ v ∧ v < 2 ^ 2 ^ k) (pf : BulletProof E)
    (h : proveForged ch sha params rnd D v = some (.ok pf)) (hz : Int.gcd (ch.z pf.A pf.S) params.GP.N = 1) :
    pf.AcceptedC ch sha ∧ pf.Params = params ∧
    ∃ w : ZMod q, w * (ch.z pf.A pf.S : Int) ^ 2 = (ch.x pf.T1 pf.T2 : Int) ∧
      L.den pf.V = (v : ZMod q) • L.g + (rnd.gamma : ZMod q) • L.den params.H - w • L.den D := by
  have vC := L.V_pedersen hO.H v rnd.gamma
  obtain ⟨hc, hP, hV, b, h1, h2⟩ := C78_exact params L k hO ch sha rnd lsL lsR D vD _
    (fun z x => L.V_sub vC (L.V_mul _ vD)) v pf h
  set z := ch.z pf.A pf.S with hzd
  set x := ch.x pf.T1 pf.T2 with hxd
  have hw : ((x * Int.gcdA (z * z) params.GP.N : Int) : ZMod q) * (z : ZMod q) ^ 2 = (x : ZMod q) := by
    have hg : Int.gcd (z * z) params.GP.N = 1 := Int.isCoprime_iff_gcd_eq_one.mp
      ((Int.isCoprime_iff_gcd_eq_one.mpr hz).mul_left (Int.isCoprime_iff_gcd_eq_one.mpr hz))
    have hb := Int.gcd_eq_gcd_ab (z * z) params.GP.N
    rw [hg] at hb
    have hb' := congrArg (Int.cast : Int → ZMod q) hb
    rw [L.N_eq] at hb' ⊢
    push_cast at hb' ⊢
    rw [ZMod.natCast_self, zero_mul, add_zero] at hb'
    linear_combination -(x : ZMod q) * hb'
  have dV : L.den pf.V = (v : ZMod q) • L.g + (rnd.gamma : ZMod q) • L.den params.H -
      ((x * Int.gcdA (z * z) params.GP.N : Int) : ZMod q) • L.den D := by
    rw [hV]
    rw [L.den_sub vC (L.V_mul _ vD), L.den_pedersen hO.H, L.den_mul _ vD]
  refine ⟨⟨hc, ?_⟩, hP, _, hw, dV⟩
  rw [h1, h2.mpr]
  rw [dV, Int.emod_eq_of_lt hv.1 hv.2, ← hw]
  push_cast
  module

/-- C78: with `D = d G` the forger knows an opening, of a value that the challenges move anywhere. -/
theorem C78_value (d v : Int) (hv : 0 ≤ v ∧ v < 2 ^ 2 ^ k) (pf : BulletProof E)
    (h : proveForged ch sha params rnd (params.GP.mulGen d) v = some (.ok pf)) (hz : Int.gcd (ch.z pf.A pf.S) params.GP.N = 1) :
    pf.AcceptedC ch sha ∧ ∃ u : ZMod q, (u - v) * (ch.z pf.A pf.S : Int) ^ 2 = -(ch.x pf.T1 pf.T2 : Int) * d ∧
      L.den pf.V = u • L.g + (rnd.gamma : ZMod q) • L.den params.H := by
  obtain ⟨ha, _, w, hw, hd⟩ := C78_forge params L k hO ch sha rnd lsL lsR _ (L.V_mulGen d) v hv pf h hz
  refine ⟨ha, v - w * d, ?_, ?_⟩
  · rw [← hw]; ring
  · rw [hd, L.den_mulGen]
    module

/-- C78: the commitment of a forged proof need not have a known opening: an opening is a relation between `D`, `G` and `H`. -/
theorem C78_unopened [Fact q.Prime] (D : E) (vD : L.V D) (v : Int) (hv : 0 ≤ v ∧ v < 2 ^ 2 ^ k) (pf : BulletProof E)
    (h : proveForged ch sha params rnd D v = some (.ok pf)) (hz : Int.gcd (ch.z pf.A pf.S) params.GP.N = 1)
    (hx : ((ch.x pf.T1 pf.T2 : Int) : ZMod q) ≠ 0) (u r : ZMod q) (ho : L.den pf.V = u • L.g + r • L.den params.H) :
    ∃ w : ZMod q, w * (ch.x pf.T1 pf.T2 : Int) = (ch.z pf.A pf.S : Int) ^ 2 ∧
      L.den D = (w * (v - u)) • L.g + (w * (rnd.gamma - r)) • L.den params.H := by
  obtain ⟨_, _, w, hw, hd⟩ := C78_forge params L k hO ch sha rnd lsL lsR D vD v hv pf h hz
  have hw0 : w ≠ 0 := fun h0 => hx (by rw [← hw, h0, zero_mul])
  refine ⟨w⁻¹, by rw [← hw, inv_mul_cancel_left₀ hw0], ?_⟩
  have e : w • L.den D = ((v : ZMod q) - u) • L.g + ((rnd.gamma : ZMod q) - r) • L.den params.H := by
    rw [ho] at hd
    linear_combination (norm := module) hd
  rw [mul_smul, mul_smul, ← smul_add, ← e, smul_smul, inv_mul_cancel₀ hw0, one_smul]

/-- C78: such proofs exist. `A` and `S` of the forger do not depend on the challenges; the forger returns unless `y` or a
challenge of the inner-product argument is not invertible. -/
theorem C78_forge_exists (Uu : E) (eU : params.GP.mapToGroup SEEDU = some Uu) (D : E) (v : Int) :
    ∃ A S, commitVector params.GP (decompose v 2 params.N) ((decompose v 2 params.N).map (· - 1)) rnd.alpha params.H
        params.Gg params.Hh params.N = some A ∧
      commitVector params.GP rnd.sL rnd.sR rnd.rho params.H params.Gg params.Hh params.N = some S ∧
      (Int.gcd (ch.y A S) params.GP.N = 1 →
        ∃ pf, proveForged ch (patchSha sha params.GP.N) params rnd D v = some (.ok pf) ∧ pf.A = A ∧ pf.S = S ∧
          ((∀ c, pf.InnerProductProof.Cc = some c → Int.gcd (setBytes (ippDigest sha params.GP
              pf.InnerProductProof.Params.Gg pf.InnerProductProof.Params.Hh pf.InnerProductProof.P c) : ℕ) params.GP.N = 1) →
            (∀ p ∈ List.zip pf.InnerProductProof.L pf.InnerProductProof.R,
              Int.gcd (roundChallenge sha params.GP p.1 p.2) params.GP.N = 1) →
            proveForged ch sha params rnd D v = some (.ok pf))) := by
  have hlen : (decompose v 2 params.N).length = 2 ^ k := by rw [decompose_length, hO.N]
  have hN := hO.N
  have hG := hO.lenG
  have hH := hO.lenH
  obtain ⟨A, eA⟩ := commitVectorGo_isSome (GP := params.GP) params.N (decompose v 2 params.N)
    ((decompose v 2 params.N).map (· - 1)) params.Gg params.Hh
    (params.GP.mul params.H rnd.alpha) (by omega) (by simp; omega) (by omega) (by omega)
  obtain ⟨S, eS⟩ := commitVectorGo_isSome (GP := params.GP) params.N rnd.sL rnd.sR params.Gg params.Hh
    (params.GP.mul params.H rnd.rho) (by omega) (by omega) (by omega) (by omega)
  refine ⟨A, S, eA, eS, fun hu => ?_⟩
  obtain ⟨pf, h1, h2, h3, h4⟩ := proveC_agree params k hN hG hH Uu eU ch sha (patchSha sha params.GP.N)
    (patch_good sha params.GP) rnd D (forgedV params.GP (pedersenCommit params.GP v rnd.gamma params.H) D) _ _ hlen
    (by simpa using hlen) lsL lsR A S eA eS hu
  exact ⟨pf, h1, h2, h3, fun g1 g2 => h4 (fun c hc => patch_ipp _ _ _ _ _ _ (g1 c hc)) (fun p hp => patch_round _ _ _ _ (g2 p hp))⟩

end

/-- C78: the parameters that `setup` makes on each of the four curves, with 16-bit ranges: whatever the three challenges, forged proofs
are accepted by the repaired verifier, and by `Verify` when the challenges are the program's. -/
theorem C78_deployed {E : Type} (nan64 : BitVec 64) (C : Grp E)
    (N bits : ℕ) (Bb : Int) (hr : (N, bits, Bb) ∈ curveTable) {M : Type} [AddCommGroup M] [Module (ZMod N) M]
    (L₂ : Lawful C N M) (hmap : ∀ s, SetupSeed 16 s → ∃ e, C.mapToGroup s = some e ∧ L₂.V e) :
    ∃ (D : Election Int E) (L : Lawful D.EC N M), setup nan64 C = some (.ok D.pp) ∧
      ∀ (ch : Challenges E) (sha : Bytes → Bytes) (rnd : BPRand), rnd.sL.length = 16 → rnd.sR.length = 16 →
      ∀ (d v : Int), 0 ≤ v → v < 65536 →
      ∀ pf, proveForged ch sha D.pp.BPParams rnd (D.EC.mulGen d) v = some (.ok pf) →
        Int.gcd (ch.z pf.A pf.S) D.EC.N = 1 →
        pf.AcceptedC ch sha ∧ (ch = programChallenges sha D.EC → pf.verify sha = some true) ∧
        ∃ u : ZMod N, (u - v) * (ch.z pf.A pf.S : Int) ^ 2 = -(ch.x pf.T1 pf.T2 : Int) * d ∧
          L.den pf.V = u • L.g + (rnd.gamma : ZMod N) • L.den D.pp.BPParams.H := by
  obtain ⟨D, L₁, L, hD, dep, ok⟩ := C47_legal nan64 C N bits Bb hr L₂ hmap
  refine ⟨D, L, hD, ?_⟩
  intro ch sha rnd l1 l2 d v hv0 hv1 pf h hz
  obtain ⟨ha, u, hu, hd⟩ := C78_value D.bp L 4 ok.bp ch sha rnd l1 l2 d v ⟨hv0, hv1⟩ pf h hz
  refine ⟨ha, ?_, u, hu, hd⟩
  intro hch
  have hP := (C78_forge D.bp L 4 ok.bp ch sha rnd l1 l2 _ (L.V_mulGen d) v ⟨hv0, hv1⟩ pf h hz).2.1
  have hG : pf.Params.GP = D.EC := by rw [hP]; rfl
  rw [← C78_same, hG, ← hch]
  exact ha.2

/-- challenges of the toy run: `y`, `z` differ -/
def exCh : Challenges Int where
  y := fun A S => (3 * A + S + 1) % 101
  z := fun A S => (A + 5 * S + 2) % 101
  x := fun T1 T2 => (T1 + 2 * T2 + 7) % 101

/-- C78: in the toy group, a repaired four-bit proof for 13, and a forged one made with `D = 3 G` whose commitment opens to 81; all
challenges are invertible and `y ≠ z`.  Following the steps with 81 itself is refused. -/
example :
    (match proveForged exCh exSha2 exBP exRnd 0 13 with
      | some (.ok pf) => pf.verifyC exCh exSha2 == some true && pf.V == pedersenCommit exBP.GP 13 exRnd.gamma exBP.H
      | _ => false) = true ∧
    (match proveForged exCh exSha2 exBP exRnd (exBP.GP.mulGen 3) 13 with
      | some (.ok pf) => pf.verifyC exCh exSha2 == some true && pf.V == pedersenCommit exBP.GP 81 exRnd.gamma exBP.H &&
          exCh.y pf.A pf.S == 84 && exCh.z pf.A pf.S == 20 && exCh.x pf.T1 pf.T2 == 57
      | _ => false) = true ∧
    (match proveForged exCh exSha2 exBP exRnd 0 81 with
      | some (.ok pf) => pf.verifyC exCh exSha2 == some false && pf.V == pedersenCommit exBP.GP 81 exRnd.gamma exBP.H
      | _ => false) = true := by decide +kernel

end MscPoc
