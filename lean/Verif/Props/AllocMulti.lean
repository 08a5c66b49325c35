import Verif.Lemmas.AllocMulti
import Verif.Props.HeapMulti

/-!
# C104 — how many group elements aggregated proofs cost
-/

set_option autoImplicit false

namespace MscPoc

variable {E : Type}

/-- **C104** `MultiProve` for `m` values and `N = 2^k` bits creates `23 N + 8 k + 3 m` group elements whenever it returns a proof, from any
state of memory, whatever the values, the random numbers and the digests. -/
theorem C104_prove (GP : Grp E) (sha : Bytes → Bytes) (params : BPParamsH) (rnd : MultiRand) (secrets : List Int) (k : ℕ)
    (hN : params.N = 2 ^ k) (hg : params.Gg.length = 2 ^ k) (hl : secrets.length = rnd.gammas.length) (h h' : HS E)
    (pf : MultiProofH) (gs : List Int) (e : HM.multiProve GP sha params rnd secrets h = some (.ok (pf, gs), h')) :
    h'.next = h.next + (23 * params.N + 8 * k + 3 * secrets.length) := by
  obtain ⟨d, e1, h1⟩ := Creates.multiProve GP sha params rnd secrets k hN hg hl h _ h' e
  have := (h1 _ rfl).1
  rw [hN]
  omega

/-- **C104** `Verify` of such a proof, later and with any digest function, creates `13 N + 2 m + 2 k + 18` elements, with either verdict;
and `m` divides `N`, for `MultiProve` does not return otherwise. -/
theorem C104_verify (GP : Grp E) (sha sha' : Bytes → Bytes) (params : BPParamsH) (rnd : MultiRand) (secrets : List Int) (k : ℕ)
    (hN : params.N = 2 ^ k) (hg : params.Gg.length = 2 ^ k) (hl : secrets.length = rnd.gammas.length) (h₀ h₁ h h' : HS E)
    (pf : MultiProofH) (gs : List Int) (e : HM.multiProve GP sha params rnd secrets h₀ = some (.ok (pf, gs), h₁)) (b : Bool)
    (ev : pf.verify GP sha' h = some (b, h')) :
    secrets.length ∣ params.N ∧ h'.next = h.next + (13 * params.N + 2 * secrets.length + 2 * k + 18) := by
  obtain ⟨_, _, h1⟩ := Creates.multiProve GP sha params rnd secrets k hN hg hl h₀ _ h₁ e
  obtain ⟨p1, p2, p3, p4, p5, p6⟩ := (h1 _ rfl).2
  obtain ⟨d, e1, x, hx, hd⟩ := Creates.multiVerify GP sha' pf
    (Creates.ipVerify_eq GP sha' pf.ip (by rw [p3, p4, hg]) (by rw [p3, p5, hN])) h b h' ev
  rw [p3] at hx
  rw [p1, p2, p6, hN] at hd
  refine ⟨⟨_, p6.symm⟩, ?_⟩
  rw [e1, hd, hN]
  omega

/-- **C104** The same for any aggregated proof whatsoever: at most a number that is linear in `N` and in the lengths of four arrays that
the proof itself carries. -/
theorem C104_any (GP : Grp E) (sha : Bytes → Bytes) (pf : MultiProofH) (h h' : HS E) (b : Bool)
    (ev : pf.verify GP sha h = some (b, h')) :
    h.next ≤ h'.next ∧ h'.next ≤ h.next +
      (7 * pf.Params.N + 2 * pf.Vs.length + 3 * (pf.ip.Gg.length + pf.ip.Hh.length) + 2 * pf.ip.L.length + 24) := by
  obtain ⟨d, e1, x, hx, hd⟩ := Creates.multiVerify GP sha pf (Creates.ipVerify_le GP sha pf.ip) h b h' ev
  have := Nat.mul_div_le pf.Params.N pf.Vs.length
  omega

/-- **C104** What aggregation saves: one proof for `m ≥ 2` values against `m` proofs for one value each, with the same generators
(`C104_single`): fewer elements on either side. -/
theorem C104_saves (N k m : ℕ) (hN : N = 2 ^ k) (hm : 2 ≤ m) :
    23 * N + 8 * k + 3 * m < m * (23 * N + 8 * k + 3) ∧
    13 * N + 2 * m + 2 * k + 18 < m * (11 * N + 2 * k + 16) := by
  have hp : 0 < N := hN ▸ Nat.two_pow_pos k
  obtain ⟨r, rfl⟩ := Nat.exists_eq_add_of_le hm
  have h1 : 0 ≤ r * N := Nat.zero_le _
  have h2 : 0 ≤ r * k := Nat.zero_le _
  constructor <;> nlinarith

/-- **C104** One value: `Prove` creates `23 N + 8 k + 3` elements and `Verify` of its proof `11 N + 2 k + 16`. -/
theorem C104_single (GP : Grp E) (sha sha' : Bytes → Bytes) (params : BPParamsH) (rnd : BPRand) (v : Int) (k : ℕ)
    (hN : params.N = 2 ^ k) (hg : params.Gg.length = 2 ^ k) (h h₁ : HS E) (pf : BulletProofH) (g : Int)
    (e : HM.bpProve GP sha params rnd v h = some (.ok (pf, g), h₁)) :
    h₁.next = h.next + (23 * params.N + 8 * k + 3) ∧
    ∀ (h₂ h₃ : HS E) (b : Bool), pf.verify GP sha' h₂ = some (b, h₃) → h₃.next = h₂.next + (11 * params.N + 2 * k + 16) := by
  obtain ⟨d, e1, h1⟩ := Creates.bpProve GP sha params rnd v k hN hg h _ h₁ e
  obtain ⟨hd, hs⟩ := h1 _ rfl
  refine ⟨by rw [hN]; omega, fun h₂ h₃ b ev => ?_⟩
  obtain ⟨d', e2, h2⟩ := Creates.bpVerify_eq GP sha' params k hN hg pf hs h₂ b h₃ ev
  rw [hN]
  omega

/-! ## Concrete cases -/

/-- C104: two values of two bits with `N = 4` in the memory of `C94_history`: 114 elements for the prover, 78 for the verifier, which
rejects (C24). -/
example : exBpPtrs.N = 2 ^ 2 ∧ exBpPtrs.Gg.length = 2 ^ 2 ∧ [2, 3].length = exMRnd.gammas.length ∧ exBpHeap.next = 10 ∧
    (match HM.multiProve exBP.GP exSha2 exBpPtrs exMRnd [2, 3] exBpHeap with
      | some (.ok (pf, _), h) => (pf.verify exBP.GP exSha2 h).map fun v => (h.next, v.1, v.2.next)
      | _ => none) = some (10 + 114, false, 10 + 114 + 78) := by decide +kernel

/-- C104_single: one value of four bits with the same parameters, accepted. -/
example : (match HM.bpProve exBP.GP exSha2 exBpPtrs exRnd 9 exBpHeap with
      | some (.ok (pf, _), h) => (pf.verify exBP.GP exSha2 h).map fun v => (h.next, v.1, v.2.next)
      | _ => none) = some (10 + 111, true, 10 + 111 + 64) := by decide +kernel

end MscPoc
