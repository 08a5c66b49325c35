import Verif.Spec.RandBytes
import Verif.Lemmas.Rand

/-!
# Lemmas for C93: bytes read by the draws
-/

set_option autoImplicit false

namespace MscPoc

variable {α β : Type}

/-- every completed run is a run on a prefix of at least `k` bytes -/
def Draw.Least (x : Draw α) (k : ℕ) : Prop :=
  ∀ t a r, x t = .done (a, r) → ∃ used, t = used ++ r ∧ k ≤ used.length ∧ x.Uses used a

/-- `a` is returned on some prefix of at most `k` bytes -/
def Draw.Within (x : Draw α) (a : α) (k : ℕ) : Prop := ∃ used, used.length ≤ k ∧ x.Uses used a

theorem Draw.Uses.bind {x : Draw α} {f : α → Draw β} {u v : Bytes} {a : α} {b : β} (h1 : x.Uses u a) (h2 : (f a).Uses v b) :
    (x >>= f).Uses (u ++ v) b := by
  intro rest
  rw [List.append_assoc]
  exact Draw.bind_done.mpr ⟨a, _, h1 _, h2 rest⟩

theorem Draw.Uses.pure (a : α) : (Pure.pure a : Draw α).Uses [] a := fun _ => rfl

theorem Draw.Uses.lift {x : Option α} {a : α} (h : x = some a) : (Draw.lift x).Uses [] a := fun _ => by rw [h]; rfl

theorem Draw.Least.bind {x : Draw α} {f : α → Draw β} {k l : ℕ} (h1 : x.Least k) (h2 : ∀ a, (f a).Least l) : (x >>= f).Least (k + l) := by
  intro t b r h
  obtain ⟨a, m, e, h'⟩ := Draw.bind_done.mp h
  obtain ⟨u, rfl, hu, U⟩ := h1 t a m e
  obtain ⟨v, rfl, hv, V⟩ := h2 a m b r h'
  exact ⟨u ++ v, by simp, by simp; omega, U.bind V⟩

theorem Draw.Least.pure (a : α) : (Pure.pure a : Draw α).Least 0 := by
  intro t b r h
  simp only [Draw.pure_eq, Outcome.done.injEq, Prod.mk.injEq] at h
  obtain ⟨rfl, rfl⟩ := h
  exact ⟨[], rfl, Nat.zero_le _, .pure a⟩

theorem Draw.Least.lift (x : Option α) : (Draw.lift x).Least 0 := by
  intro t b r h
  obtain ⟨h', rfl⟩ := Draw.lift_done.mp h
  exact ⟨[], rfl, Nat.zero_le _, .lift h'⟩

theorem Draw.Within.bind {x : Draw α} {f : α → Draw β} {a : α} {b : β} {k l : ℕ} (h1 : x.Within a k) (h2 : (f a).Within b l) :
    (x >>= f).Within b (k + l) := by
  obtain ⟨u, hu, U⟩ := h1
  obtain ⟨v, hv, V⟩ := h2
  exact ⟨u ++ v, by simp; omega, U.bind V⟩

theorem Draw.Within.pure (a : α) : (Pure.pure a : Draw α).Within a 0 := ⟨[], by simp, .pure a⟩

theorem Draw.Within.lift {x : Option α} {a : α} (h : x = some a) : (Draw.lift x).Within a 0 := ⟨[], by simp, .lift h⟩

theorem Blocks.shape {max : Int} {k : ℕ} (h : Blocks max k) : ∃ bl, IntShape max bl k := by
  obtain ⟨h0, h1, h2⟩ := h
  have h1' : 2 ≤ max := by
    have : (1 : Int) ≤ 256 ^ (k - 1) := one_le_pow₀ (by norm_num)
    omega
  obtain ⟨bl, k', s⟩ := intShape_exists max h1'
  have p : (256 : Int) = 2 ^ 8 := by norm_num
  rw [p, ← pow_mul] at h1 h2
  have a1 : (2 : Int) ^ (8 * (k - 1)) < 2 ^ bl := h1.trans_le s.hi
  have a2 : 8 * (k - 1) < bl := (pow_lt_pow_iff_right₀ (by norm_num)).mp a1
  have a3 : (2 : Int) ^ bl < 2 ^ (8 * k + 1) := by
    rw [pow_succ]
    have := s.lo
    linarith
  have a4 : bl < 8 * k + 1 := (pow_lt_pow_iff_right₀ (by norm_num)).mp a3
  have := s.k1
  have := s.k2
  obtain rfl : k = k' := by omega
  exact ⟨bl, s⟩

theorem randInt_least {max : Int} {k : ℕ} (hb : Blocks max k) : (randInt max).Least k := by
  obtain ⟨bl, s⟩ := hb.shape
  intro t v r h
  induction hn : t.length using Nat.strong_induction_on generalizing t with
  | _ n ih =>
    rcases s.split t with hlt | ⟨blk, t', rfl, hl, hlt⟩
    · rw [s.short t hlt] at h; simp at h
    · rw [s.step blk t' hl] at h
      split at h
      · rename_i hm
        simp only [Outcome.done.injEq, Prod.mk.injEq] at h
        obtain ⟨rfl, rfl⟩ := h
        exact ⟨blk, rfl, hl.ge, fun rest => by rw [s.step blk rest hl, if_pos hm]⟩
      · rename_i hm
        obtain ⟨u, rfl, hu, U⟩ := ih _ (hn ▸ hlt) t' h rfl
        refine ⟨blk ++ u, by simp, by simp; omega, fun rest => ?_⟩
        rw [List.append_assoc, s.step blk _ hl, if_neg hm, U rest]

theorem randInt_within {max v : Int} {k : ℕ} (hb : Blocks max k) (h : Below max v) : (randInt max).Within v k := by
  obtain ⟨bl, s⟩ := hb.shape
  obtain ⟨n, rfl⟩ := Int.eq_ofNat_of_zero_le h.1
  have hn : n < 2 ^ bl := by
    have : (n : Int) < 2 ^ bl := lt_of_lt_of_le h.2 s.hi
    exact_mod_cast this
  have hk : n < 256 ^ k := hn.trans_le s.lt_pow
  refine ⟨fillBytes k n, (fillBytes_length hk).le, fun t => ?_⟩
  rw [s.step _ t (fillBytes_length hk), setBytes_fillBytes, Nat.mod_eq_of_lt hn, if_pos h.2]

theorem sampleRandomVector_least {mod : Int} {k : ℕ} (hb : Blocks mod k) : ∀ n, (sampleRandomVector mod n).Least (n * k)
  | 0 => by rw [Nat.zero_mul]; exact .pure []
  | n + 1 => by
    have := (randInt_least hb).bind fun x => (sampleRandomVector_least hb n).bind fun xs => Draw.Least.pure (x :: xs)
    rwa [show k + (n * k + 0) = (n + 1) * k by ring] at this

theorem sampleRandomVector_within {mod : Int} {k : ℕ} (hb : Blocks mod k) :
    ∀ {l : List Int}, (∀ x ∈ l, Below mod x) → (sampleRandomVector mod l.length).Within l (l.length * k)
  | [], _ => by rw [List.length_nil, Nat.zero_mul]; exact .pure []
  | x :: xs, h => by
    rw [List.length_cons, show (xs.length + 1) * k = k + (xs.length * k + 0) by ring]
    exact (randInt_within hb (h x (by simp))).bind
      ((sampleRandomVector_within hb fun y hy => h y (by simp [hy])).bind (Draw.Within.pure (x :: xs)))

theorem drawBP_least {E : Type} {params : BPParams E} {k : ℕ} (hb : Blocks params.GP.N k) :
    (drawBP params).Least ((2 * params.N + 5) * k) := by
  have i := randInt_least hb
  have v := sampleRandomVector_least hb params.N
  have := i.bind fun gamma => i.bind fun alpha => v.bind fun sL => v.bind fun sR => i.bind fun rho => i.bind fun tau1 => i.bind fun tau2 =>
    Draw.Least.pure ({ gamma := gamma, alpha := alpha, sL := sL, sR := sR, rho := rho, tau1 := tau1, tau2 := tau2 } : BPRand)
  rwa [show k + (k + (params.N * k + (params.N * k + (k + (k + (k + 0)))))) = (2 * params.N + 5) * k by ring] at this

theorem drawBP_within {E : Type} {params : BPParams E} {k : ℕ} (hb : Blocks params.GP.N k) {rnd : BPRand}
    (h : BPDrawn params.GP.N params.N rnd) : (drawBP params).Within rnd ((2 * params.N + 5) * k) := by
  have i : ∀ {v}, Below params.GP.N v → (randInt params.GP.N).Within v k := fun h => randInt_within hb h
  have v1 := sampleRandomVector_within hb h.sL
  have v2 := sampleRandomVector_within hb h.sR
  rw [h.lenL] at v1
  rw [h.lenR] at v2
  rw [show (2 * params.N + 5) * k = k + (k + (params.N * k + (params.N * k + (k + (k + (k + 0)))))) by ring]
  exact (i h.gamma).bind ((i h.alpha).bind (v1.bind (v2.bind ((i h.rho).bind ((i h.tau1).bind ((i h.tau2).bind (Draw.Within.pure _)))))))

section
variable {E₁ E₂ : Type} {params : ProofParams E₁ E₂} {NF NE : Int} {kz kf ke : ℕ}

theorem drawSigma_least (hF : params.GFF.N = some NF) (hE : params.GEC.N = some NE)
    (bz : Blocks params.zUpperBound kz) (bf : Blocks NF kf) (be : Blocks NE ke) : (drawSigma params).Least (kz + kf + 2 * ke) := by
  have := (randInt_least bz).bind fun k => (randInt_least bf).bind fun tp => (randInt_least be).bind fun tq1 =>
    (randInt_least be).bind fun tq2 => Draw.Least.pure ({ k := k, tp := tp, tq1 := tq1, tq2 := tq2 } : SigmaSample)
  rw [show kz + (kf + (ke + (ke + 0))) = kz + kf + 2 * ke by ring] at this
  unfold drawSigma
  rw [hF, hE]
  exact this

theorem drawSigma_within (hF : params.GFF.N = some NF) (hE : params.GEC.N = some NE)
    (bz : Blocks params.zUpperBound kz) (bf : Blocks NF kf) (be : Blocks NE ke) {s : SigmaSample}
    (h : SigmaDrawn params.zUpperBound NF NE s) : (drawSigma params).Within s (kz + kf + 2 * ke) := by
  rw [show kz + kf + 2 * ke = kz + (0 + (kf + (0 + (ke + (ke + 0))))) by ring]
  exact (randInt_within bz h.k).bind ((Draw.Within.lift hF).bind ((randInt_within bf h.tp).bind ((Draw.Within.lift hE).bind
    ((randInt_within be h.tq1).bind ((randInt_within be h.tq2).bind (Draw.Within.pure _))))))

variable (sha : Bytes → Bytes) (secret rp rq1 rq2 : Int)

theorem sigmaProveB_reads (hF : params.GFF.N = some NF) (hE : params.GEC.N = some NE)
    (bz : Blocks params.zUpperBound kz) (bf : Blocks NF kf) (be : Blocks NE ke) {p : SigmaProof E₁ E₂} :
    ∀ {n : ℕ} {t r : Bytes}, sigmaProveB sha params secret rp rq1 rq2 n t = .done (p, r) →
      ∃ samples used, samples ≠ [] ∧ samples.length ≤ n ∧ (∀ s ∈ samples, SigmaDrawn params.zUpperBound NF NE s) ∧
        sigmaProve sha params secret rp rq1 rq2 samples = .done p ∧
        t = used ++ r ∧ samples.length * (kz + kf + 2 * ke) ≤ used.length ∧ (sigmaProveB sha params secret rp rq1 rq2 n).Uses used p
  | 0, t, r, h => by simp [sigmaProveB] at h
  | n + 1, t, r, h => by
    rw [sigmaProveB] at h
    obtain ⟨s, t1, e1, h⟩ := Draw.bind_done.mp h
    obtain ⟨o, t2, e2, h⟩ := Draw.bind_done.mp h
    have d := drawSigma_done hF hE e1
    obtain ⟨u, rfl, hu, U⟩ := drawSigma_least hF hE bz bf be t s t1 e1
    obtain ⟨e3, rfl⟩ := Draw.lift_done.mp e2
    cases o with
    | none =>
      obtain ⟨ss, v, i0, i1, i2, i3, rfl, hv, V⟩ := sigmaProveB_reads hF hE bz bf be h
      refine ⟨s :: ss, u ++ v, by simp, by simpa using i1, by simpa using ⟨d, i2⟩, by rw [sigmaProve, e3]; exact i3, by simp, ?_, ?_⟩
      · rw [List.length_cons, List.length_append, Nat.add_mul, Nat.one_mul]; omega
      · rw [sigmaProveB]
        refine Draw.Uses.bind (v := v) U ?_
        refine Draw.Uses.bind (u := []) (v := v) (Draw.Uses.lift e3) ?_
        exact V
    | some q =>
      simp only [Draw.pure_eq, Outcome.done.injEq, Prod.mk.injEq] at h
      obtain ⟨rfl, rfl⟩ := h
      refine ⟨[s], u, by simp, by simp, by simpa using d, by rw [sigmaProve, e3], rfl, by simpa using hu, ?_⟩
      rw [sigmaProveB]
      rw [← List.append_nil u]
      refine Draw.Uses.bind U ?_
      refine Draw.Uses.bind (u := []) (v := []) (Draw.Uses.lift e3) ?_
      exact Draw.Uses.pure q

theorem sigmaProveB_within (hF : params.GFF.N = some NF) (hE : params.GEC.N = some NE)
    (bz : Blocks params.zUpperBound kz) (bf : Blocks NF kf) (be : Blocks NE ke) {p : SigmaProof E₁ E₂} :
    ∀ {samples : List SigmaSample}, (∀ s ∈ samples, SigmaDrawn params.zUpperBound NF NE s) →
      sigmaProve sha params secret rp rq1 rq2 samples = .done p →
      (sigmaProveB sha params secret rp rq1 rq2 samples.length).Within p (samples.length * (kz + kf + 2 * ke))
  | [], _, h => by simp [sigmaProve] at h
  | s :: ss, hd, h => by
    rw [sigmaProve] at h
    have hs := drawSigma_within hF hE bz bf be (hd s (by simp))
    have key : (sigmaProveB sha params secret rp rq1 rq2 (ss.length + 1)).Within p
        ((kz + kf + 2 * ke) + (0 + ss.length * (kz + kf + 2 * ke))) := by
      rw [sigmaProveB]
      refine hs.bind ?_
      cases e : sigmaAttempt sha params secret rp rq1 rq2 s with
      | none => rw [e] at h; simp at h
      | some o =>
        rw [e] at h
        refine (Draw.Within.lift rfl).bind ?_
        cases o with
        | none => exact sigmaProveB_within hF hE bz bf be (fun x hx => hd x (by simp [hx])) h
        | some q =>
          simp only [Outcome.done.injEq] at h
          rw [← h]
          exact ⟨[], by simp, .pure q⟩
    rw [List.length_cons, show (ss.length + 1) * (kz + kf + 2 * ke) = (kz + kf + 2 * ke) + (0 + ss.length * (kz + kf + 2 * ke)) by ring]
    exact key

end

end MscPoc
