import Verif.Spec.JsonKey
import Verif.Model.Marshal

/-!
# Case folding of keys
-/

set_option autoImplicit false

namespace MscPoc

theorem charOfNat_toNat {n : ℕ} (h : n < 0xd800) : (Char.ofNat n).toNat = n := by
  unfold Char.ofNat
  rw [dif_pos (Or.inl h)]
  rfl

theorem toLower_toNat (c : Char) : c.toLower.toNat = if 65 ≤ c.toNat ∧ c.toNat ≤ 90 then c.toNat + 32 else c.toNat := by
  unfold Char.toLower
  by_cases h : 65 ≤ c.toNat ∧ c.toNat ≤ 90
  · rw [if_pos h]
    have h' : c.val ≥ 'A'.val ∧ c.val ≤ 'Z'.val := by
      constructor
      · exact UInt32.le_iff_toNat_le.mpr h.1
      · exact UInt32.le_iff_toNat_le.mpr h.2
    rw [dif_pos h']
    change (c.val + 32).toNat = c.val.toNat + 32
    rw [UInt32.toNat_add]
    have : c.val.toNat ≤ 90 := h.2
    have e : (32 : UInt32).toNat = 32 := rfl
    rw [e]
    omega
  · rw [if_neg h]
    have h' : ¬(c.val ≥ 'A'.val ∧ c.val ≤ 'Z'.val) := fun ⟨h1, h2⟩ =>
      h ⟨UInt32.le_iff_toNat_le.mp h1, UInt32.le_iff_toNat_le.mp h2⟩
    rw [dif_neg h']

theorem foldChar_toNat (c : Char) : (foldChar c).toNat = if c.toNat = 0x212a then 107 else if c.toNat = 0x17f then 115 else
    if 65 ≤ c.toNat ∧ c.toNat ≤ 90 then c.toNat + 32 else c.toNat := by
  unfold foldChar
  have inj : ∀ n, n < 0xd800 → (c = Char.ofNat n ↔ c.toNat = n) := fun n hn => by
    rw [← Char.toNat_inj, charOfNat_toNat hn]
  rw [← toLower_toNat]
  by_cases h1 : c.toNat = 0x212a
  · rw [if_pos h1, if_pos ((inj _ (by omega)).mpr h1)]; rfl
  · rw [if_neg h1, if_neg (fun h => h1 ((inj _ (by omega)).mp h))]
    by_cases h2 : c.toNat = 0x17f
    · rw [if_pos h2, if_pos ((inj _ (by omega)).mpr h2)]; rfl
    · rw [if_neg h2, if_neg (fun h => h2 ((inj _ (by omega)).mp h))]

theorem foldChar_iff (f k : Char) (hf : f.toNat < 128) : foldChar f = foldChar k ↔ SameLetter f k := by
  rw [← Char.toNat_inj, foldChar_toNat, foldChar_toNat]
  have inj : ∀ (c : Char) n, n < 0xd800 → (c = Char.ofNat n ↔ c.toNat = n) := fun c n hn => by
    rw [← Char.toNat_inj, charOfNat_toNat hn]
  have e1 : f = 'k' ↔ f.toNat = 107 := inj f 107 (by omega)
  have e2 : f = 'K' ↔ f.toNat = 75 := inj f 75 (by omega)
  have e3 : f = 's' ↔ f.toNat = 115 := inj f 115 (by omega)
  have e4 : f = 'S' ↔ f.toNat = 83 := inj f 83 (by omega)
  unfold SameLetter
  rw [e1, e2, e3, e4, inj k 0x212a (by omega), inj k 0x17f (by omega), ← Char.toNat_inj]
  constructor
  · intro h
    by_cases he : f.toNat = k.toNat
    · exact Or.inl he
    · right
      by_cases hk1 : k.toNat = 0x212a
      · right; left; split_ifs at h <;> omega
      · by_cases hk2 : k.toNat = 0x17f
        · right; right; split_ifs at h <;> omega
        · left
          by_cases hu : 65 ≤ f.toNat ∧ f.toNat ≤ 90
          · refine ⟨f.toNat - 65, by omega, Or.inl ?_⟩
            rw [inj _ _ (by omega), inj _ _ (by omega)]
            split_ifs at h <;> omega
          · by_cases hv : 65 ≤ k.toNat ∧ k.toNat ≤ 90
            · refine ⟨k.toNat - 65, by omega, Or.inr ?_⟩
              rw [inj _ _ (by omega), inj _ _ (by omega)]
              split_ifs at h <;> omega
            · split_ifs at h <;> omega
  · rintro (h | ⟨n, hn, h⟩ | h | h)
    · rw [h]
    · rw [inj f _ (by omega), inj f _ (by omega), inj k _ (by omega), inj k _ (by omega)] at h
      split_ifs <;> omega
    · split_ifs <;> omega
    · split_ifs <;> omega

theorem foldKey_iff (f k : String) (hf : ∀ c ∈ f.toList, c.toNat < 128) : foldKey f = foldKey k ↔ SameKey f k := by
  unfold foldKey SameKey
  generalize f.toList = a at hf
  generalize k.toList = b
  induction a generalizing b with
  | nil => cases b <;> simp
  | cons x a ih =>
    cases b with
    | nil => simp
    | cons y b =>
      simp only [List.map_cons, List.cons.injEq, List.forall₂_cons]
      rw [foldChar_iff x y (hf x (by simp)), ih (fun c hc => hf c (List.mem_cons_of_mem _ hc)) b]

end MscPoc
