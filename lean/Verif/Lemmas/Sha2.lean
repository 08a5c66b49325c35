import Verif.Model.Sha2

/-!
# Lengths of SHA-2 digests
-/

set_option autoImplicit false

namespace MscPoc

namespace Sha2
variable (C : Sha2)

theorem round_length (k w : Nat) (st : List Nat) (h : st.length = 8) : (C.round k w st).length = 8 := by
  unfold round
  split
  · rfl
  · exact h

theorem rounds_length : ∀ (ks ws st : List Nat), st.length = 8 → (C.rounds ks ws st).length = 8
  | [], _, st, h => by rw [rounds]; exact h; simp
  | _ :: _, [], st, h => by rw [rounds]; exact h; simp
  | k :: ks, w :: ws, st, h => by rw [rounds]; exact rounds_length ks ws _ (C.round_length k w st h)

theorem compress_length (st : List Nat) (b : Bytes) (h : st.length = 8) : (C.compress st b).length = 8 := by
  unfold compress
  rw [List.length_zipWith, h, C.rounds_length _ _ _ h]
  rfl

theorem blocks_length : ∀ (n : Nat) (b : Bytes) (st : List Nat), st.length = 8 → (C.blocks n b st).length = 8
  | 0, _, _, h => h
  | n + 1, b, st, h => by rw [blocks]; exact blocks_length n _ _ (C.compress_length st _ h)

theorem beBytes_length : ∀ (n x : Nat), (beBytes n x).length = n
  | 0, _ => rfl
  | n + 1, x => by rw [beBytes, List.length_cons, beBytes_length]

theorem digest_length (hH : C.H.length = 8) (ho : C.out ≤ 8 * (C.w / 8)) (m : Bytes) : (C.digest m).length = C.out := by
  unfold digest
  have h := C.blocks_length ((C.pad m).length / (2 * C.w)) (C.pad m) C.H hH
  have e : ∀ l : List Nat, (l.flatMap (beBytes (C.w / 8))).length = l.length * (C.w / 8) := by
    intro l
    induction l with
    | nil => simp
    | cons x l ih => rw [List.flatMap_cons, List.length_append, ih, beBytes_length, List.length_cons, Nat.succ_mul,
        Nat.add_comm]
  dsimp only
  rw [List.length_take, e, h]
  omega

/-- the padded message is a whole number of blocks -/
theorem pad_length (hw : 0 < C.w) (m : Bytes) : 2 * C.w ∣ (C.pad m).length := by
  unfold pad
  dsimp only
  rw [List.length_append, List.length_cons, List.length_append, List.length_replicate, beBytes_length]
  generalize hB : 2 * C.w = B
  have hB0 : 0 < B := by omega
  generalize hx : m.length + 1 + C.w / 4 = x
  have e : m.length + ((B - x % B) % B + C.w / 4 + 1) = x + (B - x % B) % B := by omega
  rw [e, Nat.dvd_iff_mod_eq_zero, Nat.add_mod, Nat.mod_mod, ← Nat.add_mod]
  have hl := Nat.mod_lt x hB0
  have hd := Nat.div_add_mod x B
  rw [← hd]
  have : B * (x / B) + x % B + (B - (B * (x / B) + x % B) % B) = B * (x / B) + B := by
    rw [Nat.mul_add_mod, Nat.mod_mod]; omega
  rw [this, ← Nat.mul_succ]
  exact Nat.mul_mod_right _ _

end Sha2

theorem sha256_length (m : Bytes) : (sha256 m).length = 32 := sha256C.digest_length rfl (by decide) m
theorem sha384_length (m : Bytes) : (sha384 m).length = 48 := sha384C.digest_length rfl (by decide) m

end MscPoc
