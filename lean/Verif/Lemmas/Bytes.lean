import Verif.Model.Points
import Mathlib.Data.Nat.Digits.Lemmas

/-!
# Big-endian byte strings
-/

set_option autoImplicit false

namespace MscPoc

theorem setBytes_foldl (b : Bytes) (acc : ℕ) :
    b.foldl (fun acc d => acc * 256 + d.toNat) acc = acc * 256 ^ b.length + setBytes b := by
  induction b generalizing acc with
  | nil => simp [setBytes]
  | cons d b ih =>
    simp only [setBytes, List.foldl_cons, List.length_cons]
    rw [ih, ih (0 * 256 + d.toNat)]
    ring

theorem setBytes_nil : setBytes [] = 0 := rfl

theorem setBytes_cons (d : UInt8) (b : Bytes) : setBytes (d :: b) = d.toNat * 256 ^ b.length + setBytes b := by
  conv_lhs => unfold setBytes
  rw [List.foldl_cons, setBytes_foldl]
  simp

theorem setBytes_append (a b : Bytes) : setBytes (a ++ b) = setBytes a * 256 ^ b.length + setBytes b := by
  conv_lhs => unfold setBytes
  rw [List.foldl_append, setBytes_foldl]
  rfl

theorem setBytes_lt (b : Bytes) : setBytes b < 256 ^ b.length := by
  induction b with
  | nil => simp [setBytes]
  | cons d b ih =>
    rw [setBytes_cons, List.length_cons, pow_succ]
    have h : d.toNat < 256 := d.toNat_lt
    have : d.toNat * 256 ^ b.length ≤ 255 * 256 ^ b.length := Nat.mul_le_mul_right _ (by omega)
    omega

theorem setBytes_replicate_zero (n : ℕ) (b : Bytes) : setBytes (List.replicate n 0 ++ b) = setBytes b := by
  induction n with
  | zero => simp
  | succ n ih => rw [List.replicate_succ, List.cons_append, setBytes_cons, ih]; simp

theorem setBytes_inj {a b : Bytes} (hl : a.length = b.length) (h : setBytes a = setBytes b) : a = b := by
  induction a generalizing b with
  | nil => cases b with
    | nil => rfl
    | cons => simp at hl
  | cons d a ih => cases b with
    | nil => simp at hl
    | cons e b =>
      have hl' : a.length = b.length := by simpa using hl
      rw [setBytes_cons, setBytes_cons, hl'] at h
      have h1 := setBytes_lt a
      have h2 := setBytes_lt b
      rw [hl'] at h1
      have hpos : 0 < 256 ^ b.length := pow_pos (by norm_num) _
      have hd : d.toNat = e.toNat := by
        have e1 : (d.toNat * 256 ^ b.length + setBytes a) / 256 ^ b.length = d.toNat := by
          rw [mul_comm, Nat.mul_add_div hpos, Nat.div_eq_of_lt h1, add_zero]
        have e2 : (e.toNat * 256 ^ b.length + setBytes b) / 256 ^ b.length = e.toNat := by
          rw [mul_comm, Nat.mul_add_div hpos, Nat.div_eq_of_lt h2, add_zero]
        rw [← e1, ← e2, h]
      rw [hd] at h
      have := ih hl' (Nat.add_left_cancel h)
      rw [this, UInt8.toNat_inj.mp hd]

theorem setBytes_reverse_digits (ds : List ℕ) (h : ∀ d ∈ ds, d < 256) :
    setBytes (ds.reverse.map UInt8.ofNat) = Nat.ofDigits 256 ds := by
  induction ds with
  | nil => simp [setBytes]
  | cons d ds ih =>
    rw [List.reverse_cons, List.map_append, setBytes_append, ih (fun x hx => h x (by simp [hx])), Nat.ofDigits_cons]
    have hd := h d (by simp)
    simp [setBytes, Nat.mod_eq_of_lt hd]
    ring

/-- `SetBytes(Bytes(n)) = n` -/
theorem setBytes_natBytes (n : ℕ) : setBytes (natBytes n) = n := by
  unfold natBytes
  rw [setBytes_reverse_digits _ (fun d hd => Nat.digits_lt_base (by norm_num) hd), Nat.ofDigits_digits]

theorem natBytes_length (n : ℕ) : (natBytes n).length = (Nat.digits 256 n).length := by simp [natBytes]

theorem natBytes_length_le {n k : ℕ} : (natBytes n).length ≤ k ↔ n < 256 ^ k := by
  rw [natBytes_length, Nat.digits_length_le_iff (by norm_num)]

theorem natBytes_zero : natBytes 0 = [] := by simp [natBytes]

theorem fillBytes_length {len n : ℕ} (h : n < 256 ^ len) : (fillBytes len n).length = len := by
  have := natBytes_length_le.mpr h
  simp only [fillBytes, List.length_append, List.length_replicate]; omega

theorem setBytes_fillBytes (len n : ℕ) : setBytes (fillBytes len n) = n := by
  rw [fillBytes, setBytes_replicate_zero, setBytes_natBytes]

theorem setBytes_bigBytes (x : Int) : setBytes (bigBytes x) = x.natAbs := setBytes_natBytes _

end MscPoc
