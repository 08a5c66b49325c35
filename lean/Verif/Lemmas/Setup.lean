import Verif.Model.Vote
import Verif.Lemmas.Prime
import Verif.Lemmas.Vote
import Verif.Lemmas.ModP

/-!
# Facts about the deployed parameters (main.go `setup`)
-/

set_option autoImplicit false

namespace MscPoc

/-- the RFC 3526 3072-bit modulus as a number -/
def modp3072 : ℕ :=
  0xffffffffffffffffc90fdaa22168c234c4c6628b80dc1cd129024e088a67cc74020bbea63b139b22514a08798e3404ddef9519b3cd3a431b302b0a6df25f14374fe1356d6d51c245e485b576625e7ec6f44c42e9a637ed6b0bff5cb6f406b7edee386bfb5a899fa5ae9f24117c4b1fe649286651ece45b3dc2007cb8a163bf0598da48361c55d39a69163fa8fd24cf5f83655d23dca3ad961c62f356208552bb9ed529077096966d670c354e4abc9804f1746c08ca18217c32905e462e36ce3be39e772c180e86039b2783a2ec07a28fb5c55df06f4c52c9de2bcbf6955817183995497cea956ae515d2261898fa051015728e5a8aaac42dad33170d04507a33a85521abdf1cba64ecfb850458dbef0a8aea71575d060c7db3970f85a6e1e4c7abf5ae8cdb0933d71e8c94e04a25619dcee3d2261ad2ee6bf12ffa06d98a0864d87602733ec86a64521f2b18177b200cbbe117577a615d6c770988c0bad946e208e24fa074e5ab3143db5bfce0fd108e4b82d120a93ad2caffffffffffffffff

/-- the order of the group of squares modulo `modp3072` -/
def modp3072Q : ℕ := (modp3072 - 1) / 2

/-- the group `setup` builds -/
def rfcGroup : ModPGroup :=
  { gen := 2, fieldOrder := modp3072, groupOrder := modp3072Q, name := "RFC3526ModPGroup3072" }

set_option maxRecDepth 40000 in
theorem rfc3526Hex_toList : rfc3526Hex.toList =
    ['F', 'F', 'F', 'F', 'F', 'F', 'F', 'F', ' ', 'F', 'F', 'F', 'F', 'F', 'F', 'F', 'F', ' ', 'C', '9', '0', 'F',
    'D', 'A', 'A', '2', ' ', '2', '1', '6', '8', 'C', '2', '3', '4', ' ', 'C', '4', 'C', '6', '6', '2', '8', 'B',
    ' ', '8', '0', 'D', 'C', '1', 'C', 'D', '1', '\n', '\t', '\t', '2', '9', '0', '2', '4', 'E', '0', '8', ' ',
    '8', 'A', '6', '7', 'C', 'C', '7', '4', ' ', '0', '2', '0', 'B', 'B', 'E', 'A', '6', ' ', '3', 'B', '1', '3',
    '9', 'B', '2', '2', ' ', '5', '1', '4', 'A', '0', '8', '7', '9', ' ', '8', 'E', '3', '4', '0', '4', 'D', 'D',
    '\n', '\t', '\t', 'E', 'F', '9', '5', '1', '9', 'B', '3', ' ', 'C', 'D', '3', 'A', '4', '3', '1', 'B', ' ',
    '3', '0', '2', 'B', '0', 'A', '6', 'D', ' ', 'F', '2', '5', 'F', '1', '4', '3', '7', ' ', '4', 'F', 'E', '1',
    '3', '5', '6', 'D', ' ', '6', 'D', '5', '1', 'C', '2', '4', '5', '\n', '\t', '\t', 'E', '4', '8', '5', 'B',
    '5', '7', '6', ' ', '6', '2', '5', 'E', '7', 'E', 'C', '6', ' ', 'F', '4', '4', 'C', '4', '2', 'E', '9', ' ',
    'A', '6', '3', '7', 'E', 'D', '6', 'B', ' ', '0', 'B', 'F', 'F', '5', 'C', 'B', '6', ' ', 'F', '4', '0', '6',
    'B', '7', 'E', 'D', '\n', '\t', '\t', 'E', 'E', '3', '8', '6', 'B', 'F', 'B', ' ', '5', 'A', '8', '9', '9',
    'F', 'A', '5', ' ', 'A', 'E', '9', 'F', '2', '4', '1', '1', ' ', '7', 'C', '4', 'B', '1', 'F', 'E', '6', ' ',
    '4', '9', '2', '8', '6', '6', '5', '1', ' ', 'E', 'C', 'E', '4', '5', 'B', '3', 'D', '\n', '\t', '\t', 'C',
    '2', '0', '0', '7', 'C', 'B', '8', ' ', 'A', '1', '6', '3', 'B', 'F', '0', '5', ' ', '9', '8', 'D', 'A', '4',
    '8', '3', '6', ' ', '1', 'C', '5', '5', 'D', '3', '9', 'A', ' ', '6', '9', '1', '6', '3', 'F', 'A', '8', ' ',
    'F', 'D', '2', '4', 'C', 'F', '5', 'F', '\n', '\t', '\t', '8', '3', '6', '5', '5', 'D', '2', '3', ' ', 'D',
    'C', 'A', '3', 'A', 'D', '9', '6', ' ', '1', 'C', '6', '2', 'F', '3', '5', '6', ' ', '2', '0', '8', '5', '5',
    '2', 'B', 'B', ' ', '9', 'E', 'D', '5', '2', '9', '0', '7', ' ', '7', '0', '9', '6', '9', '6', '6', 'D', '\n',
    '\t', '\t', '6', '7', '0', 'C', '3', '5', '4', 'E', ' ', '4', 'A', 'B', 'C', '9', '8', '0', '4', ' ', 'F', '1',
    '7', '4', '6', 'C', '0', '8', ' ', 'C', 'A', '1', '8', '2', '1', '7', 'C', ' ', '3', '2', '9', '0', '5', 'E',
    '4', '6', ' ', '2', 'E', '3', '6', 'C', 'E', '3', 'B', '\n', '\t', '\t', 'E', '3', '9', 'E', '7', '7', '2',
    'C', ' ', '1', '8', '0', 'E', '8', '6', '0', '3', ' ', '9', 'B', '2', '7', '8', '3', 'A', '2', ' ', 'E', 'C',
    '0', '7', 'A', '2', '8', 'F', ' ', 'B', '5', 'C', '5', '5', 'D', 'F', '0', ' ', '6', 'F', '4', 'C', '5', '2',
    'C', '9', '\n', '\t', '\t', 'D', 'E', '2', 'B', 'C', 'B', 'F', '6', ' ', '9', '5', '5', '8', '1', '7', '1',
    '8', ' ', '3', '9', '9', '5', '4', '9', '7', 'C', ' ', 'E', 'A', '9', '5', '6', 'A', 'E', '5', ' ', '1', '5',
    'D', '2', '2', '6', '1', '8', ' ', '9', '8', 'F', 'A', '0', '5', '1', '0', '\n', '\t', '\t', '1', '5', '7',
    '2', '8', 'E', '5', 'A', ' ', '8', 'A', 'A', 'A', 'C', '4', '2', 'D', ' ', 'A', 'D', '3', '3', '1', '7', '0',
    'D', ' ', '0', '4', '5', '0', '7', 'A', '3', '3', ' ', 'A', '8', '5', '5', '2', '1', 'A', 'B', ' ', 'D', 'F',
    '1', 'C', 'B', 'A', '6', '4', '\n', '\t', '\t', 'E', 'C', 'F', 'B', '8', '5', '0', '4', ' ', '5', '8', 'D',
    'B', 'E', 'F', '0', 'A', ' ', '8', 'A', 'E', 'A', '7', '1', '5', '7', ' ', '5', 'D', '0', '6', '0', 'C', '7',
    'D', ' ', 'B', '3', '9', '7', '0', 'F', '8', '5', ' ', 'A', '6', 'E', '1', 'E', '4', 'C', '7', '\n', '\t',
    '\t', 'A', 'B', 'F', '5', 'A', 'E', '8', 'C', ' ', 'D', 'B', '0', '9', '3', '3', 'D', '7', ' ', '1', 'E', '8',
    'C', '9', '4', 'E', '0', ' ', '4', 'A', '2', '5', '6', '1', '9', 'D', ' ', 'C', 'E', 'E', '3', 'D', '2', '2',
    '6', ' ', '1', 'A', 'D', '2', 'E', 'E', '6', 'B', '\n', '\t', '\t', 'F', '1', '2', 'F', 'F', 'A', '0', '6',
    ' ', 'D', '9', '8', 'A', '0', '8', '6', '4', ' ', 'D', '8', '7', '6', '0', '2', '7', '3', ' ', '3', 'E', 'C',
    '8', '6', 'A', '6', '4', ' ', '5', '2', '1', 'F', '2', 'B', '1', '8', ' ', '1', '7', '7', 'B', '2', '0', '0',
    'C', '\n', '\t', '\t', 'B', 'B', 'E', '1', '1', '7', '5', '7', ' ', '7', 'A', '6', '1', '5', 'D', '6', 'C',
    ' ', '7', '7', '0', '9', '8', '8', 'C', '0', ' ', 'B', 'A', 'D', '9', '4', '6', 'E', '2', ' ', '0', '8', 'E',
    '2', '4', 'F', 'A', '0', ' ', '7', '4', 'E', '5', 'A', 'B', '3', '1', '\n', '\t', '\t', '4', '3', 'D', 'B',
    '5', 'B', 'F', 'C', ' ', 'E', '0', 'F', 'D', '1', '0', '8', 'E', ' ', '4', 'B', '8', '2', 'D', '1', '2', '0',
    ' ', 'A', '9', '3', 'A', 'D', '2', 'C', 'A', ' ', 'F', 'F', 'F', 'F', 'F', 'F', 'F', 'F', ' ', 'F', 'F', 'F',
    'F', 'F', 'F', 'F', 'F', '\n', '\t', '\t'] :=
  String.toList_ofList

theorem rfc3526Hex_parse : parseHex (dropSpace rfc3526Hex.toList) = some (modp3072 : Int) := by
  rw [rfc3526Hex_toList]; decide +kernel

theorem newModPGroup_rfc : newModPGroup "RFC3526ModPGroup3072" rfc3526Hex "2" = some rfcGroup := by
  have h2 : parseHex "2".toList = some 2 := by decide +kernel
  have h3 : ((modp3072 : ℕ) - 1 : Int) / 2 = modp3072Q := by decide +kernel
  unfold newModPGroup
  rw [rfc3526Hex_parse, h2]
  show some _ = _
  rw [h3]
  rfl

theorem modp3072_eq : modp3072 = 2 * modp3072Q + 1 := by decide +kernel
theorem modp3072_gt : 2 ^ 3071 < modp3072 := by decide +kernel
theorem modp3072Q_gt : 2 ^ 3070 < modp3072Q := by decide +kernel

theorem modp3072_two_pow : 2 ^ modp3072Q % modp3072 = 1 :=
  powModGo_one (fuel := 3072) (by decide +kernel) (by decide +kernel)

/-- If `q = (p-1)/2` is prime then so is `p`. -/
theorem modp3072_prime (hq : modp3072Q.Prime) : modp3072.Prime :=
  pocklington 3072 _ 2 [(modp3072Q, 1)] (by decide +kernel) (by
    simp only [List.mem_cons, List.not_mem_nil, or_false, forall_eq]
    exact hq)

theorem int_two_pow {p q : ℕ} (h : 2 ^ q % p = 1) : (2 : Int) ^ q % (p : Int) = 1 := by exact_mod_cast h

theorem orderOf_two {p q : ℕ} (hq : q.Prime) (hp : p ≠ 1) (h : 2 ^ q % p = 1) : orderOf (2 : ZMod p) = q := by
  have : Fact q.Prime := ⟨hq⟩
  refine orderOf_eq_prime ?_ ?_
  · have h := congrArg (Nat.cast : ℕ → ZMod p) h
    rw [ZMod.natCast_mod] at h
    exact_mod_cast h
  · intro h
    have h1 : ((1 : ℕ) : ZMod p) = 0 := by
      have : (2 : ZMod p) - 1 = 0 := by rw [h]; ring
      push_cast
      linear_combination this
    rw [ZMod.natCast_eq_zero_iff, Nat.dvd_one] at h1
    exact hp h1

attribute [irreducible] modp3072 modp3072Q

end MscPoc
