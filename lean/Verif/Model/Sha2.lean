import Verif.Model.GoBase

/-!
# SHA-256 and SHA-384

`crypto/sha256` is called by the repository (bulletproofs/util.go:54-76, bulletproofs/bip.go:266-287,
voteproof/voteproof.go:112-124); SHA-256 and SHA-384 are also what circl's `HashToElement` uses (group/p256.go:136,
group/p384.go:136).  The rest of the model takes an arbitrary function for SHA-256; this is the real one (FIPS 180-4), on
natural numbers below `2 ^ w` for words.
-/

set_option autoImplicit false

namespace MscPoc

/-- the constants of one hash function of the family -/
structure Sha2 where
  /-- bits of a word -/
  w : Nat
  /-- rotations of Σ₀, Σ₁; rotations and shift of σ₀, σ₁ -/
  S0 : Nat × Nat × Nat
  S1 : Nat × Nat × Nat
  s0 : Nat × Nat × Nat
  s1 : Nat × Nat × Nat
  /-- round constants -/
  K : List Nat
  /-- initial state -/
  H : List Nat
  /-- bytes of the digest -/
  out : Nat

namespace Sha2
variable (C : Sha2)

/-- rotation of a word to the right -/
def rotr (n x : Nat) : Nat := (x >>> n) ||| ((x <<< (C.w - n)) % 2 ^ C.w)

/-- Σ -/
def bigSigma (r : Nat × Nat × Nat) (x : Nat) : Nat := C.rotr r.1 x ^^^ C.rotr r.2.1 x ^^^ C.rotr r.2.2 x

/-- σ -/
def smallSigma (r : Nat × Nat × Nat) (x : Nat) : Nat := C.rotr r.1 x ^^^ C.rotr r.2.1 x ^^^ (x >>> r.2.2)

/-- the words `W₀, W₁, …`: `n` more words after the last 16 of them, `win` -/
def schedule : Nat → List Nat → List Nat
  | 0, win => win
  | n + 1, win =>
    let x := (C.smallSigma C.s1 (win.getD 14 0) + win.getD 9 0 + C.smallSigma C.s0 (win.getD 1 0) + win.getD 0 0) % 2 ^ C.w
    win.headD 0 :: schedule n (win.tail ++ [x])

/-- one round on the state `a … h` -/
def round (k w : Nat) : List Nat → List Nat
  | [a, b, c, d, e, f, g, h] =>
    let ch := (e &&& f) ^^^ ((2 ^ C.w - 1 - e) &&& g)
    let maj := (a &&& b) ^^^ (a &&& c) ^^^ (b &&& c)
    let t1 := h + C.bigSigma C.S1 e + ch + k + w
    let t2 := C.bigSigma C.S0 a + maj
    [(t1 + t2) % 2 ^ C.w, a, b, c, (d + t1) % 2 ^ C.w, e, f, g]
  | st => st

/-- all rounds -/
def rounds : List Nat → List Nat → List Nat → List Nat
  | k :: ks, w :: ws, st => rounds ks ws (C.round k w st)
  | _, _, st => st

/-- big-endian words of a list of bytes; `n` words -/
def words : Nat → Bytes → List Nat
  | 0, _ => []
  | n + 1, b => setBytes (b.take (C.w / 8)) :: words n (b.drop (C.w / 8))

/-- compression of one block of 16 words -/
def compress (st : List Nat) (block : Bytes) : List Nat :=
  let fin := C.rounds C.K (C.schedule (C.K.length - 16) (C.words 16 block)) st
  List.zipWith (fun x y => (x + y) % 2 ^ C.w) st fin

/-- all blocks -/
def blocks : Nat → Bytes → List Nat → List Nat
  | 0, _, st => st
  | n + 1, b, st => blocks n (b.drop (2 * C.w)) (C.compress st (b.take (2 * C.w)))

/-- big-endian bytes of `x`, exactly `n` of them -/
def beBytes : Nat → Nat → Bytes
  | 0, _ => []
  | n + 1, x => UInt8.ofNat (x / 256 ^ n) :: beBytes n (x % 256 ^ n)

/-- the padding: a one bit, zeros, the length in bits in `w / 4` bytes -/
def pad (m : Bytes) : Bytes :=
  let B := 2 * C.w
  let z := (B - (m.length + 1 + C.w / 4) % B) % B
  m ++ 0x80 :: (List.replicate z 0 ++ beBytes (C.w / 4) (8 * m.length))

/-- the digest -/
def digest (m : Bytes) : Bytes :=
  let p := C.pad m
  ((C.blocks (p.length / (2 * C.w)) p C.H).flatMap (beBytes (C.w / 8))).take C.out

end Sha2

/-- SHA-256 (FIPS 180-4, section 6.2) -/
def sha256C : Sha2 where
  w := 32
  S0 := (2, 13, 22)
  S1 := (6, 11, 25)
  s0 := (7, 18, 3)
  s1 := (17, 19, 10)
  K := [0x428a2f98, 0x71374491, 0xb5c0fbcf, 0xe9b5dba5, 0x3956c25b, 0x59f111f1, 0x923f82a4, 0xab1c5ed5,
   0xd807aa98, 0x12835b01, 0x243185be, 0x550c7dc3, 0x72be5d74, 0x80deb1fe, 0x9bdc06a7, 0xc19bf174,
   0xe49b69c1, 0xefbe4786, 0x0fc19dc6, 0x240ca1cc, 0x2de92c6f, 0x4a7484aa, 0x5cb0a9dc, 0x76f988da,
   0x983e5152, 0xa831c66d, 0xb00327c8, 0xbf597fc7, 0xc6e00bf3, 0xd5a79147, 0x06ca6351, 0x14292967,
   0x27b70a85, 0x2e1b2138, 0x4d2c6dfc, 0x53380d13, 0x650a7354, 0x766a0abb, 0x81c2c92e, 0x92722c85,
   0xa2bfe8a1, 0xa81a664b, 0xc24b8b70, 0xc76c51a3, 0xd192e819, 0xd6990624, 0xf40e3585, 0x106aa070,
   0x19a4c116, 0x1e376c08, 0x2748774c, 0x34b0bcb5, 0x391c0cb3, 0x4ed8aa4a, 0x5b9cca4f, 0x682e6ff3,
   0x748f82ee, 0x78a5636f, 0x84c87814, 0x8cc70208, 0x90befffa, 0xa4506ceb, 0xbef9a3f7, 0xc67178f2]
  H := [0x6a09e667, 0xbb67ae85, 0x3c6ef372, 0xa54ff53a, 0x510e527f, 0x9b05688c, 0x1f83d9ab, 0x5be0cd19]
  out := 32

/-- SHA-384 (FIPS 180-4, section 6.5) -/
def sha384C : Sha2 where
  w := 64
  S0 := (28, 34, 39)
  S1 := (14, 18, 41)
  s0 := (1, 8, 7)
  s1 := (19, 61, 6)
  K := [0x428a2f98d728ae22, 0x7137449123ef65cd, 0xb5c0fbcfec4d3b2f, 0xe9b5dba58189dbbc, 0x3956c25bf348b538,
   0x59f111f1b605d019, 0x923f82a4af194f9b, 0xab1c5ed5da6d8118, 0xd807aa98a3030242, 0x12835b0145706fbe,
   0x243185be4ee4b28c, 0x550c7dc3d5ffb4e2, 0x72be5d74f27b896f, 0x80deb1fe3b1696b1, 0x9bdc06a725c71235,
   0xc19bf174cf692694, 0xe49b69c19ef14ad2, 0xefbe4786384f25e3, 0x0fc19dc68b8cd5b5, 0x240ca1cc77ac9c65,
   0x2de92c6f592b0275, 0x4a7484aa6ea6e483, 0x5cb0a9dcbd41fbd4, 0x76f988da831153b5, 0x983e5152ee66dfab,
   0xa831c66d2db43210, 0xb00327c898fb213f, 0xbf597fc7beef0ee4, 0xc6e00bf33da88fc2, 0xd5a79147930aa725,
   0x06ca6351e003826f, 0x142929670a0e6e70, 0x27b70a8546d22ffc, 0x2e1b21385c26c926, 0x4d2c6dfc5ac42aed,
   0x53380d139d95b3df, 0x650a73548baf63de, 0x766a0abb3c77b2a8, 0x81c2c92e47edaee6, 0x92722c851482353b,
   0xa2bfe8a14cf10364, 0xa81a664bbc423001, 0xc24b8b70d0f89791, 0xc76c51a30654be30, 0xd192e819d6ef5218,
   0xd69906245565a910, 0xf40e35855771202a, 0x106aa07032bbd1b8, 0x19a4c116b8d2d0c8, 0x1e376c085141ab53,
   0x2748774cdf8eeb99, 0x34b0bcb5e19b48a8, 0x391c0cb3c5c95a63, 0x4ed8aa4ae3418acb, 0x5b9cca4f7763e373,
   0x682e6ff3d6b2b8a3, 0x748f82ee5defb2fc, 0x78a5636f43172f60, 0x84c87814a1f0ab72, 0x8cc702081a6439ec,
   0x90befffa23631e28, 0xa4506cebde82bde9, 0xbef9a3f7b2c67915, 0xc67178f2e372532b, 0xca273eceea26619c,
   0xd186b8c721c0c207, 0xeada7dd6cde0eb1e, 0xf57d4f7fee6ed178, 0x06f067aa72176fba, 0x0a637dc5a2c898a6,
   0x113f9804bef90dae, 0x1b710b35131c471b, 0x28db77f523047d84, 0x32caab7b40c72493, 0x3c9ebe0a15c9bebc,
   0x431d67c49c100d4c, 0x4cc5d4becb3e42b6, 0x597f299cfc657e2a, 0x5fcb6fab3ad6faec, 0x6c44198c4a475817]
  H := [0xcbbb9d5dc1059ed8, 0x629a292a367cd507, 0x9159015a3070dd17, 0x152fecd8f70e5939,
   0x67332667ffc00b31, 0x8eb44a8768581511, 0xdb0c2e0d64f98fa7, 0x47b5481dbefa4fa4]
  out := 48

/-- `sha256.Sum256` -/
def sha256 (m : Bytes) : Bytes := sha256C.digest m

/-- SHA-384 -/
def sha384 (m : Bytes) : Bytes := sha384C.digest m

end MscPoc
