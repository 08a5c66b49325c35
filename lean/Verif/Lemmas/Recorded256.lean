import Verif.Lemmas.RecordedBallot
import Verif.Model.HashToCurve

/-!
# testdata/P256rp.json: the computed checks
-/

set_option autoImplicit false

namespace MscPoc

/-- the numbers of P-256 -/
def num256 : CNum :=
  ⟨0xffffffff00000001000000000000000000000000ffffffffffffffffffffffff,
   0x5ac635d8aa3a93e7b3ebbd55769886bc651d06b0cc53b0f63bce3c3e27d2604b,
   0x6b17d1f2e12c4247f8bce6e563a440f277037d812deb33a0f4a13945d898c296,
   0x4fe342e2fe1a7f9b8ee7eb4a7c0f9e162bce33576b315ececbb6406837bf51f5,
   0xffffffff00000000ffffffffffffffffbce6faada7179e84f3b9cac2fc632551, 32⟩

theorem num256_eq (dec : Bytes → Option WPoint) : (p256Real dec).num = num256 := rfl

/-- challenges of `lbProof` -/
def hintLo256 : BPHint where
  y := 0x3106adfb3fdd44933f1428ca15a96fb4fb3ded576afe65be1d4a7d9009bd96d0
  yi := 0x3da02b44d76ea8fa85a4c5e56a3737b133063542fca31dcfaf0cef9e12e85d94
  x := 0x47a12a5b9283c879e29e66827da4bdc4272bc3fde7688327e83f62d0a72d2f8
  xx := -0x53bd78f23a879e42ff28f3d75e9cdeda76c6ef3aa29ec9e213d2a243e6cd3cd7
  prs := [
    (0x9b9cf70b1d3b69e7d85be3ecf016b21db61d940de56091d00e57b7e12211ed21,
     0xd24b3bb3877e89d01179ac190fd7e4349afabb820dcbb9fc2b9566cd2fa1f4a5),
    (0xb475c8bc9f6d6321d3f616b7503b26bd3c0979cceef14e73f98773e45994d481,
     0x815544a18b1a66a1beb9cc6f7d2a9624dbfb04987519892a557a8b372b6fdaad),
    (0x2c9751f9e76e22a804533601d0e8c1471e94853563ee2ffe381863931116d8da,
     0x368c26c00e2ba0a93653a6e722ab63c6043accd5d2196a946177485c07e3fcbe),
    (0xcc5cf5b506b4d7213c9256bc300de6e83868ec3da0ea2463b2bfb5ce5809ca94,
     0xa10c3fdccbdf53de21f8b229b889617fc2c393ae7c75f8c4757bfefc74b00cf3)]

theorem recLo256_checked : BPChecked num256 recCurve256 recLo256 hintLo256 256 where
  pts := by decide +kernel
  lens := by decide +kernel
  y := by decide +kernel
  x := by decide +kernel
  xx := by decide +kernel
  xs := by decide +kernel
  yi := by decide +kernel
  xi := by decide +kernel
  e65 := by decide +kernel
  e67 := by decide +kernel
  eip := by decide +kernel

/-- challenges of `ubProof` -/
def hintHi256 : BPHint where
  y := 0x3d5cd24cf2a4b298d3a2988be3e8fa2fb49acd787586c0948e1b4dc28acbb5ce
  yi := 0xf0011a079ac6288b419f55faa226542dbe28aea73c3cc4eec0e2fb32f4b09d44
  x := 0x14a77c394f8ca6b9b22fd9888d2e79dd0aabcafca8e76dea021526ed848bdcd7
  xx := -0x34fa8d016125adc819dabfb7317b323af96b6d317cd2f9573118cf28953a1dfe
  prs := [
    (0xe4d9b7ff19ab223622eb1cf93a19bda2feaf03abc5780b90acddab6c7167ecd9,
     0x592c1687151d49459054180e1361246ba917a3f4fc2606d6315b0af3888a20a6),
    (0xcd861dc30ea824e686b30ba9b587b2888fd15bd6c4a80a0822b40f54bab9137e,
     0xcd08b42672567dc299b3418f862b090f4b91e95c79c3a6b58545e79107743153),
    (0x5b3b01a6ebb2cdeb7b04458823903c00eedfdcb37ec4688bb7ed71bc14656804,
     0xe8831590d823c3d0ea7520def0efcafc643dcf360bedd50ca4d8d8a98c43ef17),
    (0xbfa593657dc3cae4fce9f9656a377c92b3839e14a28a34cc599e04746f12ea29,
     0x6b7b95108e9ecdd52af00c90c84ae6bfdbe97abcaef2563a0001b87b2b52feb4)]

theorem recHi256_checked : BPChecked num256 recCurve256 recHi256 hintHi256 256 where
  pts := by decide +kernel
  lens := by decide +kernel
  y := by decide +kernel
  x := by decide +kernel
  xx := by decide +kernel
  xs := by decide +kernel
  yi := by decide +kernel
  xi := by decide +kernel
  e65 := by decide +kernel
  e67 := by decide +kernel
  eip := by decide +kernel

theorem recBallot256_checked : SigmaChecked num256 recCurve256 recBallot256 256 where
  pts := by decide +kernel
  pos := by decide +kernel
  z := by decide +kernel
  chal := by decide +kernel
  ff1 := by decide +kernel
  ff2 := by decide +kernel
  cn := by decide +kernel
  n16 := by decide +kernel
  ec1 := by decide +kernel
  ec2 := by decide +kernel

end MscPoc
