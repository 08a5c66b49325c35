import Verif.Lemmas.Recorded256

/-!
# testdata/P384rp.json: the computed checks

The file for P-256 is imported so that the two are not built at the same time, which needs much memory.
-/

set_option autoImplicit false

namespace MscPoc

/-- the numbers of P-384 -/
def num384 : CNum :=
  ⟨0xfffffffffffffffffffffffffffffffffffffffffffffffffffffffffffffffeffffffff0000000000000000ffffffff,
   0xb3312fa7e23ee7e4988e056be3f82d19181d9c6efe8141120314088f5013875ac656398d8a2ed19d2a85c8edd3ec2aef,
   0xaa87ca22be8b05378eb1c71ef320ad746e1d3b628ba79b9859f741e082542a385502f25dbf55296c3a545e3872760ab7,
   0x3617de4a96262c6f5d9e98bf9292dc29f8f41dbd289a147ce9da3113b5f0b8c00a60b1ce1d7e819d7a431d7c90ea0e5f,
   0xffffffffffffffffffffffffffffffffffffffffffffffffc7634d81f4372ddf581a0db248b0a77aecec196accc52973, 48⟩

theorem num384_eq (dec : Bytes → Option WPoint) : (p384Real dec).num = num384 := rfl

/-- challenges of `lbProof` -/
def hintLo384 : BPHint where
  y := 0xf6316519b6f3ae1624d3d515e728065990714f749250966b79e4a7d33a522483
  yi := 0x44a6082edf3d4828cf0c8a857d4aeae68da385ddac1f46b27d07d5a26d0ced2d617b5d0e36d4e59e01b77c195bcb9029
  x := 0x43f18533a856dee9fb5eba5aa871adc0c4ac61fe62913871121859336af025e0
  xx := 0xe8d3d547cd586ae3a21079a1aa792f3d9682240586fff889882294fce8c0946
  prs := [
    (0xfdd626e5230b997b540477dbfee2c4d1eecbb493ba3862ae37c3b3dbb6b7d7f1,
     0xce82fd2315f8df84667e5263b0ba76e5ef5f4ceba3e2baae5331e2e44c7b4e4dfcc1fee0cad653f93955127cd07892be),
    (0x6709aa86615a427db1446d467789746293c7686eb0eddec2e6844614a98dc89d,
     0x5ebfb828078ae699c4d2410e1190bc5b08166557e686c8ccfaac550fcc9c06bf1302a314afd02e54d8501aa796074d72),
    (0xcb9f2fb34fdb337ae78044176504208062d8c2ef3052db7296dcd283cd97d1da,
     0x6e7783b4b91915d01d81a0d4825a690d823320e5d1854c87b35233d3dac1a5bdba322d9f5edfd189d0920a959285af13),
    (0x3ca3020096479e8a87fadc336c154184e8b29a083282b96225f04f9db72d5b82,
     0x9224466bddb2c54818f7248eaecd8b9ddfd3e7132e8f4a7fdd0fc8d2eb312459bb9410aac30b78d006b03a2fd27e6d96)]

theorem recLo384_checked : BPChecked num384 recCurve384 recLo384 hintLo384 384 where
  pts := by decide +kernel
  lens := by decide +kernel
  y := by decide +kernel
  x := by decide +kernel
  xx := by decide +kernel
  xs := by decide +kernel
  yi := by decide +kernel
  xi := by decide +kernel
  e65 := by decide +kernel
  e67 := by decide +kernel
  eip := by decide +kernel

/-- challenges of `ubProof` -/
def hintHi384 : BPHint where
  y := 0xaead9a9d2282993454705ea6c763daa060e13196d37d8fbdf26e481c30b65b43
  yi := 0xc4eb78d352f0a7b98aa63d3976f3f6dbdfaa9831f88bdbe03909b7c66abf25355104ee0d37dfecfc60c4bc35bd3938f4
  x := 0xb82167154b9675cb6f4281054d7c4dd2061def402604a16a6ac67a5d22fffd0
  xx := -0x7b8b68176ab575c49be1afe3ff839babbd7ca8f168142db6e89db61dc3ae103d
  prs := [
    (0x2907b7ca6e40869adc430f71edf6522f10a420208b1f6733f6f179ee31abc48d,
     0x50c72a5237d7e899e3d6d8f8dd17844cc51d65ba20020a5f018c8b7b942f1a6efbd2bbfd585cbe79a20f2aa0cbbab70a),
    (0xa01601a8b12d99e494f412127ff7c9fec0ded1ff051d3a34d38d0c658e1656af,
     0x2006f18e21a0d83315865cdb04c90795b610a31f6882ebf2a8695a2e8222972aa6300b7b660b32a8fa6556efec193996),
    (0x1ca5c1a6fa3545efee3a7f127b13c868013001bd91af7c10e0102ff2dedcbacd,
     0x1afeb309fe7b9cb4d1a3667dfa7fafba37f5c8969af0a4d83c54dd7a1c0ab5ac62125bc7d8eb2786a1e9b2d91a7feaf8),
    (0xbbbc0e712456b728653032ca59b88791849bab2b4c524aa5f044208785572e8c,
     0x8b1bab71c950abe1a3870f5f717fd495720dbf30604ba7468b9b5ddc7621b6df049f2d8bc49f06dbe39998034a167aa2)]

theorem recHi384_checked : BPChecked num384 recCurve384 recHi384 hintHi384 384 where
  pts := by decide +kernel
  lens := by decide +kernel
  y := by decide +kernel
  x := by decide +kernel
  xx := by decide +kernel
  xs := by decide +kernel
  yi := by decide +kernel
  xi := by decide +kernel
  e65 := by decide +kernel
  e67 := by decide +kernel
  eip := by decide +kernel

theorem recBallot384_checked : SigmaChecked num384 recCurve384 recBallot384 384 where
  pts := by decide +kernel
  pos := by decide +kernel
  z := by decide +kernel
  chal := by decide +kernel
  ff1 := by decide +kernel
  ff2 := by decide +kernel
  cn := by decide +kernel
  n16 := by decide +kernel
  ec1 := by decide +kernel
  ec2 := by decide +kernel

end MscPoc
