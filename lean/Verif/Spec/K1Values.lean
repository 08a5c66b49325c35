import Verif.Model.Points

/-!
# The points of secp256k1 that the setup seeds hash to

Computed outside Lean, with another implementation of SHA-256.
-/

set_option autoImplicit false

namespace MscPoc

/-- hash of `SEEDH` -/
def k1ValH : K1Point :=
  ⟨some 0xe136f545c4a672803f81d7e11f6d65b2691bacb4ee407f0dd0ac9123721cfd7f, some 0x53c2b17b3fe24a83ef9c09b5c931d28269a164dd94b6ebca799c4272b1f7cb81⟩

/-- hash of `SEEDU` -/
def k1ValU : K1Point :=
  ⟨some 0xa0b86aac6162d88054e57b591f0e9c2ae1d1610ee64d78c804203bdb7cc9089a, some 0xcfde40e17eca7c03a358248036f47c39dcb15c2865f47606a612208c1ac1b53d⟩

/-- hashes of `SEEDH + "g" + i` -/
def k1ValGg : List K1Point := [
  ⟨some 0x5a9f83711fe5c0d4ad2dd0d7dc2267d86712cfdea3b107bfbde73453b8bf44b4, some 0x72127564e7ee4f79053699bd87a5688f482e6f9f8c4535fd2eea433e27b1bd3f⟩,
  ⟨some 0x579acc316dfae19c237ca37c59401478e56af435c55590c8f0d604a70cc5fbdf, some 0x1a6b7ec0ce3b19950a9e114a039b24aa6cca353a7c2814d09c8b0c7e2b802b38⟩,
  ⟨some 0x48c8b01fc3e9fb1850a58e93e2f07dc9e95527cc9ed417eec28b26f1db4b263f, some 0x3caf24f99cb346d10fccb621787ab8dd6565a2897dc12cb4fef290756e3e99ed⟩,
  ⟨some 0xb77b157eb0859df980920573b6a3bbd140df5bceefcdd6814b64738fd4e4757f, some 0x02a6013f08d11062918d3ad81fc288700595c0611a22e2c915d1af2451877109⟩,
  ⟨some 0xf671fa1f8bcf9ceeb4c6780d074fb01415f996f931f319395a22193d9f765113, some 0x6ea70a581bf56117f661637b3a08da3f02ca4f3f07a906ab3cd340199bdce04f⟩,
  ⟨some 0x89794aa4d6ec972a5722365e209513f2035475f5088be3d465c8d7286c1c662f, some 0xded43ed3d45b58687488579d2c87075c542f28c852d00502dfad9fa09d85fe2b⟩,
  ⟨some 0xe6a472dad821f651b05c3675a710f6e436c671223cab001a98fdaf3429e466a0, some 0x618ae094e26bd05eb166acd9006d3205fe32cb53f78a0e6b164e1b5c8de311ba⟩,
  ⟨some 0xc0cfc8db8dd18ae70f2d00ef9008597aeab1ab2520e7108de1c0fa57fc5330b3, some 0x8e275d93e329943b35d32955dccc208dbb7c998c9bbbc812bbb85ebdf42b5557⟩,
  ⟨some 0x19c26971bcc21058aa05e24a826d5ca0bf2473fc35555cbfb565e32e0c7ac038, some 0x701a41ee570f0ea29edb5de7324de40356790519647d40974a67eeac53a640d6⟩,
  ⟨some 0x0c6e4ae0d8802fe7cd3615387f65447888e9494c9f27e264acb2d125a0ed115e, some 0x6efec2b25c04a01cad3516699724cc238fddea5df701796756120f359275c014⟩,
  ⟨some 0x6f21716be2bea7808283fbf2a471e20c3894c52e31a757deba3e675a2ec680f0, some 0xccd91bda0180126036061aaeadec538d7af2a087275cee1d6ab745c6c7e90e88⟩,
  ⟨some 0x2a19fd08fba6c7549e28bc6871712ffd6dd24a1b6ed16cf3559807f452833425, some 0x46de02d9c8df50334e6eb69f28422bb6c192ddede410c70fb179a219d8a0dbca⟩,
  ⟨some 0x5f61cd5dc8d92b9676eef5f99158c32506bdeee2eb645b63159c0044c4aab8c7, some 0xafc0baf91ee9850f835a50dfb1f20c851b254de8c861df8452a51aa030634d4b⟩,
  ⟨some 0xb1eaef79f043e8206c400e0e3daf538c27c232b7c14a2cbe1741f19eed7f78ce, some 0x090d29593cb08c39bc4825c73be2fc52e47ee1c4db65b4c232aff1a220340e78⟩,
  ⟨some 0x27c8fa10ff678e1eebfec50d00f7d08cb5bc4d670151e290354b3c0b10f536ba, some 0x8a5825f241d5459c78061df76dc44d8f4de08e7760247d0bd599dd4e3ccd0160⟩,
  ⟨some 0x8baea204a07945b01b33efd117316a0367ff876926576c94824af00f58d2f352, some 0x9531242c8d1af2163f9322a34f214e4fe163445ddd648157845b38a5af99d6f1⟩]

/-- hashes of `SEEDH + "h" + i` -/
def k1ValHh : List K1Point := [
  ⟨some 0x86a532dd0a9a4ee7e8e547c10bdfbc8f2d47245fcfc7a61ba272e09813cd538c, some 0xe57f27dd3ad23d68ffd6b47dab896cbd6c74a18feb5e40db656079118f8b1135⟩,
  ⟨some 0xb5c6c34c155d8e1ce673e084852af7b051d71d6a923ebc06f3f08015a284e13d, some 0x7eb6e47ee149b11da3af7e511ef5b70afbc56b36e4aadb53ee0966022d07ab02⟩,
  ⟨some 0x4a118c569c9402ba335aaee4cd5a858ad389813ff527f56b7c599abb76b3aa66, some 0xbaf7e11b5c367db78a0446e59bf15bb1c556fcc57016d1624f6db368079595c7⟩,
  ⟨some 0xa302a64fde0ae945c0bf5a54991ba8f03f3e72999062e61175d07c7a07bba003, some 0x12e8e8749297d707c16cd3a1814e7bc4e006dc2fb5d1913566bf98f6c58c0ff0⟩,
  ⟨some 0x60fc5e78029b4e2442da77bfd0897ffb353007b469cfb243d47f2568ddc84eec, some 0x90187c7bbba3fae50401298fc0ff7f3a38f35cafd30f67da82f3152f2850842c⟩,
  ⟨some 0x2add549e84757896cb3be8e32ed71e90a244c03644204c77403f418e4c1705c0, some 0xe0efdd22b142502cb9419b8662d5e4372082a081d4a0a033fa8e7bf87658f581⟩,
  ⟨some 0x40b2f4b65379b58220fe85336e35d88bb4cab0ae84d43aa2a356bf08d6ac968d, some 0x6e10bbf5d1c9b85dac24f74cc7554660e5b66c2bf9962727f4027e8e61db45c7⟩,
  ⟨some 0xd67160e6d4359fe305eb719b055647c82deb9d1db9d95b865993528af041283c, some 0x5db3735c8f7a657a690d61ea72fe2744fe171555f1b432ed98040dd8c2ccfead⟩,
  ⟨some 0xbb59e469bc4a596e6a36cf8469a1bb34817661063f9dbdbcf27a3b2ba6dfc3e8, some 0x942682a8363a0e0149ec41aceb6dae64bafb2f8ae248acd36610020e7aa1aaff⟩,
  ⟨some 0xeba7c927226b4e403ed45ddcf131b6295d935ff9a9a5e85db5da81b34e2fc6c6, some 0x59ca6036c3cfd0c5415c53984fc35f4d7c594afd644f2cc1504e4b7f5bab3541⟩,
  ⟨some 0xb82364b2285da00b2a7ef4cc840ec8d30015088f4437cbccc8843f4814d6a936, some 0x7ed7452853c16398fd3aa418f9e4242947aeca50a39f6117a22a1aff48215745⟩,
  ⟨some 0xcba6669b567b019ff821b17a942c5b8e2ef8694853dc31f58e883342d7171a4f, some 0xedd01432402ddcf317c90e4ca39db8c89833023ba9dcec0356363098f90b250f⟩,
  ⟨some 0x5b98250186ce8f41a4614c20b98094241ddca97c48d93674bb3fd61af94a914a, some 0x8656c046f8ca70450354f427f78d7dd8f39cc47234b4ec15d86e6dd46cb4cf7d⟩,
  ⟨some 0xf77dba23be9ef2773da16e0a79adfe3d366127e26d52439581127521e64e84d2, some 0x0a68d8c0c3f44c373e22aa3935508c45d11d00b54b9a6ed9d5d89f0fb9c11c1e⟩,
  ⟨some 0x4d99415baf47447d8a7ccb323ab90d9da1ae9ea383227a82522696bec2b1b595, some 0x5ac96de168c87bc80442bf67732af7347327e6d5ce9a19b751c2aa9313e8dc78⟩,
  ⟨some 0x28495c70dd85c8f597f97012cb9cd92b7daac04c19e4aebebfc11cd6ddb5b6bc, some 0x2d938b186b566459c2d76f3400188cb97a01adff966ec1da335e96c32dbf7593⟩]

end MscPoc
