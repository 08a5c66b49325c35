import Verif.Model.Json
import Verif.Spec.Recorded

/-!
# The ballots recorded in testdata/P256rp.json and testdata/P384rp.json

The two files are read by the test `TestTestData` (main_test.go:38-66).  Their contents, as JSON documents: the values in
the order in which the files have them; the generators `H`, `Uu`, `Gg`, `Hh` are those of `Spec/Recorded.lean`.  The second
range proof of each file has a key `Commit` that the program does not know.
-/

set_option autoImplicit false

namespace MscPoc

/-- the values of a recorded range proof -/
structure RecBP where
  V : WPoint
  A : WPoint
  S : WPoint
  T1 : WPoint
  T2 : WPoint
  Taux : Int
  Mu : Int
  Tprime : Int
  P : WPoint
  Cc : Int
  a : Int
  b : Int
  L : List WPoint
  R : List WPoint
  Hh : List WPoint

/-- the values of a recorded ballot -/
structure RecBallot where
  u : Int
  v : Int
  lo : RecBP
  hi : RecBP
  W : Int
  Kp : Int
  Kq1 : WPoint
  Kq2 : WPoint
  c : Int
  z : Int
  sp : Int
  sq1 : Int
  sq2 : Int
  Bg : Int
  Bb : Int

/-- what the two files have in common with each other's layout: name, base point, order and generators of the curve -/
structure RecCurve where
  name : String
  G : WPoint
  N : Int
  H : WPoint
  Uu : WPoint
  Gg : List WPoint
  Hh : List WPoint

/-- `{"x": …, "y": …}` -/
def recPt (P : WPoint) : Json := .obj [("x", .num P.x), ("y", .num P.y)]

/-- an array of points -/
def recPts (l : List WPoint) : Json := .arr (l.map recPt)

/-- `{"group": …}` -/
def recGroup (s : String) : Json := .obj [("group", .str s)]

/-- the object `InnerProductProof` -/
def RecBP.ipJson (K : RecCurve) (p : RecBP) : Json :=
  .obj [("P", recPt p.P), ("Cc", .num p.Cc), ("a", .num p.a), ("b", .num p.b), ("L", recPts p.L), ("R", recPts p.R),
    ("Params", .obj [("Gg", recPts K.Gg), ("Hh", recPts p.Hh), ("Uu", recPt K.Uu), ("GP", recGroup K.name)])]

/-- the object `Params` of a range proof -/
def RecCurve.bpJson (K : RecCurve) : Json :=
  .obj [("N", .num 16), ("G", recPt K.G), ("H", recPt K.H), ("Gg", recPts K.Gg), ("Hh", recPts K.Hh), ("GP", recGroup K.name)]

/-- the members of a range proof before `Params` -/
def RecBP.head (K : RecCurve) (p : RecBP) : List (String × Json) :=
  [("V", recPt p.V), ("A", recPt p.A), ("S", recPt p.S), ("T1", recPt p.T1), ("T2", recPt p.T2), ("Taux", .num p.Taux),
    ("Mu", .num p.Mu), ("Tprime", .num p.Tprime), ("InnerProductProof", p.ipJson K)]

/-- `lbProof` -/
def RecBP.json (K : RecCurve) (p : RecBP) : Json := .obj (p.head K ++ [("Params", K.bpJson)])

/-- `ubProof` -/
def RecBP.jsonCommit (K : RecCurve) (p : RecBP) : Json := .obj (p.head K ++ ("Commit", recPt p.P) :: [("Params", K.bpJson)])

/-- the field order of the files -/
def recF : Int :=
  0xffffffffffffffffc90fdaa22168c234c4c6628b80dc1cd129024e088a67cc74020bbea63b139b22514a08798e3404ddef9519b3cd3a431b302b0a6df25f14374fe1356d6d51c245e485b576625e7ec6f44c42e9a637ed6b0bff5cb6f406b7edee386bfb5a899fa5ae9f24117c4b1fe649286651ece45b3dc2007cb8a163bf0598da48361c55d39a69163fa8fd24cf5f83655d23dca3ad961c62f356208552bb9ed529077096966d670c354e4abc9804f1746c08ca18217c32905e462e36ce3be39e772c180e86039b2783a2ec07a28fb5c55df06f4c52c9de2bcbf6955817183995497cea956ae515d2261898fa051015728e5a8aaac42dad33170d04507a33a85521abdf1cba64ecfb850458dbef0a8aea71575d060c7db3970f85a6e1e4c7abf5ae8cdb0933d71e8c94e04a25619dcee3d2261ad2ee6bf12ffa06d98a0864d87602733ec86a64521f2b18177b200cbbe117577a615d6c770988c0bad946e208e24fa074e5ab3143db5bfce0fd108e4b82d120a93ad2caffffffffffffffff

/-- the order of the safe-prime group in the files -/
def recN : Int :=
  0x7fffffffffffffffe487ed5110b4611a62633145c06e0e68948127044533e63a0105df531d89cd9128a5043cc71a026ef7ca8cd9e69d218d98158536f92f8a1ba7f09ab6b6a8e122f242dabb312f3f637a262174d31bf6b585ffae5b7a035bf6f71c35fdad44cfd2d74f9208be258ff324943328f6722d9ee1003e5c50b1df82cc6d241b0e2ae9cd348b1fd47e9267afc1b2ae91ee51d6cb0e3179ab1042a95dcf6a9483b84b4b36b3861aa7255e4c0278ba3604650c10be19482f23171b671df1cf3b960c074301cd93c1d17603d147dae2aef837a62964ef15e5fb4aac0b8c1ccaa4be754ab5728ae9130c4c7d02880ab9472d45556216d6998b8682283d19d42a90d5ef8e5d32767dc2822c6df785457538abae83063ed9cb87c2d370f263d5fad7466d8499eb8f464a702512b0cee771e9130d697735f897fd036cc504326c3b01399f643532290f958c0bbd90065df08babbd30aeb63b84c4605d6ca371047127d03a72d598a1edadfe707e884725c16890549d69657fffffffffffffff

/-- the object `Params` of the sigma proof -/
def RecBallot.paramsJson (K : RecCurve) (b : RecBallot) : Json :=
  .obj [("Bx", .num 16), ("Bc", .num 128), ("Bg", .num b.Bg), ("Bb", .num b.Bb), ("RangeLo", .num 101), ("RangeHi", .num 1000),
    ("GFF", .obj [("G", .num 2), ("H", .num 8192), ("N", .num recN), ("F", .num recF),
      ("I", recGroup "RFC3526ModPGroup3072")]),
    ("GEC", .obj [("G", recPt K.G), ("H", recPt K.H), ("N", .num K.N), ("F", .num recF), ("I", recGroup K.name)])]

/-- `voteProof` -/
def RecBallot.voteJson (K : RecCurve) (b : RecBallot) : Json :=
  .obj [("W", .num b.W), ("Kp", .num b.Kp), ("Kq1", recPt b.Kq1), ("Kq2", recPt b.Kq2), ("Challenge", .num b.c),
    ("Z", .num b.z), ("Sp", .num b.sp), ("Sq1", .num b.sq1), ("Sq2", .num b.sq2), ("Params", b.paramsJson K)]

/-- the document -/
def RecBallot.json (K : RecCurve) (b : RecBallot) : Json :=
  .obj [("ballot", .obj [("u", .num b.u), ("v", .num b.v)]), ("lbProof", b.lo.json K), ("ubProof", b.hi.jsonCommit K),
    ("voteProof", b.voteJson K)]

/-- testdata/P256rp.json: the curve -/
def recCurve256 : RecCurve where
  name := "P-256"
  G := ⟨0x6b17d1f2e12c4247f8bce6e563a440f277037d812deb33a0f4a13945d898c296,
     0x4fe342e2fe1a7f9b8ee7eb4a7c0f9e162bce33576b315ececbb6406837bf51f5⟩
  N := 0xffffffff00000000ffffffffffffffffbce6faada7179e84f3b9cac2fc632551
  H := recH256
  Uu := recU256
  Gg := recGg256
  Hh := recHh256

/-- testdata/P256rp.json: `lbProof` -/
def recLo256 : RecBP where
  V := ⟨0x23173d38961f023017cb68301f86c204f7c31969437834f4eff359f442c95e45,
     0xa53a4424ad603f05362ff8799154157bae82797de4d11f91fa5c9133cbbbf0c7⟩
  A := ⟨0x18bdea4357d4740fad43cd9069631c64a1ee46f32d58368600407b02874dbb3d,
     0x96eda9fc4450d470fdec8b61987c15484294fca5b855a11a6742b5cdafb07ee4⟩
  S := ⟨0x4d6e2a451df651d82247789cce518d4766ab21344ee1d83cc673591d039dff1b,
     0xbf3c23748d1c87e24a47d6df19ae4731ddc9f62651ade2ad4967ff99e120cd97⟩
  T1 := ⟨0xa6ecc359193b57e751f101bc7a1e76b5717eda1588162d3ee96d0250caa5e7bf,
     0x5a80a68782d8dee3a5a3816cbedbadcad57f2a77d8b5e9aad9c5f6ae9a1fe45b⟩
  T2 := ⟨0x8619f7083707b782023c7e3c9484505469c030421d450b4be5c70f8a33b592f1,
     0xabce336af19b6307a7391f0ce4bf4b67ec8fd3efd4a1c0992b7009a830cc5348⟩
  Taux := 0x3318348be5c407c6f9aad174403ff30fda8cf35fe3d245f89991021e8cfa4b2
  Mu := 0xa2e9e7774932581208b27fe97df92ec4910d3ccc0b68b97f9334c768412e37f8
  Tprime := 0x9eec73dc72d25db1f378f6cc15240378ece52a20758028044e4b523d6327625
  P := ⟨0xfb40b9533dd2d6b0986e23a28aa2511492b939015c11bd618011fdb5a7b5df5e,
     0x626dfea3833d577ce4f2a0562b752627bdcbdc3d497735af6640255db4d8ab0f⟩
  Cc := 0x9eec73dc72d25db1f378f6cc15240378ece52a20758028044e4b523d6327625
  a := 0xb183e39bfd5eab0e1f044f7ebada64f4235477d2002f8514061450e7ff7c6d5b
  b := 0xa0902fb5da03780edb0a201f3c3a4fc2ead306c18a8950f5ddcb6c94b75f5af0
  L := [
    ⟨0x5c4fb495544643c511b385af1045ba70d78fee5a8b8101edc81f90a65b1ade4d,
     0x440c1a039a5e098f70a9e65f7760580019c79b42b50f0f93419feb943ed3a1af⟩,
    ⟨0x46eaa66b7410f9a43694afb35403f98242cf2187d9f6464138754d96dba92d35,
     0xedbeb788d84506101a0cdddd334e6af061fbee413319c538571781e4b44c4d3d⟩,
    ⟨0x1d08e4ffded686811109266bc208f2991d8fe9199f4e24f3f8bd656b5908fd78,
     0xebc973357d82d5da46d6168b7396515b50f3cb269ab94970e134cc041aece668⟩,
    ⟨0x226bec3e2b5b0b176a541110bc3c48c79e2ae2623b52f64925f77c616ef49159,
     0x89082fa22434717e9776b7a280397e22517beef48942f3882ac60af4112dfe14⟩]
  R := [
    ⟨0x9262ff973f323b29459dd4869a614b3e057b8da845700fbe85a17e4b9bdf0796,
     0x64e8487c4cc475d47aee106050e2f0ad169205246eb7277bee0dfeb0e73f2cd5⟩,
    ⟨0x1cd642e8218cb25b55a502f558dbab80715c27c35d26a1ad2513117a39ac79d4,
     0xee2c13551f551a7d502d1824488877306f7bd7b34763fee1a9b61c3dde3d0104⟩,
    ⟨0xa70ac22df279de899750fd381430d65d43cf375c97c36cded7057d5469d36f28,
     0x90372c5430cb9a2988fe86488dac0f8235c4d191ea30b40afedb1e57569d971f⟩,
    ⟨0x4d1cc1a9ed988234f4a9f169b350af75b27b5cdcdfd1159640f4c418ee676c2c,
     0xbd6ed22ccd27b8c9843601436c03c6f046ebe135e5ecae9a00c1478b2294adde⟩]
  Hh := [
    ⟨0x591d2cd0d566713694baecb88618aec1f8d41046f384aa450d8840f556433b4f,
     0x53ec513448d9abd116d2e2183bf673a1fd26f216662b2652dc84f28e738bea28⟩,
    ⟨0x900e41b352d3f944bad6fe185d900faedbcc2f18f2be04c10f105e2eb91209ad,
     0xe85ff783449f9feeea4d4db83dd331ba3d26bea7cedf61cae2d7c2e9e313aa6⟩,
    ⟨0x72cc324dccebd5d377cd3edfb5ae38d8abaea3e7c0fb047bc08dece0ba17238c,
     0xcb2f1ee1dedc99fbef0b9af1be728d9d26f2a3c55d7a0467e6e6ea5a023ccc43⟩,
    ⟨0x7aa92112617ec698342d4d3d94e5fb184866fe2110d759959cfa11bf48c76287,
     0xf2c27646d17dc652481d24a4f4ed24daf064a003dc9ab7f2d04ad091de816b16⟩,
    ⟨0x70f25ac4be34ec3878377e608fcb7a4e5250f06342609a8b83a89822ae80bab,
     0x574e6733b4f8bebba6b5cc0a19c081e079fe39ad768976cbd0cc40a58a2229e⟩,
    ⟨0xb0f8b7f160256d265f405476c68dcccbff2d01b934b1edf900d56c14e8106819,
     0x709adf739ba11dec135d927690b4d985f6011f743dd13507e148ee2c6914048c⟩,
    ⟨0xc903ffb586319b71cd8b40944d58e960423dcaf5a0b212fa077cd9719a3f88d4,
     0x2be476fd46c5c86aed9210cbe7a3ad112c2badeff182b31071dc799fda15016a⟩,
    ⟨0x129aa1a358224430d8e78e2425111e060062523b36a263f7931f83b75fda978a,
     0xb7bd3197181f4fa89be5983271488adaf441999a80cb613296a344867215a5f7⟩,
    ⟨0x743e90f9e764cb6b5032ac4d4bf4ff9fee3187ccada58746232fbceddc85c090,
     0xe34c19ff6e00fec6e6e6e3ed31b5a4e11a2bd75dc2d026c41bf441a5cf5cb341⟩,
    ⟨0x896595eed65799237d19a5b79065877586b1ba3414553ae5629b034efd07d53d,
     0x320822434721ab44815077d835b2b69c66ff2618b7e656d6beddc37131abf236⟩,
    ⟨0x3d35fbe1e68b43b7bbf5b24f566f91e60ef8cb69e57a3bfcef270275a32b63af,
     0xd4c41e566a59e60def8eb8f4db6a4eed2592a965598f7aac01c20ad8d6e02e3d⟩,
    ⟨0x1bda06acbe60e2edb2c0a92e4c73f2864acab47538f438c41faa58414b46c56,
     0x1295475c58911b1699d0684ea37c759ddfc8a047c873b050050833d07b3c1ca2⟩,
    ⟨0xf1bf3510fe0dcd78e577d11ca86009cb4b70d0d5aac7d905b8762ca03192db78,
     0xbfc0a42056ad30377e051e2244dd4161e7846af939b610aebadc50260bc47523⟩,
    ⟨0xbba0f58dd06b763e9c42e9f3d20fa6b77795d186e85bb7198c34d25f06f0ae7f,
     0x7d7a6f8b5485f8f322d4e323950355dffb61928b1968c8bf3aac0c27a2f5cff6⟩,
    ⟨0x3331c281ed66ba71f44e37ffe69c131fcfd85b774308c637a2f913cc88a2220,
     0xa4c895c1b66d483be3de27b17bc2bd75cf184a271e758a3d265d5a49c43328d⟩,
    ⟨0xf5be8fee3675c4684ee333e2dbfe4dca7ed8330b9165fe23d19f3148b14abb67,
     0x721a8d3e747144797575a4d00ce51d72c2092e34ed0f082dd8ae0c508ec1937b⟩]

/-- testdata/P256rp.json: `ubProof` -/
def recHi256 : RecBP where
  V := ⟨0x6cb9582800f551607f13f819cfb6361e5c7cd70c3676658594ac00ce0f2db8c3,
     0x3fa1435ac513ed5e01f71fc48e16a4411044038d4cb4129e7c16d3b51617e366⟩
  A := ⟨0xbfb543cb96edf969da82d3339ba5087e9097fdcb6fab7e1a5082c00e8e4e0e35,
     0x251d8d613999685451b2a57c161ae29de3dc086a357323ee8f2a4a18795f9dee⟩
  S := ⟨0xd7bdc9b47bf5d3a079eb155833386f5d58f4bf9e3a574ed67210208c85a038da,
     0x3aa4e304b1ec55a175e086bbde289a787253aacc11b4e3cdeb52c8e4d38f058f⟩
  T1 := ⟨0x5c2700d45b87cb3a607d7ac2f2df69d1e386dcee056d86c58672ce616f8ef53c,
     0x5717c2fae727f3c0e080c9fac217537ef277fd3ad275c137c0c6b3551cd118f5⟩
  T2 := ⟨0x5b46796ede384e485bc864cb12dc97d1cc2c72d1eea980133c2fbe81784d7eea,
     0x9183603e4ee012ac05d8d269c387f265708742861994092d61ab7413ac4564d1⟩
  Taux := 0xcea73ea9818d3941cfff51e486ecffa60c2667c1e99f193ce3a47b7530a4874c
  Mu := 0x3ae57ce7ed489efa117b47c6ed9c60f5eaafb04fad8e227958b3ce12890cba2c
  Tprime := 0x3c8912d7fa26af446fcea7e39d921df204edec36c34d1d1f4e40c428556a553f
  P := ⟨0xdd0f75ecf9a74b6b286f123cc6f0dfa91c340e7c4508c8908e58369f4e1d92b9,
     0x7bc9607cdb5888b522d8be343bf37511dead00fae7eb068a139bc5f6e40140b7⟩
  Cc := 0x3c8912d7fa26af446fcea7e39d921df204edec36c34d1d1f4e40c428556a553f
  a := 0xfce450bea1ab4fd0d4b99aa67743e606be548a9533fe25b49bd240d27b66fc0b
  b := 0x474c233d3d6cc4b4c9ee5a9e23d5c686408278f700e048c505d52e79063288fd
  L := [
    ⟨0x9766f7648eb794c2b23e33b3d158600addde2c02b91f900cab6d24a5c3edeab,
     0x19d600fe7b5d2edaa4ef79beaa392412e8bdd8e5489e45323695d49d4b431b00⟩,
    ⟨0xe7518013dccfdcb1b3228d3bab13d6d92eecc2af444cbc1c4370acce44122705,
     0x90ecea8c313512d740daed33e71d6a656b8cf37443d462d7d920af8cb9d67947⟩,
    ⟨0xd1e87e90585c4552f97f175c9cb30083c45b229bd4b13c89508764ac253f7b81,
     0x4f8043f45c6c71e7539de1e3949327d8d745d725cc921252f87b604771bdd4c1⟩,
    ⟨0x151bbe74f44dc1784191f39181fb719971961894edb0fc25f43068f0ad4e6f83,
     0xeae331ed58e34fd4132507b01b7d1e6562347801106fb046dab35ae15ec27150⟩]
  R := [
    ⟨0xfe68354a36276d77d3b3ef43982047a7559c627e4c050d6b23ea79e6f820dacf,
     0xb2cd1dd9e602bafa992d09b8bb660112d4744e5a9b0a2e2fd4dd5366dc80db69⟩,
    ⟨0x8719337cd7edcd7b96bd947f112624b2652e61b87b2e63450858f7ae021e2954,
     0x238478686eda3cbbe3d59265db2f1210446e4b73fbad39678a5cc39d7966f449⟩,
    ⟨0x7416049a42abf9708b14fade73616f1e4b42791cc63e7bdbe5a460d391e64d5e,
     0xcb5c30344c19dc476b87c415b75b5022e1224c344521cbc48671ed65876bd4c7⟩,
    ⟨0xd81eb29fa1a8531b04cd65b9ddf51942c207df76a0edfc882ea4e00b93ac3f8a,
     0x961be6c9d4ef461417f9c31ccddd2447f0c0e0657a31fffb170a69b0804281b3⟩]
  Hh := [
    ⟨0x591d2cd0d566713694baecb88618aec1f8d41046f384aa450d8840f556433b4f,
     0x53ec513448d9abd116d2e2183bf673a1fd26f216662b2652dc84f28e738bea28⟩,
    ⟨0x6912c37564aa8f25c34a4b6336e7b1a6feffb3a0b524cfb703591fcae30ae193,
     0x26da81706d2dec344698cd213d7fac510d7f474bb6271ad5a52c5c207445b5e4⟩,
    ⟨0x69f5be493ca578b1f30810d87626469cf327cfd1aaf9919b5bd81a5660a7a38f,
     0x883be17c424466a3c3685a1a82d82dea65603301934694add8b0bb3335c9094e⟩,
    ⟨0xc448c012814cd2098260a4ab314008ab9bc2e696b56887dd5259dcfd254bc9f9,
     0x2efef9c1fa3e6e45b3a592dce662c3470ba2e19a15515a173784c7abd5e76d2d⟩,
    ⟨0xa2308e496e8dc6b43307e438dd8ea60ec5cf24789674a828bbaf0ca7a6fdb8c4,
     0xe17f5894f34a9cb491b8e0ccd465e12402e2b3420c0e49e84f794908f761b9a1⟩,
    ⟨0x5e5fe3d4378151393b028c93e12ec7c230d5768be9a184285a350b53f7e27cd6,
     0x3e3788751951b185ae469f61f9a4968e649e19a387b551e983b454ecf87d928a⟩,
    ⟨0x1ba7bcedb27e0baf98c738d514deee95363d2a73ac652095cc8616da41dafc94,
     0x4214e4e2acfc5750139e28dbd1d799f76b229eb888a895199e310804b5c1b075⟩,
    ⟨0xed4264826c12fd427a6d2ac55ba8cfaaeb765d53a75630d3a056c1f3a3e7b792,
     0x86be1816009c503b71ade46609d1ea95a1a0b9aad74a5b17b0cdfe898f2c9a8e⟩,
    ⟨0x6a1e6f8875c0451903451cd26a52d7192dfdceefcbfdb3f5074cae7cbb8b72a4,
     0x3b1c75cb7ea2e660b717c65c7220868dab6889f05728d955442a13a35f862d52⟩,
    ⟨0x2d0a479b19e932ec6be3048ad1ca1c7e8a5c473e2ca98b7cc36b5c3a328d0a45,
     0x3767be427f600474edd99283c89ae96ba778e76e4ac141324f70d4178f4e928a⟩,
    ⟨0x5faab91d542e5d5c5a4bc5f496406d6da97d8c803541983b0125c5409ee388a3,
     0x41b290b97a85519e8d7822f54c4aa1f356ac6e740cedec37fef6940d58294407⟩,
    ⟨0xeda9d8a012f38ea2a53dbc9ad03062dca0ae7c2dc39674ba655a02969620b6d5,
     0xf3b758c70533ca0ffed946a8c9eb24b572a6c4bde4d6a766c079797e13c735f⟩,
    ⟨0xcd1ac498fbb387d54fb78a2fc130f611451290142c4ca12a1d01538ace971c8c,
     0xd34cd54facd6c10c0844abb803e5734c59de265cac6ec81c1a298ea08180a2e8⟩,
    ⟨0x775be797bb03e1bd15b4aebe8e143c8d4f665864daef6dffa7392f2359147030,
     0xd9371c57d6e4219c334cc47733adddc06c7a378e8db82f32827a6093eb946703⟩,
    ⟨0xef7937bea03b621f44dfc8d6381611f4af6bad959a6e411181ede3b26bfc8d8c,
     0xbb9aea0c4e1810bcd27933f80a93ed8f7490430480ef508023fba0f836d8665a⟩,
    ⟨0x87851ba1cce8ffae27faac7816464103d4e5a0973bf628c0c64c51e47578bcd8,
     0x462a8fe6344789f3506f7f1c7b176a98de82688eb3a686927a886e4fa791209d⟩]

/-- testdata/P256rp.json -/
def recBallot256 : RecBallot where
  u := 0xd97054d94af2e85f48ee5c5f7bb8a3b97b3576d647566161c973d8d36f6f26a8a2a155c23040f3e56952355f736b074573af2c5fc34cac7d2d2b32e15259b1c8ebad56f8d691d7c09840eb7e2e516cfcfc6dd6c230dc0bab8bdf151eccb0820498335c72c6ac5bbd8971e369299feab88a6df5790d3982836f7f7ebff7026851e1c6b9f98ddbf988342dbe0b6e5fa1387de7136ff8dc5e247100399689afe4c9b443c750546b116290cc7cc79ccc25bf956a33aee87876deff60582011abe32c2344f1220d20d2f5c7adcc408ed1145e0bd54bd74d8c92421e65288b1c5652e2b73f58a1fe8bd438b08e07b775ac42b0d1978e9c07f2773b4798aa1f95947f1b566d5496be925c326dc79aa92582ec6362da671124f25d08af655aad85fa769dca2d2143aff6a5dd5a7829460354df8e74dab4d60378c6846cc904d55fb5783c76ae682dc4dd35f92f92c07350c61378b7737e0d5d2845da8c3d8412e6060728a03ad9369a147696bd4d8f726a18055ac95cbb7e97c94d2c7a4ff39f4a29367
  v := 0xbebc8835a6c4d1ffcc207c442942fe578fe340554cd6d47accc6f8246d0ea83b0ffcc291c1bb4c099dea1e2251cfc0cc867cdfa5bb30f137ab31f32b90cf15746b2e6db6a0eeae214eb1a06fecb8d50478152f537f1f90c31d13d406e051d9f821a470870451c731375f8fe89c91b4da6539db85f6af305621c3dc4be4420facd292591239f7f46648e7f00c572774fc5f10160f083b405438d93ed1e8ef7d4d27a98d4ab6b4b1c26fc93d645b5b5a92d55c1f70c185e4418d7491cec9ebb784af749d620f65a994652e912575981211dd82ffdf0bcc07605a6e1247ebe70b01c2855f8919c3c68cbd9627ed65e33235258b47b4e6d347578633eb8eff707e9cf5730964d01bedb015d8a1c4bdd79a2eb7663b8d00872f77a85d25ed093719a8d49b584a5d69d5e378a7838206a986f388ba25e1f33714293a48647e13f9e083efd5d5753fd4b5025c61aea680a18285c2fa8e67733f888557d78014b6ba2a47e21803eda9654b573ddab2f36722632b0afa9640dd7b887470ea216138bb0d65
  lo := recLo256
  hi := recHi256
  W := 0x60d0cb1aabd26ab1f849f15ceb47175cd283f6ed8ea5c0a9d1f6503da5a2175bfa75e7c77ef0ca2e44bb3e24eea2868621f69d73de712fd706827fe63b11e4f038a337a377423fb88f68d5ddf77c5c769a60c3e2824ef3c80fceeb03ec49e7b9815a1c6236473688f1971f26d905a560b458b596a037a28ae9ca04a8cce8bf61b48921eb78d82a0d046366ad1d8e9145bcd775b6e01afea0ea047f532969c609cb7381eb92018bf5d0de8c78c833d459eb5d80b07926f4a89ee0c1af4191323042791da5aedee71dcda4b8e557aeb4086627c9d130ca307ed966bd0d188f9717cafb3ef3f2769f9471cd4ac5aa3c86359e2aff73c5fd4b1c255878aaf6f24316a091b535ab93e3af296d74b450361a1c905505107063fc829cdbf760967939b0d1afd9ecaa93dda860fd8f4551743abc27cab2074e95e6b39cb5cd1b71c18733545210b2055c80385c184dc3e88913c246d50f59422a57eeb0278b0d0ca8da66e460177245ca47f8541e1c6b27b885f0a00e0c72486031efcdd2edceb0bd94cf
  Kp := 0xd4ab77800cd7bb743f943b7e5a3defb36c8d17b381672d47196c2ec1bb69c973b9dea2d2c7c2df40285a73f0f3df7ff95561e36643e30a643132cb26d716b996a8d85e1fe33e025497f8a397ac3f94f3405262f78f20deb66573334e48195b3f28394a3d67ead7cea81222fcba05bb691b984cb86d548815cc6a6df690b1c8c55efa8a0a090d7e7c7eda24c39c9edfb62e46e407dc17f8561f16f15136caee66ce1bb0a0a6d9ac297804b547b01f50be52d06a19acf0b1c689de29391f83bee6f67dfb76af066ca5e097b83b10025a60c80dae7b557c6d8dd2ee4388b3703da9cce245d4e7f0f9d013869a416daa6b505f3d553d0ede5869c87d8dca0b7da7671a14eabc6578084425e54255213e9a568f15e432f10ba86609a52e7bba50e1d968d39f87fb11d7553ed1f3cefa3b5ae6ca408950cf09df3a740b9aed1692af8fb92ad57eb62a5a6029792852dd65c3052897ef573c08db66901f8a951ce0f00d16f9ffcf305611dd1ba03a74e94555efc62b8a02aa60a0d9705cee43fa34795
  Kq1 := ⟨0x3f0b61850dfa595283359dd70e2c0c63f96eb123b1ef4e1cdce686d60a789d53,
     0xf99c282d39e08d33f14fa9d4f59140d425df88d0d1fdbcb33c379f385ba53f34⟩
  Kq2 := ⟨0xd10584dc17e5e2248784d46c71eba5a7388e0d32bb9f8373c237b9b3eebc22ba,
     0xbdd1ecc72c20ebf792713673c07006d70514a6875ad551d7a518f40263296cc1⟩
  c := 0xccae613ec487645db6bc5b1f22337344
  z := 0x2f7d7061c2559727eddac87f9e77064bfb7d02d6a847b9a92d108656d5854b7e
  sp := 0x3ac29d5f8c79f7880ac5be67e3bd9889e418d6b7cf8267dc052dd50b2f360e04e3c156a6a771eee4cb90a2941fbfebeb90ca9fd85346d0434feca2fb8a36f9d6a51192138096e175eec7511dbbaf3b2b459057861fbdf8d6795950acf3e8109ea5b12d4cc1adbaa5ff20bf53ccbd553638234948d11f5eb2f1fb568fabce181536872375bf04382195d0f4a6ba464d4ea151621590dc19f569e4f86c2bf98c9a90995ff4a08fc9d31511c825c087a533dfa38e188aef95e8c840ef319094cacb67472963d8b061eba4546dd7b3eaa07d07ce25127a5b6c231a8deda9cfaff598a08c74bd5d076141b118c241cc66c53aa3bc9e51921ad5302157cbb591a2ab3fe848f76716addb67ddf677fd03165a0d8d4e3362bc7ff5974eb83611561a8111ff6c1d2a99dd9fd389dd9a111c358f6f6506820642d75d8f7e97acd6b2aee1da6a1b294fed9be4e5eb0e0c01bff52380779e80d159281b49fc19194ab41fca9a6344ee05fe3e4a8dec7d60bcb978aed0af4e9229c817b85e84f710039663b11c
  sq1 := 0x96595ccc2d74ca2607664888d11f3472cececfc373e487f606e252bd5f64f751
  sq2 := 0x1acfbfda2edad311d02330466a728de482764f31176959e6247cc8c603cf5aa1
  Bg := 256
  Bb := 111

/-- testdata/P384rp.json: the curve -/
def recCurve384 : RecCurve where
  name := "P-384"
  G := ⟨0xaa87ca22be8b05378eb1c71ef320ad746e1d3b628ba79b9859f741e082542a385502f25dbf55296c3a545e3872760ab7,
     0x3617de4a96262c6f5d9e98bf9292dc29f8f41dbd289a147ce9da3113b5f0b8c00a60b1ce1d7e819d7a431d7c90ea0e5f⟩
  N := 0xffffffffffffffffffffffffffffffffffffffffffffffffc7634d81f4372ddf581a0db248b0a77aecec196accc52973
  H := recH384
  Uu := recU384
  Gg := recGg384
  Hh := recHh384

/-- testdata/P384rp.json: `lbProof` -/
def recLo384 : RecBP where
  V := ⟨0x324e31e422b399585273c4bdd885524a5343f977e527e24bf3ede394ff9a1881870ef9b545f751ec68f9ccbe315b289e,
     0xda527a99c5086fcd9fa23c8a7cc2d13e7f63b0d49abd6748860d9b1b870dd15b27f9618f1ad6f77b38dc70855ff0d0bf⟩
  A := ⟨0x9b45bdc752ec57dcac0d83a94afd815d51a69872cb5f0e2513f293e4ca71ff13d130d79837b36f847896bde18036fc07,
     0x1003a44c040f8b92ca33567bef88a18fc4ff1e2d037875ba85780bcf8bc0c7c5dda2cacec3c2e9607e99044cab32918a⟩
  S := ⟨0x2fd9044e9ad5983c671a570f2159a0697f6b8958fd275a62a19cb5c927ecc65724c9e1280ad7d27f0255d6ecf836f213,
     0x2458b2c92db43710f7f6ae3e117925123cafc277025ff13e0875425d48aaa12346c02fa8f89659a2794e7ea8a6d937d0⟩
  T1 := ⟨0x770500dd6cb17a110393541ccbf8bc7463ec12a02217439ae904d85dcf3b50e950f23442ee501f1a346d3a01cc0dd851,
     0x83b69431d30f21a011d1259e0a365d341b01d92971b174340c552b769fa536687abe0e33c80c0165a3c5f3acaf745364⟩
  T2 := ⟨0xb8da243a319106c9f58ba2261f815155b3f9df191a91b6c3ddc5d9bb3f8db498f217ef8f74d950797b495a10efc49881,
     0x59806656697d05ebf62cf7610429fd595a3bfe389ac26f4b28244fdc0a27be608159577d8ad1e53cf016766bc0fd782e⟩
  Taux := 0x39cf0648cf8fba3abbc0172d7151235de59603d85c2785a3231a4a979dbf614646ea33bd7eb03707bd537022c1a473d1
  Mu := 0x77012bbcbef45d77f31695eba260a73ce813dd3e75b85d5d9536c51935b232e271fc04334cd6ab924a62d30fa314fbe
  Tprime := 0xc68c187dde7ff7546e46ae857d792cd874c545b2bed11c5f9a1e141cfaf74b55f38537ccdeda57ad578b571b9c5d09cd
  P := ⟨0x47dde9654b40391b69fc00f815c00b4696bdfb09f956867155cdb37ec20da06bfca5383c42be0b357bcea6b4caa948be,
     0x850b8487ef3c37fab263ecb47cb28fdba16fe79ab0e763bec7f2193af33fbabb72e96ac92dc849888c2aba909d5485e0⟩
  Cc := 0xc68c187dde7ff7546e46ae857d792cd874c545b2bed11c5f9a1e141cfaf74b55f38537ccdeda57ad578b571b9c5d09cd
  a := 0xd76fe9f9484e25554a9ca6c713460d4456c1266be28684f9d404175f0fc37baa6c12e7eef07304553ee92178319411be
  b := 0x21e95f1f7a8f5041837ce242391d862734c3ac783795df2a729012e84cbc78a7af3932ebc1f689cf4bd67efef7e2e3f8
  L := [
    ⟨0x998342be50e377efa5f04ad1dd8d1bad036a361cb641b9d873437b74858074098e77a310105a1405168ef92e8878fa1f,
     0x64d0434cccef5b430543361b30ff8099aa3d57f2ca3d79dbd01620c146c9227f0b0fb43656e98f2f3eb40fb9c054f005⟩,
    ⟨0x5492823ef42465e1960e4c8999bd5d8627584751b4310a1c677acedf369817740ed875743966936ddb0234f570a557b9,
     0xbd16c030d8ba2cd6b1c7400a113e9e698582b425483dad0825b14680ec3a7b27a1fc453e1cdd077e5aec2d506354382⟩,
    ⟨0xeb72eafb2183df36b85a4a200cf2fbd7c9c3b662133f2b4146356ec61f6526dd30f4f56db883eac130209ede7a498e56,
     0xeddaf8691f086119dc46f8b727c091fd37e21a204723cdc19406fe1bf8d5c753517b2a1fa039f3758b2c892552e8e156⟩,
    ⟨0x9757bc5a206777ee552e87e293a80eaa2c43659a0deb6978bff5d67d254d7dfebf0863935ea165e5b29db8c3cdaf758e,
     0x587f47712638152defb171f0c3f8b6776fe058634daa5995d616f672a9ca7f375321e73fdf0e690291d72d6dcda9f91d⟩]
  R := [
    ⟨0xd5c779b80f9dad57426a5acfb746b15f56a1e124fdce3ccf4c5477220adfe64da6b86d5474014d405114642764b0b5,
     0x75b8d84d75e3ff38e9f3587ea9d22fb75044691d9febd13201bd198501385c9622edb2c6e3b394c91d8547b3784e5f25⟩,
    ⟨0xf44c7d010ef60f896c8b112715e567a1bef752df3a0257cce0b44a334ded1467b963f2d52500d3c560ecbb6e7bf696b7,
     0xbaf8b1ed6daad369488e91ee0a3ad5900f2d280df37ee78540b65ef2dae5aa6a446ef897289e365eef22cc93de02f148⟩,
    ⟨0x6cddebea09e7c396a3fbad15f3475c5c4a54213fb36d776a1905a999f8e46d8ade2acbc4e3ee3bed80f2064a770f6641,
     0x2a43f9fb2bb6dde0315589260a973be69695cae323b71f56176c2c7633bc69c6b8a72ec3ef14eb69a0efcffb48b30140⟩,
    ⟨0xf2904c2caa74b33da8d9e74b7ffad209b39eef29ece50a65eabd9d60afbabd7f16c727881a11360f0e33585a9940f70e,
     0xad1ca0027d13e588d1a27a42997cd3fc466ba5e413fce2bdde1e957289e60f391f36ea0a98ab4876e09bc510c0c2abd0⟩]
  Hh := [
    ⟨0xc93c2aa1119e435b042bcc7a44edf900a39311bf458909753e844276f2f3a46f79b007f3f08f5efe49a162d617a714aa,
     0xf56568194ffcfb1adad99dc59e50892b9736dad9479cd0af28f6377875e7ce3eb4bc0241ee9500f8d2cb78db80e152d3⟩,
    ⟨0x4e88446e03e0c58b37eeb004dde28e0f6c00f3c8f1adea31c882e3049c31fb226bb531f735b954a1222e47b5cf589ab5,
     0x5420e92350f6a72da785e844783c81d22b917be7fd06137a29e3785719768b9f2ceeb22102afc65b6248cfdd77bcc5be⟩,
    ⟨0x63921c5a38c75e1e088eb1fa97affb4a17d7f68b1b8a407ec733f0c301f3774660388c9f5d8d6d5863830420edc2084f,
     0xce2bc53c0e241d03aa1f6e5e6b15152aeae2824374befcad39d0719094826b7fdff43abc5d556c40057d2400ecbe7f12⟩,
    ⟨0x4a70d801bc8a1a77394b0fe255686cbc86d38a9423c7c33be359672816f99902729c960b3f9ab5c7da9f69f0f1911d73,
     0xf3c2ad1037e3dd51150cd34804bf7f1927d6709416b513d316df51f7b4830f8f1d9ce45de0fe0193f3317af838156b67⟩,
    ⟨0x29e203e21393c0762e8b7ca43b50fb65303962260abcde2e8c5e267b567d35086037937b33d58dca194979901256ac8f,
     0xc052a23d92b877ee65d28873644946744a1606a24ab9f2053374f82adbe9343ba04b40ab7c5f401a0f7113c721948515⟩,
    ⟨0x5ff93956f7414e6ba80b6950d642bc6da91aba30f2a4c359dcc4052a27ff33ae93337c43d0bcb9194157de2f798ff343,
     0x1178b42cce9356027c443ef68714b6c16abcaf0683f7a10ae047c1f9d4cdcb8ab35dee42fb504ad633c188ffe55900e⟩,
    ⟨0x6d4d3e46e65b5d73077b884e2b15e30f0431ed3063ac97b8922c6b2784aabdc5a3afe1aa86e2b05ffd1c7bb12f80dce1,
     0x20944515a25e66162858e13d6c0943e32328b41cc98fded3aa1b028e8d55e606be8d95323f03d79b77de3c2f3f0ceb47⟩,
    ⟨0x7fc732c3b8861bd8ee72a669beb5fa16114e0d2b4de3b08dcdc8d6bde28db51db11cd45f7e85e4e2c9d491242323b2dc,
     0xabfd5904c9103464beb6076e081b60bf932932c69078661f10c64527f246c6b0738495aa51bf573771bbf5cfd06cf46a⟩,
    ⟨0x36c289313535a7640ade81e9068259730952e5ebaab206a98c14838964ffaa57c6814f4356032998822ab6a2d49843b,
     0xff94a394a46eff460560959eda262d337b9ee3fc96800c923ce26b6ae18af03148acb5f2596c0d4f64c0c26d483d0b51⟩,
    ⟨0x12b1708eac9b324156e33c33ba320600d65d942d7e80337468e90c46bed15a035e80b821fbfecf28fb147c5a32d128be,
     0xc0f6a14e55f1b02d56ec149612b11b843ff1de495a4cdb6029873c112183acd32576bffea33972fbe3e9b7f692f87872⟩,
    ⟨0x34c7351442733a37d4af0163ce03860946d46d8912b65ce97862d6a0bbc65d6c04a1c111630658c8cdd6b5cf8169652c,
     0x925d06fc570e1d2250ee20f4600467f2537cd54021a2e76350c7e13b4185b378de79706334d389bc6cdc6809168b7cf2⟩,
    ⟨0x9ca9f36c11a06bd9f78ee51f890f06bb447c9ba5bcfef9191188586dfa777bbefaa88ea40acbf1bf52e9ff24adce6b5,
     0x94238a275f95d75d94ae67ae3879b28dcfdef99b78a44ab6ba0f42d7b9b918f3d9cdeed6aa8ec4466d727bb59d39e1dc⟩,
    ⟨0xadb2038c9fa98bdd50e8c8f291d9bb768aca8e4be548925f2b7b94c95937f80b39e77b309b5c58ba7a425e24fbaa3556,
     0x3220bb15bac2359625827ad6fabeb84354fb5395a8cf14c2c9c58e130092f9e873409410edf8da2039ea26677dbffea2⟩,
    ⟨0x34c4e86419a375f5cfd6ffffa8a1c52108b2372900cb711d3b3c332932cc494bee54430c52b62835e1583630e9449185,
     0xd836e4a84137b9ad00a6a6c7275a243ab4ddd76a367dec5edafc7fcf2566df9fc7fa80081080386d82410a586bd9e4d9⟩,
    ⟨0x99f8a4a63b90985feb7aba1a3f1945071b16ec3458deeb562c8a11ed920c7d6634cb010f2881053ef90d82fed811be12,
     0x54cacd2b3cf123cfdbc8486d4eb4fcaa282aa91fac865a4e96ee9985184aeef701995425e5e4952d992c0acf35e93c5c⟩,
    ⟨0xebec1bbd20bcb48d957bc0e2b31e0da4f5d205550f92f56fe91b93dcb42801a3c1de81df8d410d0b36f6eb0241f1bbb2,
     0x8f10d4587451c2f1cb147912654c0b13e0646da6469c07e35c06b2ba25634df8e37d5c67b8a1e8b74955c505613a8ac2⟩]

/-- testdata/P384rp.json: `ubProof` -/
def recHi384 : RecBP where
  V := ⟨0x38a0352cfeb685e50a4b3fdc22d085f69e6a0098be53d80f20fbd8b09bd60bf4d38e970e48f906c90fb9b85855c39061,
     0x312773b6a0ea1ed3901909eda0256df2ba4acd5eb26d9cb4d7b1a5cf202215f98fdfab0d1eaa63d8a8bcce96acd9b905⟩
  A := ⟨0x3305b58be9bdb1e539f6312cd6ed464400491e7561292b7fdc4e1a14cb840362c1e167425bf276377b419174cac0de2f,
     0xe99bada4d0090282c1f6e00f3c95a5f3f0bc948f83281ad9f4733ccc72df636a989f093f16fa3699960400479fc3807⟩
  S := ⟨0x72dc0de0712ae009d2d4418a899bbbac04bd9f31fa2a1088fe42640d7ef1fc5f77c3dc38bf4423e795a86e19969b0380,
     0x685ffe17174010fc8bf84f6928e4225a3c6d9509b7327b7ec497ff7fb256e2a769533c86390af43c8cce828bbebe0231⟩
  T1 := ⟨0x9d9bcd15084ff02a656083f0f82d3907f8631d20ddba9dca74ad624d86c9ff8eac3f0173fce662878ccae9c6023e3bab,
     0x69b496ae9bb0b27135014eb6337070a8091d2a8745feba11839a87e2b4722af282003cd13504fc29d8dae9c2f1868217⟩
  T2 := ⟨0x8a8359af8198e9f6b3c42ea6183434552c339100a5485fdae2c0fb7b08274a284006e4efe30e6eb8218f15c7e51e2fdb,
     0x5d3c3877bdc07b2339ebce334bfa16978434d1721b34cd39cc373d31bb0d4508d9f4441d4d3f9f2d065deeb1053959c6⟩
  Taux := 0x6d9d9f690c233f106bffd4ba72b35b0084f3b4e2557b4e027ef7a7710a73f57474bf5b4bd8eb4351eea96bee3a7a9a40
  Mu := 0x1f7dda6b2be9b9b9ad65637ae060311e82bc27c996f44b16c7c997eb8e3e271ad1a64bc21630f63cfb44ce12d97c2bfa
  Tprime := 0xb302e4192447ae218717329716bbbc1dd449246f6601530fd4ceab6aa831beed6a749dbe23ec3378930e730601877f46
  P := ⟨0xc04931846d7a906e7dac6d2b766bdc186d04411ee615a67e8b27a7e1f710699a914dcf03388ccc79c57d43043055bb17,
     0xf11fe1beb038ca44da08624e85804f7a4e30280189e95f6a21dcb4246c50c2006da143ccd6059854c0adb8cbbe40102b⟩
  Cc := 0xb302e4192447ae218717329716bbbc1dd449246f6601530fd4ceab6aa831beed6a749dbe23ec3378930e730601877f46
  a := 0x48e949b4f5aaf5e1355285be606c9812611c53b5438f5d89a379367236ab0a29ea5b600ab8de41e5bf6474f5dc8d40f5
  b := 0xcab2165ded992277b086e1d474c28a9f2f569a2eb74852c0399dfa135b0f979d8c9bcd5594282d09991fdaa7edc9096c
  L := [
    ⟨0x4e87dfb117c54e8cc101a5a7c45c7fc8347b54bf93c41f04b2e8e53a2db20e07033f6c6a5473eded5b62231af6d39f40,
     0xf3e1f8fb048ff0041a568b911d0137a4d29a89f08363ae0801f07c225dbe2fe45af52c6e8d35e509330169484ccdfaa8⟩,
    ⟨0x16b9f268eeaf43d9178b4764a7ffc7d7099f5f7a1c3d5ce6cab5708aa88b183769091ccaf8911d3c38a150981079e0e4,
     0xfffd9272885f2770e14df5485fe29ae2afc065cdc344917bc995a41d7cc75abe2bcf5bccfa093aaf62497fe4779f688c⟩,
    ⟨0x612d71098430bc2df4ee90504e7a4a8b2a184935ad307557a4c2eabb46024470757bf7307fe9b764e6c75ecb7d9fbf94,
     0x779de76543ca95ffc01b544ba33574ac163e68e2494dfe2ff0b4be68d4587320d0a6be5ff4969f2c98c74053bc2b8d53⟩,
    ⟨0x32b188206992b789af11319f8b4d9d6e2ef8739848a3b64b2b20cda8bbf051823eaafd9d01513fa3de4c9e0fc072afef,
     0x27c123e21807073852a342b2bee569e7e7036a2de10e0d045331ed250117201cbfacdbb21a23453e3a80240490c76150⟩]
  R := [
    ⟨0xe4c825383a024cd3712e52bde8615edc3a6e4f5c24b61134dd963b225104765ee6610009c185571a6bf37d66cbe4428b,
     0x58e716c78e9d065ac8a2e18f4b2ec00477eccfbbf1a5429f24f78b9cf2a6122ab84e3dc05181bf553774fa01b9681ff⟩,
    ⟨0xeeda7cab7b2c49cf700ad23840b22e3d4ea4654c42449f798dea16a8cdef68bfe31495be1e38934f0f3e7410fd1ef33f,
     0xf7c7ea851e14dae8db4b287afe4775ce1c4670e4a1f158d59c41300dfe6a9732323eb4c632b2acaca3d4be867a6595c4⟩,
    ⟨0x84d4dd60a9d54d164d5dce1c7dc265f8de556b665c2a6961981408d29e169d8c39e67bc81e61f5841f57a2ddae402005,
     0xa28b54929a4c486ab337b4a20b8756ffcf8043c6dc3460272f9c9d9af280c7f1f0a08555344c2b414bcf95d3dce178a6⟩,
    ⟨0x2c4ffb5ee9144e6b397c0258643aaadeb818a2ad04c9f098141016bbcdcd4bcec3996ba93cd3531a2859bbabe00b9e4c,
     0xf20a3524de09f34e59abe4711970039c54c7a9287ac3d3081d2adb0c56bad7f31fda28ae6faa9b3adb0875f32c721889⟩]
  Hh := [
    ⟨0xc93c2aa1119e435b042bcc7a44edf900a39311bf458909753e844276f2f3a46f79b007f3f08f5efe49a162d617a714aa,
     0xf56568194ffcfb1adad99dc59e50892b9736dad9479cd0af28f6377875e7ce3eb4bc0241ee9500f8d2cb78db80e152d3⟩,
    ⟨0x4ec0ac3ca4f8da48b4428926e85f8d47163136e587d7cfd655c274af78efa32be03cf73d8ff363bb9012b9f049e880c9,
     0x1f79a872414db21da434e81b89d63ec2e371fd0655bf25911991053eb20896c48247b8238b26dfdd98291209b537ab3c⟩,
    ⟨0x3add5aea13b2c22450cfb94864ad9aa234015859724593e1fbc8c54141b75ec4f852a85879b8b21aac5f6e2022b15826,
     0x517290978aea9ce5cb72ba5f13631b1a9b4d108094daacaf6472719231ba631e89526cab3ecc607f6d7f5fee83aa3fd1⟩,
    ⟨0xb427b72f7f7b7d56b5a9e64dd0a5f345925745f438d0c114a3f778eb3ba08c15cc8e421bc124d132576edaf3eccf3a1a,
     0x42bb41afd680bf4faf190b939022210b324f06879daff3ffc16f191015bbf03bd820ed55bdf3f9ef9e48dd38f36e96e0⟩,
    ⟨0x83ba75508b3013a2a034a8d58cdb0fdbfcce29ffd6be54ae80c0547597a2b2e4b4a174bb0ff51604c9a38b5b16a26ba0,
     0x50a1bef02fe8d86824b0ac2ac38513c4bc4b9af8ac2f363e255facc8206f57396e914fffbfde20c4c2fdcc655c3d0e56⟩,
    ⟨0x3fad04c1a479def3a94321a9cbbddd4ec6bc5cfb85b755617f39a5cb27fe5f273ee1a7b134b414c0eaf53606e30df6e0,
     0xb4c83c62ea6343f8eb0302336b0bbe3552357e785831c7a45e0109a1aba6b465c0413d6971a183862029e7cf460739db⟩,
    ⟨0xa50283d24d156a7f5d0ca9cdc18b09ce965840926e671d4004402399b70f479e1ba71a7cfca3db3b5ae24b3a39763dea,
     0x3212a4530ee782c22ffa4826317332e0451024d9001153806b4582a07f7c4bab8a322d45152d1a9ed976f8387704a6dc⟩,
    ⟨0x3294ee7f72f4ac8be5995e60643688c14334ce4e241ad92610f9bbdcade249f137f1cbe8c206301c58b6926c93fa680a,
     0xed77e298a3c5f0833311ac2888a3376b3b179902e1c8ef38198a7b4c20605a39dd583c84f95ccf735fecd431298153bd⟩,
    ⟨0x2624cb63c37b82a2e7ae6f0fd8df459aadc3c754628360189eab6f51b26641ee52f62b4cc897d564ffb6d5805007f1e5,
     0x55d140a4f3bb5e448c79a9c54117249de763d147b342dc3a42ab8b9fe3b6f4d5b1045f471046b1b9ef9fd11c3992f123⟩,
    ⟨0xbb847af5369fda48db920825d19d170ade0595b07fb07e855876a0a81eb448b9e737d339abd72d3ba22bdabbb3f9858e,
     0x14d46a3b886874d4092268921ed0ea29cb63cd9d37fef7e9541cc4023d4d6848e5dfc7c6a09a9a30a3c1d09aa0bf212b⟩,
    ⟨0x227d4c7555b5fcc65d19076fe97dff91127ad363ef32c122e276ff6a1c98d1142d2f00b0ad44e81eb6aae7f9eb061dc3,
     0xdb18a18e3e96ebc4f7c88ac62359a18203d76a710f1020bf1c6a812260b1d58b5c09371d693b997d02627d456a9fe1f0⟩,
    ⟨0x1646a47d74367f2b511e65992a7711d984e482fd077d32981778bba1b392a760e9f50f8ba060bbc623c456cf6abeaa99,
     0x1d46d3aae1aad3dc8ef8441cdf3bfe1dccbb8e474c606c2c6bb2ac0f5b458c4f9325b56a4b8fa9891dc4ba76baf94a32⟩,
    ⟨0xcd2848e83158731361c3b8c419af2bd2c9078e307ad2e39cfbf8c0d683d9dc8bc7b33793527af47181b505044acfa819,
     0x9990e6152ee8ae6dc0940de8fabfe891c2d952c36546db09ef4a973f9df324e5e8fd4fd8a512f6ed2261cbd5a8dc145e⟩,
    ⟨0xaa6bf2e2efea09e23c69e62100b15a8c1088799a43cbcc1ddbdc2392b0b619384b1f6d1f38b530173787a267534e3f08,
     0x1cb211f5b707e17fdde5aaf0be46db1f5eb2bc514adb6e0ec107d5db3f1a11b0a586728f4d0c4e8d1aa00fdcff3c112b⟩,
    ⟨0x8099c816a512195412ed28b61ff43ab307984bd3fb302d64dd8bc59f62bb175f50ff27b7d4590327288437d416c98149,
     0xf74d9b2063f1c9ad825bec5c6d6a2c281afa76915c78c8633896ae9d89d10e392c6f49983ea5545256052f204052fb93⟩,
    ⟨0x4e8e3cf1a1344c7ebc2a83d9ea33928f4aa55388a6523cc81484033efac9c0fdb6f3efcdc84ad03a649c6dfbb57c022c,
     0xaf457988a6d2670ee1182f37aaf42acaac828363c6992dcad823dd4fe60486dd1eca6f9468a2188163c2ad9e96741e37⟩]

/-- testdata/P384rp.json -/
def recBallot384 : RecBallot where
  u := 0x41070ab296e8c5ce984f4240fb3a4a7b47d318d49be320a30ed308f6791df03ae155ba49048a05f90db6b750033052f120693df3756df31a60198a046882be091ff2f7175d0b982a16e1b313d872420cf006aecd38ca0c81061cb12fc8b9a39224f3f6c38b80ad173fbfb49bbc38c31dcbe11f82961738bfc1c4ec7f1eae2dfc5a45e6a779afb987bb2737fbf981a39501cb1c9c0236a11aaa2e92e812b2c67817eea11a7657f1022d535e609afea305c3a5641abee0fd42e00591a20c96d36c758522e94c26feb2aa3d33c4c4de960fafd5e3b3522c21b55c8646c5ff47fb8f03172da564b36aeb116d8ff3b8e0b6a0253b6e06122856314005b36d77c1d53e468858fa96e7068cbdb8079c70d23e8ae85bd8976b5e6e418b1998b37641716ae71473406b14d56652907b1292c3f158c7b43e8c20ef0bfa6f88dc60bbb65fee0b58c5d5f23e680b3f8cc84e01dc429d7a75c288a63116a232afcb99122e2c4a1012f2d10e18b93e7e12a55a53427082c91a8cf43652ca9e70f09a1dd52def9a
  v := 0xb155691b7d68c3ff6f1073d092ae7623482f2162fbf5db6ffd9f6821103e1a99d1d5d106f48274d1279d07469640922bcac9e50727b29735de73645d4c04a83eba9895c224ffa13ce75bf9e28e9b244553dca9ce693acdae72ed989e4753b8c2c0f62cff8a8d9cbbe73acb53ae70b8ac0428c58a7590632c23ccbc033c228fd3ccb952249973b9ab19e8268f624efc3a4df11705a19a135face27faa29e47b15f6e60471571c4adb24ca39e48a9c578a0b7bdb97d8fbd037756c8ae4a16b1f424eca5ae6e33cd98c7f2b99aa4abcbd7aa6fa0df628a324c907beb00f25f9af188cdb9124ef13d5beb1033e933f77c3341731bac73dbbae0d1467f71a9519d3e28cffb6bc332cb1b0ee914a6be2e18c646f17d9b7a0fcfb6018f3ad576e7b2d97661d291374c530666ac02f1f57e4fb619fa72e771f48b4ea27f2d37a8aee594fdefd3395116346053a5da0a168eb445df7a342d67a091191ef65f738415e62ef508e0878e074262f1ba30b2277e43ed03546641d57cf1a462407f61e7924a324
  lo := recLo384
  hi := recHi384
  W := 0x8fa4141c56d2891eb75755f459d926baf6a92d334f4c626ada8eda1f5008e4e5558d9aabeff4ef4659f60f071d28d4ce056c13a16be72670df5c264c64bf29518b2acd5d7b779c2f713e906c82ec1a8cee69e5473226fd019a6b1f7298076c0729141b56d1d673e73a768266705d2527d662f70acd3bf9cc993104c06aea221932d75debe5e7daad5994d5d1c2c01e5281ebe06193e84f56b80794c9fd7692180cd442a9006e917e3c57c88975f517161d98e5b819b1dbce75387b7847af8837cf6f56192c63421ca35b88b14f07eca11487837be7d01903fdfd2d03ec501833ea560488aee1b5dc55de7a26a46c7471d951fdad74e6ee4c33b0dfaae434bc6ac3397d93f690e90cee9ffa32fa64cbb3d247e018687dbbe686e8c767865447daf007cc2b539fa8a5d1e092289a72e0b10079768b84e7d5c3fb8e4a9b1a76257542b4651e23e9e475721e7e46d543e543335c38c1ba0807832afe8b409b5e4edad8c1d659c54533994cdefecec3fdbe895358263d89f87c10f4a2004ad0c157ea
  Kp := 0xdd5fe1813ff2c060f3ab6e2733a602138bd291b1f92eda0d56357522c65e79ece2aa3c2d6b6124ed184a83098771933d123c8b3c7998dbf2b0df728ed81deb472823c99213ee58182d7b4791b063a28e8e6f05d1d40ff2abd8f2ae56becc831d648504d16a372619aad2d7539fccd0b9d876436dc3d0aed8daf792975e4eef40c1ac9e74931167d7805e0dd638ed3848d57a79b5fcab600baf6305f407c013393f47834d156b7adbf7c3eadb0bedb8e069e7fc1ef2f3f0697d56ea9fdcda48f92294c5768993ade80b5c35dad8032de96c7cddfaba0a34cc5144016e4f1be7c1dc99c5d2322faa851eca3f6ba3421ed042db66e29b081fb4f266a762ce9c65b515ad1f22a27fdd5df5bb20fd931cf463ebb006591123eeb5457528a52c9d739388dcc493da70593b717f975384cdb69578f8675b93d1215e3a04bb7ac23106c525a610f74bfe6f8bb6f5fcd52c0d02f0a149631dfa545614769943f79528886c3ff5c7722dc81894f56e94d869d5907c9d2f99a9bd0bb1b6edd831172a202824
  Kq1 := ⟨0x4e9bdf9f3da9693a3c596a683467009d31ee87369849ff4953ebbd12ba436eea949a6bdfcebc6f71271d136c78edab51,
     0x3167337b5074d8b7bedf29f8f2ccb7eab2f224f1c0bb13f68e003eee3377e15513472151d5850f556563d620f9c336fb⟩
  Kq2 := ⟨0x3954482236e5b06029d5f8e1939be201505bdd5b5b55a7e17fc10df9776a6abb9a7e80571cc28ef60bbdc1362f090561,
     0x8b7c5bc9a0de4f96d3ffa30d1363313d9d7005f1c45bafe15294afa29f5b68fa2b6fb950f0fe063f070953c7286e98c7⟩
  c := 0xdcf0511e50bc44253966c2623644f9e6
  z := 0x4e53fa60fd512d53584515339e13bf95ec33c6bed6ffed42bfe22c51719a9ca04859436bcfd0cc4ebb0994ec3a1c0d59
  sp := 0x74559ea9ca84e5d51ccd84f002dec894585fb3bc6e224e2f62803848fda42eb056b015fd85731df49929d7f433f49c216dad0be4ef51cdad7e49833979eb80d665ebe5e250a62ee6bb078c4994b1655b221be9cfaca5372f30c9bef7c8c3da6362e19efa13e3dc88af05c47d363afa14dab91ec9f36a988fc11e0078367a8a70047a59f34e115013356dd4e0bf60888b68f2ae73ecf1c27c48f3b80e3e4c79ed31ddd2c0758c419a61503c8f5016a871fe547b82a660abe9bf40b462eaa1482c04d2a551681a793b596ae6146870fd9385bc017f4699dc69464e4842c07cc4096fb5645b037bb5634408ea990182b0abbfd48f95ecbd486595fdba4df177041648fcc67d727922968142d1fabe3465262f048860fbe6d1fa5a89bb00afe660244e3e2511ca624b5bede593304da0795726611c15688f09733fb7ed3704b1412a37ece9fc4f11e9fa1a35e193b6af84ea115b232ee06966e64fab13c2ad34a9c9533e02606f1bc0da2048ec8b75cbbf6ec62d94a0f53580a96a22df461165871d
  sq1 := 0x47267a9ceadc08c881790f080ebec7e12c1ab67a8287553b471801ced94647dcc681472341dded3cc79c73db02aa381b
  sq2 := 0xbec3d749f2f8d8e891533dbaca90e4c0a77e19dbd5dae8d0ce0f07fcea7eb25c190becbbb163233195901c68f2e1af3e
  Bg := 384
  Bb := 239

end MscPoc
