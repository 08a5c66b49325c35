import Verif.Lemmas.ECPP

/-!
# Elliptic-curve primality certificate of `(p - 1) / 2` for the RFC 3526 prime `p` of 3072 bits, part 1 of 6 (generated)
-/

set_option autoImplicit false

namespace MscPoc
namespace RfcCert

theorem prime_855391 : Nat.Prime 855391 := by norm_num

theorem prime_6899 : Nat.Prime 6899 := by norm_num

theorem prime_7685814062241457 :
    Nat.Prime 7685814062241457 :=
  pocklington 53 _ 2 [(855391, 1), (6899, 1)] (by decide +kernel) (by
    simp only [List.mem_cons, List.not_mem_nil, or_false, forall_eq_or_imp, forall_eq]
    exact ⟨prime_855391, prime_6899⟩)

theorem prime_71378783459333781452984051939 :
    Nat.Prime 71378783459333781452984051939 :=
  pocklington 96 _ 2 [(7685814062241457, 1)] (by decide +kernel) (by
    simp only [List.mem_cons, List.not_mem_nil, or_false, forall_eq]
    exact prime_7685814062241457)

theorem prime_571030267674670251623872415513 :
    Nat.Prime 571030267674670251623872415513 :=
  pocklington 99 _ 2 [(71378783459333781452984051939, 1)] (by decide +kernel) (by
    simp only [List.mem_cons, List.not_mem_nil, or_false, forall_eq]
    exact prime_71378783459333781452984051939)

/-- the last prime of the chain -/
def n0 : ℕ := 571030267674670251623872415513

theorem n0_prime : n0.Prime := prime_571030267674670251623872415513

/-- a prime of the chain, 177 bits -/
def n1 : ℕ := 0x1f73fce36e59be1932df9376e58f28792b29fed49e031

theorem n1_prime : n1.Prime :=
  ecpp (l := 98) (a := 0xbf9a98b6cc1444309a61fd5be43f51f58ecb336de375)
    (x := 0x1e73a31561636624db17dc523c2bd82c75290b4d725fd)
    (y := 0x12c34b69ac8ff84438e4e15ffc36eb3ce1cbaf9c838df)
    (by decide +kernel : ecStep _ n1 n0 _ _ _ = true) n0_prime

/-- a prime of the chain, 250 bits -/
def n2 : ℕ := 0x3a42940519f2920f3fb50f277e0721e1a6a4eaec96a0336c4904a8fa48c882b

theorem n2_prime : n2.Prime :=
  ecpp (l := 176) (a := 0x1ef8dba431fee99820b5cc11d13b90986a0191ed52da32938d9f7beedfc1c02)
    (x := 0x1f848613e8a992a74d374e3571a3bbb04c041cda7f1810facd3f0918a4df44f)
    (y := 0x3056a1995df8f7609dd4873c18c80e5ec401a46077a5932cd5ea584da3b7bba)
    (by decide +kernel : ecStep _ n2 n1 _ _ _ = true) n1_prime

/-- a prime of the chain, 323 bits -/
def n3 : ℕ := 0x5909d08d75e381b840b06ce196371ce65d59525d4b00aee5c96c438ceba983c633f82374fd475ac49

theorem n3_prime : n3.Prime :=
  ecpp (l := 249) (a := 0x3adf0dc310063ab752e733239799ff46c952af18e2ffeaa3fc6d8b98ae5240a86c4ae57eeceeedf9a)
    (x := 0x48663aa1dfd3f7d1e11e6264ad5a674722e63389747fe9f6b6af58f9b821e2ed35dfd1bc4d4e3ae73)
    (y := 0x564322a1da394406bd32642c963e73bc332c650e6ef55e9db148562fbf1491eee4b19a77bc8528ddc)
    (by decide +kernel : ecStep _ n3 n2 _ _ _ = true) n2_prime

/-- a prime of the chain, 372 bits -/
def n4 : ℕ := 0xe18a1f41a8f742d8a958cf83ecaeb58fb14c3778aa788106e407a092c3b37f73b80b725736e2b04cf5197e4da4d5d

theorem n4_prime : n4.Prime :=
  ecpp (l := 322) (a := 0xddf8361bfb65c30224d05e608f3bdafcd2e7f60b4e220d51874f92b4db6d3addf8c4e8e31be59baace92d66e3fd29)
    (x := 0x7ccbd72bc2e9676f6a6302b028e414a361e99a5db6f6c8dd5c30e66ded7f91666d43c42e1a495d9c2cdb972440a9a)
    (y := 0x155c745df0045ce3685fb06234f7ee166bd60329a8baa7f123cbedff587aab091c1d9d1f8129cfdc615410114d911)
    (by decide +kernel : ecStep _ n4 n3 _ _ _ = true) n3_prime

/-- a prime of the chain, 435 bits -/
def n5 : ℕ := 0x5992826b6c5e91e13374db5a688b2a488b77a106054fe37c334f74bc91fd5b4ed216383130ffd791990f293de38b32e4cbe400d5f8379

theorem n5_prime : n5.Prime :=
  ecpp (l := 371) (a := 0x2da7155a455ec8d0a2d19fc0972231b9fd8196353b3d38ffe632c79282fc80291f6c77b4241c913e5e6f558d2a053d6a88bccd5a261ad)
    (x := 0x144cf32ec950685a8bccae8ffece4e6d8bcf4e8616d8bad143a3f98a7ffca5e7b29c486bb91b77ccfc753c91f56455127a2b8500f9cf4)
    (y := 0x189b4b5a203ce32f0f748ada178475930376da508beb015d972bab3611244c60b50b2b72c4853f11e601e40e9b1730096459b4ba45ba3)
    (by decide +kernel : ecStep _ n5 n4 _ _ _ = true) n4_prime

/-- a prime of the chain, 491 bits -/
def n6 : ℕ := 0x5dfc13fe30d776624edbdef7345ee16fdda6651e2be8d5968e38c253dc226f2d29bbc5c524353e10dfb34ed7b20aa28fc8ac3d54dde9194c2b0e1310203

theorem n6_prime : n6.Prime :=
  ecpp (l := 434) (a := 0x1849b279f8f87162b5508a2a8ed91976f939b0f28675c63b9ab1b4a0c7156ed21d0391694cb8b1ca0a5db69b625c0687e37cdaa5bcf768ac62c457fe97d)
    (x := 0x11b838ce80ee630bf0ed1e169e2e89763d31172699677e756a0798669e35bbec7a984f4b65a415150c787044ab992c9eadbec3942ae3ee215a6bcba0932)
    (y := 0x3c8fc9356a9766de39af3544b2472ef520d6d466fde27e8dd8040655c4f8ae96eecd95e2e31fb5f191885dd3e45bf8cabaf1e446dbdde57a9f16c5a0cbf)
    (by decide +kernel : ecStep _ n6 n5 _ _ _ = true) n5_prime

/-- a prime of the chain, 538 bits -/
def n7 : ℕ := 0x3b35209992ae34b98c22592d8e394212e8c0e6fd86526d2256fa8a014d15f8f48b69a2a5d3f257dd4672352e2cc538504e2d0b958f439e3457458f6f55ca49fb18f9e07

theorem n7_prime : n7.Prime :=
  ecpp (l := 490) (a := 0x3573e55e6d1e00c9eee8d206663619ea41286fddd131de5709e24585df15c04421632de1e3a50bb20765e4fa44c215772ba2fe72551bcb1344a31f90e4b94d90eeae6c0)
    (x := 0x1ddcac0dd628f710405e8a73571da447c106eaa22e66938b1f5fe1a3cf1493eb5da1868aa01ecb11ab8afbd2e9bfc37478b448a68334144214589b4718fc436f8c6a485)
    (y := 0x3594b2d7f6af3c1c52ee7036afb718e9b5b5fb71625638fddb939778f2f1ce5d9293de0745b9251467236deeb2edc0a650f829d211bd44ad3caad5f103ffaa90e692936)
    (by decide +kernel : ecStep _ n7 n6 _ _ _ = true) n6_prime

/-- a prime of the chain, 598 bits -/
def n8 : ℕ := 0x2a83642e8c2eead9f279835de5fb5b8752ab0cec471a19631f248275fe80d17d96844973cea625b41621bc4c08eeb82df2f8c951159df5d022d36541f2254ff8ddb35003b723366ff5b751

theorem n8_prime : n8.Prime :=
  ecpp (l := 537) (a := 0xba909a4144eacee1fe5669ffb3f359213c5a4180c9b0706b22bc4d1a2a7f0281ac6dcde51fad92c7896d80e562fd58e4c4c54ac76838cfdcd057b5d2c8a4c3f86a1724cf2dd7baa9f3f93)
    (x := 0xd4a4fc495302312a49adf3b793c88047703a8ef7645d2bfa556a9430340e8a00362c63e4caf120bc186f6ea74c38b3657221a0f84c5215a3921cecf9ace84d565c03ddaa3577eb4fb86f9)
    (y := 0x1081e5cd8588331c94f88c0771b645242d9b18884ec32531151a4794689bdb12184bded36f39635db6fd832a5a3aadf0d00d944c029c6f4877bd90b1a583a5a0b3ffdec0285d5793470de8)
    (by decide +kernel : ecStep _ n8 n7 _ _ _ = true) n7_prime

/-- a prime of the chain, 641 bits -/
def n9 : ℕ := 0x1305eefdeb9b6dbf65327a8669e25d688403539f6f2869cec7460cd7dedf681cd5429ef3b6838f522f24047b10b8836c84645c07b317a8e550fb2587e5e6997553c97f96713665b53d5ed2b441c10477b

theorem n9_prime : n9.Prime :=
  ecpp (l := 597) (a := 0xd43f50e4e8625757333fbdd1e4002a906bd6d2409b4b26fc867d3ecc6d1ab90f5f87f8addb8a761c2727bde2c217c8e3736d12abb1f3cfe5d6a7e4174ebf52fe594a0f7daf6a3ca20df56a409157e39a)
    (x := 0x578c32d5b3b794996b85a0be9c799a732d748d8dd63b830f5a95dcd48d5248868cc2c3e1f6848d7edf9d24978832ff65525814c078d2d8be36121d27c80a01beb921cc0841f63bbfa5f2fa945890218d)
    (y := 0xf96f8f69fe0b898b4c2007240264761e9dca7e3e9a07b9a6ec98fab3ebc8438685fa5c6790dbc1481de1f03201594ecd8f8e413effa087ba475c87db712fa9dbef5851519c610305bcad49afa0d0a65e)
    (by decide +kernel : ecStep _ n9 n8 _ _ _ = true) n8_prime

/-- a prime of the chain, 691 bits -/
def n10 : ℕ := 0x7333e047420963e7f708c8dd63bb06f76f366a1692bb35d63ae13665550b6325b5319aedc04ae7fb7b3edb8cda7d172d67f1eb685b6f3eeb4a709fd42b1c1840a2587fa8d5d2172130fc271d0696596c64e21d1016b15

theorem n10_prime : n10.Prime :=
  ecpp (l := 640) (a := 0x4a5506983e7150e02744ae93a025b987a062c249f448cea355e258a1b63ff6c0ea114cc803fc2e1240e7b919e7d4304e2c379d3550996a0f2dd003e1cc9d89ad68a9bf74b5194f29dadba1446a545eed047e11fa7c112)
    (x := 0x2bc2376584b3af9139170683e2f531c32b3abdd64398583e5f9b3eb6a184a4d3f6a017b35ca0de89bc4e79fe9ba0875f359c05e91f539be70eac7ad61534a34a069db3b5a2bbf7be824791ce2a95fd5ace181efc25dac)
    (y := 0x5c32fee312a3fe54f2702f6c642f71ca4db3fd3f6257cbeee7db22cb09816fbf2e4e55db3d9e553a111bb831518bf0547ea2a5399b80c8c76e86a7f8cd4e25e98c3652612aca9101b6fd27fdc08e960a566236c8356ad)
    (by decide +kernel : ecStep _ n10 n9 _ _ _ = true) n9_prime

/-- a prime of the chain, 749 bits -/
def n11 : ℕ := 0x1b08ce41ad0f6c88e679623c6623fbc6e86951334fd1c46fe5ccebdac889c2f388b732340d90298b61fcb24b568aafed43a45125d9933c35eae7bd6320474594593d1568856eecf25f3150e03525c4b6ce4f470c7ac52d11ec655b326635

theorem n11_prime : n11.Prime :=
  ecpp (l := 690) (a := 0xa95877d88981bbdf8b5bb2cf45fb5d92e32bfd5dd68e40fa2ea1a92f3cdca4b18d256ae596705d84d9590c57ecab3e7f9edbf75c2a17b0d66e409d2b238cd6f8a21e5e1e9a466dbbf3c891a1fbb04e6ae6dd89451c0ff86d476876babc5)
    (x := 0x193aada3b1610ef0675374527eece7128b21bf723de6b1003311abf6f30580e8d48d624aa2d0e2d2bb60ccc3dae12909901cd1c493c978c0c47e0c787b56f15c837751c01e891b71bc0b5b4bb72a90f14888d419e229464bb588f8189bb1)
    (y := 0x1aaa629c5b5ecd8bf7d75acae35e716ff51df70f1b4e513a59cb3ff093504d11084a0f00b8cbb763935524952378109fff59e1a445f68ae02e69ba2096336c50a362c4102ca2f868ec0753630d138f4859abbd90c1693ec98635b63dae4e)
    (by decide +kernel : ecStep _ n11 n10 _ _ _ = true) n10_prime

/-- a prime of the chain, 803 bits -/
def n12 : ℕ := 0x570157fc4b85d0b5258af300f4f409f2852dddcf7eecea6e53918e05a7fd301425deeccf7bc2365b2a2faf50a5b85ea16215cfdeb0a067addb5644d239d1e5618c24866d3c6d02e9839ec41d0608742b627b6277d947bd2f9271fddc794753fbff797c6a3

theorem n12_prime : n12.Prime :=
  ecpp (l := 748) (a := 0x4a60fef562cda6de09a5c754fd7908c0fd185505eef8e893f0875bfd67bad5d9b7fc2f81049e74347eb379efd7184a73a7f76f84bf338d0d8723e8426941a9aa8617e6ca465166b6a6ee5e766f5562badc46faf9ef4cd2feee280dbd4475e549e306607f9)
    (x := 0x1e8b9cb59770e2301b8090ddb243a859b145e20add475a000c8943da77008ce9d87aedb4544775755dc974cd6da88421ced42f1cd709a4a17fbca104cb006a2b774bbe74811e63ea190d036abf0fd01ba0f9ae64f1bb65680df0abc2b410f0b31d1c1b80d)
    (y := 0x28a3a9da5754f3ab9bd31c0a7d7751b04cae2909183f311cd691dc79a415ba92439baa0c6ecd182008a88318a1b8d1d114042492b31d4ee882dcd344cda1e71e5d7f6da8b6ba67cc259fa85394404ec3003886a3fcd3a6670a9367bc2388c64491b64d52d)
    (by decide +kernel : ecStep _ n12 n11 _ _ _ = true) n11_prime

/-- a prime of the chain, 854 bits -/
def n13 : ℕ := 0x3328807dc1fc5b96eb69b52c7bffa1fcc7611dc787f5b751f19a8e05518cbdcbb20cb3625c4a593ebd07707bc7b87c3a9850b9f6fd2044069eb8e449a57b308cb915950fa70b515714dc7a56b97e91b726e1e7b15b2f89e2598ab736c52827c456225143678bb9ffb29f8b

theorem n13_prime : n13.Prime :=
  ecpp (l := 802) (a := 0x17a54a6a2c7c38e86109dde1cd5cd98b63ae1d1819cd077ad6f40e58119258225d1180330b8d135cff30349b707c4430f74a1866de7f92125d24a54ea8887208e572289c89806e9858cfefad3febcdf9964464e8ec15f60d5370be849f6b16ef3aaf8079c79e02bf9b7e44)
    (x := 0x11f4488ea8d67e2618904bfa15a690187709bbb5a6f0cbe75a2b4f92bd14b3fe553b0a17987462cdcedbdd2116bd499abf62bfda83d6ab1c84af3f89aebac8e8b7eb450ce7bd3f77f23741da3e0376d1c3b5c52a8c54bf6b2d7894f0e453bcfe5ca21e45a74ee265aae53b)
    (y := 0x13dab449f6f58dc7d54c40b948345154fb03ad80822a672730dff475f24e7fd9eb65234b25dcc266a8db27fac54513e0684be7f6b377a4da59818ec577d4b7c2b863bfdfe69ddb5cb5df9363b5e8183be1bb3da4792f1de12607c9e7f18f3dd34b47852dffbfc2a5d7d0d2)
    (by decide +kernel : ecStep _ n13 n12 _ _ _ = true) n12_prime

/-- a prime of the chain, 913 bits -/
def n14 : ℕ := 0x1307e5258773451abffefb16415f46d914da707411f0868daf1aeb51a2e2e6543163e1046f0b038f1fa28f19aed8937e03ee436707e1049557e61b30018e2da5e706743c7fe18e688ad89d7d0e43cfc69d9882f5fb68027edd4b19ffd3e80a503f65048327a9e4542d74eab3a4ce9d4fbabff

theorem n14_prime : n14.Prime :=
  ecpp (l := 853) (a := 0x114c2f4cc0ed235903126297864135942479ce7e719ff193db035ebcff0d2436e0b30e043b97ddfb3e7aee435491cffa3ae2d25b64323fd4a718c0e087442cab205f001c16ab3bd73b36ad4377ed7a4bd6e7b134d16a592d0c97949ec9348333eafc580c874fe1cbd9106446ddbc6d5456946)
    (x := 0xaeeeaa72398a9471b1aa3d0eea5b8b92f5f9fb94576465fc7c5d4b7a92edd53d7c820888b169d44f3156ac67d6aad65e723ebf7892000b9b22ee53978b94e387a8ba33a0f0e75b34855aa452ec1ecff2bf346e549d7dbcd9e8573472b599d9ccd29a43a160b94c9080a10ebf87a48cf6b9f)
    (y := 0x50afce073e285ccee6f3f55bf70f8140de4555b2a2dd23c0692c8ae7676b2ee00234e4d8a419acdeeadcb3abc3bdfd5b25e6936baf959d804be3e9ec065af1b1fc22a584ce8b1f5c113430b1a01d272f6044d361b8bd4112595ade1197d6385bfbf3c448e5e23265313f7b14de22eb990103)
    (by decide +kernel : ecStep _ n14 n13 _ _ _ = true) n13_prime

/-- a prime of the chain, 962 bits -/
def n15 : ℕ := 0x33ab4c931cb7d19f5a66ad6e2f633ecc78b2cf038a564cfdf0989beac25fd1af561321d18bbf54faf7b541e890d7529caa988008bae45bdbe10810ae91e9ee3a71edfbf4d6a595e294624fbb2b52a46e45bce75fac0805f3cd755b57dcd8ee2cbb6181a0284a75049466392ec5f1ba2bf5db7c482bcd86c1d

theorem n15_prime : n15.Prime :=
  ecpp (l := 912) (a := 0x171a92576fde93916d15079738bd93ae6cd1e0ed91a12407fadff7788037d5fe1b5328d4a760f1178d1e1daa24bd9e09b245553a0b1d266bab4e2c329780025f64248ccd25b770d9f070a35af8003ec4d64d38c5738c2d15bc83f10e89bf214b89e858c36f61086326f683af559b1b445bf30a5053c9908c2)
    (x := 0x25f0d7b71c1c4755d4227dac175df30d1b0839e0050552e9e69c268c321d1f3426360577be68c741099d0813559b59171ea97884b017f0f50ede3fca2329f2bd7c829cdce06b462b80908c7381bab825534126c315ebf626e00e5b21e3669766491b13b3302e5a919d5f652835999a886e75e1deb4de78923)
    (y := 0x1672ef16329084167cd9ee761e51cddbf2cc77ff59485e445373cbec82dcf1b8fffa1b0a268994ca4e0aefa458371c4586a5eabd67b537323a58d3c5ac1f5b126c0cd35fb81713a25aed57cdf755904dc51d5b015b0b67a3f704ebd46d5e0e0a69b747926e451e5dc55517580e6e367038e6135ea2228defa)
    (by decide +kernel : ecStep _ n15 n14 _ _ _ = true) n14_prime

/-- a prime of the chain, 1018 bits -/
def n16 : ℕ := 0x2fc168dae42b930c3bcf41e9a6df2e1217184a5d8c0c4af8a5c0d1c7f6beb94190e5fda0d8a1b24bd03cfc3b632ef0ef567f5329950c4a946f34d60df7f8e336256647eb004619b8e3f8982cfbaeae967f758f379160e24c492305a8ef509ee31a3f9e5d2b9dbf7a99493cbc5c2cfa8e0b9769cd20d81efca84004b208ccf0b

theorem n16_prime : n16.Prime :=
  ecpp (l := 961) (a := 0x27937093458132e8390ed219819a1ef5b0e15813c74afa84f12fb76131d0e73da1b576aa8979f4604179e24b2b0ce85858763b7d4dcacab84df0724977791d35b9c2adf41be92d5473b88c63ea273189f6eeda43405f3b1db14748b0c2b77bf58222d2948ea5b45996e313995b00eb1458259a275f4d9fff64aa72b6aa6f526)
    (x := 0x2f8555074a68cf30a43b6c902fea7839911cd0977c58f6bc457b49ad8e926179bceec57eb1dafc2480cb1dfdd05ef1f36fbd970326c42dff195dd5422ba18a536ca0e15d8d55ca0c69551277d99d30ff8691905fa7e4cb324c277689851affdad2ea95b4ef33b4a16e83d710a3f3a0e3168b326d7c9925be5f314fbced164e6)
    (y := 0xc6307fe12fb54fb8829d9051994a2f2802eef35683a66dc98eaf1827687dce9449a6c0ed148349503f8196b8ae0c3d2caadc9b0bec1a2cfef6c7435f5a306047f30bf391a48095846001ae1db57c90b75317f57ddfadfd5c43ea789824e30f010b5c70b04952d02229f68239c233302be525d8fc4c66adea7cc8515a32ba2f)
    (by decide +kernel : ecStep _ n16 n15 _ _ _ = true) n15_prime

/-- a prime of the chain, 1073 bits -/
def n17 : ℕ := 0x144ef7e61fcfddd6e0878cf84cdd97eaa087f406fe493a914a36543b89fcc4ebe4680ee59a7007ad343611bd1f691bf36bdd7e1b2f7956ff95be67bea80b4dcf43d449e212f29ff3755d73b4dd3e888b1dde682c5c28da94aa37d9b613f22a1fe90fd7537df6cf36d00d59d28f1e0af3f905f4f7b0c1247a04ef94d7c1c10e1119497fad8cda1

theorem n17_prime : n17.Prime :=
  ecpp (l := 1017) (a := 0xd18a4e70923a28a39ca7229c8050c7bb9c1419ab5adcacec754ec6b6833c848934a2e37ff65b927500754b5d3427415e17b03b8968f0d4a5b71eff4bf67a989cedf5b79731f132d7d2b010a213bd088d2604fc8fc6d899378b921e0bea5df8a4011864fdac8319f17cd05ed96ff698c19e7ae636536e5e726990737555aca63642f0ebb8a71d)
    (x := 0xbae5ba9a57ddcbc4b1ed7dc53183dcfd8e09ccf18a2e87b97d474397ae61f49bbbacce947e59ae9f41eeff5e1a150106eabcb9a62b6458c0e7a6c3c3a428a52adfd7871470978796bdf34597f257fa64d259627343ecf94662ae6a41d2e48f8a7795d84b210300f71c23fa088766b62cdc1bd15c21891360f033c3542cce7009518e54044c6e)
    (y := 0x1256f1a3e34a7b3f51978bb98ec1b2ffd07693d37b3e12d8e1650ee8e0415c5a5042dec011e3421544ba5721d9c66625c7f244d10bf99dc2716908a9db50a5b69d8cb489a353993fd14040b4ec8d59d79e60cdf994aa9544273989bd1ba1fe5a5c8be06184fa1375f166523860293069426f2053dea92edafb7f2d812f7c304dee3696fc8d1a3)
    (by decide +kernel : ecStep _ n17 n16 _ _ _ = true) n16_prime

/-- a prime of the chain, 1142 bits -/
def n18 : ℕ := 0x34c50a59fe7a0780332452ee826cd8bf7be074d242d2338db2f25d76399e0a761e843ac400e662f1c96f3202a4f2844146cebaaddf2e9597adadb4d10c1e73f4983c3a9020688396eacab036648ee23283427c8b9bca0bbb7514de31ec2c23009de10d6536c8a29200fbb88e66d8d09921b51bd2a450de569225a64bf980e4ffe9c129a24f9c3aea263bbd295f40ed

theorem n18_prime : n18.Prime :=
  ecpp (l := 1072) (a := 0x2a16edd215968e14a6097750330ff81a6739655fad7f282c4edac53aa22d8de26d500872a39d6f680dc561d5930e352a745263062605e902dbc65beeeceb4f0591860a68ccb7058778c1cabd204c1418b7563db0037b5683b3ef2f208d56d20abadc85667f7aedad72afc270bbab4b8765bfa25e8887ac2473546889653114d091d53ebc0aaf6144de1c73bdc517ba)
    (x := 0xbd050a96704438a4a1be5ed68b08749c9374114cf187c9bf6f2ece569237d1c0cff68bf173fa73f3a995017914bd7dc894fd4357f456d33f0f64619ba25eafb5088641e6a7b7109b8512e3f85fdd9a8e2cb70bd98d8baa2ebda6f748d72094388bfc077b1eeb5ed437a026776ebcb09f6d1685e79ab4a1b02e86e7b59d686ec3ebe71a18b379acb54991940e586cc)
    (y := 0x2de851390dff5330ad042bfc7af5b4697d40b9bee7f5280adb8b937b53a1ee825277838a4d1e88e2a97214a9e831c1e6012199b0fbd738c8bf97bc223760ea1a5063d35c0a89b07f82d15de80a048172f7b9303c411251e251bfb7cd42dd6ef5728a1f8dede3280347d207736eb9610ddb0b87928795091543c14276cc7440db9376866fa35ec8e8c4159195bb1dc3)
    (by decide +kernel : ecStep _ n18 n17 _ _ _ = true) n17_prime

/-- a prime of the chain, 1213 bits -/
def n19 : ℕ := 0x15b0edebc78a6128fbd7b459b2d6cd470f8bc3e7f40f03acafcf31e161b9421d445e3cb4c2166f4016ed882af71fa897c67ec5cf27f17104b7a94b5a7acaa98b38bd307f695aa65032704987d49726980b2ce26f016ebc73e0bc3b6063584a09959d258b9eb44056845cfb59596b27c898fac65c87c2c2a4e239d77eeb78cb61d3ae96ad4ecbc7020e88ef8a2ae00c6dabc668d87e91404b

theorem n19_prime : n19.Prime :=
  ecpp (l := 1141) (a := 0x127c77e9829871b86459fa84fa5bdf66542e54fb24c139ffac2e0e93c0876e5277043735f886dbdb234d377b2322b699250328d9934fdfe7575818d95f9ace1a66a1ff1447e4d3b657d8d3b2d436b16af6e5db9ed9801d56892591362d80e83160af8b997c9d8cc3e038ecf39478a153a61c538c93e259a7f0077be99381979c9b72ca99185ce51af4ba7fbe143668bffd456496f1ccf1ab)
    (x := 0x210b11c3bcc61932d47fecaf1ea60d3665341904129fb8bc576991ca9fb6a197269cacfbfc8d1d6f138e32d1e10534170ab468bcaa005da3acd89d1659b8837a6280d39bb4a88f38aecb3e048c60caaa0ef348b58a813610ea779435a86480e62c4aa82209da5c8988e805186e7784c523e70b99056df8fae79493572c3ea3193a747644a4061ceee93d092be52e1ef07918b4a4049ce77)
    (y := 0xc3b5c3e4d8aa81106638c82557842bcdd6d07c175e399ef56c77c3c461bc2c6c57f6fb4aa8bb1fbd34bb34f82899ff4997e0ae4a6fddb6ddd9ab1f365c4c47d61a148f387ae714c07a874b62c88d683386046400d297eee75f332948739eccf1fc0901188096e2f7075ac661a9b49e7eacdba6f125bc72b240c107a4f357e97abf78a0348de1737f4c12961f4fb547fe28556e82634b7b3)
    (by decide +kernel : ecStep _ n19 n18 _ _ _ = true) n18_prime

/-- a prime of the chain, 1305 bits -/
def n20 : ℕ := 0x1b4113c25d7c89969d17187cc59fa9bf9d804c1f766bad4c05eb7a201673db1a17d6c99816306d50d8b73e4e5fb2a0c856f8c7ced03387147c329fc837c02f88a6cfb674b710e77c70941857add5aaadf0effa5b4b342335319eb4df3a98ec668d19f042e248c3d2029f56705f8635048a00326b82cb3989ee624ef1b2edbe1b5a05ec96f9326f1e41c2ca3ed811f1b4fe487863751dcbf2e15feed379da277f9e3e11f

theorem n20_prime : n20.Prime :=
  ecpp (l := 1212) (a := 0xebb96990370009d6a294b406e3343ca079163f71bac1e03ea93257a2eece80c233f7abd9a4249efc92413c92e846baf9d2d78ef3db5733222047e8e98dc3cb2fec88fe7dce35ae697b1a3853aaf7881e08ca49228cbe73d8351c1a50780680b8aae95f17cd9c17de8e86f10ed7f12aacecb0e54888e472b88b5728960d1807cadf3c221284c3196b76d025537a02252408c2bb120a461b7c54fd70b5d76d2c5ae49a7b)
    (x := 0x14b4859c2fc88daa86249a1d4a84859bde824c458a0547b670163168c38d7ba508adf103f9be66b6715877a724c35c548c7440bd97a427cdbcee6f5f846959b2706b76efb8dadc49a611e77f8247fa52ae27176c3685605adba6245e1619e25ff802213010dfae45d4a301eec0c1c0db28a99fd381c00bf98d62cfce33d7591671c9be69046f58f242b7c2c88877e03600421d4b7c9261bc11fd6be58c3870f794479c4)
    (y := 0x602995ec0cd5004b2bf85af29ca731a6a1fc91d937e91780183eba8c0181aaca556c5675436057fa2133cd09a95e475c665d7745c4ce4f327bd2ed5e137c72b4d3cdb61dc3fc68a916b4dbab49cbabbc1dc458b93432c08db4a192660e0beb7916fea14af3d2b7b31c6df887666b3dd2f336360d790e5df4045cb2b354786902b411fcdff5eee0b4ee7115eee0674c626c5308be66ddcb09f37a2d1113472d93961794)
    (by decide +kernel : ecStep _ n20 n19 _ _ _ = true) n19_prime

/-- a prime of the chain, 1341 bits -/
def n21 : ℕ := 0x1390fbfc4cf08137708984f623b6f11ef76af42f316e5ffb264e59660c66969663e2bf410a58fd74da6b9c312e1ff7126b5a4c9591d2f85c1e29e05b9212c7975466d22c3efb7e69f5ab70480b528cfe6462e6b45700d08c0547bc854906564c2fae6b94ff91c0eecf699a62e316b2b7e4cc20edd37e117b52449f1fc9657cf37534d913eaeae2ea1608fc4e4a8d8642dbe02c8507af828589a9878c207b9533ee345e5f91a4fb63

theorem n21_prime : n21.Prime :=
  ecpp (l := 1304) (a := 0x65d204ec76389bbe5db0aabd7a0b5fcbf93415a5f8021ccc283b0dfdf30ef333f740c75b6c32427c730733dc1e56aaa4026f90e35b76e7e177a86fa0828014651bbe70a80e5e654ecc62d905bcdc7ed050473cbce87866a952ec98c0a325c139d271b8fc7ab04517eae2bec78acae1cb9c4be3a25c6485e8fec38b4644de204e067ff6bda6989f87927f76af1131502de6fb192a3b5cbe00e590d0762adf06ad05b8e732f74e814)
    (x := 0xe65073cb02cca67dde9347f4bf230032d9af821e3866f23273aeaad6f3f5b263e7d90750bc41544162bf22e153512c833b029e5b67809309de22a81416d5ba5e3d952efa1ace58efae2fb6d9abf80c2c664b3836f71ea46a7a2c3a8717a6b079cc444f369b94ba8fffb5faa0d0ba299f9d69bfbc34a537e0102c0c75b7dfaebc632001a5a0b528c756cdcec050d12195f2b0dbbe6925c47eda66c2a322781fffdc589369b762430)
    (y := 0x7bccca547b40107ec4d52a6582eeb7d80f1cc5c3882a1ab353b83fce02e5e0e37b9373ab01f04ccecf4660616d8b894f84192af7499ef27910bbfb335d339a4337195d758eb3d5d0f8584c1fc7e03df264a179d9494da06241fb9ce16098034bcc29718d8b9e147e7b6d5ffdda30cd279feec455b58471b08bd2bd062d497191e4b27869e901aa4eb1421eef8927ae67fab8f78c05690148ee290538e902814b62dea472a189ba1)
    (by decide +kernel : ecStep _ n21 n20 _ _ _ = true) n20_prime

/-- a prime of the chain, 1388 bits -/
def n22 : ℕ := 0xaa00eed5f10be98fddea8f0677c8dc3f913668ea0059e7b8e876e53f547847470886b7bbee56f50b4d00ea418ddc8c6a36e0c8c016a635ce2e6e5d122f5b2656e69f10a49cd7332b1b0922e1e669192db2e136dc10a775ea04a423377053d617a54f94d65ce357b2a2ac6f512291ca3125f25e4e4c0e940a5146ea4bfc097550d4f52cc27ce25b6096f1775994b4ca3c9bd77f7390489c839a3efae0db65c333e5ad6e5bc8154df88e5375aa4f9

theorem n22_prime : n22.Prime :=
  ecpp (l := 1340) (a := 0x3e3ff861d5d91c4452484522ba40d6c52b898b0198f163491df497fcf835c26968084a1f2707b9b382953121e389e7070c7d932f8436561ab7ac08238b8c3dd7a6945e5624ff2aa912d75b9628ad12a69bf8b0b3d3ff6d5efcf40e100b4c950f7572907914bac9008c9ea720114ce53c6bfb4d431a80ceb1ea18c03b03f66271642f196c5d76719b29e21c880e8d450029b0f42954902d05bbbe4dcbfe8494358d5b16a78fb27e034b4bdc2b54e)
    (x := 0x17e28f5ab241d697bb10ef9c1fcb9c52317e65d156f22a45e5186f6ba8635809b210fc9b6ddb8ae4c8e8bd6dc3621c64a512e3a0a19c266fde361ce25168310e86957e67851fb0bac7b3778884a2064debcb29c523bdb97a07180e2fe4dc20788f9d547f385e8291b2d927872c666cf5510d9a85d366e050dcca666881423962e9fb1dfcf4fc92efad5556a7a3aa3ea3bb767d1c7fac17d9dd1b18f150151ee9d6d51a8db189a479713d31d17fb)
    (y := 0x1c68a907e91157df826a445994c5d5d381c8490033e20ae54a2c41469bd43778d236471e6fe369b72fb0655a3fdf8e47e88a59770480ace6dd77d0891833addc08f25c663dcd580e61e7a8542f50c7b7073f2fc279c592fb9d553985c5855dce842ae4877c28e04a1d3c7d84d185b15b9ea8cbe663648c07e9ccbed8d9b3435793108944d2ba8bcf83f0f1269dc12db2b865eb21f383c0be99e1ee610ae3a90ddeb10df7e55b834022c424dcba)
    (by decide +kernel : ecStep _ n22 n21 _ _ _ = true) n21_prime

/-- a prime of the chain, 1449 bits -/
def n23 : ℕ := 0x14fc461bbd49afe6e72fc4ab1844315a47732f05c6611b2b64e7700e45b4d31bab62a46aa8d775aa132f0103d317ccc68b332f9cf377afe72154468c68dc2c4c3ebbb0cb9717bfc1143a558437f0bd81c39ff57bd8790c4ab33ec947ea3ffd949908d65bd9d05d3d7ec5b85427c7a9ab6fecb4fbcb4eef17f6a98440af2b9be0fcb78b5035fbbb94eb6b0b39561257918b470e9bd855c611f9aa140d493554db1490cdc3d1e1ce239cf1a1d54b185246b4c7022e9d9

theorem n23_prime : n23.Prime :=
  ecpp (l := 1387) (a := 0x10bc98972d5226cbe4b4730e050a2447b934136ef0be199fa81c68e8b3be1437d1c7ee1e0447a61966fc59e92bf93538d546bc54eccee7917f70e37d38998a1f9625e07dd380f4a10a7f701f66f13ffd03a8e97401293603a194be7cadd9d3af2fa799116249d9adffc2da42eb1909e472fc3f9521740898b2682ae05b56a9f484b4202214eec07a8c8fde591146750d1e72c3c4a0294607077c5888d2c0673e262d7c54d19eb16d212589ca11fad11bbf4f0ac755c)
    (x := 0x718264d2d9acdcc03c81759db975820435e1a09ca71847a55c5e388f1257e76f0755ccc5699072c8a7653d4900d0a005c109988d7129ff5a76f47c2640ef8fefb925cbbe7c8a449f8b63fd3cb6b01b50ad3cf3d1208d8cae6e2b5b6083815fd0a4e16284a187478d13190901ccfce27c56232e50fa59029b38a620d258523a5c0c5e1c16cb08b5f2151e244cd4af90d8ab074d510fbe76ad5640fa501d56b1e69517344f558d45835e75e48544e2c7289528315141)
    (y := 0xf9787983fe2537a1c256460c4d493d200df44968a4bf5467658dc5e45bf3bf0b956f20fdc4029a1e9963b3874e8229fa859d1f3f151fe04008d13277614b4f52e59a8e62a2a91fe5ed3946f0cdc6b9c994a42c57ecd4c1a19693e4934ff2bf22fe1604cd185dcfdc0b01998936cd6c31ee11acbb0c4f9b01b7222d5f4d1b8f40230aa5188a75f7da87379a5f51a757669f6b56adebf43f8ec43870c1d4f56e4666e2496369811ad7a524b5e18a2db5dfd41980214f)
    (by decide +kernel : ecStep _ n23 n22 _ _ _ = true) n22_prime

/-- a prime of the chain, 1489 bits -/
def n24 : ℕ := 0x1372340e95de88e4197de59d04064084a9d01adceb4ecec5822968e2963ac777d6ca0eb07df299340b2ec9f40e276eb56f7a887a0d7399a9759d26141a0da820a90efd74041093bf5f1bd01c16754b1e986ebef559620dfcd366c3e2e3ab0cdb84e2412716f63b75e11577af6886fde210388d9d555065fc4c96543402bfbad4ea4e91e05e964d2166c8f923dac6072b2dece499ff56b268010af98f3a1d7ecf333e8bab9b4c8c90a447fd5e31f0c35c10d2b791b79bee77bb005

theorem n24_prime : n24.Prime :=
  ecpp (l := 1448) (a := 0x3ec290a5c3d84fdf9da209cb678004d0f2f76fe2a64552f7f2a87343218fad14df021902bb557224b55015151a00afd2cbb6e0550af91012fc0cc6690a339d44d9f082f2458b1ee2b7d892ecccca3488b56efdcb3f544472128a2a4d4f4313137fff7f071adc31c6c3fbce8188ba6139c3aa871400fef73c6f7398bf86a57ceb9f34bfc240994f6209ca31e450ac611617b3a718aa727b32fe14d38ffa3823e4e647784b7be848517abbe1cbf18276b358dbc31445908dffc2c0)
    (x := 0xe9aa8d548c060bd1bb974bd8fd7d1eed5b5f0bd37c83ed3fedd030a4a0ce5b21dbdcdfc10b2fdbcca4c1f1ef497c1294ed3b70570e041e4e16bc474a555ee7ca458b194876f0e8b44958b6fcbde8719ce88c56c9b060023b41ec42996287d819237cfcfa12cdbcaa96b2aa1ee981194eae7e30e7acdc98c0a9722484efc9b9226bc469c74dc3b4901b504c73315d9780f5241b29c3538f489969b596488f4eed90c9b03466a0d4af4e8d2e928284ea4b0f70fdaac9b502a060ed)
    (y := 0xb3976130ffc85d412ce0e50ac0e1712cd95e7d8ed75a5f6c00eafab5a5dc2f092aeb221e00bbc24fc23b096bf47aecb6ef6d5bb44fd91c0ce62fc2d2aa9e192c5d13720c4aba1c0578959f766a556a66f9e1f63e9bb33d3a1ea7fc91292b3f59e54f459cd69fb9d359c44f2e3f9129407df6ec3cb2cef6115066e4d03dbbf556493ae23426e5dbfdb995ebc16fe422f6d9c6ef0c20e3102a6567a62cc2f43831524ea3e5fbe11dc4ea8c2b5079d3676de7169f7a6789d125e2b1)
    (by decide +kernel : ecStep _ n24 n23 _ _ _ = true) n23_prime

/-- a prime of the chain, 1522 bits -/
def n25 : ℕ := 0x2666aab6b0323e1ae4e5c475b2ac31036472d345fe7d79342b9b642eb1c6986ceaa573c5e41c991449f7818b722eeaaebcc8754520663e1573645f6431e0456d6f720f05d49f2dad823ba3d4483718cafcf00ba23ab8d1770780c90b0bd68234681aeb2ae8d6807d47e9ca76f86bd6c0e048fe9024b7ecdd11e630cdeaf24b3b541b2bad56c741b3d7b8af8c3896fc6ba2de861b574a44b62efb87a195bddd925d01cb5f875a88a395c24887b651792c793c2f2e82010875dff28a21b9393

theorem n25_prime : n25.Prime :=
  ecpp (l := 1488) (a := 0x23901651bcffe4054546c8eb4ab6f63f19b0a668046f53e849f4ba6540e975c54c8dd8bcba11beb609049d6612e7932c65f6bf09d6ce790a36c4547e647056faf842e790a68e6052d140c8d56fe4b67964626c8e2495ee4837275b2bef5d71946e7c26e87bebf07ad692a24da4d85147ec7e75bb11d13989d392f22f3aca88f1227371739a856345194778e00d83457cd5adad6468a1cd6ac0391ee9b19efaaac7156d7c185a3f02470c5a3e6162e6e757553fed09d3676aead8e0ed35481)
    (x := 0x212e0653a0ee0d99774c3e4035abca4e1ea3f8c760592d1b43ca50b04f66378debbf1fb2138676e080286b620c64c9c4eefb891a138f234a9d31bc8ef348532394eafb8698c1f1acbe1e309ba6190ae5b2939cf28257c6b022f031865d6f7244667d2a1845f911c8d0515785407b8bd36ac0bbda8fc863f5f69baccea5e5fec1274a82cae450c8b1f54e104d574ea670e455549b90f1b5ffc1e6cf3dddf303400756f84d02cf5865ee7dd45762cb850a52d4f88e28a6a2254e1ccca19fdcb)
    (y := 0x78698f8ab3a477df464b8e7e0c918a29beb474537d6f98a2b00881f1ccd38f220b162da56aaa0795ad301d9f42ad1230c284aa7e0a825c246abc035a89ac4b3907ff6b34089a97e81e7d0b1c03fcc6fdead198d125bdc6d163a37ab049fe2d43b3ebf78747ed8eca966e525b3246f818ea61d0e6e6850acdf10a2bd8f80c178d62d1bff6727291ce9a4c3c1f13970bba4624ecbce9eaeaae3aa97125a8c046c32cf9b62e50362be51fa12b17fcb40ddef7cce7298bd224f7f36192485a1f)
    (by decide +kernel : ecStep _ n25 n24 _ _ _ = true) n24_prime

/-- a prime of the chain, 1574 bits -/
def n26 : ℕ := 0x2a1ec51b53546f4251b509636a20f095a3f81fb2af411e4e23171ec7e533a00558b229f0d102cbba179e82108304b1d4e656a9185987bf5d938ac2eccc9e8d1114fa7cc7ecaf175776e61710d4b6edb942afb9d07f35d154c926350ce2a090c4f5eeb311c825a9b029b449ff2cdf96c274e4fcd67ae46d7fc5296ead16fa5a03b1504b1c2aa9a1615655a41a1551bf8788a94e3b7af2ff4d90b4b65df753fd06d3c1221347e4e34395a632363c937db2c3795ac8dc901a72d601a0ff4b023e677f6aa14ba3

theorem n26_prime : n26.Prime :=
  ecpp (l := 1521) (a := 0xd2ac57c7e49d9e297fa62db11235340c765d5e30300b9475b968ddcbe1e21eba35b1586a3b86e4f7f95c8e50d4284702a6ab941ee94f9e18a44c48e976a85f809bada921a12d298be1e4f8a98fae02a429ed560affa748c6bac92f93b6e3f71c721c9ac0fab671c8d34ff8c2c2888ac3aecef7c059f1171d7cacafc301fe1d292d21abcfcde41a204ae76f1591435d5b3a29b8d729f58701bff6d6bb3069e434b3226003cab8f1af6cadcb2d7ab3945146b15c8be0954a5e80fbb213abbca5c5d2810be14)
    (x := 0x26d6fe50a65f95363ad804a55e7203c6613818ada4dc2ec80a5f7c71e362bf0f9615326d964ded5f18334d309ba7c4029c226dfe55cafabaad88d670b3001259d03d78814976650c5cb04f06960dfeb51ac69d3255a6920351397f860998739ec36e318eae21125667f76048e2514e21469068b7e9124e076fa3e0a2788ebd2c1e4b3112745483be4bf3a4695925ec21ddb80a5d81e7435c2cccccad7afab15b8a74e178aa9d6a15416852e6f55d26ec7fe6bed6ec8207d552da10cdf774b126ad83077dcc)
    (y := 0x1d4f8de42b9618f86fec389ba11d8875029fffc6273877a495e125059e07fc5d8bf27d37fe9a03ea9443352ae37b522c45c2a7c5bde58af25b3378b621c187d56b10ce0f3a1b32c3e846dab1ac8665ad198a343bec89b93985e355481a2e9c365f9eae000c035cb8bc8c5f27335c5d8d4139417d9f1cdd4becace8aa4657200620fe9f5c56139f28964e3d6e7e198f80ba8dbe619266ff45a89c6c3783c6d67905af1dd7ecebbbca38c2e0011f08b08331eb94930f19ece20dfabf3f056613697509b2b364)
    (by decide +kernel : ecStep _ n26 n25 _ _ _ = true) n25_prime

/-- a prime of the chain, 1607 bits -/
def n27 : ℕ := 0x490ac33c283bd841d459ffe1975b1ab9f4bc07c40f48959e899ab345e6fd1caa185c62daed78e764e165d1849bff90d812832f48ef516fef3dd749d9b19ffeb8cb04f6c5dd620931166b6adbe21f83bda9899839356ee7beebbac3fd07b26cd52352c3c8da604342bf75abb89db738a8d0e687da87d4bcfe062600a49743b006211458593eab5bc178467d789f6a685c58609f203b22c8c2fd4224f6a566c60c55120debdd9094dd58c5072b8b8567094ec4e95f753d4783a8ee26a57683f22f17f8f9ac794b532f01

theorem n27_prime : n27.Prime :=
  ecpp (l := 1573) (a := 0x1829594f633869847ed8068d18c9858670719e7fe3556e55c892608229425551dc65cfef403fe67aa1a83067b7c29bb9c60522716c7b686cb3cbe9725703fd190af2461fb3052f8db0f79a4ab7b0e901cab3dd2537e96ffe76da1346628bd0fbc90b289723d416f5a0ff47dc0b903149f6b91689c60cb40d4ad31e1a58ade6126982750cc19c4def0c1c143cd2a78801df5519f1c062668ba287b44925915e33d8a829cd6b8dfe97cd6578df8b7a6d0cd7671fba537248b191b6119d9309bbabb84804d1737401a5f7)
    (x := 0x291fde39658b04cee82d007537ef3cb8262a73ce05b7b96dcc128672e863a7f8ab1a8a5ad1fe158ba14a3d2e4aab91e0b27a79167388740d1b20edce55c4a5a3877b9023bae185f3f605eae9679a9c772494eeec7ef4ee4b82246fe11f0e63a6fd23cb75af6bd1872c8647ea3ddf77df51d726c042e6d3221c464784141bc207a1ea9992253ba29e69085facd958f3b811e9335d5502787fb1dfc335800a67c79cf63eac36c4117033c86eba17b49e7861e44d2d50ab042b9639173ab31e27abca8e15c00665ddf4d6)
    (y := 0x2b0ce3194fb93f16276ed258a827bb82996c44b7335ef7b8d5c8bfcc3d5b76e1630a77a5f2d7e39616338adc14e03484b285cdc978ddbc6d7dd3b38546d4d7b24fc5745cb1d30245cc7123f5d95bf3bd444a1580425e4130129cb4c3447c48bdd2eca1da1e372b7e23b2c37f52faa6430ab639441a0423a96f322fad0eda2540fa316e970b497b2e5331529a11c7091d24ebdf468ba765ace446549ee21368491e580850e685943e9449a751207aea2523eb4cbd8457333b1358fef699f92637cb7de2c7f7a730a45)
    (by decide +kernel : ecStep _ n27 n26 _ _ _ = true) n26_prime

end RfcCert
end MscPoc
