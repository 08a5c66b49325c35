import Verif.Lemmas.RfcCert2

/-!
# Elliptic-curve primality certificate of `(p - 1) / 2` for the RFC 3526 prime `p` of 3072 bits, part 3 of 6 (generated)
-/

set_option autoImplicit false

namespace MscPoc
namespace RfcCert

/-- a prime of the chain, 2104 bits -/
def n39 : ℕ := 0x844647c392c04c80ed6a922c4b256d5dc5a0bf0f9e0048f960859b0111966e02bd2b9d6b8c5779d359aa8dec0a1b1d01002c1b8f647e47125a50c1ecec897ccdfdaafa48a8b4e2be5cf253a58e06e4935f6b992f9152ce12335c1dee68bcd73988e78acffa68f7c504f75e6d1f4a11f0f7a43c6ad3344231f326404e2b019f5a4ca5402d2e484e785f67d70bbfec9622d95fcac285dec476caa90cf6d629f0fad7d053c48df026ff551c106f83b3b091d9a8af4e5b6e39da15ef3a84542e9d1dcf9bb300864d8b7bb9ddd9e7aa5fb45493c00ae3ee37b3629aa8bb18b487a6fbd520788c11db88d334ca1bf6214af802910388af1443e3a310806b67a3d4e595c7af9ff32c14dd

theorem n39_prime : n39.Prime :=
  ecpp (l := 2075) (a := 0x59b14eb4a30ab79544e36a65cfea1560be882dcd34fe58855108ba86bb258ca115a658eb683f7342928add467915c32e452cb4af06db417bd36275638cd07f4532592ec9947761c63388eca1721407583ca3ca72c55deb15b2a98580595a6cd49ab86be1b5248b02935aab3cac1d10cb4b4c4bc7cbe9aeba5572c80ac670a8a5df6ee77b66fa42998b8413d36c25a8909bda08b77d576a386e0a63ea51587a993ce5dc373ed7e793f025790f61c3aba120f1e5662e5a6e0e15bf50db8d947790c0dc8ceffc75140dcdaa55d1ab6f989e039c9ec94785e6d2663dec2b30e8eead5966601fbb50d74c0e7024cfa656cb642cf8ff3c56a9ddba619dae212e205aaa88e5b6afb7ac59)
    (x := 0x3ba352737b27ee56989c0b56ad937cc17876cb7f4b9cddc66f2b8a86d6c3ce9b398f1e685b65e4d7d9965f13b0ddd2c011ffcee073b8a33df430e760c8be90d8b29895c3385d9966c78e18642d8668c05b39c82b4857d266ad2055e4a039ec559f97894a5df6de779250a5ab58bb81c115f3583f7b36fc586bddf35fbd7dcd4a6cfe803934b9e0e5ae5eafc743896a588b27de7441086ecef4579227925fa316c2ac9ebfe637f6aab8c646b1bf9e33b9947078804f1b8081f02587ce0675d15eb0e3a2c661fca146bd74383c08d8257db28306749848e12b372d6044d77116b33b70dd6c3412b741dbe488c431fd251658b775de9b1448c2c6e9b34880748d82bebe564019ef4)
    (y := 0x508c89a53b329b584e661a2dba7bfa424a2557414daeba5ec5b9bb964783648e4d7126fc89808e53697793355185448cd07da35ada158a8f19666f714d0e553541c927012483a71c2d46dea1b4ca4a68d1a3eb234369e044e82433671878f19e7e37439fb4c0c646872ea72bb634e276c98886c547172382979b47937ade0671e3ef57682e803d151e657bd80e3ede997f0f9e8c2f27ed593f4dab602756608107e9296fa4747dfda752dbe07f75a62e83352492121efcf0c5ac792861c7f839c2a31f8bbc4ddefd94e9297169fc60fe7e8302b93f7e5c0ba849ba1b9fa8eee2cf052f37d301a2a447720760d382dc30dbf3abdd28116c2bd64970f611d7255db77d576591cc8c)
    (by decide +kernel : ecStep _ n39 n38 _ _ _ = true) n38_prime

/-- a prime of the chain, 2121 bits -/
def n40 : ℕ := 0x142a52dac1b44ee9bbb1ba2ebea8c1af46abe4809a7f5d1ffc85fe4466b565df6ce4d12cb05229f387706f48d6fe6828f20db967993afc47bd42c5c0658369c5cb46fbcde9b02b7d335d755e8229ef02b39100476f7096a8685270142379a1f3a66e047a7ad5d69dca24d22634c023c23350cab1ed18bc836b6879d7aab06c521d25454ba11d36dec3454c8775b8182d8df6729bf9c9ab3cd82e757decf6b60420704e6a354416045623f4f18e231feff5cc51fd5cba58c82cc86abab2a55e60564fc13732a9900c85fc311b856ec9b974d1e7fe0ead71f80cb8f769f6656e1f7a345a7a37964db129bdcbbf9621067703abae22a38b8c0f988915b14b3c9b20e2ce12f334d4d8f5f85

theorem n40_prime : n40.Prime :=
  ecpp (l := 2103) (a := 0xa507d37bfc607e028e82c7ba05036e478fcf90f1d3a92090e459de343794ac213f591737e1d48b124d256d5e20425ac2683c32c73a57a5751460a8bbf48687dff0debecc408b5daac7b1a1891c4a54bc1d2ec54304ae0d25bd37ce71893dcae18c0bfbf80feb9498421fd6932ec56ef161ee26511a6992d48505fba7a910601c5c435fc4709ca6f123ac4d01c228c3e3eff31ccf294c99e49fdcb3c915d960b5e0e01371ed4c9dd1aefb4d0071080f5fa9052d85ecf6d75b03448ecdd0f2e1e26d6178ad8466f882645d8854bcab8931362d756fecce815aa88eada774414691ddc180cd888bbf616364df28ba995e7c8e8b213d87f875e5df7fc3e3184caabd6a982d0f00e5273c9e)
    (x := 0x69a16ab367a3cb1ad6e534947c84511378bd53a981907e35a88371df1515cfbab64aff168b1d7e4d7f70540fb018c583b2c0515ecf490e89dd3a51da2fe4f0c4369a11a2824160bcb30f910c7063cdb3fe4e034557621de111db45cc3de462c4ec17d8268458d1e522b02ac337f4242a5bb927d7fd554e06fb4b017cf8b59d5f2e1c853e3f52c383238aa1ce230ebc70e9b575680b8890fe25bbf9e95f51c9298dc6603a38a52576b53468a08c6159048be7b0f2b7a577e6bab4445d2b5a170f67c57b722e7a1f91b07a631f8f34f3afc66a985319f707b9cb49ac669c122740a47488f0d2f3f5bb3f3d8a333b8ee4caf0d23389ee049cf27037ace3fc60c61ef504225307cebe9020)
    (y := 0x5b58c50ab40ae7b401bd2dacf7984ce8b58b75078fad4efd4b2f36e8b96b24de1036b435f92acbf18652982fd432f149125f6a1f34d62368830857b5511a596a9df4a6ec6a88d02fd176220995f46d632bcd098649228c26c0d7398c3f9c52cfd4b33918f674b8cc33682d3e759040585815ea9c4094e11b736556770318c115853ef41d46aafe18e4c590351931a5bfbae9e0e89649227032b4853aa551843d531edaa25bef1b8d128457b3ca623a58733d678b9d2a189cb720197ad6cef07a5564fb625165161f8a264274fb25f47d45a3ab1dc7831cbda299ca9b0603118cc716a72f936c444b157fea18836ea72173be9de2142a744ee109f5dc0b3651885ee4d7e9d8dc1b6d15)
    (by decide +kernel : ecStep _ n40 n39 _ _ _ = true) n39_prime

/-- a prime of the chain, 2150 bits -/
def n41 : ℕ := 0x2157d1eff8db376b381cb4a21d0f02fcb394f63df2c6fd12fdf83f515b75dea3ffa6e7cfbb4566f7d1b9876729f8186db87bb1f59893a97ba05b3013723a0e42374f1524beb362a89bfac8054ce7a5d313c49ae827ddac64919f36952c71034b4c2894f7a9e83a547180529ba5ee8496bb2b79af80f3bc842bcf9ff9dfcc005f3763c569b94ebeee3366f3e1181d843feae2d5ecbbe27aaf60074f9f20d8a7da7169372edc936fec44b3b38a11e3a99d72c4d2e524a692e3f6f6b242b01894929da57fc0be08502f52bcf17ac7b9bf3147e99a87fba3612fc85da632d84b414e41e30b4b40eb229f8dd342fbdc1d25c32dedc6eca293169e5b8f3eafd9173587b5d1baf3aa4e17f7845d4734ff

theorem n41_prime : n41.Prime :=
  ecpp (l := 2120) (a := 0x145406f26d0ca2bb55118b33d90b709038c1cbb2ff78d7026325ed4557a6ae4b5e4cc9cf2aa929a6f86935efcb5480f62b6da9602247be4cf3c9c50d7e03831692ea2d02bc784695cf2dd4bd83e7120bd0d68399c65bc58e2438b3faede479701e9b89eec80e966dee00e545f4a617157861c056aca0cdeecfe2d0c70fc3f1fbb24fa84f268c62cd78bc8a51f01bedcb7c25ec45866b052a83f6c5765954a0829393faf20c34a62dc0e6d435c58bdf03c521b5f5f3620a179799def4d99e7e889e9aa77caa65cc91f7b055110ae36e67b672fe85fc4bae045411c9178e5dbe25ad8fe598078ed60e4f413f1fe1cb2133ae38570b811d9e7a822b19fb2a902143f2b320161ac4006a83236312a0)
    (x := 0x1da973b8e22412d1d7b106ac96b9b0243fce8480cf5434f490664de122518d53d52aaf35870f9b2278cc632de4e0df98545232627283ea68fa4d2161babe7db02c13d464cfa7a37b76243f164e318891a2d0a318fb834ce11c7089de403df4b9aa6965a9ff2c9b33db6a05a6522f5fa8ca60c2b5d1c48c70a077fb27abf7b2ec68b309d5a8c6e9f9befd8fec6cd82fca1b37fb36a56317122bbabe9f571b77b7ac9986003a6ec0660b41e7321b41b03b5b6f0e3f3e37d153ddb4f0fd6d41e3e241e89813db4369d0e25cff491cb9aae3979372804feb480231c3dc8daa4d616702138b153d20a10976619c1e5a1ec7f8d545eaa66495ac58a7675d852c8fd4b6f84c5903f88a51d22f844dbf53)
    (y := 0x44fcf593277e5f8f8e6bd5a1deb4696f84687f9291a715da58ae73a73a2d4bc570bcf106b193e4260e1a8ce5f276e962ffd32ce1bedc32ed7bace323cd8971888985db309c94416620531367eaec99e75f377521db3b7f9d4c3d3ab4c6cb15662a9a0ae3a3f567cc12c67322375000b74348006e95a2abfd3b41d967450cd49f0036441786bb90e131592b7a671b1a08b24532e7185c432b5fbb644a7739ef4ede8ae2f701d5ccddff16d546bbf1ead650f231f9bce935cfdd74cbe6913608509799cf08f13db7aabbfb83e20488456211633e963499627f3ffcef5fe60e1b7d12c328648e512020905b69f16107d7622a4c75834ff1956752e09c95260175ca887205611d15fad74d1c83b8f)
    (by decide +kernel : ecStep _ n41 n40 _ _ _ = true) n40_prime

/-- a prime of the chain, 2173 bits -/
def n42 : ℕ := 0x1dd86f98cc6bcd0540cd5f28214616024884b62c80b42926bb9a60996a4385a34a469053f49546ff031490f7ebcebdba18f407a9769e6d15fe1bc3d8a9c640e79981bd67c27aad975e9a46d94931bba9bf545ef12568405052ea09d2790c1c6b0a806da1764883bb322a74df515bdf44134b3df247db314aebb6f2f6b8cc0e39aa7a661c507f2123b0f9525355ad786b7b273b53d82b3a8e1a9bcddff4089bcea4fadc18fa5ffba47c7ccf4c00bf21adf2083a3ee22beb74648f4d7e685e5bcaf35c3fc1188b8555eeeab903e27105c0a21ffd3c2432be8e1e3cdbf76aa2495e5e575de3cbece53b2489c7e986bcec1e96db3bfbdfdb48665464f8e30bf052ffb09aed4cd726bc1640b4c5c612cda2fd

theorem n42_prime : n42.Prime :=
  ecpp (l := 2149) (a := 0x123466ae98447c1f664681085b877210441fde171987f5ed7d94f75b4e0393e0e40f75a31c556496036f1e33c78c4c5ec32d1d41ac66969adfab45b6210eea3e1baa579c40fe662fc7195cfd7d4a10acc1ccd9de6ff3abd1a089c59e5657e0f2a722f46da4b7e28f1072a842c5fdecf1caf440c01f5b3a7053813bc889dea04b13c04886a9c8c011b99a6378e71433ec23b220ddc3dc966ac0408c78e606813ea444b6212a921721a51ba2167515fcc74b46e6006498c6197048144467bc817de175b83814b0db280aac1315b1c2447d602009c2e002b0cb647e9848aa99aa5c3aa8346bffe726ce817efbcb6c816dc08b3ee454b99e8cc03369a0cef3d3f806ee15bf1ae939589b3a3fe9f450079d6b)
    (x := 0x1b86c3fe8909ba7c2907ac364e1e3c8298d3ef1498c962d8a9b7cd7a3afc7eb2665d27442105605316d4d92f6d172991e3c4818c51573fdf1ebc978232e34ba4c1212ca3fccb5ea862997e428d8cc0a3c59485d89c7ae48c20f74d4ffb1a8c47b10d2ec78815a37603c67c09d964c402d01bd6fd8e72035ce2da94c15057a89558ff2e18c755c4cc9bbbde8d3e7e1f4f6fec7ea8fde777fc9430b90e82adb8514fcc508cc9c1e9de6298a6606775dcc6a68244ade547731cbc071a232c9c13557f3aba26893d4e2cce555eb66255aece33497f058cc2311ed1651d28c18893f54c330ff9c28e9ccec8ed4ac569790c0a9d8d70f8c47287538c28357861dbcf4cb4e93ae4456345b2ca8a498f9f290bdd)
    (y := 0x1954e4687af0673b8ce3e84804aa42bf30578724082005a17bbaae36e893c9dce172adc61b93a667bd26b06b7faa386e29dc92778a620b24e45d7625c252907dfa37b938ee24d25dba3bef978a4e2f91216ff8e563da4e6b69595c9b80f457ed3cdff4df87b0e76f05e241a5bc9242dd1a476f4c4eac115041a19c49a717144e7bca395744eb31b01241e41f1b8d9c6f465a104f73b09915a1a7b6e3d702727421c5e16cb8b7136ff845e04abb84687fd19d1453b07b80597766dcc798796f129ca2789f30d1dd39e61429d909570df4d2a9c1df7a54f7d54afdf0089ba120e591b23e14f4e46c8effb6e79f3bf376657728210c8fb17dc46fecf555399a7aab173022eb0e0373c641cffdde8e9a5036)
    (by decide +kernel : ecStep _ n42 n41 _ _ _ = true) n41_prime

/-- a prime of the chain, 2201 bits -/
def n43 : ℕ := 0x109e2a7f6f6881e89468746a5189f717dab3089bbaca053d6d5bc2e9bff12fee242fa74680724fd59a548f4c2f78002d79314fe010eb24c452d54f19a3c6ee121dc0af27b8370ab583a72dedb6eb0bbe80b1916edfd63b1bfa8e75111ead0ef168eae510466898731d622f9becd564b429a6d60027b1f86352db3a4d139a6671a8389cc52b4e67a3e52c628496ee74d78e3bb4f6d7be6d6c0d8b6d240dabeece25fcacc21dfc33be14c1c9b4a4a5936eb7f3421a20f2fa972d2627ecb19c0039708606dc0368a399fafa05a528142ab59c4714703020f4076b723d7595dc1702fe8e89792dba505a43a154cebb6b616d7a0937b18f36eee71a8dd7c4f2d75f0899c2023315e94f935cc00e1eb1728802547f8f5

theorem n43_prime : n43.Prime :=
  ecpp (l := 2172) (a := 0xa17a39017d0b07f94fce274327187b04fa782a7b323f0bcbe9276783ac13989a6d3ba27431d1c052b12cd39a51c1072a986872abb873db341fd4bca6bd182434d95c464e0dedacff1ace949f8744d65b5d5055f1b152176aa8500c76d5041c457556ca8be7c0e55bccfa1e7a4b786a66fa44f399675de52d0b3f95cd4365aa049b802f9203cfdb6bea3e32173a4a3c78d56670349cbcdbfa3370d8a55613df6e527ff70b023a728416636e5908e263ff5a23e1d6fad4b5673a427b58ee6fa2ccf0c323426968b0d153f9438a9a2bb5c03a4e87a045399253b32df26a1975823eeac2231b5df4503303b5d00ffc71a331402fcb80d9f99b998963b8a8f2c6553041349587cb0d7d9ad351c8ca2f5177023e0ad9)
    (x := 0x89367e4e04dbf0c567734fdb5f2a43845faf17c23eed8c12d87540cdaca8b5a37358332fee1f25bf54d4872df2b36dbc81b9995bceca2b80adfc85999825ad5f5c03e06763cad8ab8cc05ba22ac257be2ac94a767e64c1372ad0f4d7cd6755303a025b4d0e4e093655e285967f24024bd8ba47bc7e5ccbc655862dc2c73f0af95bb9f10d84dec8f71fd715a1cb74d1a332bbb5afa17b82a0301d2c5cc5229f844caf07c3af3a7239e540d663471b9cb311078bfd752522d51a2e8197300cb2cb9a5cda0571c396b42f446c8c8c35c09c45a17691fddfa8f1c5afa8e9d0f675dbc90edebb4525e8a5746efc89bc2e66683e0048fc5ecf3014159033a68cb6eb5e52c018ee3e188dea7030da5cc5f56fbd786d26)
    (y := 0xe95da5606f42bb8e382ae15e170db402e3b68e1cddf8a947b08fe5bfe054d11eda9b463b0d6cc3da395760166e81f1c4b296544ff497ca0094cdbe48805b7b8deae7f60faf4e150c7775d6d8f538f95c48df06fbd878289ef0aa1b7deab7678c9687bd2e68567664511a32be51ff1f4eea3ca572b6913509370de715d15d53fd54efca16e76b90e6b955379c86cfd19094904b1aa19aff62b1bcf1dd332d1238bade8e1ad12ff90d36872a9052449f9a0367199adf71597ac0d6be797e4b0e77fe98ca067f7294e5b27d70f695729003546eccc21314f4cef32289e80838b20a304bbe069d24a82caf609eaaa4e0c7699eff7a60627a851496585586d350f9350421019caae763684961543635b91103e40629)
    (by decide +kernel : ecStep _ n43 n42 _ _ _ = true) n42_prime

/-- a prime of the chain, 2237 bits -/
def n44 : ℕ := 0x15113677439323cb1da11db02f2b1d48fea6173198957898ca0c9184767d24baed11b32625a4c898f3c9ec3c226799117afae09e476ca88f4fad1773e07c206fa3748ad8ec3afcf7b1b8108a63cd2fa3af5742e236e4bf51f75b5a8864d1057007b5e8052e748dd9f001feb0d1358e06d87630c345baeab00c8b0fb4ae48339f29897c63d428e8bdf678b6537e928a4c52d0eaefbcc14f9c4ba1e2906deab8682a829749582ec26f4e39f189083711e49a9d599d5b10ca438308b916f3753fae43d6bb230eafbe9b74e24b1394d34575695b2b2c928e1c55cd3f432a6f4b995ac86325073769ea5c42eb0005ad4410c2b45ded4fe1ec163a1ab5c4d2b1e26886998e6d7cc066f464b43c6aff1563beaacacc9f18b961ac65

theorem n44_prime : n44.Prime :=
  ecpp (l := 2200) (a := 0x10563c2c96ada82250f14622f042a20f335dceb196e889cce2a44acf95b7421d135bc9fa728092108751247055f0cbadef470522a216cebc4accf6df15320c33de3866d9d70f9b210ed5f8eb6138daefe89bae7da06bc528ac4fc8603772159b806b5885e9ee7701142ee5d1b05a2c55150e12aa7c51e1b8e21dab3d70cd85dc3456030dc13d161a891ecc1895fa9f059fd32cad8788eaeb3511423f6f40519de808e6d5c046b199c96c67dd09b0bc505511234cc5c3306a826c16b07c8a9d654066a7638102f1054289d5a93082d03a7f917aaaa1205cad19105c9ef43ddaca777009c28eb6004f4b097f156db63ee851f31c026cf359384e612a2750eeb7333d1ddfd90810ce3b94f4a49ca16270e75582a5e305f5a7d4)
    (x := 0xd08f0d3cbb44a48c2dd08727c71ec77b1edf515c16ddd7548989d813576ec7a4643e143181ce279989ba02c66f3ab4899346fc88b2a4a8a502b91b1280480e3f7732b42123d4e4e7e1bc6049875b960da023f714475c23a0a693464a638de74d38746c932680b0ee66f27235ff553efa8459b2d3e94c0012bebe6475382184a0aa2df51badf761cf8e4743fecc9950fa8168f9feb95ab7ac308d8a6062e9c6afdbdb6973ae51373aa7727117cdf057b5ccb2808734bb3ec17decf822ebd0e980c328e0c5dd2d98b8b6b54458507683c00312cd102bdb6577e6cd66e5dbc613115f4f0f2860227557e5698d4b92341d06ffbc23ca9cd88f7596c1ec599fc08b4c3bd7783d851468e9632e40002a35beede624a2d9d9aaf21)
    (y := 0x14c10b1c7381e33fd25398e9e24b6c63a3fc7813ddcf08ddf4ae61a92c7174d7aeaa370268913f8fad26e0838af371c81514b339f00186cd08eeda1dfe9984ab1df78249929e58e2046323836e4f56eaa3a12a1166b30e4a879571f11d9a42906ba87787e829ed35baecacdd55e35efd6839a582440af21ceb8b4bd880341c497ee0f509f343899b028291ef6a53281a884218f1ef0803c02438007a47dbb5c56999e240bb01e2eb93d7cab240e8b6f63324219242ac0b59513d3c35811fdbd1e3ab6cd48f88032b65058b0a477ed314df5f80dd16798031d50eb91af627bd866983c04f7aae6529a5ef14e3f5250e03144f5828640ecbe49341c48580a4f61a9923bf20be96e68efeea2c48c0c46a205698e8cd66b3e428)
    (by decide +kernel : ecStep _ n44 n43 _ _ _ = true) n43_prime

/-- a prime of the chain, 2293 bits -/
def n45 : ℕ := 0x120bbea2bb6dc3095f65ef8ceac3a17d96672a050ef9b992e30c6ead1a1faaea4c60101340e0067437b4b16e8541a3bd3f5e25c60429851a4b5b18f7f845ac18a81e2e33fb37293021f96bb15a9e024bb2e5dd52c7b8dd2282c77aaa69fda41930c83452898a5f5ad514ded4f598d02ee4fed5198997e2948b5e8b0ea0526aadcd5121e0b4e955bd464997a4479df6fae85b05ac7bdcf7cdea3daff7def0753b53554756e7700c1e5ae4506b45547365e73ab7f1f3625e90a5ef15a2f3a7002aae7930f246b00ec2fdabd74dee4a29c570388d21eb1d4103a86ae2b120d9382166e15445f20db032361ee505fdd66eb665e2b5f3d9659f0f788980c5d4c67c5504cf7a73a985239fd28f17c12e690bdd055a11b461d6aeb9a1ba614348ea13

theorem n45_prime : n45.Prime :=
  ecpp (l := 2236) (a := 0x67b885f8687a03bfe3e486dd673e84e75ab0c7a82ceb0e793606cb55465bc6f65d966bc6f95c34b2c4082e84f7482486d284c0c9375db86c875b83c0ccdf2e240a2c2bd73b042da4a0e0b6150109671628f862bb0faa392bc4352f8cc2f5b087aaec36fa428acedcffb840fea7efb4bd1bbdc7fa7eed49fbae9b4340f3479b6c057949e72f2b90212dea4540b2e71ff56995cdc770746f0b0c3b421e66954e5933d112350941f64ce3494aeaf8fc644c71125c7fd23b57b3a84107661f1a83e6b659c686909d082ba8426e7ef1d2e9dbb67be6e815247d35103b0a654b03001775665499247c8364fa830d635fb19efa9cbe30dc69e8763d71610ec76dd23e394e90f892931a546fac5456bac6f2c0f9153759b9375ed997ed877e486fc7)
    (x := 0x47474b2d3780ca5ba54551b1762cb37a353f6bd841ea5ef4f7d6ffbd3355813be368583da2e6d83c7d6dd50f82e7056116b3a383c3ad498f2fb868f4104307eff0a5c051c26ff17d4e7391940d835ddb528b4d5bec8c1e35c250b4bfafd3026833993a467dc74e5e2af794d8b02fc034a7f0d6720c78b5dc647131b9e573843494ea627cbe07f246b797e6dfa3eb614652fad2549e7bb39d4d48f97276ffda9d9bd1a0d40e1739ebe3426b0cf0cd49f19f3689b3aaba5ea9f99fcabf8812998572ebc3a3334e9341d4bde9a135102b4b3d2a9f6bf519db1778a94c86ccbe0f1ef7236a577f2a75efebd65b253c5afbe8a21bedeb2498b7a0e0f67761fc12d548511a1c56d1d4dcf88f6d6e7e1b67eff22396bf271fe76725f1536255956c2)
    (y := 0x488fd1d5244d60e9e0b352a2d73c4d4b7abf065b05680ec7494fa8ae113651dd2ec771bf4d53018f8f2365e66eeab8964d4612135011b7e5c61ed2bfec657de167a7fbf8515e631000b38ae261a18547e3e148752e1f23200c3ef5f0d6b3bfdc53eaedc928b8ae8336a6f5176752648782d241f7fe11cc984b070b31fb8ffd8d197ab91e2b927592b031ce6a28e1fbfe0e61a45812947c566c5086d0291133cc08bd5f61cb45b8b33e11c780bbd9f1025f0878fce142e6d5045dd747663405cad7a635b1a4673e99733b90fd1384595200b987ce1479a86e8600842a2dd2df74c2c8fab115a1665daf0b71d04501f5899d76d582003222b3b80de1cc9498b7e92a8da96bc2c8e9a7654d50119d2205788f3dc276eb492e1e8c4cf1d4234c5)
    (by decide +kernel : ecStep _ n45 n44 _ _ _ = true) n44_prime

/-- a prime of the chain, 2336 bits -/
def n46 : ℕ := 0x8569aab6e47599e2c27204a993e23cff7b917524f51abbaef7e2ce65b01857abc9a21a2da6eaf7fb1f5bbfb90355024b0d563aeb71aad21bafff8a57680105c39a793bab9547433a67071c2b10a4b2f0fe1c6d3e552d89a7d7a88e9cfcc1ab03d3dba846ab5770c30dc9b41328ead94d3d424f7840dfe28af6857136abf11e689a9b35f89d48ed44d10f661ed7427e3fbc58176bb5d440b835fc134f574705164c5bfeea906db12d847fa43ef1c1e93e086c022089ef9815e2e6ea41a047214d3ba3fe58b75f52d6bdcd57ed3f5c8f40b3c16716f3a410ea886078a2e9238759e85b05bdc2e6bff5db69f01b406779a721aa8b382113402d45e7dc113002fd1bb96832c2809dd5a38ede0e779285569b8fba8d81e2f62cec7228da686aa677be19922749

theorem n46_prime : n46.Prime :=
  ecpp (l := 2292) (a := 0x15bcf4d34fc99bf26fd1290a28b598e17c6a442a9eaa10e5714b8285d3ba6fb69d7c0de944506a2bc4b3f7b21d571b061e96ab9b6a3ee86a529e7bdf1cba9cc1135b1a7917bac8c647711f9474b7e313aab6c67b596167c2b5fb52bf0b3e07440f43485f8750543a4476ecdd30f4e72c2451df10a57e29ec05e65242c62f4f4e1511afbe0db31c6fc57d70298f8568b0730606b24ab9e3adc2cca87f8b619b4e859326d93ba2e5f4cd28d3062dd4753502a26ab44d1dadfc630644ad153b61ed51bad044de77f9f40615ba9092025ce728d5cc276f4309268358ea4185246e607251d7bee3b0d42b0fd71b33e1a2138edeef99b2266df28b07cde29051749a10a3db916da7f0c020234766c3ce4aba48f1745f3a4330bf4f32015b5ec23e7eecd52c290a)
    (x := 0x7b7f45f3d4e1751e02141cfa6f0c48bb94796eede6fb83239217a303a252d9975eb4fdf04741e43a2f61c0cfcaf98c32c1607fa64695f1d02d6d959c06682f98348de61c2ebe8619a96d8ed212a99a38eb68d57c5f0a3a084df420d73eda71b9557543d60b5ee5642d38b1e4d3794c532bea5d856b89a74e6370570380a4c0eab040202a707500a68a90e1eb7bbfb58d14033e3548e95e080faa98ada3fb9110dee7f88763dc2254d12cdee1cf1ab88f61c1f356e613e90c34e4b5a1708a271ef992cf93ea47e1af9a43217167f61a1cd2373e2e46d0f1ed61e0f3868ea0163699f10ff407aa1548cd3e7dfd9cd9db3b6c9fde9abe7c9b44423df6626feae62c790e16b7e5e3c0809e12740516f3458b0d89c1a5112446f541d540654699123271448070)
    (y := 0x655179d4fdb3adc5c78e51077ab1b874f291ce66f7b5f704e42ebed6c7b102abd989118ffbbf2d68f50e2a92382f7805f6f9f2c33a57c5f97bcba16441006115ae819dcbc3239af386068f13a70cc0117d1e50dab0b12486cbb399145a1ce9e97f7eac17516e110fab55be54f7fc81ae86ba4420a9f3dc93139b2d671e36b1b2007f5c37996a25953fb94af65123149ca4e5f317a8ba0ffdefe8e47a2930308e865a677397602da422be9b58fadefb548c6bd0f4d2958b562614ac55779c6545f3dea7c701aab1f036c815740fefd6fd41afa7b5140d975399e4b4036d6f88361777180777d7b6b8eebcdee87881786ec77e97441e580377bab95094adbac66eb3068847bb8cd86d661b1c613667433f2fabf26486b22ffd0b38b581b39391cec3f59fa4)
    (by decide +kernel : ecStep _ n46 n45 _ _ _ = true) n45_prime

/-- a prime of the chain, 2372 bits -/
def n47 : ℕ := 0xecbae88f46dcc75506b1903d03e0e01e1ef2f6f67d62834b470ec013cb8393b448eb9eebb2850249a8cd340d3a97a5358246d4671c2c273b2a17ceaabccad58e9d901d4844642b844fc0be6239ce4e2f930b07f3830beb31e9ab040d72e123f9ddebfce830c7b836f5b308d8287f45983636e16589ba7d1e35e4a895fa4ff82aa4a6c9436e83d98a24140b9f7c32ec2a20f3f45dd007f4a6e5be093fb154aeb6232fb683c410048bc29d79442cec6ffc8a6f74b51511c9582498123ff2f4f3b07ec0276b62480423c6c89d6237fb203084b269170524ff188c0ce2af087ac3bc47289f0886885e097ed92c9235fe93c32696dd9ee6101de68f6a3999232e81cadd49a68f70c7edbd5c44f545e23ef810bd05bdd562a363c772340e92c213eb979093a24cd29982bf1

theorem n47_prime : n47.Prime :=
  ecpp (l := 2335) (a := 0x561111ae2df3c33ecb76a39a19a5e6cbe4c9bbf80e85a12c98d6b5a75272a92f2bb01449cfa3afdf6ab5b36359fbaf6ac1c0a9300cb72df81ca4d1ab740c4aad7f5f59d09ffca062ac9c0ecb1e08519829efdcbca93450b2ed5d030d4b67b59e3e6d2a3747b94efe48c5ae38019323dcfd8f42b34b9508ca7c6b5ea0ab61101f1c84f582904839119ef7fc1ac1c7d99bb3cb2fc54e2de4244acfea7a92b3e2e0d267b4666899e6831f302550a650b286d1bab5f7e41c791eae34791888c66d73bc3c3372e96e0bcc7ad97e561529651351a6a27c56a41efdeef4b8c60468e75c994e5cf84c70453baa394b1ccee8167c227973729573eec0856b625b4c10e84878d2365260cf6642635a10ed8256c5baabce305452399c62053d086edef5ff2fdc34cd2b92531e39b)
    (x := 0xa58a782b026c2b4b47a7d039869c370813883aa2cd81bf32b27c61f5058ef5f9f4f67e38e6e0e8b4d4175ddc1a240c0bf6741a412041d5e7ca8307de5dc902c203043de253e85cc424c10c95267f49462d89b8b4ade5fe4c6dd2b5d54790e69143455652ca107c6213b1fa90172bc2a0595f8fd950db0c7035d4238770a079af4f5ada5b35d081463d8d34e4ec6db44a899e65176df18dfd3a05067bd371b05b04d0c1213df785feb5abe5d25feb6d82e73c40fda4624329c9576f07acb83a3984256f9e5ca2c0b93276f8045b7ae3e15b68152b65be88c0ae39be9a3e918006602b0b1465be77c3ba632a940201bf300ffaf45415a24a954b6cb38d507749d2708566e49cde4519984dcbca2e8049badcfbe2bcb6a31009256945c8372486553f562f5e4f83493e5)
    (y := 0x89de0d672da6a972579e913ac6b50f5093974d7ebe9981c98848436973dbdc752c908595ff36ec8d502b50b5bcff785314992303015eb455f6214603efb347a84fd8b35b282c839150a7de261d2ac5409a428dd7045fa61fe81dde3da6dde2245e01ee93af2e27de90d1691c1668e72f7845e7b98d04005931afb766dd0b912b93b16c0387511a03a46a4a844c58f2620976dd915db78dc1f21312267e3f7815056700e082c6706381d0888b81166f4e4915b0525021d36a8cc80dc016771f5cbbf9a71e7c09cbb02efc8cf974e7e6b7f42d0dc304f5bd2b99c3b21c8e68cd80c552a288308ce0f9dd8c017896d32809aed669cb2eec0132e96f68c1fb0452f22463161de1ad80f09e581735b7a0d56b9833ffce5e54c6895cfda10a8fb943ceb59f800dfcb8e519c)
    (by decide +kernel : ecStep _ n47 n46 _ _ _ = true) n46_prime

end RfcCert
end MscPoc
