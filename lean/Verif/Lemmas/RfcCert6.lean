import Verif.Lemmas.RfcCert5

/-!
# Elliptic-curve primality certificate of `(p - 1) / 2` for the RFC 3526 prime `p` of 3072 bits, part 6 of 6 (generated)
-/

set_option autoImplicit false

namespace MscPoc
namespace RfcCert

/-- a prime of the chain, 2932 bits -/
def n62 : ℕ := 0xb68c085cd88454b280c6561ce20651c39d0a3b8955d6c349b2687dc1e72b676cd953a013fde9d423092875ca63e0f17bf3ada2b099c022653feb8dd0883fa872cb12fbb0c16c65e38263d50436d1eff6ca28148a9dd06b6b64a6ec8d404d887869062106c39e6880091ba807431b7cd8511953b5473f03c812a0fd2bddb39784b14bdc41075932c2ef3d5656c117cf2750278fd898855370ec7510834984effb0b95a7fb7dc64212330b390afc5945a246ddb191297434748787057b429b2560fa232cc5ea1c89451de785d964e8e5d2f250b977297dd14ac6ce76a86863f644583bcdd430f98d1ca6867c4646efa57f2d3d36660a48d77525ddde5b750d3f3d265ece5403c31fa0a273f0b8feb495bf97ce574b1bff924297a6b62ea14ed90b5ac35400593506a4c9cf003d458d7d16f6e6c57f4e26eb460dcb157b5241d40545b0569435342990c17e934149e5e0f034bed26613a854bffdf057fc45ac405799dd10c8a80f6f751277b440a8d9f

theorem n62_prime : n62.Prime :=
  ecpp (l := 2892) (a := 0x4ec59231b1b31ef7875e81ad23225e5409d5afd040ebd0d3fbccc9d694d08a4da366d876130e21a54b37599390cfa7aa5a8cf80886bf0961683ddd0f2bd2bf00ac1526adb36db7895e1095a9896ef22765d1642d2676abc2fe2f6b05aab89e1caa5ca5879326159bd1fed31cdd624601539ce90b3f78b7bea6549e1771177b92a08f2b5dfbee127c9c0a42a1ab845ed79ab1ec5cc6d14d3a3b0b0f1ca37fa9bd66cd46523052961f694af231025ff70547a38f1f5199115cdaaa2a2076d145749bf2dcac8baffe76660b60b261fc510e3222831e8bf3c702334789e033d0cf67c2ebff8fa471b9d8362a4e6c9739c87b82131218ee92fa02ccdda0df4ba1f4f10af8b92c9c8aa8c74867497d84cef229252d489c8c01a72c9efb5c6cb7125fb783599345156c8962e7db4faa866ff2cf6c361ff6d89f34cc1a354f652368717bb60707c7a2266bdab164f62d87751c565b003482109bd5b957c58ca8cc6a502cc5ff6b5d1956fd5880496a2b06f16)
    (x := 0x234e517bedb61870368cfd11df76bbdc2bfd9cfb4fe071191b1e174154e0e28d316f80b37fd5c9c36b1af5c85c8311f2962fb7cc7f559382fcfabda38e7eda7624c46c1ca5caa2ed4996b5c0d315460b7c53206bca7243235ba2d72cd9ea3ea2bfc517b97f6bfc92891298ad6f5e21fed213668957abd186f630877dd47869b04cb7145a5c19ee68f25723536887e4c92e9715387dd1635785c78a8cde9d63d42e166d8136baded8ec724423cfa682250ce73e2dc194f8fb0f873b4bf5655f47482d68545ab26011c88673a1bc838dac963df0c5a2fcb48319be82a5856c2619c5b84560c6274df58544e567e0cbf6788f9372d2b6c93e079de0851bcd4821f666e25d9523584b66172bb7c8f5d3916100fabfd43d528e8cc9eba9f5e2dc7246ee7d3aefb921556fd91d15d34424a8b11b9bf12893ee11efd48d97a3b21bebf0fc4c0d8580daa3ae9eafb2ae49b647fa7f068a5356e85bffa994a6996fe100bbb3ebe0c05b557b753c90ca69363aa)
    (y := 0x785bf0a7285777bf9d1b76968f4a6c8ef99078250ec5a96819c5bdd48274b953a684093037339a2b8c5b16fba1c7f6a40c4eb0031e9409eb690a21337f13cdc1a8eaf05775da94fd6887ea93c960740fb0c1525734c932ba2469d9fd540da192748d2a9b936c0aedc48c7c12707c77d523bca3325f847cabf8c8ecdc9e840ce9b110036b8a477f156b412d4f8b435a0baf89a98147133ad279a1cf724e3fff30da80f5693381659214e973decc8cd8575d15c9ed773d0eb9d3bf42489cd3d6e6790f65cf4b1e09405cc401d8bfaf6fcf118a1cfc50a50dbda5d5c9bd3542e77cf8407c3feec9e19e278639b64ab171c2f6ff06add49d0b010c2460e42294aef6f0e3ae429f61f20f41f72dbe6a55305f95a4a555d2358a3be5cf50e4ef1ea8f630d9dbbb17ab91d627477df06ad15bed0b738b7f91323bcdba799c4d5b81d85ba0358fb8069193eb1f0a9d90e058018e8272c70973a125244ddd95e4c1f0a414d53657b335c91616196cdbb9ffaf8)
    (by decide +kernel : ecStep _ n62 n61 _ _ _ = true) n61_prime

/-- a prime of the chain, 2962 bits -/
def n63 : ℕ := 0x2e2d79bb65aa4e4ba490ef9066872d10ac956fc32b95a6f0d9d2243e0d0c1b764450cb9134ff6c156c86f9336571768b74d2a8722c2be07f744651e198e31ccfa26eafefc9bc143341fbbb83562d4c32bb135683f2bd63655db5fb5f6680d1558277d398132a792993588c23557407728571f78b5ada01e749b5240e9908ed3190cd75a82c716365a9e604462e96384c7224471e5c245d6fba922a9399463ec5e3c21879c89f04cc7e019a59a2043c84af85bc4e6291327cb4625fba4e97fad03c0ccb40745d138cacf665288c94a04ef9a0a41078d3e9e2a763b009ed6199e9c185230e7781f1f823bffc7c344bfaa60cc6ef06c3fe61c5bc0944c323135e4f9e29415d73bef4c853fa0dc7bf73ccf147235978f0b6c7b573b88cef0c4ba4136ad74f79c267eb3100052002d1b7b99d7bc121832fce436354dcebe28596ee98d2653515831a30b6d13b72d456eba13091ca1f30fa36c50aca43beade1e26d2b109ca88cddedd264b6696c2d8011daa03f8c7

theorem n63_prime : n63.Prime :=
  ecpp (l := 2931) (a := 0x22f49b7ad0500c1f7f8d3603b7fac3548fcd0fd3e102a42777deb85b8906af3ccc731aa0e19cc5f1a189b4433ce0ebb227c409c67229e9b321e81abf7ef736cb1d649d497caf4802f95e6701a7ef843204ab7e3ac81fd2f4fe375de9ab39970755edd8c01c5d77ae7d07198417035405b1e00c2b8979a79f33f444c28547c796f3483101cccb629bdbdea1e20f5f1aaa612c268b37a9ccb68fb55d6bc395d966279c529be3adb0002dbdbd8acb3f7d504e50393c6d0964b5fadb908b5167e3fc7ce8455186a18ee973c85ee0f4cb7ecfcdb023e375b8003674d90fdcd220d55eaca3b2cea19189069a6d9324acd7ab4c333214640d24bcab4b11c91d129fbcece27f583f029b52bc467700cf71cecf4e4171eaca516a116b873c1a13e9c15a53372af7d31a0b12a92c8848a008b77f27aa66c36a1b1c84baf0e645bd9b5f06d2cd68ee416e1adfcd81dab5a755a47aba29d6f6a4ab5368ccabe0b4d7118049cda9b0c39a3010a209d7d8de71928118f807a3a)
    (x := 0x91edd8e748215d006ba9676384715e4b0f4ff228adcd0047efb49944292c4c103f458dab64b15071aed627208d9f503e8b48f1266a53adfc7cb384976e4de22eb028be8d95439b703c0be1222f3d10c15fc830ca11e49ecdcf16a2362cc9f59870f27e492e149a9c148f309da237accb3e8bce0c6b9e608cc3a21ad6e9c6e644fb9924ddef8dfe941c95d536c2be816fcf96350445c814495f9e1d986f7021928dae9689d54f751f4f6829af82c57ed691c686ac49f3dae2ac5d9ffa44b3d2bf1472634eb4a77501479a3ba16b65656f919060dd0d7e2180328994092455919279ad1522b21351698ac4da31d5a68566902da72d3c4952be0e2476d68313a26d9b2e7f82ea4df778ce9e9394c0eb84a2cce85ab3ee9f5470042f854ea6dd87834773121558352cb7298511b50546b333cf29375a4742a4c5c9d0ce5eeaa7ddab036b82b372d7098f1f61fda9a4c5b5ad65f73a94ba00579155d699f06d9a6344d2ee771150796baf13475c5310385304782e)
    (y := 0x1215044fed21d0170136c640e6bfc581a5a60574da8c97eb26358e13750c3760ab3082358dcad86851251b8aaea8a095be349f0570298a89413128ef95544ce138949f698e58688d7255bc5485ba91730405ddaf33e5b4a3e8946c53f758501e71c1f4e86bb0466c91e67bf680672d67ad5b072dfd55d80387f3698da4f187a7f2f4ce45e97c303348c10d7eba54156f3da48abb510218c2d18a8ae66c4d1c732d5fa6093d580b13478daa72808f3a9cc6e6a496166c437c2b9535f23f6046c2f17f102a8be1a52c090c7a7a682d3e1dcd30d51452f4746c3cbdec16eb26b668b0ed55b8afce187ece5e3cb51423dddb85efa37bd599bfc27319a1f54dab6b7abba8f5fdb6785107f518573964ad429787deef5a893bfede616796b4b1e1f7470316ce334b4c13a22f7cd07874c667b9fc46cc4bc540e90a2338bb80ea1dedfd3fdea283f3d30fcec8c1eebbcade7ca63b7b6fcd349b6a24955a84eea364525a87bc7317a19657dba9d0c72adb505d45ca91f)
    (by decide +kernel : ecStep _ n63 n62 _ _ _ = true) n62_prime

/-- a prime of the chain, 3025 bits -/
def n64 : ℕ := 0x10ed0a02b26ef0d98b712701074a1ad3be7ab78da25b9a1e67f0585a7885146ba40ab19f112791505e8f8b39909c71945488f6ffcd0aec2d0a159a1d5f2ac470c462954c5391f93f2d0876c6270ae042127b2f5bba2a9d8c8e85a441a6866bf794deeef333a5dcb08dc30b900f307097428e455b6ec98e5b23a3c8756b721c2519f59c8dee0d91132954992ef19c48d693c7e79828d91fcb33c1d020fe0a51218ad96d770dd1891b18871c96ffc1f0bde21e370cab632e626b280bba4a8bc63bd894614105842a59a22cf0eed665a69ccb8f834f996d3ae81b2df98db68a34347b6b130364c5ccb2f6c59cbda9c76d06edffae7d5078e159fbf0e23294f43829d29b27cae810158eb832dfe3fb27335da3a0d258d97c623ac2be9332200422e65f7e4f9331a5f40f15a59b22b74a4fddbf1fd29a062616c0b532c10b84fdfa7b62f61561b1a04802bfe6c3764d5609b50de6b173a9ace475f6d40928b6b2504ad5d23465dbfca2c4c8c7b8796af9d09c7fbcb93678decd4f25129

theorem n64_prime : n64.Prime :=
  ecpp (l := 2961) (a := 0xf8e4e3e5a0f76032d0b1253d648271177bccadd2f94cc5e7ceede3a24ed363bf1349a6dd9da794be0cc1a633f089ff620bde7e8a2ddff62e769cd7956744049ec731beb0eeefff3b044b841a3fb6dc56f30e19b57383e77bf298f874ddbd7647d3bbc82095515cd51296f122bd7ecab2a81ee8159e66323c43f7fdb68e1dae51191306eaff3e8ad6a8db600c7482ae40fa9301223552b26f6bad1fadb79f89df53a408efd32c656ac7ce04a549f5e1a2b7b066350c0b39a3b9815044fb708fc3cbb1b436d2a6b5c9bdc7c9ebf478bc321205b3ecc96e2f6014809894b70c88ff9cddc3b0d451d21af97ac4681c5a5c1ef18c9769202f999687ee3a9d471dab1a5aa239af85ea18ea2c7fa4f5bf34751df97f33118d176f1b9d06a063f5c3a9780d5ca1bcf209bf6a5f78378e57445f73366d6f882290acf97042f9752dbb0685a7d8e9d66834da30616ef32ddea2020b87a80f4931f4ab2852e389fac1d1c85925a7b072636eea9a21ea7555a2221f84106327f6ace2f17b3a65)
    (x := 0xbff72f6d69679e0190fce5000f8d425dbd23fae4110a4a8fd99f42908a044f8da0de26f818b8f0adf0c9b136d865591495d0b17c682c0a55843e6fc63baf8bfe599d83a19576e7e9d341c749e7e37a42a91e6e15496db5386fa7c4760102c0efbdb4a46019ccec056b740ddd14c7afe605f64fba6d2f42055ebb9b12aaef494b48f7f579efe2ab596e79a3e05f27d2b7c32a75ecfbbbe661abc361c670647c2b8dee1ff3aac892463d00072e072db04da428c0dddfde67ff75a79c2cb377d6ebb6391da5db2b8457a1660ce587856a7cf9563c747a568bf42e4d77e3851aa708623b35dc24ad75eade402b4ffa76d4ab7748780d081ff294c8a22f9d8be570c177c118a83b818bc61eaece744ffab72715e5ff565af2ce9871f7d6a21af5889e33aafd8e9c7223fe3103695112a13ec0281c57c331a73a1d396d1432b287d5803a85bd54341add014ec60198520812818aa80463b6cd703aa63e4a5f64425a808b2d3c44ac691dec9a4c38d05c878ffb3a9a009e98923bb00dd7)
    (y := 0x104cd20679347988b74a7b95ef40c960c4a7156552f17433e6347c33fde294ec60614e2063b9d4dea1e3aba3fa4353d655a81234cf3b6cb4e00cc0cba495e80295a39faca0dc9babf1385295c77f63ee8ef80e27ed2d5483a1124b0ba26cf008ab2a278b146d42acaa5ab6ad6bb229b503724e0065a9ff0a3045c3c5979664294ce892faa6868356e4828aa7c393e5ad974af9db44f504dd8c4c4616de7869633dac6f313ae3fbaab9f502171524273fd69d3c214469f75d268aaa8480e52f3c8707a1f46acfca390093fc2f798639a1e6763eae77539c0958a4a87e70b60411be4a3a6f5317e0bf7985a787853974e62a26eee60be11203f8a9e042bfa0cdbe4dcd2a3a304838b6a4a0778a43f4752f0e1b9696f6d95b1e7038401d053c359fd51b969233e963e1d643f1109b12c1e4035738650c47c13cca5d87d439d8569807250100c9970808d7c42253f7966ce06ce9ac7aa5e0bee21b119fbeed52f44fde150d04b2c4c85af8baeeac3d0c208afcc22c26d9c0fb964737f)
    (by decide +kernel : ecStep _ n64 n63 _ _ _ = true) n63_prime

/-- a prime of the chain, 3062 bits -/
def n65 : ℕ := 0x212a7e720212a7e7190317248d23564f631484fe618957af4ee6633e419b70831c3fb53397b7eaa40ead5931f35478db751035142f51229ad799c962320e640b4fca4308fe9dc42e5ddd803080d33cfdcaa97dc94851de7fe0636a53d0d873090f50e591892372ffb32004ac3db4beb102390e4adf77c1327eb467380c9e061786d8e939cbb40efa17fa97469b18761297c2823877ca94ef2c1941ba50e8da018167469c6df0453cd03354a3892a0d79e75060e94cf7b9b6f4ee6da38578126da65e3da1f9e1f7cf58978aed12442abd12fee556e1845d2c50ade6ec05e168245f12df63ae4cfcc63f10286aa33a618bdaf7c337819487617d19758be700ac77d20557a640f45aaa7c8ce65904f3dc33084cf4494ca377a0d12604a923dcf66f817f2df6f5080fd1fcd4743cb895dd1d0bffa4390192a1fe67c4c9efd5cf1e1db897da208e84bcb561cdd26e57fb28be0fd345f9819a0407ccf1ecd4647e0bab76fb1a83ca6c52dc14333ddf99a971bf0f7c59d724eca201cdd24b7cf2321b

theorem n65_prime : n65.Prime :=
  ecpp (l := 3024) (a := 0x419b4dea6caa136f5d4819f791618d4c4daf6ae9b3363a8b79f208550d685a05ca714a6dc2197e2f1b071e954d178cf199c835695e02dd8054d19e858efc0204522ce58a78154757f64fea312e068942207adb106636d608ab6b43369717b955c7f8228b9d73523c1ce4bf2f18f5baed7672a0bb976921c4674a1af6e6993a82126421d8166ce268f4bcbf2249b3be7ad494994ea33d5a26ebcc45d8c7d7cb17c735582394bc102cbd26e50e00ea8026d74899991e794f24d912c4b7e109e54a32ef52ce75f826046b7c465c0d3910b354991ab1eaba653e71c66ebe2e982abd6aa29a6556d727f01199f181d9d32721d329de70fe7a41eb994914c457fdf37d77f885b1ce438bf7eb40ea416b33dbc3f9fe28d3dd47490e7ed2662b5bc4a17062b865fe4e44fc870ee2d714ddf00da31efe8b7952b06d4c3f6b2cd27ad73326b8f4920b0051da1eb7d8dcbf4950f332396ff3623652c9129a3790a031b04c886d59fd4d6818ec0d785800e4ce56fb68d4ef3690968cd9be61999fc4d9154)
    (x := 0xbea9f7b2d39e7a434a68aeadca058382f65c432ade85716c182623b21849a4fa07248e05718ef3422f0ad4dbd85931f5ed03539c087026a2abff2fa56dced942a90859e32d3f8d1d64303f5752fcb1d88d5d9537e298eadf20c677986a0d0f412e147b965020693de332d0846a2e4ebcdc757635287edbb42bef2f5b44a7677794a022270c027848add14062ad033a3e24d1436f0c7f846c2a69161321395fa3763b142fd011146255318feaa76c60bbcec3b9d59f631b8da70871b518cd19dbc44f3a194dde3522fb716da8699f78a083776902d59e0ad6294a671af64466278f47bc99e47bf430dac9f61970e7673f1689793c4aadf444c65affc1bd5226cb162226097def32ca9c5294806273a6d50747141bb940e6effcb25a9e5b32dd9107a7801de59f54ba816e3bb099e1abe3836104a6e44c8faa251e23d2f362177de4c1a5b813af42796e4a02a419d0129caaaaa58f3ebac38a7b383fa1bd65259270f03960ece3e2c6bd7afad783b3d925850cb460fa78c45d3a79990148032)
    (y := 0xc09aa70fbee442554321405eb225b8519645aa3d1cab53104522363aaef296312477023078ba34a48e263d1c2d8b33aa20b2509db032ebba7131d4a1d1b119d68d49855e8e6aa16f8fb51ec17f2be2f444b6933245ec12b1cee7925e12a0ca9853f80ca86c7ad59d842eaa643e2c65c2ac706f8a1e760502f620d53b0af6708b55c19351b5a59f379e5bdde5a53898eee2a4e0f729faedb5785db77c58e2b1b5ba3a5ad593cedc702e3e4aa372b830b2159130acd284bae60f7f239798596927a8c93b17fd41be81f256efd9b91b8374d4e7a8ee04b609e65dff7d1e4c81c35989109ee0265efe819240e83c8ae47880b3cf708f1c385679aefb5bd488e4db3c0e66e02490ca0b8c34b7b8d2965e6e15d6d184eb91441292a3b76100b00a8d05bd67888cd33326ec6def57e8a1343dbcd382bc60a9ac3e2f58f2e4f54818db94566039eb5a75acb302cf7502211d0a61af9a30f0b31fe7e58b7156a8b3a1684da07b99cba74c4d8fdb352aeb86cc306107b645d73aa4272ff2b7e5e008207)
    (by decide +kernel : ecStep _ n65 n64 _ _ _ = true) n64_prime

/-- a prime of the chain, 3071 bits -/
def n66 : ℕ := 0x7fffffffffffffffe487ed5110b4611a62633145c06e0e68948127044533e63a0105df531d89cd9128a5043cc71a026ef7ca8cd9e69d218d98158536f92f8a1ba7f09ab6b6a8e122f242dabb312f3f637a262174d31bf6b585ffae5b7a035bf6f71c35fdad44cfd2d74f9208be258ff324943328f6722d9ee1003e5c50b1df82cc6d241b0e2ae9cd348b1fd47e9267afc1b2ae91ee51d6cb0e3179ab1042a95dcf6a9483b84b4b36b3861aa7255e4c0278ba3604650c10be19482f23171b671df1cf3b960c074301cd93c1d17603d147dae2aef837a62964ef15e5fb4aac0b8c1ccaa4be754ab5728ae9130c4c7d02880ab9472d45556216d6998b8682283d19d42a90d5ef8e5d32767dc2822c6df785457538abae83063ed9cb87c2d370f263d5fad7466d8499eb8f464a702512b0cee771e9130d697735f897fd036cc504326c3b01399f643532290f958c0bbd90065df08babbd30aeb63b84c4605d6ca371047127d03a72d598a1edadfe707e884725c16890549d69657fffffffffffffff

theorem n66_prime : n66.Prime :=
  ecpp (l := 3061) (a := 0x5634a00bb293bc706165ed7f42bc03bbb5b2ffd2cb3b74b8acb9cdcc2b7b504460c810d0a47d73065dbb319a5de5c684bee96c3a888f637f5444db2ee517786f4dac6d4b620b26e85a85e9f31b6644d11c31115aaae5e3f939e4f6a42d615a5716c4dbfb48dca1d71ebcdc1d87cd7a79fef9c5871cf211ff38b929292b1ad643a85867963a5695fb783ee2cc722a5fd4a2daf7d8094cc622b44f1c39eb9bb39e4a7d4c521d83d86e2683b22baab0c8f07cbc0e235ab21c494e524bc4d232732a7771e1e2661ac09ae1aca8d46e3fe619924f6042882b66a33d83238d1f3daf86e4f740720c6e2f6e9b996ae013a90a127d24de4566311ca1748cd30e33052680bbc2a16b2e88e53f96e3f9acadfdb9a1e55c7e17462e4844808ed2258c0ec6ded2cb6d6e1fa74620de7fd3f959ddff99789b2a800d77c359130df9d60c4d36e6685a058cbd0ddb298e55d362f3f025e0c94329d281f4104ce007091607b3da23e946e74d9d9b79b5cd41263d940a3e15ff8b1c221c01ad9ee829b530694204a)
    (x := 0x2a21fbe5297b49f95dd8faa9dcdf50dfe70993a8596453165437b32091a5ffe62b01e02afd33012a3cec15bb26442737ff4e1e9c74dd0096515b35d28b5a88154218cd652ab642ab3f5c9f98c57706ec937dd7bc00d29a9a5b9d1b05fec49ad87c61bf7f5185147993ce1992953844decbb5f52ada82abe8e96beaf2bba1546de192d407d12367fbeee0a8868855586a57f654e84ee9fd6db903a120c850a775c33760d6deea631bfedfb0ca88c79c9f6f738d72b0698beb02e8912c7d03bdad9e9ed884e8924ed7a2322645ada508cbbe47300409def44c55cec5047364f785c942fd301d31f7c49364e614bfcee5216af3987300f20e005e17038702b5e9cd61b1ed8e5dcf7ff27f549df6b9f44bad5badf5972e62bd9e58b1af11f4396ca6419740af2bdf94245150073473260e2ea51f053a3facb8ab7e8762c1613b1f9b5d9b46e5a835e01570eba64df9164fb4f32ae3a5766ea1b48aea50b199ca5816b9d6352068b85ebf098ec5397d66d40979cd931973ed807a02bf76d242036b9c)
    (y := 0x5c988e33eee5a30c9573d4e31252ce4afbbe4b044444c62d7ebc2b4a5b95a481747ccd4d0df93094bb7f3d8284e80595dcae41e5fd0e1b4dac8c2f436fae17001fcc7bf19db2eaedcb86677a0ae413a2b3a0f08fd63f4e4373651bdd4df7d566dc77988ffc8dea012194ba102d518a9fcd9dc1531388dbd9d7f8cd8d2b95ad84cbef423178537f2c5a2dd4e347e6a38388a07f7bf275dd70cec5dd3bd406793ba1cc6aaca9c7c38f6228352a987fb1547a216f11c4e7f76e40672d5ebf4d7749e5d2e39b0182d18dae3c312a4945850c3a47ea2dfd925dfe765a481a48d04ae020d1fb90aee683b94aa42447f02ffde4fe91ef7dabb5ec25cd5e98bc6aa32731bd7e5078c7c167499821fe9940170a703d8e64daf6312c0c907ffc821f9b08ec458559b4a1a06b254ca9a40f96ea39c78d230d5c4a13a94ab16f7902c6ce5f69e52d22828071ed6cfe685cca6560d2c426b1e2ea5047b112c55d8b8def56c629d3f5b2fe5781f7e3fd5083f649156a4197960381574ead3ba6dfaf7683ed4c8f)
    (by decide +kernel : ecStep _ n66 n65 _ _ _ = true) n65_prime

end RfcCert
end MscPoc
