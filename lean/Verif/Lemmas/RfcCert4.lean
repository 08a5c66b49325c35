import Verif.Lemmas.RfcCert3

/-!
# Elliptic-curve primality certificate of `(p - 1) / 2` for the RFC 3526 prime `p` of 3072 bits, part 4 of 6 (generated)
-/

set_option autoImplicit false

namespace MscPoc
namespace RfcCert

/-- a prime of the chain, 2401 bits -/
def n48 : ℕ := 0x1a227c67fe93b2665f09c6ec0cdd5b6f71055ae9a85d1358bac6440ffe333fa7b4f6416b5a3727e3edb12e00977d3b3c61a3b0d4a93082c7960a30c495151e21beadd5f7132f2b60d52bba967d83e600336f3d4b592138082adab580f769559459bdd629e6dcd99e8419f97c4f8e6fc99fe6dbe8fb689fef8d1ee2bbc099a2b0fa40869a9a320163916871dade5c41814503473f110cb9921af049f9f95b3e17cbdff7714ef8b200318d913be6c52eeb3eb78d736dd0fdc43f83eff1eaefcb45cdf2a0ed4d8e2346602008e73f17cd5d391ce152f161f8453f8a8465edf88d999a3e25dc0f078a07f55f6af8cb1f6dcf112dacb0e91753f993f99c124a7194e1cead71df9958edbd2d47c11983f5bbcbab294f284bfa94fb713d32b4cb08a64eb7c7d64ffcd8d8fe5b6c0368f

theorem n48_prime : n48.Prime :=
  ecpp (l := 2371) (a := 0x124bd35241eaa71e348ac049408e01db7035491860507389cb62fd080d1562e78c25cafd69a12b69ac755f71a1a9f82ece7b79f0a37569adff71a6238d60ff7871ee6c9c2882b27a8dbc59042cfe7095ea376f4320d5b854049b4e648437ffbef65859539d340d5ed5a4e42ea68b3be0b0f75f16cca3db12ec190f9e00cf514c1db116ff0011609e4565f213c2fe300a8b613a6bf3a8bc04a405343a510a59a263893e7b8e4e27c4a033ecf1ee09a4187e0743b9524aa68bf899cef1e5e6ef65a9ceb3fb7ef82c53a98cdae114e9dfde274ea8ddacc43f27e80bfec7158c98406a127765872a175d22562653579f4ed330598797b341d1e2397278bcc4efe773814858d9bee9ac6b0bef0e994f00b6b93333318d9309c697d91c955120d7a0476682429dd9e90b93e627e6661)
    (x := 0x578e6a01872a2d93282fc3cbf1b7ab7661922891ee92e26b789dfc0b2fe3372ea550f706a520a4024a9b37d91ee57831f84e3f8b5bbefb47c6d77152b06afafcede7e9b9825f624a3f21c21527dbf3f09a578eb5702994f6ad106338a4faeea21fc76fa3f65071534dbcb7c0f944c324b8bc4137bb36a9e5ff25234e82dc90ba613bf01fc9e849f3a6a89edb83a823d1455a570f9936a2575a2fb7e912a083ebf8bb117b776206b888b55ba48c09f719634166e69e70fba1a33d8b2912c070af9559f8b50f8c251dd8dfd70957c13ed721b42dc82f9ee4f56f2bc2f9ae0fbac900cfcd1fcd98df404e48aea705985cc24a2e96e9e9d4ab618e52becf4669277c077f976d6a6d61f2aa96496dfaa792a95d0b5077a9c28c01b7e309251091e944109cdf04396ce7456bd32faf)
    (y := 0xbd38d7df48d925013360b0e1c0cf36f3a32477033480734b4b685608c2491527cb5e6878bc1a06b7ea57ec9d67453aeed50a797e535b08cd1ce8cdf2faa871fdeb71916e4038be086d520a7f30058275532c982bb0995440223ac9b3ddf7e7d4e81ec1bbf18a1810817717d019741561c784946d33d62f7c16c5db836b719cdfe6f4f9deb4a8a2bb44b1396bfbc21d7d627d0d15048853957cc7fb3f17c36b379b8a6df782da75f4595c7fb8b09e015a282d364142f8bc34a479fd2c0dbdc40f810834d9d89fc92cf224f16160de7c3be4cfa13ddb1c1ce3c02adb2bf29c738ac3db0e49d9c29ab313c289f71a09384fa2a945cdc001c4b0fda7013fe76986c8969b68bcff968020ee705874460e06c8cb0ba5396d3d584ec7aac953c45a5043d64ffc9ef41d787947de1d45)
    (by decide +kernel : ecStep _ n48 n47 _ _ _ = true) n47_prime

/-- a prime of the chain, 2462 bits -/
def n49 : ℕ := 0x2487d51ae73fbeba05f5c0a449e13e3b0e59164fd53a59dd9df079ad908448cff15d102b6f1a9f3285df731363050e405bcab47c4626018f1b2e34163babddf9d171b57cd7b745f444af1b7c4bbcfedb7707e485112d4bc01196c590dcfbefb4da5478fc41266d3d2700268b20d26a5ea8f9b9a656f9541915a9be92af5bfd64c6a544e9f57ab4c34afa58f70a3fa3b51af6b61241fd45107296955a2d4e924aea2f980e9aa28a3b1084daaa1d878723b8ea56991cdd10d302d707943c4caf490a6295c37054d0877c0957aa6cc19552007c8575b22bc1ea7ad7bf306d2ce129b53ad2882f4175dc5e412a8a2a73986fddef4935446755fd8b6de10e5544fcf7f70f35ca59c95db1ce4e13d5f01f57f2ccc14aeba043ea7fcbe158081810302c41bbcf5aa063d49d874ccdde990021642a792ee3

theorem n49_prime : n49.Prime :=
  ecpp (l := 2400) (a := 0x20c7b6e79cbd81923dbdeb73bd47482c554b07ca695078e756a1bc568dc9383bf48b0bba5917ed58a370e69e88119fb25cf423380b9648246216780982f2df81266a17b6c7a0703fcd3e565aca7624cbe258c741a11e0944206c8d7c73d00728b936223059038790a08386bd9597a263cb1fcf216d2531f1392a564e7fcbc8841970dd5793f0c94567ce7c23efa055aa86f81a44dc943491635315eae0bcbfe9bb0b054c6fc86173db83b7ad29ee27338f70ae6c8288023f08e69704a5932f2d81f628d0cd25f3b3f5ed62ce750d589d7530c9350fc47431b111371211d66dc9f2b94dc35ab4188463c21579c1965491c408d5741e7c4bcb9916a8e592ce70ee25c38bd3a04aad2b663dd8e5eeb59fc9692ccc3fb67e2df394609f5ba82c82b184ca751cb17c334755dbfb9659478e41d36c69b2)
    (x := 0x20c7bd9659cbbd4a71f3580659f97de8927223eea420ef2084d0e8d024c6b03d46890f1226771997757b8858bbac546ab1db3d428aa35a4fc39eec0b1b0df9c2b26d0a26713b081197ff90101c3fd91e158b9afdcc7330d64b91588ea1e233b715802a46635c1882c9d01d2bb8f532b73ebe5bdbc6d3df22649973d912352bcfe75999490dcc52c10ad616d1eaf2a7ab2a724404e8b9dc333628a500eb1cb4b79da8026184973e4964b5751c81a1aa48adf85587fda889e857c5f384c1d9dc6b87ff6d4b4eda604641059c4bb5eb1a4d4ecb4f0196efed2287f1160b535acdca1e8b2a3e25457821d3cefa8ed2ff8e932afa99b1fe1528ddc4396d3b2cca0d440366d02534899c215b01834fa318afe6e708386d50c4300def3574020903cdbc8ff5a03b2f45aec3513a74759b1ee06ff4fe8cbb)
    (y := 0x16a9ac254c362648dbac864168dc1e802d56f80c5445e4c61aebb2f8c13243686ee9fa26878f0033b5f213bb372ba3ce7a6e39edcf8884933f73bfeebaf80c71b405fb4256ce594c6c9fb0496d012a8edacf4315609a549701b5e5537c3913cb776b80ea51af62e6c10520f9a4831f42b48926da463890855b204c2c90c214c16826b9d863e0bf11029e4fee280983fa0e2b66daee4ed23846b643d858bba711783de73e60272afbd77bf44a09be446607c18aec3001699ed7cd4d91a9d8acd78d8723f22376cff80fff16d878cd1f9302a06bd0875127664524ec2c25b2f3aa5d7f16677570f8e2fb77a2ada874897d588cce12344a9ce5c940fa7315a34473a3984788b81b2c3395b98f1993ebf95703cd3c356f77e83642211a26d7d3fe124d2cfaeb2db8e28276e3e81b31b0feee4e7b2f68)
    (by decide +kernel : ecStep _ n49 n48 _ _ _ = true) n48_prime

/-- a prime of the chain, 2499 bits -/
def n50 : ℕ := 0x7f7e03e275b3da7fd8c7f7de676e07c64aefa81fa2e3ce7d42fd33453ea4e7eb245da3c2d8c657fc34b66b257d1cb433b3a1086cca6598499c10fb2db39d5fa11790eeaf97c7e3f39876f6c2426c6332852e7a8805ba8e29cb1fa4eb9705eaa37d745b9399b5413049dff667c66dad9667b8eb581cca910c79cfaffd1dfb77ecbf658453ec7e38e29ce990baef5756c1f1e445568a66c70ede103016208a8db714f458de7c2b3c1a267153843b8047255fc871120ef2609d816cf0418160d5f7559cad4e47aeb7f9ceae3a338c37c31ab5668bba85f8a97f71ca6afdc931260fb4644c4b12a135a13260155dd78a1bea0c27dbf5da4e1541e80a041a245aa450fea59a3b3e5b81334e5f1fc93002e77778d727c890b8a487f24b79c3d4bd3a6fd8dae062a6c60871abf3eb37621453227b6f46a2dbc218e95

theorem n50_prime : n50.Prime :=
  ecpp (l := 2461) (a := 0x78ec21b7c5c491c601a3d620ff7afd20e42b76fd98abdc859d10a3b452e9a4ff3cacd6e8a83698604901afc8df4660ab1db69d7c9354f14fc3daa347e7256242a683bef90b21ecc7b54a4f3cd2e0c51b2ae90eae5fb9c0d432589ccfcd18f99d1af850d557a76add8dabb26f45009ea9c364dd849ae9860c80fb165caeffd4cf160ffb7249f5e6cc87e2458468a3667af8a9cd454df9cb000366268688f860aa4e42fc7042b80e863315bcdcab491c7c93a8fbcd6961bd2799ed345ccfbf52d3f062a393c0542144cd9095702700dba4dea8fafff2e794a440a92aa8bdacc5602a4b9b9dbab39b4b09824775fe9963becf2da5f298d91ef0de96a0f5d47b21cfdbd940fcdea9138847a0f3145598816ac338edadf3e9b7ae50bb94cf7729f6eeaf278c28f374bb7f31f20f8c1d10e148e5632ed7ae0cd66ca)
    (x := 0x697acc0cd812d3f13aab3d2d0eee32af5ab2ae4bc76a753ea7b0b666f7f6cc9d9215f7610bbf1e6c6148cd16601e108c8a2d85ec93a49a4621d879d708a94d64a2fef090e04fc7fb768d5b95d4b0721012ff30adec61b1a6ab0e1f29787918b447078b5d7da8d6bc620749f1c46ce8d1d6ef7907e970347d8c1fac12614d3e62e01d17742704c585d0e91a608c19158198bf9ffb4775cd239b2a7a2ae78335f5d4ec174227ca23a1b6cce5d9c3d7ea59c63bd5381030fedc46a903004b0e75dfd5a2c84ac98a7da5eefee29b00899efbf4342a506d3e63413255725d14617661e55a24ae214b0cfc50dbd832419e8389fa3227f2cb075517e97002c4a23a94e7638884abe364ef20f932ebdf039a3ef5666f37290017cc9d5757c8e24d70a763eb93969e18fad0eb354877c2dc6197f0c82bfb1de24e037c5)
    (y := 0x31062d954c60d9b1979bdb6e1eccb9b47ac2fb4581e74e221084544e883b0cfce522a683471001e91ba14d3dd1788577ce43f19757fff3eda8954140d99a52e702b6f3dcde092c1bd5aff9c4d3a30b584ecb5bba4d1a47fadfb281af5398ab16ff7d2354bdca4210dacae2195c9705bc4e35d6db9c6207d9c7e934e07c5d4cac3469c5be58bb5fd9ec2c0a4f9a2e22586f185a0bc39dcadb485085e047bafa67c1fe0a330bddb2eb4039fdca013d5d99b04da0a27236393ad26b49d70baa975b514f641e4a4109e50509afcf038fc3da82c3d30f1ed471d428f9ba1f9f8fd2128754aeba4fc4eec14700a8df64efca897ba9012da2e028c3df2e88f3368d05095b697a92a360fc5b18aa74a7e7cc5398a2f8cae11b07752f8f6310b538991ee55c155db3ba2f70c999a92792b887e2533541fdd79fc594f98)
    (by decide +kernel : ecStep _ n50 n49 _ _ _ = true) n49_prime

/-- a prime of the chain, 2535 bits -/
def n51 : ℕ := 0x611c6523e121696e7f4602fa2995180d68f91e732a55618fc042cd0ac5c4662f2b426db87c1972245c3010bb8a51ba0145f6e6121258400442de7c282868dfe824ab8c34dfbd984e72769a2a23510448e43aa5f4ff6e6d28f2d7f2a48874e19caa3ab4309139fb2eed09fb41868c6fd3951bac26ce28d8bc123b6a0642a4bc2fc2d7af5186d65a2aff52417c83e1a78c301267702bf18beb2f9936a62f997cb73f27aa6abce5eae9821e498cd17c14ad0e8da2e24208ff38f1c331b6ad0b653b6185bdf2c8231c59b5e4c80273734f7233f4dc2f530ff3d927c7d225b72f38f1913c113e09b28823656b0da798382fe9cce3099ef984beef248b02ed230af698957e4c7645461122131ed26907b1a67436f639dde3be6967cc3a9eb5be7501a16165d70dc639d26c9ae87e0ecd25a8eb19f2e48efe2ec79600fde5559b

theorem n51_prime : n51.Prime :=
  ecpp (l := 2498) (a := 0x54675f7dda121ba47234203b3509e647323fecfbfe1a5a18990186861310d5b4b2cc9d854f7f137ec62632cb4fb15b361abe86c5329184f310a7d5746be69f21c71ccaa2ff968ce42ebdfeb734956bf416d8a1b980b951af961448becdda220758934b2063de85740ac3bb0a2f818c9494fb24fa0cd781d760b217efd41a234505536f5da8feaea7d10e868d61994144710f8bbbdcf3ad37df26075059bd2b7ea7ddf6729dc642ef754f78fe7c4b2647fe92068e71c92d3369ea976ae6fe30b53964fa838ce59c05adc7acc96258e20e14ba57bc82e052d4339bbb9d269014839595dbb667bbd3c123718d45cea84d9664afe6c7d3f60b9a9c3d84b822a8c704376f62ccc7f1fdbd24eb9ba6ebe0c157421605e9c88b8105c70c6a9e78d0ca8c62558bdbea806e6dafd3b70d870a4d22735087412dd679b83b4b4dc905)
    (x := 0x3c2fcf4ce095afbd838c8739e613d82623a238c026761b85e4cf3cbd4408abb6ad0be01e53dd8a42a3721a37c6ddf76c290c30ea65a91350c17dd1bc1a1628e6127f371511b16c9c39a67c9990dd40f6e2fbb66417589a69e19242a893b83f4498c11f01c1cdc6c0c8fd92ad1c06124132d49e5c5f8a18ecfd5c998bd9890916d84f69bed0920635058b149bdc613d289ec380448be47f91037807f2a030965101e9c6609b72959549ffa42b6eeb34cfd4bac653cee9f2e7e61f36bfbd6fb4ce3bddc7f46a5640931edd40d03cab487a42f60096db2c0525919098201c19f256cf3ee92e7471fddb3beee6199dfb9c1d50a51b33c1913fe6aaab19eabc80ae541d98e772130024335b16cf7d5214e48f59266b7de1791c6bb8858e3b4ec8c709c95defbd1ad4af5b06daf1f81ddaa790bf2fc929da2b02fdffe8b7d81f)
    (y := 0x57300ff665662eb56f9e0df4de194f7b01296d297d7982a058c7fb25f9ec45e3b838701d08f4114f37719fef4dc986a99460509111b4c59efcbcc256361d97e97152bbafc6a428783703bf49eff250e7fc2a1a19a2f7714e6c4b16e812556fc20ae689864620852808ceba6c8e626b11e1d7cb00e5e1e75eda777789dd1be75e07e39d6752abe5e1a2bba810b3c57d4e90037709bb71f775a0e22ed21129ec0e186692622f07010843aa9c1aa68bae861651ffa89ac2ce806902c616619c382face075c9060f3d51fdc394d377408418637ef7ce19fe137fa44fddce41e851aac8ce6382704d56c50aba86883c0d299b729fbd4d7a30163e1e128bc7b80b4628ba62793552caa74dda8107ada0b3f2901149c6aba9dd8ac428668050bb287f6e1be98b70724a1c21492b823d5e60397d8a8a4326450b7dc956d20821b6)
    (by decide +kernel : ecStep _ n51 n50 _ _ _ = true) n50_prime

/-- a prime of the chain, 2578 bits -/
def n52 : ℕ := 0x2377dda93c8c58df4f6d469ee002df9affd6adbcc36f6f0210715d068cae640848b49462f03199c3a7162a1dcd40f6503b2278382036376070e6d2d744dde2398993eee38f1ecf7bf2ab816576d8ed812dd0be59c25d7443ef9f10d15cb8ce2b82ac09b23259f1e716ee256c6d73074c61ba0afd4428ec1f2cbe6bef6166f50931532e54f64f5c252cd86819e1af2e2f40d87b9243871feaf3daf2d95ef7c111061812df7a389aa6bbe81adfbab83bd6ca048f07240c19bd3ca1e79734e36934cc033c5fd9eacbcd32b71120faae5cd41dffce79c77b422a766b8894ec1c332f190f2223d508989aea37962ab33492776aaae66ec29c23a52780f640c4e04f17d4322da64749f2447b6860fcb08ce1356662a919e9f3032b96cf2187d4d997664adceab76ac0bcc6c9aadfbb864f3915a81c593fb4e75f2d6ee2f9cb82bdc625efd5f

theorem n52_prime : n52.Prime :=
  ecpp (l := 2534) (a := 0xd483bdd03c66d5a165dd7302933419886d926f89541054a1c0f2af0d20ad672281594b5503c4d1f0c0803b89c115912f9786d34cebb0a2525c52077c129e6aa02716cd3a4515dba058c26b988e0e5f824aabe68938ef219dade58e7d5b240f13c37a9215cd3cbb03e0427cf1ca9128209868f28dc8eb5df7e3ccf1310dd8ff72fef3cd562db695b898d12dba0d2b9a9e7eed607d7921fac349d06e564404ddca0d608ada55d57e0b660a25b49c9d4a3d05e7fea907fec94b742f1a9da7e3a7dadb5162dfe6294b8da3c76d6b898c7952e8ea39f30db5c1f42f59cb19f5a9b73a91d3ed1e8b838f9d4ebfd36a5eb261a8c60488a63922735472e6c9cc333758bf2ec5f605618f3ec25ebc094cc44f509cca9f6a5c4089a19cd3c94fb1ca5934f74d376c54694fbade40a33186138e60231998f495ae959855121f17ca748b159b827b)
    (x := 0xce207480d62a17d5c1efe922e6a444e8268888a1be249fa8901cebe3007fab371e1bd9ab4d40dc1388839f9bf9c5cea0f9cc9bc6f53f5bf1628a43e0fd59d7bfdd862821b5a2af5b55c66fea48828ede38c602614ca3e12c38bb2504c7f49a89ab9ba0ba726d9f3590728d554571037bcbd0f199c81fb0288e8505b5e3cf8b38f15a9ce1478538b3fdf66cdfb73528dd8318688247af5ff9359cc667d820a3ea71e01b0662e89a130d82ad5bd66737be88c9807c668233c34b018aa110d89c78ff1ff8b47784643c80d10dde96814960119a95a1e909f238457e7f3c4caeb95328424f820d77a175e2c40d4edb5136c2704d3419abb66015cfbbc87280278a434613a455761da323eceb811caec2fa36d413655407f9a91c2ce1eb1915f89f56d7668b8417e6a1f138184e3bd7d20f897997f0114347e4d0de07edf3fee7904b7dfa)
    (y := 0x22161ea5b61171a567146f0c9893e24de9a5f315476172860fddc0ce1e816ae5aa40814f9083250e0562ecbe8a14506d3a5438bc66be76e7c93aeb2bd7a7f4fb027d50c582eaa45535d44693cf5e80f369d758835342416418403e399832e26724d5164f773f6320004da4c649b00a0b0eeb57bc389c4c0d7318dcac7ebeec1aada56d583d3f24e95a14814519399e59d9b1ab1ef39032bbabc884a00b2aab1bd3c77c8ac835a43947b965c71a495a5c3c9981c59444eb6c3890e068a8f89f8ea8a2f8ea429cad0c592d2eb91455dd21ab4b1605a9878dfd3dd1bad0f351334e1863277abffb8d2778398d341cfe2a4bb68440f0d1435328cb6b58d450d2fecb392211b24517b6737df453303a0c64d9541865d9cf51bcabf1d01951b78418b4289f735f33f858622e3ba4eddc6131a7b106b8c2a5c98f9d33ef906b0d621de8ce569)
    (by decide +kernel : ecStep _ n52 n51 _ _ _ = true) n51_prime

/-- a prime of the chain, 2607 bits -/
def n53 : ℕ := 0x4c95c3444c49479a578b47105b97798e74d9e2204e6ddfc4309546a852bfdbba441b8ea98f764f9d18c0396e86982344859f2332db897781ba83c8d6e413de1fd95115689377f942c9ded8763d3510ac978e15b06447716448ef1876b9160e1d81c62d3b9c8386a18fd391db1dbf44e436bd60d05ae1d7cb0fbf18f195a83c55545a8a3aa500bee152be8e4dcb1f69ff96f192e31adf2c9ee00a88bc2c97dbeedc11874f90aafb098c8d6cef4113f432b3f72c4fa26cc8a6ea73d6d110074c210f5f78efd63e02c8d1ef1c03d4fd01238030d93890e933f4321f98555bc2dcc1cda39f230ac21240f89004e24682aa14397be25aafb6779c65d79d124bc4da21aa1399a2273f806f1ef57993659d89b1319a2055a6ea76940b3ec824016089aaa8eeaa68067787263ded1fb2dc05f968aca60523bd967bb29e1216abad8e7471a057d9d84c17

theorem n53_prime : n53.Prime :=
  ecpp (l := 2577) (a := 0x2dd8c454c093fd8e38f775d766d38a89ad275acf3c56518ec3c1c68cc635be1a7e7b92162b329b24f5b4aafadb1515c91ea09a3b6d49b4b6f9d6008eab5903e08281d2bc38c4246003a51681edcf3e16852de07b74c109a35d43a93eb0c4825167db03b8014ce218c36907f34f9cc957d806cd1f1683da3cfb1b474dec63c8593ff624071856b52caf46b35745a6296664baa40ea64372e660c6579a215275b8df3f67704d954c0a01971a7757eca1edd534aa81f2cf0691192c53a00630dc56e2b26e016f384fa6b4de5d2f1556224f5cdac1b817dc4fe055cc45bfa0e99dc7d3dd768c013153099dc2ddb6cb1600fcc625d1f87c4b587318895277c3be8604cfd38d7d8ced522ed3e21e0cb90f53a2af87f1a0b368a14c93fd6e2327059f9c558cdbae27349df042487f05ed547e5f7fd3426b52625ee303b1285c6818eac28757c5a2b3aa)
    (x := 0x50a159a991808deaa499e9d2fa7402afaec913d60d622db3fb938c994b9b11ca7a7ef2a8ba199ac1191038121455466b18a49d198f419c2923e2e8cf0961ddc31dcfd386e7a95f668ce7b1c72f930a1179383b81f2b442cdcef12a8101f010dce695e2afd63c2cd9b43d5d1b7b863c13de0a3a3eeadc29a7f2388dfc56c2fd8c886ebb7675782d9612c22d09840b6a1afa303f33429bd381c6c37aa29d6671e0f36846c4c30be9bae6ac40564142fdd24252e242bb1c8c60d44b7cdf127b1d77e8336c7bcc874a7f5f6931de536c4cf591d2ffedcfebc4f6c384e3ff67ffb54cafcfd1b57f138fccea668cbfbfed60a8ab0fc203661878a1777147fa6b6e322036bf15831525db2061b8112f7cfe0d7658234bcf7ee36c6ea93d1fe292d4035a997113f0db9fc271eb2ef265a034c8877d208aecd7eb003736edb578c15cc57deb06d2e96fd)
    (y := 0x85f0718dd2efc01657b8c9716a121bbba6767af26e419a46292d4855a2375b9dc5b63c2e34397beda66bba78b8279538e8197e416c15cbd164dc174bfb17fabf46419e51bfb861eb8a5c258fc9c1ba4a3b0fe044001a75faaa4bf9a734060c3df201ab341e8019990dd82344c62a4a8e21404383e1209c0cffec48dcc6e550618c55a8b69b2fa95dfd79034afeefbdc7919b5cd5f2b8317f4d27aa971b065fb58943e7486a35f49adb8bfa39469eb77be1e517c2938ee5c28182658d91dcc5def9d0a65df0afa18b296be9b4a81f7f067f5824f0accbfde2fd8907cbbf3a3a384c344ca3c919a029c28d97b757fd968676aaeaf0ef95ee16f1a8ed2be8060e8a4ae434ef2dfcb174ec61d9edca19d40737b2d95bf83acd5d88e05cb9be10e71b279aeacd65d73a1c710ade11c204b6778ee270d51929f1f9ebd5d1249fb50761e3e378a1ba7)
    (by decide +kernel : ecStep _ n53 n52 _ _ _ = true) n52_prime

/-- a prime of the chain, 2638 bits -/
def n54 : ℕ := 0x3b1b4eaee35720f4b281e2fe5e74ffe43fbd5957576457b9bb0e8a1e1be4e5c72538df008c1f6250d76e382b6d1b032e31a9af47e8e166c75bef5101e5ea3d8b8d3b5fb6aee10d54a9efd2391ad3ae5467b1647bf40db29534b1c8752a161634b729ce93e3fb2edc7cf03f11b116eb9e59d4707eced4c2ea3130ea08d34199c12a298ac10428d1d0c173f62ed9911a590a760d5d1708aa5527020238c4b5fa7b640b1fc7e50f4e2174abf10bfa0a20084ca6388bd03a444e6bc8addf3d766a663ab79d215d9104e6ab54dd5649c813be2c5c2dc50eb70606fafec1b7bf3739c65ac4c726e9a9fc5a9fdfcebf5a4028f2e17ca226531c090f078763d34d83a43558c8fef2bb8e7bf2b75a6ecb17548b11a882b9eb003f388762d52db53cf2433b962509274bb792f4fcc24d6939264fe609c535fe6deec86782425e4f766bf3ba9cce95ed4a3108a79b05

theorem n54_prime : n54.Prime :=
  ecpp (l := 2606) (a := 0x17ea0e4855f6f027c0836152608dacc3e9dade192d8a1c4696ba5b966e024a94700d021d22109dad9f623c46eeffb9e875bd72c45d7fca946b700a7526e46ba6c5d34cbd07251d474b3988a7910b8a576faa3bb0d67ad3c7fe03c9a735c7a63a56a4a41ab7194e0b0abc2f220a060d252c567246b65a9616ff6012c01c31f998c22908fc3c2444df53a6b3abdfb6069755652ec1da4558fbb77b4a0bc80da12c2b075161809aee260c0660dbf056cd638db4ec57fb6d9cc5e626f5caf968b990d5fcdd41d078e264d8a01279fd340d8041db49c669a07bdea86fc1e3a948c56486cd61b8bb689404a99482f052c83a65cf1ee62fc0605f3ab2de47f1052cd0a91688673e1a1e46e0b3ce273e8a178729ee2dbeb3e4defc378eca1738dd3c7aa54efefb72d4c62522c8a5a9aa6a27b98cd4fece17a10fde2cfc1d890ba4ede2faf12e1fe6ecfe5c9a1e1f)
    (x := 0x12edac3bd72b8059d83bc838eb3d35fa914a2793258978330308595667e21b6cb7ee387ca45a65d5c68d3efece893a0863bf411848670373b2ef5b096a1efaa2740d53b05e126ef0c3f7f41f98549dcea22e5f15a02fd716d95b6cae3a3f81c778528d6a7e2e739a2f1355d82c1853f85b409e2c9b3fa2f950fb58f8792ac8255ba722c64bc941530e0e8a5eaa308ecb5a32891f4013bfefc5215ea3d908ffdf6ede96fc669397470d0d80c78ffc6bffa1af7880c4e3d2c4576cd40fd4a17d8c7f511811b0e4fe4922ab5bfd7d0208a64fa0fa4b7d1e843cf4a3383f8df33781144494eee73bf4d5f4419b55a65327b7e00e7d416eb704bbbc09525f532cfb54bec85faf7a39f7953b726b890c189e6d60b4165d4287bf855fb2083a547a43224fd53ea56ec40dda773618e5235b0b5800cbb491a88692f7c3fec6593f35bde1a08d0714b9e72c83a0a7)
    (y := 0xed3bcf5f4f93502bb6550efe0a4ac186d9c3f65e0cd05a7b159962468e329722f1eb82f52a6d49bba1fa7590c64dee1a94870c80830f23ecbcf6a07bde57b006e8c41529f26f5b3b71f34abe486587aa8732614a10d75161e2e5962689a592e0270b586183aa6b97edde1c468c6185103c2eca563ae32fe4808a178ad272dbf2e2123f3a3e68fce7c1a7000e5b76ae632d56d282011511b9e074fd30521653c4698df941540c45bec6a910f24dd9885948140bfd7989a3950f6b0cc1fe99479ec641b3a355cb253a255288d60b5dbfd9979c74e311a77754b2f404ffda6bc8a575e426ad8433e939dd0baa86642f8beac72a2e667b109e0bbd8b45d96159ea1f3167d5f82da80870fa422be05f088a742be88f0cd5a4b50c9fcdfcb184b20fbb33690adef98af005ea5ea715fa5fbeb1d5bb12e9e983fb12455ea50d4550b429999279f9d6caffec0e8)
    (by decide +kernel : ecStep _ n54 n53 _ _ _ = true) n53_prime

end RfcCert
end MscPoc
