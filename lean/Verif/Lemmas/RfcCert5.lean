import Verif.Lemmas.RfcCert4

/-!
# Elliptic-curve primality certificate of `(p - 1) / 2` for the RFC 3526 prime `p` of 3072 bits, part 5 of 6 (generated)
-/

set_option autoImplicit false

namespace MscPoc
namespace RfcCert

/-- a prime of the chain, 2655 bits -/
def n55 : ℕ := 0x6dc79ae6b07c1e549adf5f92437dbc1975267544496f7d3314dd642525fce5891d311da76b40764177ef55511ff7b0ab36fb516e46174c3d7bcf7f6bcf7f4be90602eba833d43c1b64544d6a51c47284024b284a7c6bc4d4414bc6f92477dfa44ec5250f0be9d1ac4208d293a2f23b042e85a22475b48838a9f7025cfe26924b15880216b7f2b499829d999849d51178aa7efc980abcf72481a02a1261d2a1c656f2ed39eb7d70d7d5df55feddabbeea25f98001346e8d9fb37852caaf088313bdd395a0f4541fdf86a77c5934ad40d95f315fe424ae6f031d7465fe6bad067edae2c07417502737165bf3233f1d178df9c8f6a8b6fe7fd470b6d5ccea4282724e05b8763f5afa0d7a065bf14ea51e74a75af315e0309029c54f7b533691bc87e48667c631b23ad34934a0bde7a9211d743ad76f3908c676aa841a11c8050d46a22e5f9ed6de2b1a19bec873

theorem n55_prime : n55.Prime :=
  ecpp (l := 2637) (a := 0x4e318f8ff17ff0f8562b87488c64216fe4822cbb59160c6eeed1f85dfac8707ef45c9ab4f5b794b7900a2e413788480627699e12d924013c0d78f8c80bdb15525ab11861c10672aa7bb2c9ca04a0423bf7d5f317550ae25294b4cc88968dd87aa0294b1b7bbec36d4b4c71ab2d3dee45f52edd9febe643a8cf4adf01cc49ddd041e28e62fb73b2da5587d568516e5cdc64e7b0a27812d4e04d17a69dba9477727594f353697616cb8054adca543a6289632d30f9d72ac344bc5a2fa48f4a8d84d18cbe1a08bee737f2f7265140c6ed75b752399e3e7ace15430720f45b42e22e8dfa5c35c178ae60f9c0e1c9950286caa79b30d0d6f74a6b7d6905f0a1b901c6be321c5f844e890c188961b05255661bf54c0b319a5753234d4bfba6e3f66cc426f74e4c3b491611f670f25746a3d013987e29b7e1271c262a6ede52bd9b9ad2f8893433430758f4db0ce4f6)
    (x := 0x6510acbde0a83cdbfafc81271c506c6170a18041ee3292c03d1ebd65325100819fa8f5b13238b8616e868c6c709f5894bb0cb91c5d438921b403d10b137d8bf18cf25cec8ce76f32aee56a253f0a7fc3da182199e3160c6fed52ae697f568c76695362191b92c4eed240a1e730bd48b8ff47770394209142bbd14d80f10b354700640ae1ad0c520a9570f85b389f918e16373236d5a6f1e1963af89dcd316275e2d2e56a9aad30a1fe9b0c9cd64f0be65865bc478f42e882be26acd9a5087e4c7e01a1c8044de96ddc1559fd3fe58be82899ebf1a8146ece313f88b40565fb6978d8762866e72926368322da78d319019019304890af84205781ae896b204cdaf0ed7f25582fb5a8890bb6356ef454c0a7c4fd3b7ffa5aa69f24f7b07960ac4911f993ff8f049f4e26261dfd01cdec475e82fcfb0a96319218b5def32c0c2467900176e988fc0b6fa856b71c)
    (y := 0x54702dacd6badb70622f6c0be5937aa5f8cd579bd3a52b230659aa46e3bbc2b3713c6e4264eb5658bbb8e10d5fe60a02b6c753c4da8993d029952e27de537a81ec7c110df2d8e29090b54ee4c154773932246e99a35405531054e44b243d5e550f7f9426e25047aeccb5d6632ce928265bd8d151dfb12639f77d4a36b30a4b1563285304120bdd456197c0a6a793686faad77de404a81af700bfab44ca5295b1946e768a78ae543e69eaa965b07aad55d8beca788f75676aa6caabb4b6dedfb0cbfedeff13dda74fd8461e6bb4b8092b204475f2b4910ee49fc7eb4d623f58d51f953ad8e00562f9ea008c0202eee9ae63a325cd97cd7709b82257829a2fff6d6abac789f18f12f79a660b53a8497613e5939dfe9b4a96610dbf947abaa87ce7d1f68768280859847815760a6c447c7832157e5a8d02a81ba2641a050819cdacbf63af8521b3296885722561)
    (by decide +kernel : ecStep _ n55 n54 _ _ _ = true) n54_prime

/-- a prime of the chain, 2686 bits -/
def n56 : ℕ := 0x23e1d788cf9dd81940e159ba61dcd20acdf81247feff2677ae881a95d28ef8efb0d9f33ef2d1388a4d99194e6a97d6ddb46147fe9d5002da746a9430bdf00580ac79a0fb6d62c716d9c6cb146723e5ea0d2839bb10a47bff55fd07b869a3f69cb94288e4a8e6ba6fcc86481985209e0c58130afa84ac60cae0b5cf6ae7d3699b61a4a837ab9a20560c003929a927c2e50748c19cdb893f05cbad43cfd74b2c134b2f2d8bbd5ec07581b688e7cd48fe6ff9aed58d85e4ecc3073ff3f70bde533494810f6fa34266585b7160d2093882ed830474daeab5577584bfda5ab0dd3ebaec88dedff2be61b363ecd52a836732e997b6f15214719989987d7ed72100a85e67b35eb627658073c169490262774f66932e448f92c97085ec894569931fa2712deb10cdb1bcd76c028d1974ca2924ca92f20e72f913b8486cf74287c53cd659201497376ee71f487a69dd11ec8ede4f

theorem n56_prime : n56.Prime :=
  ecpp (l := 2654) (a := 0xf4e76938d336f922bdd086da8cbc9d2a535278b7552a4052c5326d54afe669abc16e63cd31844ce8e7dc1101454db3583eb971d40266dd82419da2b3a978c9ac07241c33545e3c75ddeb8ff49f5452507b1d4361171938457c820b7bbe547a73e6f9d87e034ee9a0d48eed41c50a92995da95a4a857b2e19ceea964e6ee3d2a06207b0c7dfab6bf792aae2996b77f2e9adc2e8ba76a2b98ae3d3feb7dbeac9553bfd7197b70c2b5299473e67656fd6434ab7949e7f5b4e80173f5bc0d4afa75a624dd87ad4a7490cc88b9f3a1b8e248b52ae703bbf8318749dd9177a63436989049df70684ca0c90169e93f656ba3db308d4ae009a83fcddf9d1583290980b03eba8f8ac476d2d54cbd88ea2f55643e34bad1c083d11814d05eba9cc87e7346e6e74e026ae27c73b1184c6ca007e07a44e99f1f6495f737c97c7c7d04b27e7f62f7337b7e1f4b5b48e38d6c9cf7f129)
    (x := 0x1192cad772ea3b0046260576b726bd0cd3b0d1b9f27650d6509818b775b8493b77f85ba76bc747f82420f9e29b6b64ab26e6d98a67f62a1a6d655546f57122fde1ffd40b1d7c8ba2e4c2c8ae5f926a4f012b470abdb9bbce8bb72d5fc071fd10740e4a942e7a24dafc1f4ad6fd9aa41ddf49b658afeb29d6b5d58a802b64de655242b697dbaaca0ac02698ffbb6276e4b8f6891e16397b5f3fde26ebf1a4758fb7d33f16585932392de7a16778175fa04e0a7fdf4e5d0cbac5cf48102d99efa9ce30827964b483b5bab4c9c83a5b5e24c08288a3e1d2740b671ce9e93fb52663eb3a48003da29ce3ce7b0e05b6359ab06941b9621c64e5323d4ee9834d89f3be43dc022b9bbd25dd496b83c81b6ff0b855edc4f6ed96dde4a68c13e598509b8c2f9fd99dd2f3d33cd7da11abea70914189c9943e454152d37fcaf119e1fdd6b850b3120a8e57d1792191820397616fcb)
    (y := 0xef3e03d1401712edd44a6ce06809d8835dc7a092baf54d39773f766845dc0dbc9902a877d465460b01c761e3decf7f8c227e458aa6b697bb0de6800eb4bda417c6e632b6813372d741cf982202176ec5e3504b44de0f775a26afc518e9137ddc10d4e5fce05bc7d0720172d3e0a914fd35b41d6d52e8a956adb44de90e10e84dbde120418cdb0aea3b0847efd970a607f670cdbb110a02aacad7eb03de611f721eba9a0bf64e5f662fdd89fda5985804d528d9756de29ae6c59a80ee68ed0407a544435b8b10c2aee5c0b83358182c4f0fe20c7bdf24ed7fe0eae4f9d29414add10b60748f670f80d84a777c34ef92b040627c912d06815dc26c16ff78381de875c5d2403e358fbc415ce2ca221c5a06590918e39e3bd48c5b07542fbb0df64e56c2bf59dfd39a48f73225dcfd5957bae467ee75872d37337731e70aa692671be642024454c989b927d44f5696a7af8)
    (by decide +kernel : ecStep _ n56 n55 _ _ _ = true) n55_prime

/-- a prime of the chain, 2749 bits -/
def n57 : ℕ := 0x1dd27ce6c0e12b35da9d153eaa58e5492047e7f00492c2bf329fb8adb7cfa15a65a2109f8a8dfa116cea6045c22fb2600cbaf57faab0056753157c015d23e32e9f7ca65b64133f83b59186cd721cf08d98faeaae24702634edbfb16785a726d76e6d770b9bc420f6ec3f66ac9ded60fee70b95757979b82e7982de89aba7e4e66bba2d1b8af394baf0e4936f1d2ef00c48abdd723a9dc89c999677222281f2107885b7b73ebfa5ce073398bea1ec5cde63b7dc0fe6501090fd38f5bb5e7e3b465f0e85a14c9b9070a3c56b47468822a68e4517104939de544ec60abaad970722c93e01e656aee009462516cfb509bc93b01b710a5e9b9e0e6ed86ddacf5aa86f2856d29598f427e3600f180586728ce69d795b2abac0e9ea0574a7c6b9a87df728c8ee87b7e1798cf6fcd571ca1607a876ea80935a0e5a3be177cfe85f885268910a0bdf19ef76f366100cdf7c74b837b407c613baf2846b

theorem n57_prime : n57.Prime :=
  ecpp (l := 2685) (a := 0x174ab3a68b65fcf29458882c898e6d87c99b7e0c75e3ac131579368aa16e2e3623be6578fc7d200cfa500f75527860df452e8349963bfd20a248864a4c6d034cb31341d45a94985f34af19745a2139bb4c11d0e91591476721243fbec289de2fbe0fff6544fb87c0067107581f97cf54d0f6230111f9b09120cac8e953b398d40bd4d8ed24b260d57ab546f11ab91922ee19352c3ad7de556467a43204f34332869cfa43a3d942fd9e26a8a461297b6ca5f4dbb3c4bb32efb3c1fb148438bbfc365b2b43d13f5c8fa6862ca25565bc3dc9b97ad8c25f5c025147559afb38344a5be698ba67197bc293e504f59086f6281573eddb067bb6d3535a54ea04d706d7d4badbfc5406dd8c4b1bf14566251ecfe463516bc586a909cde57546f1a07c34c1e8e6c1411a71494711223ca75772b78ccc76552c43ccbfec229ca174fc58b7d1b78e32f43be1a17680caf58d54205ca84c49aa16cc1dc3)
    (x := 0x781b2f2df93255d4e5810ecd5f08a4d2bc59ed043218b07ae4e208710a468864fa529866a9fb22b175c8cf30c76adc159f587ab5cc53940a4a51e1dac967d8ef7a94683d9296f036fd961d7852042f9499e12b8f871cb81681df225a4ed2a20eec56626e72fe73c0f2e1cfe5037cf43cc71a2d91f4621d9c3d0ff0c3cc2204d30725e00117959f81ee199279e7ddbe6108a1eb9a8ed926a2ab302d84520381089b0769e25526a9803dfd8eade7b7aed8310f2ea85f197d95ae1ebb65f2d438d34d52c173b82de9fed59ac311bd7461cbb23f3480b93d18b02ffbaabb36c06a3ec1c7f68af684c46b0d29848464440911c4cff6dc4cf2f96eb69cc75a2e044e09551c5cf29803fad0f1aa777609b9d1275970245f5feb5328ea27d3cf09d0f805acfc624021cff012e6e81c4698e7aaaa6877980b7ac85ec618e3bfe1973917af4c94fcfd29dd1c35edf922ea19a3233a1c8048ede83cc1a)
    (y := 0x7d678ecdbe0c41a002782f68a7cfd805b1e5373a998962f5f3be3b04eb802157d5115a108606a8bd48dcab7e0ffaa17f0b012664d9644794682864c5fd86f71290a2bcf37638ceb4e4dce25a0a2a5b97074496f955f16faa5faf4797221cd1135132382e2060c07650d03c0d8b823c7e8c77a2bc9391e5c3d581be80ab2fc5eb1a70785b4ef46507fd29c6fefe2f7d0814e043ff43ab66da82e9c3b6f16192edb3a94eee8156686e171439494f9be725b7228c1d27461c71c283b6c0c44d9bd9dae7f936dec4ba792fc4fd0dcc9b19b68bcce5452914d366698e1c8233b0e7d53722fcfdd227221ab21ac6db4bfbd69903093678fbef22a404f0884cdd96d3cf15d23c06febf06d3d3763269f1421c7e2e5aa689025690d0bdac9a4eb3c932f4c0fd8fc7b2dcded4af2816d3b3973a91dacf1224ed7956178a58b2ff999c11fd9e61d9fd4c46f18d086863b74569d7a656892950ae1b5a2)
    (by decide +kernel : ecStep _ n57 n56 _ _ _ = true) n56_prime

/-- a prime of the chain, 2778 bits -/
def n58 : ℕ := 0x2a6c00a30495d12a31439201f99641c0fe257dd7a495ce01f148c212aaa6649ac9b6b831dcd33e023bc58ab377b344be144468529e290ab24cd8119c03003a565260c8b59987615055644d15bfd57c37a7cfe0ff5d66ce247473d50964e92f47379c25480f4b37f1d424410592c11ff5c1e18cfa62834e0e20f31f8a2233e2ab9450e95b12489ffba6d15ead82d48900c02d8e3696cb38b7e59043cc0ff0dbddea53c750b88bc5facf9fc5a9e90713a368afdd0958840ad53b8e4fb4292a00e033ae3d628a28b92f2e8deee16dc90c55278798cfff946c9ef3ce4e3119bbcbb655d6db34d98b36af440bd3fda9b76acd7b379c8ca55fbf6fabab01d0b4a6e811b4c898c762213ba18b29033f7db3732d489c518ceaa0944c36f65217ad0d145fc0a9a445b696c1fc1d86e919dd1d5f59c55dc0f0b85cabbf6e17a18b33b8948abb185cbbab08d9bf7de754c8f04f92a1109a809d30a8d664503e9f5

theorem n58_prime : n58.Prime :=
  ecpp (l := 2748) (a := 0x135070c73b666c8689241fd493fee906544a81c64fadde41d1a100aca86045b3b1c6c1d01214de69f988a2ae82e9e616ba1bdb277dba2b74c3974f8979b221782af565c6652a66389627423b44c151e8d6da82f2c0071e910218ad02cbe80dfcc6bb10806b6d3ce802aef761a773b423ef9bbabae5013ca51884665a3aa67fc58747c50eef5eee21f20a35cce6f04b2968f5065f84780f7a70b108bb627037bf1ffb617eb72350b2ad69fa781a08bad9cb4fe4ac4af65b39466f221561459eb9ce051062eeefbdccd55478e1d04bd685a073de75def4f9c871cf448e197b3b8db8d53905decdfb6ea934d2d8ea3852ad9c574f5a9d76195a816c1c6ad5c25ad08413c936c765f00d1461947cdd69fcb897c744ff40087ba9f035a5bd7fdfe6110bb60ae5e3175a220a54b55937480b87e03df33df8526a076c513b7c110360976d7f6d6a57c91b63b1e96ccdc53d988870251b56f381ba7e8e16696)
    (x := 0x22d5919e77f0e133b10fbb97ac6a658d998434d9d42faf36acefecb29cba35a5307dadb9242d5a260e0563187601b66b3dd0125ff3c94ea8c63997caf5906ebb581ab6b4234e3f2481f79377b437ddf39d6b7aa4610ad903f825659ad7e8493d8e2dc67a49321d95e8a8d6e6092506389111013c8c9494b4a561b076f1e74bee40df3109725c634845b30c7618b413fcd7a0ba3a9255a5e105768e340e70c4eceaf047bd1669da99d39d0edf755400e07b32f0c29e24981b355aadcd2a621f5758f42b1df253f7a7210dd73bbfee8d07ca9210b0a00c262f6a1ee460a24349ebac2bc66f681e8feecb61c71f1980ad1c239293bed2db9e15cf3440ebaad6c881271776c05a5c11fc5fc794f793551483f32f33d4c41382816f893e6d9f09fbeac620787329a56850040ae032de06abb19a9f3ab3d072cf8264f5a1ffd87395a18b3d50f6ede279b62c64e9e4b94f9f470b60137ccad808c78129a86)
    (y := 0x1857494ef897fd88f610598c54eb3fa78ac0923072c08fab71a01fc11686645e64c3a77e645fc773ffa2d656758cab6f3aaefb7d625848e968e8ca6e7e638094b454105fcc579b67a0c5ad0c54b14366ba37b20cc93e3d7df52c2e441b1097f2702dd1150b74f082343e9cbaaec6a7890e7592537f6bc1a8bc15454fbce2c874bf9ca7a7e2fbd15f8d5e25adf8e8acd5f2aba2342d625f24a342d0d97bb22cd9194247841f2ec153742b53951f2ba7fd3e878b4e1284f026eb5bd9702f10f0c8f6c072c4970c1a3c081f7de6ee7f8321e509baeb6186bfb664e70d851c1a665b17620fcb0a2d13c6df74e112b0b2ce56a4158aa49a30d08852c52d1968a32f47c954d86f639dd968951af8d5f2cdb9105cd0e1a125682b709b709cf3951b7540dfdfad279ccacd5fcc376af6b91bed40b4000366f1b12f330adb7c72d87f6ecdf1bf129c493679564cd01e60cbac86867788cfc833e0c7732316e90)
    (by decide +kernel : ecStep _ n58 n57 _ _ _ = true) n57_prime

/-- a prime of the chain, 2825 bits -/
def n59 : ℕ := 0x12841387ff04e0f241f9e8c24d2f8435def05f66959595d727198995ae20fc28b5288c039fbd4ee1e6a49e90f61ccc6bbeca999faed1e0ee603fdd839111e14b02fe223dbdfa41eb561de5e7ce204b7578217540348be865550022a5affe09f6449fb8e2f96bb2eea627bef18f90436649ae1707793e949c30fe5ffc9cfe3d42666a26a5c00fcf4977840a59c31ee382c94e5e5d366a7e4a9b09dd1595abb550a92083eead48116f8b58b96478f0b499389d369c87c39e3ff6a8342828657d565f5e270f263974a7c942a68046b3ffb0d143c9edcd3d783413f9521e36b3fc829d8d8d0414a3b115a2641bccc944adb4e46a6cb14b48a9efdb76a0a77705e377ecf14509acb7b896fb4967cbc1099cfb9b50589e2d8edbe8aab4098e237aee8fe277f3ec7b57997aeaf57f4645405cb65cacaa434c4673daedefe661e7b0188de1b1da3478ef90260bd0a8b13f4dc22242ad275a0549663be033fe4b0d8221e148b

theorem n59_prime : n59.Prime :=
  ecpp (l := 2777) (a := 0x844a66039bbf746a14c9b20390516fb099e55b956fbed5792f09757584da0ae1be23f954e142bc88483f075898f88f0f31090e67f7661758e6811f6f25a1043b008c8875aee01f103cc325cd41d01a14f7a4c9a66f009515f8e99478ba165d3269cc4cc4e103b14870ee6f05a95ce012bfb4e68f1114bd7d86ced9df95fb66756be6278f9fa287997b09078e08c6c00487a1b141833cd3bb834f11ff348d93dff2db617e8762ee14e12f8da7e4327902de0f1a88e1d41613eb021cd40f7b4f259eaf58ad1c0f631f4a828513f2392a1a0b304ecba65c9ae1141e2eb3be1e98def379476f83ffbd343368837c7a105ea1b1e14ec1174299866a6b16a3da9de70b84daac75962964ff4f43b8c11dec53f1d362fb954a4f5a7f417bdebb5454b77cfa1b8302cec3e8ede10856f857a67991c85a0180398c610ba644d11247f40d6db89f9e183490d3619f54b2a485be3c24faba6197efeeaf4337b5169c3250d1a87a)
    (x := 0xcfe98a675a1a15395123c248f36eb4c31eb78c6161c89dfddcd56fa9416d2d0ae33971b40ca45005e3d8b6e9a2cafdf33706fd567efac0700845859bd5536ab1a714978e65dcfdaf35b2748e511143f45908529d585ef0b539dd82cef00c8d7cb464f2be35f271d1539998f02e52d941211248a1f9e225e3e241dcee7647c0bf51c41e8b92eeaa48fa5fc73f07e952abf235acb8b09956b07ed75f1502474d922da7000fa4014d3dcf8be299ef820bccbb44030352b301e931d9bcc976d7bf681e681a1cb4fe24f1bec6ac87333270747607506a4426f06be17cbcfa865a752af9f492398fc47b542905665650545f1ee6ba276e3d237b607b5554a50f5fc56578aecd07f864ad55643cc5cd6a59fcc42446bf818f89e04ef8a7f5ec530dbe166c7778d92e3d8f5f206e3b869a8f18513ab79c59b2a9d126d86194236b696ec6cdbf1b75434d22dae73fcf0a066060c1874b5dc630a5d9921b39748d25087aab8b)
    (y := 0x6fe5ae180ce648daca53ba4e6b8c6ae28e664e865b102853c94b67480342179bd1eed2bd380f822086a0c991c6ff4c8e7165b553024dd0c556d2038011777782210d22973c0633fb0764d74b8c19b269ad29660284f094a7363dca0f80d0e0a69e0756b0b76e24947c01a199500661f65e70e61004d59d1fe5ebfd6887a3263c5f9af772ba1b7b0520ead2d41a5ae0039c2ab15260f0dfa0b9f2c88acde6f5328c2290a84360b1b76f4347994eeac41bfe49075dde7bd68c5372dd4bcf1d6f532ba1292ea873e5a4b89a37ed6f1d4c81ddc96b24a40179e8dd77b9173be4a094f7e40d42364f7dff2eae5574fbe1f24068a0e46cd600ed5a29f65a0baeed93651af131230e6672db3f0ac966966926be2d4b16526d2cf5cfa2a64d1dc4e12bc5c9eedd10ed31b858cb4e5f40490cc245f73ad44929e8b6dc1cdd0d1b7cd1be0bddaeadfaaad70e783c1d8e86f9d61f4468f9b5b2813b9282111bedad4674aaa6dc)
    (by decide +kernel : ecStep _ n59 n58 _ _ _ = true) n58_prime

/-- a prime of the chain, 2850 bits -/
def n60 : ℕ := 0x300da1687f46e7bc68f7418da462d28c4b1815693101f8ce4e90702420e7113433155841e4a4a3ae436df8ff3ef3c16991df138783c1ee01da01ee651b3067ff436ea8d609f1c8a20fa53b6ea462e11ff2b9363f4d67ea2ac538240ef54a62d76610a7be1bd3121c0ed60460e0493b7a3fd4994ac19f94439c2ca5aca568f5fc6b3685abed4e9aad3cab3cf91416f19d4a3927d4d503b960ed6975ce75338ee02f0f0d4bdb2891b596c66a0a23f03d8d014f0486a25cc927a70085ab86e582495ae0ca77cdad75b80c93b20ec325448cea833e62f5837c31a1392e44a22a1d9e8785fb4a68ddcabb54cd90d4cd8c9dc54c5a3702fdda129f89046aec6a47275ed2f0a75b247e18384b8df23d654dad80785e3fa13a92405e94b57ff3f9fef3ee26279a75f90510ebf8f9e4d3f217c12ae4b58ccf7e4f066fb8aa47c1718a6bd08ee4facb81fa224cfee82aca7cfd75ea33431ded9f496aec6b3bc4144454ccc17b202ca1f

theorem n60_prime : n60.Prime :=
  ecpp (l := 2824) (a := 0x6f35e213943ce37ae0547a38af9f49e1752e568ba78e364b4637f83b110cef2f1e289d824dda1a49b04c3ca60692bee0b6b6e6aaf9b8615f2af6301e1a541a789de711e0a5407260fdc9892b574b7436f5343d6009cf995b15f72532a60d164c43c4f74f0a77aebfb8687899ffb249095bbcb2a92e02bb6b739d100c95a3eeb27f7ce1a946c4ce3a11fa308f410aaf4211c5a743274f924337f15ca885096f72bdffa1dca85b0fd41cd4a14a106151235fc0d87823873264d2a0e544851549acf1fecc9528846837b80b4f295d9907228e6f872065c33b199a74e541e884f8ba600b19ec8211d8e6471c191f9a066d856e4d4830e5938da3a1c71c95e519d1e3f7f75d443a1280d7c7f460ced19b2d737a80ed4e5d8b85975333da220a63da49b303ab5e11b6b414c996c96666fb44ffb2eb5e3b901472f6803dc4ef0c21efe2697653acbac4727b015c4616e3f0013e913d044ec79f0e07264d74c22e2f590d570af46a)
    (x := 0x1d149c265e81ab7aa4d2fdc23fc25152327e62bbab9f0a766ab3d77133dc58b76e5acbd1f10297b2d0cdff6987ad5d86d64e872d389fb6d165f58b9172fda8f07ae7f930534829c1dca29982191647591f4a7f6b041a7fd65368c2fbc6464d78d917901d74fe437acf3db1eedef7dca78b3ece411466fa363a5245d321c9b1a9dfdd3ea0a591b15a2c17bb0a3b1a2a28634afacafe29b69a5313b57ba19a711f5516e17b849eeee3c7f9af8d790a693cc207462a0831e7639a07912202a35661886f46cabf7dfb27226108f76bfc1442945babb3793427956a6c642fe3a8cdfabc6f39f7add0a92c9523a1ec2cd32fe155f05471118d8c3ab974cfa2ef76a8c0bc130e2b84360f23dacbb568770b835da2bfd69c161489d8cccd14dab2c3d1c3c687050272224f88050960d2a7c8b3d68e5d57d5a05fc1ade4733f47882f8084148f047f5eb369644f96184b441900116185bd20e9b3daf2d93b290da683da2ce53d2e30a)
    (y := 0x2dbc464872ec66309f10d5b8773896ccdc0095302819383de261c830f8d258514ff43661e6311f9214ebe0e9cf5bc5af4254cf10345346baff00067b27f3fe2e11f076a7bf38862f3d4a6a765e8a4139ae2922ad6e61d73f072fce23e719b4a1ec2fe8963b49796be39e566ed9a4cdf8e89296a7656eb90f5c509f997f3a2381a9e61ef34eb041330d32a46b9afef6ed351bf08f047966195c6d85436b822d923ccf670a060639106d1f25211f1871813cab355927ee4cea170c32719beec3ef6b10c30066e47c9ae1855910312183a892a99d5e69e5382fdeb0d44e3ddf08cd841ce84af8b5ff163b0012326b92f48e1d92b5039a8c03c696b239bf6985ed6c1561cf344692b88ddfb1678e0d0417b5d417a0e6edcbafc2bd5940b24d66887c9e3ecb4b297f3cb1c5faf3d0ee0367ceb8daa8f6baaa47d820e40756aebfe65a43a5e8cbe464203927b607cc5e721d082ae889aa8adc575c3f1c40cea99f01a1cd78013bd)
    (by decide +kernel : ecStep _ n60 n59 _ _ _ = true) n59_prime

/-- a prime of the chain, 2893 bits -/
def n61 : ℕ := 0x177c181da1f5dc8bf9cded2e763e2de12d413c376e93e3062f8352a4ca4e3499bc2e739a1966ede87a882244e0fb7a8bce2ed037c9efc3b201dc84b9802f9033a0d19ddd3e040de9caca3eae7dcddc0e639488da57103c789cb4bbe249f2499dc2afba719db2ba27d029b12cef9fa5125d9e12a130f6ca79bf26cd8bb611e422748a382fa43eab2d8996d1fb87f782abbe9fdae102bc6aae71da4f2af109e4c04b2cab8eed93b30468124da6018416368bdca0f3aae9e9ea2a8af84e2d589243b27d8b011e0aa45aafada5bcf4d24f266ab24e534cec790357d6f5f052a3830be6bdf99d3a8153ecd454f928f42d6a235fc5696a75994a4f7ab36049ad53d4dd3dae06d0b44449f892d61b9e2ef0f0ddd6e399942bc0f645d55fe93ccee25a4d8d3949f9cdeb2737a41da4cbfaca2780933777b6f3f9eb76bba5a908a264e2dc9a97088a2af5d7f89ba887e95ecb6cf6f3072f8ad670fc2d181d986d899119584d77498189b92fab0333

theorem n61_prime : n61.Prime :=
  ecpp (l := 2849) (a := 0x2f7528e20b744271d6efea84ff20297355c861e8a9ac1d9c3116eb3c4440e5958ab6681d1ca81d1e385247a7f046957a4e1380f6b7aa8b85cb533c2c7ceeda64f313eb74135c2c21343c45fcc5e4a28b3a0afb922c41bf7bfc4db75107b2457487597aa6642c324adc4328419f2996ea4a46301fca93d0ddaeae470ac3c4f6474f4cfff606d5735a8126d2bab19384fd962881c7113877ce894b3ab3a27ef2c92d3d2045e8165d18310266a65481f188ae59e6fdafacea493d337d3d7de0f88f714cb0d4109739702233ea15a494f55adcac3cee26d0ee6610ad5abd30fb51a078d365281f95df885f4e37bbd93a614804435ef2d032ec07709fd325a2ca6e1524c85326c925b0cb554f9cf1b65c24a9a9fb06b54407845162f4e754346a3d112a4c51f6cc72ce385450b621a5be38b1d78a8db4d0c28a1f0ab491c0da63cb7089860ae65efbaed8b40259207522a5ab21c51294feea72247c91c654aa2ecd016d734171a647c711924)
    (x := 0xf4de3b9983221d8d238c2d561a728f63370426fba9c2c3301c1f0c8b9da95d5a9038088f95f9c43637bd6d9ca5992075df6beb062c9967c47fed6c86733e0b125647e1cc0dcd22f826fc6ed283ca4283378f029a9008fb4a870dde285752856561ec7bdd51d2ce1eeaad81a7d3bced5a345a64efb002fb276d1b1a5aa0f3a09f6b6ab0d1ac8d063afd81617e3189bc78cc5b97b816c5681cb9b80deccc5399dc04750b37698bbc78ff2bb6b4406aced619a4a94523c554c354579d9f3cd50267e031d955a09d9b2e6282e1ed9e3eccf436868ffd8acce19d526e009f55023a3167e33b995acbd450b421439b5f86bf5bcd3d222def8a16232bbe3f92fd22378238a20536eb469ad8bd17c206fde752915891647ed27a6b562a7b3ef5fafd0bc58f1b55a44a5ecc5ededb701f4c083dcbaa0e9471a0c9feb9241715d91c425c978a15627625fb7e7d38e9dec505d32ce558b9693d2efb62a326d0ac269829200ba028a67596bd18ab5bc)
    (y := 0xe225ca0c270c3d86a57d01bc6595f115b5c378e7cf8ccdacadd39af280d4c1b852f518586a8a6956a45d62baa8cef9cfa771cf7236fa1130d01a3abba25c638c8f63cc02aa37e8f32ed146e44a449e32ee2e25043d64419c8c15d0914b2d5329ad16cda17edb7e122ad047907e9d5f3d3d06fc785418f863979549e44b1ca9041f69da3b8486c2e4e6d1f918d0fc46e2384b14991f2489cf67a5d0228aacdadfd5dad2ac013c7af1423f5c182f569c18d608b05b63cf1fc9791c99bcce449d20e48bd24e796785dd16055bd4a33baeea97ba5e094b150e744b023b8713e6ad69e355cfdedeae4ecc7911d0d2374eb7061acee5cadc039c1311236cc555f5ebbf32ab8fa80bd655ec31f6f6b4720fbdeac95387758dbcc34127c9a1445ce1dae164cb3b7bf964110c1fa5e9e3b566496dd55b16b70dfaf7fbccd69332ae0e4a01081ede3b4ea3c2542d1d5aac911510813ab0156072978be3f025ec985a78ea1dc12ad85305b5f790392)
    (by decide +kernel : ecStep _ n61 n60 _ _ _ = true) n60_prime

end RfcCert
end MscPoc
