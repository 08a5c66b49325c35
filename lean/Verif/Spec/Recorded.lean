import Verif.Model.Points

/-!
# The generators recorded in testdata/P256rp.json and testdata/P384rp.json

The fields `H`, `Gg`, `Hh` of `lbProof.Params` and `Uu` of `lbProof.InnerProductProof.Params`, written when the program
was run.
-/

set_option autoImplicit false

namespace MscPoc

/-- testdata/P256rp.json: `H` -/
def recH256 : WPoint :=
   ⟨0x498885f2d6b435de4006148d5a89c5f9899eaa5ea0fd9c4cd37f5a63e7820f0d,
    0xe8ff263c3a461c2097c58ced9bd73a7ae6113f302f44a7cf4c664842877e78da⟩

/-- testdata/P256rp.json: `Uu` -/
def recU256 : WPoint :=
   ⟨0xec4044a89218d1d0fd77f1314da14bd6cb1e7e934f603445e491d4b66c33769c,
    0xf0be5d6d98262a00b7e810819e491ca7b9e1425943e62d43a872609edcd9fe03⟩

/-- testdata/P256rp.json: `Gg` -/
def recGg256 : List WPoint := [
   ⟨0x755a17d9552c5187a898f5d2ae2f0ccff2e0f90bbb00ac353f524703f3b8d3d2,
    0x82c116dfffa70988597cfc24e70291858b8075e854a3c264e02f82ac7148a011⟩,
   ⟨0x3f0a296c87d525f18da8d6e1d12538f51aea332d73eecb9e25699762761645a1,
    0x7dbd37e858b92d987151042608d6cd918323b900398d24516e7b0b0ef41524b1⟩,
   ⟨0xd17660dabd0d4f8428eec1048ed0ae8368ed96e83c12e902ac81a87d5e70dd93,
    0xce433acd568afdbc4d3f7433096d2fa262305949b7741842a07fd4bf078eef35⟩,
   ⟨0x6d786ca4b1943d9e0dee1f366539707dcd2bc3a231cf2e4235e586c7a3c37177,
    0x14c227a66fe7c24ea2dc62ab7a0263d6271802780e100be789ca266ea3e82076⟩,
   ⟨0xcdcd6c4761d5c2cf99f0dee87384b9ebece75b43911469b6dc773f9ba6ebc33,
    0xd0650356e279c220373e333d8251294af1f50fee637c070c5ed71638ec748e5c⟩,
   ⟨0xed9957f398a654ce5e862867120adbad0b84e1f56a84817833d0d0f93feeb151,
    0xa8831ba3cd17db99a9a16928b726e8fccfabd0bac9b20226a214db2f49b3f580⟩,
   ⟨0x92a81dbb8fb492db02e973e06deccad1b491fb529503a7200a32c06a6ca46584,
    0x393a715e87fb419899a5e6a141064e7f518dbfbd0a2d353ffe12a656b7c40ebf⟩,
   ⟨0xf9840c9d29e982b3ed7ab574e5e1242d466a4f2e285f67e4f876449fecfa58fa,
    0xa7ae5e7e641f985859ff01842b40bf9d7a75801c28f6202ba7d27772761b68d⟩,
   ⟨0xb5b407605cc556713b6a57775bb659504b6814b2fdb16d99e158304cf7f953c,
    0x6f702bc130f14de50dd5fde13d8d646956f3158a504aeff70cc0da07bd126505⟩,
   ⟨0xc1ba2639f1e426138b16c6dd9e61387cae78eac86e4dabdbb74992da42289825,
    0x14063f4aa19f54761f8e688cf8156f1da1fcf58890fb68ad3f4e238904f95581⟩,
   ⟨0xb39fc1d8ff7786a200b6a3fc8a2edba8edc9a6ea8d7e5f76dd5174bc5f77445f,
    0x5c1aa784147d2afeee804497d6a8183d3b601980d26900e0df53474a1d9b4a57⟩,
   ⟨0xbf4c22e9315576a3ab542ef81eb5daf5d014b7b42e9c2f91310998493c4beb7e,
    0xaed0e996617194799b378d9d92badb22ca36df9b1c85149558560b671528d896⟩,
   ⟨0x6ea01805f7867110177c1663989e93a62b96e5dd7e7604fdf4e2159c19ad9890,
    0x43dd1df48bc2cb8df8cadc482eb16129ec72d7b5126257a24219bbe38b563e0e⟩,
   ⟨0x28e457e94d5de50720d966dc01acd776897ab237b6fc281724c8f2b83cb261af,
    0x9daa261cb055ab5f4498bf8d75f92da79c97c7071bd42c33618d7f67cc7dd003⟩,
   ⟨0x728be8ce0b31b672d810d0bf32d7ada486ec322b5dad59b55410c189e9209676,
    0x9e3cdbdd8629cbff37f1d4e80c77f4ace205fed662895140dd3ffd694972a529⟩,
   ⟨0xa25073fc6a9886f908db49bf87e78dedf75a262fdd8b14c9b02e625f5bd1ed47,
    0x490d23a34c74923274bbc01d3683ab7ce2328e0acc1993474b63251d88e103f⟩]

/-- testdata/P256rp.json: `Hh` -/
def recHh256 : List WPoint := [
   ⟨0x591d2cd0d566713694baecb88618aec1f8d41046f384aa450d8840f556433b4f,
    0x53ec513448d9abd116d2e2183bf673a1fd26f216662b2652dc84f28e738bea28⟩,
   ⟨0x8cf9f3fafbe927180f45fe1cce27ad2fb8bfcbc3b8836cb3c5926fe86e9821d8,
    0xf6c88dbf9aa392baadaa277db789c3e06fbcf06b593a5cde0e82cf755918c910⟩,
   ⟨0x653c94ffb66cb2b89253611561a1d5dd0c3bd8f4a971cad69048a2e6025434bb,
    0x681f731e516d86ae282051c01a3d85d30ef2d7460a465484c51e9521bf913270⟩,
   ⟨0x185c44095af349ee58da0c9d4546760c4ed34035f8209c42ec608ae8efb88307,
    0x162091986b2b0a6ad98ed18314645f158c6dd5da561d498e8176aa99684bf3b6⟩,
   ⟨0xe4cabc57fd7f49bd09d423fc61224b7c25a3f12882337fd17effa7dead4a42cf,
    0xdc912e5a2f22399e74beeb7413942b02e65a9624d23d8535d9a96bbbe58fcd92⟩,
   ⟨0xc7d99f78270b4e333b444891fe524ac321df288f347fe6dd2316110f8aca8abc,
    0x761c0dcc9e8e468c89323f75f82e55ee01042211ee04a3a712595cb8e3d0021d⟩,
   ⟨0x8b89986cb1e54acaa1c1684830de3780ca1452db497b1e0c8503aae84d68183e,
    0x4d6e0db2320fdcf1b42c68b34da20535e110dfed5b5b095719bf95a21de1e371⟩,
   ⟨0xb01a2f8bbf19af8ad77c649f30199c4ea82e4a5e6d6307d1bbbd9af9ff96836d,
    0x1496cac8a53c1c5d8ac65bf4732391b61f8362815cdf1b8f714d8641e74ae590⟩,
   ⟨0x2d986de3bdcb1677c601c519ea07414acd2eb5d237798e66acb4691ca59aacbe,
    0xfac5c9cee754e7dcca51422d48ed14e937a47ea899092edd22b4663ca50c489d⟩,
   ⟨0xbfefd287b74e69ac698e07d18a65e0ed19033344b68435e3997be00795705337,
    0x7c6b42c99eae5d0fd50abb04d15a8f262eb225844077beffdf62e74c4960478c⟩,
   ⟨0x72a57ec40b908f87010031dee566c4adaf3d99eddc0d8f2dfc53f02cf999470d,
    0xfca835436859ca43490695c6c7b55fae4829e3304457e05c1beb29084fc0414e⟩,
   ⟨0x5753ab93f06208a6931d5b5d93559a7a4814064af3acea52d75f830f601f7489,
    0x8c6a54e4f6d9876aef48cddf961f87977b6c5d5688d0f4ce48ddaadcd5b6cb3a⟩,
   ⟨0x3258c2f447caba85731551ce1fad24dae7a655f4a50e601032496b692ae07d7a,
    0x6d8270463b75b53335a6b200c1a8b57e94529d48af3ecfde1ccaf735591e8879⟩,
   ⟨0x86ca43c5e4922cf85c4858ef572cb048bade42e25b9fd88cb6af9b0572034951,
    0xd95396e3e64cef37652a638b2cf5a402041abe4b2542533085844fbfa22ba666⟩,
   ⟨0x686f4cdfed4621326e64577b66e2bb52a3b29139de9eaf79aa4e2e7a67d8ef5b,
    0x38e7ae5d421d70bbe7505ec8405ae0fd6408b32eb186721613c8059b89c2155a⟩,
   ⟨0x9c2a244c7b667d64a01bf2a24d61a1e3b2787f87275b7ba15040d6297649022d,
    0xc667affbb9c61c3fcfe90b2b5fb7b7639c0f6f79b6afb07bb8a284f430257cb9⟩]

/-- testdata/P384rp.json: `H` -/
def recH384 : WPoint :=
   ⟨0x23441f7f95d2b34248f705cc842e11aee3d73e42c4675c846fe859795e2a8f56979c850212b3034b21c2dd68f7cf5f62,
    0xfddb89be7e652e8ae323183c8970741cedaedf836626f160ad8f532f6992e42e9837ec696128bf3578e76a92f7b1514b⟩

/-- testdata/P384rp.json: `Uu` -/
def recU384 : WPoint :=
   ⟨0x5e8319133a65f81c8eb1d53fb1ecaa100a03c3af8977d1a72801a503ae40539bd834dd8657f618d506e4c1d166dfd72e,
    0xf0dbe12c382267fb17862d1f85e43424863f0ce14914fd68ea548420e88aaeebe797c099f99e48d24f233a9ff2bc7a51⟩

/-- testdata/P384rp.json: `Gg` -/
def recGg384 : List WPoint := [
   ⟨0x3f6a02d33d7e664ad4420445f125711f023fc5392c79f3cde15ccab500d9100ef1e52d5f58f0b53bc811ac5c5d0d060,
    0x98a3593ecf06b9489f4ac52afac18638ea5c877579c3aaff8beab282bb055e6dbb59d7f381fde6867b0fff5df9732d40⟩,
   ⟨0x9170dfa65d0b0700a05097e0a4e4aeb667f58aeb6e4590a65c7ec550b1342f3f4a845500f3769a838637feebe5b7db7d,
    0xeb31fc3b540c9d122b80a74ba83d6461ca08073a1e22ef5931fac1a6a99c8dbd3dd78de846d09a8d3c4c9d3cd01e1fde⟩,
   ⟨0x9093ae08cac705bba203a65e62abe0dd334b52088d65a10eb4d9c2f11b5c6831738c3edac94437ae34fe75bd1a9632dd,
    0x9f9ad4549deca0e7c1156ff0048c3a0347281513548a31af81ff119acb6e33bb6e5096ec02bfde07a586ad5eea6c6e1b⟩,
   ⟨0x4e80cc79e0e0d7deb2fe0b278c47ab16c23d8a50d9a27b46ee72efee16a3bdcbd3063fe92a34885bd48675d49359a3ba,
    0x692870ec4fde8bc10322ec3ddb576dbd6bbaca428e7ebfc36f1fd77e10120bad114ab1ac5f8d8cd2f2cc10ce201e5cae⟩,
   ⟨0xd0257d309ba6a829a17680757b7b27c11f9e122cf023e8771fd264fffabe074d621a74e88ec94d255189681acfe2816c,
    0x96f9542df2eeb2a5af76e2d01bdb0a8c74e514f510bb73cd0acb3d9ed32568ce89f9e5ed835dea2848d1438671626c5b⟩,
   ⟨0x1811d57710d92886fd7d094ad8748d70b6f18faf8455ca1def8ef5e020740c436d24564381241d71da34c65eefe1493c,
    0xc7ac1911628ea0f514a5374adf218bd773739e112103cf810a9b195370756505b700d39bfb49e19399d8152e7f57e44f⟩,
   ⟨0xef43d719eb438beee0d981402cdeb1a954a919a5263153d6a71c3b8e80326324686ac5d5a195d54027165a85828b6f57,
    0xcac9744fd756bb2085aa9fd9ff084a006229213f3e78eee8bd10ef1f44345a6736cffe8eedbf2a57b8f966d937451784⟩,
   ⟨0xe5f1678d22854e4fda749aad64057b5964cc0073b5d2ad2accdab9449935e6d21a0c7e57863d8bb29b63d989a2efa10d,
    0xa65a1ae0cc215229241a8de3cb20584ac4696e56fb0d68c1ad4aee5bc67e938042a3bd8b6c6f3026043159102c2e459f⟩,
   ⟨0x1c878e2da09a6ac972d4924e2be1eef845afe6fe3ecd008902fec48302feebc4eb939839129eda9abf161999f2532745,
    0xfe5f69f5f68d7b875e5241b6bf4c5acaeffa86c0b77f254eb2298987574c91c4bee8815ac27408e1b45e1fdf02a61f7b⟩,
   ⟨0x4cdb1405ccb2ea7ab5cec4f2b652332cdba90269a3aa24145476230a2fff6c581990afed0d23b1838d8f8f65e78ba25b,
    0x5fb95f9e6640158d667abf07bf96f857678f33c88ab942de73d50cb6a496d0ff214bc72ea5fdf6c44711b07d9c64aa02⟩,
   ⟨0x2db1a6a253881fd3ec85b44a4bbdda34348f13d250e7f6c27d536c797a941bdd744522c893c6acf5738333793f448c01,
    0x34d82c63e2532b7e837e7333609a8b5d85864795d6c7d9289e1bd77fa2ae830b1ceb0a5555dcad43f941f1f2fafa2fb5⟩,
   ⟨0x7f4a0ce1ff4aa3c63acf18d7cc82f51f9703b050431d969ec7e1893309748d8a8ddd6cc7c2cc4841a40284a63eb3196c,
    0x8e854b775872e1678c086922f327fb6926510a934e72c8682d0481e1b0e618c8eae62a5abca4fd4d640ddb000e1f242e⟩,
   ⟨0xca84112833fa8756aa85b50a407196e1c75c274e73f12835ec5ef58b54233e860e15735ae47fe7764f82eaf5c21c45ed,
    0xed9b60ffc370f72086999af986df4c1b5de66e3bfcfca1dd812d88320f51bd08a1b39d9760413a1dcea80ea80c391786⟩,
   ⟨0x2f69c98c883ac823ed73fdbd81b45e096b9f54a3ba633568be1ae1086db66107941b543e6cbb07be0b69e26e29a683db,
    0x8ecfd2995f55ad821d6b1369f83a6acacb1910de4dc5204fe7e500d13abf92b7e266a57172010cf176a96aa3d85e4c25⟩,
   ⟨0x98691bc10dc938783350a1527cae0658feac364b75605ec676223cbc89c7c260c36dcbfc8a5c01e6bcd25fda8074a94c,
    0x2b63fc37d8bcde64dda79a479906e29455fabba62548c42fe7432b2e166a8f03e9bec39546dd698bd0c9078a272d49c5⟩,
   ⟨0xea6d32a7429f345f4de6f9a116ef5f3d6d03724efb0c9ed05d05705273d6611464a1a98a1db65d4140f3940bb5eb50eb,
    0xa60e5dfaa80f136755b91e5f696f3ffaedc02cd94470e74aaf6cd5dee9b8b485f89d047887779ccbf4bf196bfa053bf7⟩]

/-- testdata/P384rp.json: `Hh` -/
def recHh384 : List WPoint := [
   ⟨0xc93c2aa1119e435b042bcc7a44edf900a39311bf458909753e844276f2f3a46f79b007f3f08f5efe49a162d617a714aa,
    0xf56568194ffcfb1adad99dc59e50892b9736dad9479cd0af28f6377875e7ce3eb4bc0241ee9500f8d2cb78db80e152d3⟩,
   ⟨0x10601bcae5e1b793d21dfb3408d11a7b6fd9769d39ef9d6b330c53186188d34ad97df745a4947b7674c8c3a6b612e814,
    0xdc52cd7a5fc2f27f0822c397bb9798bfa2318dcb3a5096c7c326019e8bd10bbebf996dbdd72b8c41b2863ef90f650ce8⟩,
   ⟨0x76ac410f4fcd973f64d97e3da242d23f4c97d666aa0d1b5f7ae933258f6c87081e19b07e5372d825e43c94c52921674c,
    0x556bb312d67cf34d2c18abd95ceeaac236c7beb256b0fd96ea2e6b097407b166d373382bd430cfd3cc4ab90fd190d3fd⟩,
   ⟨0xf79189c46c15359abbb712062730a17f1df6620552b8e756d542f442cedf0739996e73444d31b486ddef890007054a04,
    0xfc69d2f78fadab2f47dbf73f0ecb8ec3c212d3926c80d14e59764ce72aa92b930d1cedbd29a9d0546008785b569eb528⟩,
   ⟨0x86527812337f0564ecc5830b7744b5c7366a5c0b226ff0ad12accb210679d1a07a748b8cc1bbc4df58ce0aa86426e47b,
    0x8f6ef1dda0dcfd29f3502dce723f2fac562917d83282a4c09b369608469ccce48273eb52368e1a65135d53d6fc251030⟩,
   ⟨0x9d7f4ab7d90f0f187b4c612dff9d6100f0d19c20331eed7a08aa1bcb954a25f58aa59ebe51f8f05a9e0b9897eabbb493,
    0xac6700a007798ef93cf0596d1c385d7b8184097644907ebf543eeaf8109d612ea1410e536e3acc0ac792624c5134f4f9⟩,
   ⟨0xe4febde2fa8b25ac1dcf91cafdc3f395cd6329ab350286ffb7fb3727ca8bef2fa6bf948134dd7cd0599c3577c3cd3cc,
    0x82b9a2dc4df56f2549b60022587cae59318ce1059eb43820509d970ca4a35ab2369f19f96ddb15e941fb71aa839062a0⟩,
   ⟨0xca89233a88a77d4e356039546cc224a06e7a6fdf8260a83be3018e5664942903f0a94daf0a4c1a51c8399af15b9e8ba1,
    0x94e2ae35fcd4b643563cea42144be99bf46ab0ea4d6a61c8908f5d380ee17bd3163aa418e1b70cebd434061b79552211⟩,
   ⟨0xab5f33f9605bce76975919d16848756a4ce65fa2e7db328d74729f0173f17597aa3cc5a4697b139fc19e4bdf6f24c359,
    0x3e0bc744cb8c0877254ef6340becca90ac5a43a79ea61d24505acdf617273ddac15fce27edddd4f0a55bed9c0ebfcdee⟩,
   ⟨0x5a5144879a9022ef8d53dec7d57c123c906f35b32d24026958812d52a3968f068fc630f066be0c76127bd83420f944d7,
    0x453cbceed7071af8eaa4d4b7ef7c55b8dc1e8254ff349eb7f0749106f2102d54d3291354ca547f19fe93781e8de9b10a⟩,
   ⟨0x3e68a57b3e5cffd799273df084baa51dd6779e8e4f22cf4878da0c551e6939372e21355add13490541a457e9fe7b112c,
    0x345eac4d7859c74a94743f6ada38767558c7520648ddaabad87d5e8e69317ad61762287e847438820d6b7db1175ebc17⟩,
   ⟨0x40ce7a22dc955836f10bcc5cdcc6751b2e65e211949ef664ad3ec7b3f5aee158018dd9d813619c2aacb3a2c5b2fbcf59,
    0xae35dd350ba8fbb05cc2bf3c828fd7f32b81c4ebd1d71d4eb5123e92514ae3a9164c3db9c88cb85bd65960338f4874af⟩,
   ⟨0x89728ebeaef50bd7a2eb6da767cabda6c0bebec8801b88ed11e829d7e02786e2c3ee0772e64799f5afc015e8bab618a0,
    0x103aff79bd7d11f810c5ae5073e755ba0265448bc1b612c80f0696f81d2e109438a756b7f2021cad54a088206ba1055d⟩,
   ⟨0xd2a26f3e8807492195c3bb31cc364f77b2974b477a27a1308fae3ee8fee9a7e2765c3f2d534cc7e07f92b8bd7fd97e68,
    0xec54a6b28c23c2facd362c2c14fc83ba3c9c362ad4c4d1a5244b98580ce612c9c39157a07ef6a0b252d0189deffeeb78⟩,
   ⟨0x611c0db0e9e97b16c20241d97b7ee02ca33e0ddcf307eafb9a053336ed2dad118f0c20f848990f19c1238c9b36fcdea4,
    0x2f91914d900ad58a475de3973004175364df0824d4c6087de2d9c75affea161de0c41b7f51c4b5ff59af33dc957d59ae⟩,
   ⟨0x5f74f6185f2db29f6b953f5166fa5fc4c374ff9ca6d00dcbb3ef780dc069cd17198d2b4c601914b660271c79a71ea94,
    0xe8c1229068b11e9cd663722c50e41e6640d0926d9d64530936f85585ce2e4aab68812e1e10db94ebdaf83edaab283712⟩]

end MscPoc
