import Verif.Lemmas.RfcCert1

/-!
# Elliptic-curve primality certificate of `(p - 1) / 2` for the RFC 3526 prime `p` of 3072 bits, part 2 of 6 (generated)
-/

set_option autoImplicit false

namespace MscPoc
namespace RfcCert

/-- a prime of the chain, 1645 bits -/
def n28 : ℕ := 0x13e2205cfc1269642f0e8bd7d00c693c4b3664c21c9ad4b18780a0f8566910c0db1601fb6440aabdc6a6c5cec36612ba061db0f1c6ff0854095b52ebce80c50fe1a9cc2233176de981b10e59e09d18bd588291d8004b6432f77c92a27f91801b85c4d87c69196e1c5d423f40f749149a59f1e8456f56d121486d953deb61b92d6a718e35a5c4eef38bff0c929a975b5f5c27dcb00ce10d3e7424d5d8e1f7380575ed990eac506bf06624e187a0d7bc0caa0898eee712d6d020c873bfaef115177bd0ff163be504065183896de393

theorem n28_prime : n28.Prime :=
  ecpp (l := 1606) (a := 0xe963ce8f51f7e9f69b9fce336e3c8ee48050eba6b666d3ee08a6dddbbd90446b57dbaf16c12d3d5114b589f829bebeef12bf6ec2d88142c81792c178be405dc701e068d9e67a2bd4fc6e3a1bf2d973d95eb003dcdc16049d3166c4527c75df8e9b7d9492af269152102d69b0760d5fa5cee05a7c9d73eaee6d3e9334092d5236c3d932288a3aa9784dc4dff754b0a0642b955d78965571ba959510551097b3e1e8f6a46f4838614b6aaae02be5732f747f8b8e79c0692813dc397365db98727a6770442f8544f7d09c46e2a6b42)
    (x := 0xe44c4490acb053d5c46e6821a2f35de1366163db3f75057f9f9758584bb0ac9a1d3f273a02e443c527f2fd5b17b5a81d8627c653911f26338e9c3a153b48081796cad68eb665ef0c95569165e70e15afab5f0016c770292daae31bd3cd43a41f38c27e9094df44bf00cbdac7688a95cf805f045506e84a5cb59bf6114d0bd02d736c535a984d8d819c29a76a2afb5966486eff7c7b93f844026eed8d224d5e870d7306e05d93e3d5168fc991e57370f8b72f8fc67683b4eb2164a7191cc9514094b03a20c9186dfb54e69744150)
    (y := 0x427d6ee6c13fdf810c628b07c042dca049d06d5f35829aeb043b2da7134774b069def9d18cac092da4398d5fa463ccf0a0d967d2be768cd68c6276817e3ee64a009a3a971ee97a02e04f52dbb7e25efcca48fb600e338d88b3bd1767a806d4010b9b7f12c70dbc30f61f9ad9304a01831695e684e1009991f173a56c4c2a9a4b73b147e0cc07227e66ed4be00b18c4e466c430483bf011436c2d78319066d01f931e2a653c317ac593c678f6217169b156cfb2a0fe9b3301278265db1aa678b4c00a0c64f92e309373c7b7a05e9)
    (by decide +kernel : ecStep _ n28 n27 _ _ _ = true) n27_prime

/-- a prime of the chain, 1679 bits -/
def n29 : ℕ := 0x5d921e7944e75dfbf76b46d4a44828e979c2ed39cd22bc535fe0804c3ece19384aaf2bcdcf49091419bf9c69b565e6189a15b68a147eb4a8055b25885b49606862a64858c7b07130418cf410cd8c8c55e62e1e25971895ad39f2e7b325ce9894288dd86057ee1642c43b4c9b7f76e00d8a4364738b53d892d900d35b11dc2d4f28e5613bb63e0c491dcab56a28039cc9f24ebe625bcd2ff16aa4d3f3edbb8dbe430ab8ba914033516369642e305d8450069ff6960a2dc9805c5dbbd3564a8e5f5d92ffab6d86ad65d3d9c6287b46af5edbf1

theorem n29_prime : n29.Prime :=
  ecpp (l := 1644) (a := 0x32005ce4a2a4fac50f2b90e2f6220e5a2097fb34b5a939b858709b5329b02bd35f973adae4d4e4dfb05de2e8bfac4ded9a47ca936898b7820988f3f82ecb0355568a6ce715b9f8b7c479f7910eed92ea3b4c7fc140cd868074aae07f0fd892aa2af0db4ef7c742f53e26cafc878561eed15b354e02d90296394f780acaa438adc1231491bdc14c9a39f8bc279fe0158b02b908eaf50ef8d98fd70e88cef4958dc003f17a851923f91e16bf5e5b26f0acb48e8fe5f3e3e8e9567eba0bb381104d944d66eb6cd8a17cb80c85745022733191be)
    (x := 0x2364b555e8793b0af02f0ca52e6f6b0122f17cd4b7070a709e7fbcd1f023425cc0411973742f015030f5003f3ae14c3354f34cd7686f47c2ac0e353fbe8eeccd4065b00d73121a70e4e805a022eba72a5dc7c1188f84463846581a9572e41da9204c1fc187013f3bc1e41eb76ebc3aed936178e9163b0ad547d423b81476f5f43d2bd7944a4aea7c0b38d6483190efa78bd34507612ba669ffced82257084623b0edef417f3dcc4471323c0b01fe904ddded7f03a65ae77090078ff390db3c4da8c4b2a118bb1a8886720dca9a979156f147)
    (y := 0x4d62eae0d36573edce85a2ce8ca4b5354c2432f00b055346a097c57b4620a7e90c4d887c9a47c1135ec0e1599335c6c7a2088699cb185c7b66252c84cbf52ac70e921733c04d0ea9b8c401bf2df8d0e6b1e1b92141b413da7bee0675227ff589bca36580420fd1173cbe4e2df2dea2aaaa1814537acfd259e7967a14a299d92e53d9fe3e9d152d9f50e426424d4b2aab37aaba75ff04a0fc1d58aae61915c1114576b079a1bb69b9383d1757b6184df41238baf3ccd3c1ef7d76aa17d9abbcf92c9b8d95eb67e276725313504eeaf3e5467b)
    (by decide +kernel : ecStep _ n29 n28 _ _ _ = true) n28_prime

/-- a prime of the chain, 1711 bits -/
def n30 : ℕ := 0x74483ad645a9963dac7a323944dc123bf0b5aa36dc63751963719e7f2f246fe973243817e6de9327752998ee15af18abb53d4c8dcf64b1fc6fd82855d4d8e0e3c372d7a99c04cf0a9fb1bac7276d39529d6af8e5f06e0db41d5a01025d201c40a4d03843c34a762b24c094eb125608ce173f2db5e9e38d2eff38de4cad50b95811a8458c75156b5789d8b01252ceda21bc9ad9248d0b898df435c26672d8ec24af728438310aee7b39f22f07654c43f7e9d2702ae635d9d1de290e8b2e3718904fbe064195000efb7e23f4c594abba93971e1fd9e8ff

theorem n30_prime : n30.Prime :=
  ecpp (l := 1678) (a := 0x5f11c1c842f84563408cb056cb835082f0c480d3fcdd10fb8f4aee7acdbd21fc13dd83278579e0704c2ab4bc7b92ee41545dedd2dfa0aac507d3c3a7ad99f35292c8057cc813b4e59872aa098494eca8751cd94481912876ac501c3ed0afbcd890d7616e5071442a5a14b56ee2c1d7f6bf454a8c9baae620f1129b5ddb470b3dc03b1dc7219198ec4cd504dd4d00aa02937f1668eac413151113d6c08194dba37e9863cd5bcde814e6686af027659f5bd49765bdb7096fef7eb48a683e540bec3d8cf51156d0d9b8baabbc0bb9cb4f919aa6b6e79e63)
    (x := 0x5f18d144db29f7f73bc8fcd848e7cf2ae09800bee583c631c19729c01a66c81583192772e27faca171470900a014d93619f6563188ebae37b57b7e73bdda8ed41a8ab59057f82e27ec759cc1e08487c7022e15ece6514f23121416c08be8055107c268c6549db09573716eb5631ff097bebf2e424d71568b869f7ba8e7037f9b08133ffe91d75b567f27d1becc547361db92899130cffc80be433961d6eae4622b9d5991605aee60c6e758ba79b920445f5042878d15724b94790a56aac53d4fa1fc3ab2584fbcfbb4aa75bc11b6eb7cad867c88253a)
    (y := 0x3dc2c1ea621d28e3a1ce9f64b6704ab104fe7686f0d547bfb82c920e2010178b3481c533b294ed14c05a8490c5470f89d4460196e8a47c6fdb50caeb2de8d36e8fcdbe3bdbf64f6585cbf752746f22690de797ab438eec45baa1a8e0739ae1216d870cd695cbc7c307e3fc095b78efeaa39e0e60c7b739d3b2f04c6b570562f5eb5f3a5d47659347ffb7d6f19647d107f08df0e27822e67af5d9b87ac692c729ce2c57be1366ac390942a14e6067d4edbd502b006d41c530666eac59d696a8e12856d162c922e7eaaea72905edcf4b065fdf8f1bfba6)
    (by decide +kernel : ecStep _ n30 n29 _ _ _ = true) n29_prime

/-- a prime of the chain, 1728 bits -/
def n31 : ℕ := 0xca432b277907ed2ea2a444a01140734f76bf5d6490f4974cfb333f5ae5b5f71126a13df9c339a22220112cdc1083a27f9badf1caa27ffc7f41631298dbcc859cec9520142b3b754950aa1b0c2d1a42372d847393a566cda20d15efc5668fbc64892d95fe0e0ee2ef275b62888c3a62246b699ea67ba70ec63d8f38841cf66fadb76b624c893bcb1e1fbb4c3a4050d51b97454cedbc650eb2149413b87ac4067176517bfa5f03dc0373c901afb462499947b6202614256461e37170fc29772d908c1086cfe6bd8c787b3ba47329ca9fccde299d6f8c7d7917

theorem n31_prime : n31.Prime :=
  ecpp (l := 1710) (a := 0x7a66a3edf670219651381ac9526199b16384dc88a4a32eff4e0821c98b2817de844aef44c3d7553eba7fb69d7a5bd02548c60fdf9d0938261533ef14402d97d82a2da0f8c16076c97674196431d5b14d8fb57407e54d4f8bf1bf71b60d9eed8a16fbc1b428718237e11e5bc586d246d3d5421d1f9ca425f79e1da71c84e359745db542238dd5a36f8cf5bb40308211de2a0d6b97001463eef7be6bf3da16de5e32586805b5f6d8b7e9499e9308751c082520eb9e712f425ebbe2d61565e71b78c1fb54b64b2333027cd9ce56bd43ca0f288e226f061a41d8)
    (x := 0x6695c83754cfad954fd400ba954dabf443752fb7f841c1ed6dba933aaca70020fc16ae6eb27bd6c4d16b0e16cedbf4eddf99ea603b9ee51a51f2d439342e4ca3fb6f1484cfe45eb43d5fd804f6fd321ab5a66a22c3f4d72f3db000aee069885aa2b925a3376d4d40e459b605c9833ffbd263fb665e9e82967a2579a8a5ebd56e5c2d0109f6808e0a8d4f3539c55fbd8df94f17a2bf12cc3f10c67bf406be26ed460cca560c4c12bb7729801b9932cc4d6bd0c28acf320534074ac86f110591434aac0db8c524dfbdcb2c93a1731be7a0b8f5e2e8ca5d578d)
    (y := 0x732bf32080c4821b3cf5b10d28cc4ca909e07e79ff5e907cd164a63c5ab1a290f75c492a14477fbbd82a397e2d2f5608a0a0e637aa26daa60d57197d66ba9c75301d21c229f32bab77934d332f06156949ba3f2f7e3c0540e1a3602e5eea09909fa6c2ff6293d1850e7cca33bb59c9a91136faa13a8f03624854d7a5dce6629c33e381a7c4448e6ee6ae5b1a28cfd26f0c92747833f68ed94fe7806534ee49844f79b399a5e20758381a791dd4cf8533dad54a370215135413f63011c8cba231359e410a730321ef37e4e2cb2590d79e04abe016d58190e3)
    (by decide +kernel : ecStep _ n31 n30 _ _ _ = true) n30_prime

/-- a prime of the chain, 1782 bits -/
def n32 : ℕ := 0x265a1dc79236c6a59b1f3d64c63aa706c16668ed6d72715635d46849009c8e92d6029c1333c5ddb194d5467dcab8b298f7ae85b6dcb3423edec69b853e0851f2c5710c1359de7f633b82fcc042dd8bfde19007c007de4c214ac245adcdfdf5046c898a47ee3c3377ff7dbc9020d841762ce1dbde311d9f5441f05fef03a5affc5bc8d8d750447284913a0a385dfc63ba308f90761e4641ad9c02254dad8246637706b81fe979218502abd8a85738519fa98d5d532044fbb3f5f33afb4302c6d6045d7bd94b7df57221f5353254e51056acf336b0003812936babf29a6bced1

theorem n32_prime : n32.Prime :=
  ecpp (l := 1727) (a := 0x932cc7ad0e4b4457bfc2bd163746a28e12ec0950f04851f8a62fc058d2af297d3376feb2a7d1f23b9535cb8f5cee305d5e63534d4a4c865e45814a1625df76f4d336d1222878c1101e9852af9b77696efbf8382cfa88a07d0fbc1ab62776b5304d4661f9f8766e2a5b5895c26950cbe5d3c9c7029d961c17dc65bae4674fb7aca68d4e3c71456baea12664a96fc851922dab883a01a4142da452b80e60596ae8b0dc12fbcb418d9080b393468af950b48701e6ff16a597f3df01422d263c361601bdde4781410d699049c99ecac2d95032c1b626a8553223780e607978b26)
    (x := 0xf71f48a62a6bcfdd5f2e7c93e026619b739a10d4445a8bfd4ad65ffda7dd99252bbd7eab06d3e231d717a098a757fe2adfb5fe02aa1e31b966da3dc55602dd611f3486b73b4686be3a3cde1caf65492dfd710ef01c3b57855c890d5e348ae5b0aacf0ee57cfaffcc7da206d29b85342c846bedb929945f7704b4bea46032938476529af88dc67d09fafc82f3ed7bd69ba21db5783c66cf319552f2297687f91978703c4f9e8e2857539be1d8d436afa392b62fca5f68ee336ffce1350eaedc439b3445567d62815a9abcc48a2684cad0e001edcd1025e7ebb42825edce33e)
    (y := 0x2088fd037bebd9c28ac557476c7124a95cd51a1986b1899b9a5aa98496de4fef125b0bf18ce9c90bc6c2fc25cd01b4ca30ffcfb1ff43aae0d2bd9c5334d23dcd52f0f7eab8c98009a4bed1738ac12c5e4f346af9ad6a26a3caca6a4944033ad306298b37e6aacd31a10850489d363bbe6bd926c7d50521eb874d0721c87966e020c4c2605ebae4deadac1b0fac788afd4b5e4e808d2c4bce9014dfc87684fe9d48fbb365376f46703916373dd39caaac04ca7a0cb4269b080929ccd5923b16aa1bfa200fdcf95c0264d13f982834cf4e0de3b831d1859da9af9b0bf6afb58b)
    (by decide +kernel : ecStep _ n32 n31 _ _ _ = true) n31_prime

/-- a prime of the chain, 1835 bits -/
def n33 : ℕ := 0x56b53cc8ff10dc205854cd144761e5d44e9640f8a59bdef30a4e76ee624b7eb022ef2a9c62adb7be0bbd0a4b1d0a85eecada75638745eea996ade22bdb49c1fe2471f00d1f966772bde8f7e46c26a9f5bcedc55f645b096d81f41e2e7db70718e07106d962ba4694992532d18a73cd10df265a2c0de0a9ead105de8b835b022404e7fc5e0884f7203541f7ec3b94563ea0ddc9efda634a188ad124149662cdb893c22f731aca53329ed2b6e447de7bc89ea8412df4c5f6887751b3bb07afc06768fb1f975d267f93b503334f052b8267ea67cda805093d72c1a3bc0626ebf1ba113820a3373

theorem n33_prime : n33.Prime :=
  ecpp (l := 1781) (a := 0x1df00a633375392a7165fa4bfe1dc2b7360a17db4cfdd055857d36bd6c9807816831b70fa0f52744ee682d2c653034571e4f3ad8336164b9296a1427fffa2fe3abd3aa3a6f382bf432fba6b46f7e7a46832857a9a0088033dd253f9dab78fa0b55e8658c3e33afdec12acfe1e6838a2797ce1b9de46010b48b56f0fefe649125a2bedb3e867f53bcf88f16c259f11524bb326b667f27fb2c58c239412266b7bc04f68e866b40a66fa4387b78c522ecaac36f34d565c0cab7e90ab863c259303ec35eca961ea6c96e38464534b0136bc67e13cd0f7ebc4844c666a827d6a31394f01a7f53a63)
    (x := 0x553c6b0bc489b6ce47f981d532d3ee1f8fed3c0151bb9e15e5230a69cb2eac3d9c9cd537c67a8d8fbfee5e662de1f7dd23a238af994ca5e6a9d40377b258cb45513288b86515eede1295bb6245e61c9e64634771901f21e602452de2353ac345ecd84a6ec974c19ceb364b37c2fedd5b5209a172fd1e6f258916079ecbd57d240119625c00f5bc954f615dfe013bbde2ea8122b4b44532925c77ef8491bd922b6a12f4c3b6430753cf48da63680e7494845eab94da53ba0af3fc24c0cc9971c573bbd8d0b9aa5c0f96ff6ea35b270e94ca0f48808b5f1cab6f8cce8be1720ee1ca7138c84e5)
    (y := 0x353c28168250f0fe28e0d1aa1be2ba1ef7412ed1da7d1db4018612516130ebd37eea2ab0cf4ae763066a08a0b468986602062ce1de00469f4a83f0fbceb9b61bdc705567320ed76f4a0d64b9d717a7c3f1de17371ee9f5585ce1893326d676f4791d6990ac1bef02f1df664cbc8eceb9d43f5adcccf20d27289802dcdabab4b14fde4e81d61570f8fb57b64fd5f283fd2c843632cb1ee8013eb2f8add6b179bf5ac093788662b46d70c904a8bf27210fc3f02f06d86b59c5ca79b87ee963940dfe5cc282d40676377ca149ed41e2bb1366195d66df40838f2830ccde44e14896b6711e6b841)
    (by decide +kernel : ecStep _ n33 n32 _ _ _ = true) n32_prime

/-- a prime of the chain, 1858 bits -/
def n34 : ℕ := 0x2ab03d3db17832f810dfb4d035a2fb0d2210407f61f7cc63fac76feec0943b8d7deec0270f917912e3ffc64caf928f44de8742536ef3ad2b66bbeb226c85785d500d6cdfe491ad17d2de4e85f38bcd3590a707dc87cefb50077adede5c72de820f17a57442fe82d1121e77ef9cb97f22713720e24e94226a1a290632618b3560175eab8eadac545420f464c5d499373fa6233cfc9a5b6726cc83c165bf14da9827c096f2ff83f5ad20ae798a1059a1410e1411f64a38f604321e7a480cf6ee772e7b20be982682a01c1185d40bfa771051297242d39aed7cc6b2a6809f642186b806537de3aee413f

theorem n34_prime : n34.Prime :=
  ecpp (l := 1834) (a := 0x25d73f77926895417e5dc33a4996968401f9ac81733697a45bfa1d10c4bf625dc53235f0e65fc6bad92287f0047a56bb0170049110e6030efafef10534b7b541c45016b4afde05cba503184f6adb5104cc044aed364d4ab03a3002199551fd30131e2717f1148819d78c3eef886a23032fa6ed93dd8d795cbb4d7bcf15a36274975f566e28843f5220690f1bca491abff8c47547c2ee7e152d6511bc72a806a8c3587f803b3f69c70af24ca2380e3024117b55bf45d8f223aad64097cdcd51fdea92e3bd477e0330aa177b93136472400e271698f3651c556ea5b224b898e401ac0b236faf0798ba3)
    (x := 0x1185eb3c92cc594fe3d878683497405aebc3371e13ca1fb9b77fbcba9cd4e94aef214be2df34c5d4d96fe2463f81dfc6928404b76b28c4042df8281b81a4e2f9c96086d5b51c19832ef38dfba56b1227a651e9fad2fb257abebb4d4cf688a08a21e3499b6e1e145dbc5c00bc45a95b20a34745954394a85e209f4c92f04500ea1e6e7a0b5e7f218cd28abe60f63b964480bb79636d4c7c3de0481c5845dc91d75450eabb9621a7a65083f5dc0dcc2dbed8cc1d8abe6877aa51d3536f71f3172809efd5e7f0dfcba787c1e18eb30f00622ae2d7fcb6d7918888c8f7471beb6ebe379808158e6539e44)
    (y := 0x2aa8951311cbbc5b78e4cb81d82b14c490d6bf8eaee42a48e21834e36fdf5646f481b7455e4523c2cccc19cdaefb3aa107b47ee9e9f21f1720d21c653b920fe7f237aa35a6f9b709a69fa4c0817cc7ce134cd3652ed1a47235f7630dd503df3feb5cad774a5c56ef5189218aae4e999976db171d23466fb6c69677744f958e1cbef4bccf6479b80f2364fbb844c8346510cba28b54797dca0e980472e17f2093c3aed599e7c15e6298df29577f2cc09c0c9ac811ff7e82b057928cb1205f6294b01e79e16b171add61c60f4ff35724c348562ac0503a31ee1542469e56bf6651dfce432b0c2008781)
    (by decide +kernel : ecStep _ n34 n33 _ _ _ = true) n33_prime

/-- a prime of the chain, 1893 bits -/
def n35 : ℕ := 0x115e9c874cf471570e19a9050541c5da4a4205480d44a7100dc1a617b8a4c59bffbc7507fbcd67bde4d2355f6835ec13489f67c0c35418d4e9b8953ca409c86da90dd8faddcb7a9625010a230944b76b27a08030850c50455227425d9667667bb797bc5ded2538dd423d0cf936bc4d488039465654496b54bae3fd7ab47562e75cd774872a1cfd898f7bd97d6dd2fc9424d7247ab679ba7d9153ecec3ef7b2cfc2913201f94394d37862cd21aa3b45bc6bcdb55320749309f87db85a05054291bd0e6f0042839263153f2b9bc45d2f0a8467925e7789d948665004296b2d46d8170dc3ca3f0173bef368fdb3c5

theorem n35_prime : n35.Prime :=
  ecpp (l := 1857) (a := 0x653dca33b7154260af729618b151d4c1690be8e1149342f01e9183291e2e4c3f19614ced918bbb0bf8ffde7840caf956273fef2d4ed5524eacee1bb8f9709bdbfc935c132765ba7c96d39c996a7fb89ebcf2a53c85d130d1dbf9707c2b350d317523777062c2b76423309f95320632cbf4be9a5135176234c2e89fbbd0e99ebeed67423b701afb0049b2feec93607db7896d4f9442889984dff5f0e09afe0b561c13feaf2242480c26eb18c3a301c9e27f68a0392164ff14f7040ecb33f8453221cb8b4d09be2834e03a67d3a70af95314869ea6fd461dacb55a05db3b7170effc6ce0fa1145eb052ea430dc8)
    (x := 0xa9dc49d88c96095444e173a95d09a00dfc82e5f80ac40ac4a51920679fa60255932ef2db66fb95c22eed10dc69f663bc8b15373f91cc66cb67487018ad9ebcf04ca30c42a67ecc92465c73a9208fe025eac8c3f349ab7d9b031ea30087016745e89147aa53564cf0d38543681cd1e1d03424190eeb92d9a300a29ed85627ed285ca38c96aacb029c385dedb10fedbbcc47cf2c5092742d57b6811010a3cfa4e10948b60e2538a9c1fd4e3ad0d189f1c99bdee7e3aa71b1e00e6856e47f71cf85c8c2d91b7c990589db5ca1b1a1512588bc5a266947a899a018c46c9fba997c635a6e6fff87cfa943a973771a3)
    (y := 0x18566ecc490a7093744265b6ac882925dd17cf3459809293579155f5f5b7c498bdd1d77b34f06705dec2183c24d9b03b7609a81a29bb27eceeaa2d3c66e20aa78357a110036cb7c41c198fafed9cf4913915b1fc4ca4a730ed2b9583229dea588a1297fc8540a731256a8f570dc58c2bb87469212b8f41aef35e3741eb3bf739a183dc1a5ad588fdb2a0d77f76efcbdb4e9bc1ec4c128458291efa105117b777a7d7b863f2d4d825740d91afc9843635504e1e7d3858b50cc84db0568d3ec0f30b1b6dab65b57d797c6a9fcb5b502ccfabd48f587164bbd584ee369f801f736344f523394ab9a9fed509fa001)
    (by decide +kernel : ecStep _ n35 n34 _ _ _ = true) n34_prime

/-- a prime of the chain, 1935 bits -/
def n36 : ℕ := 0x506ee8e9aac515448f2c8e20ccc1b54a616883ac1d33cea423e6bf7f9499f77ae694887b785b56a76144b9a80e13450b20d5ac1103b8438e672233fedba34e3f42c0e6c2cc7392b2e3e1cf1df0be0f19a25c953d1dd65a27da9d990b1eb80e39e100e82ecc0dced41fb930a486b66b04c683f89042d2b054d65ff8ad625891df816d30824a127e4d9251bb3954eaa7efe83899c86018945b12fe1365dde3cd93bed46ebece246c23ca5de365de1f9890c15a3a55247d8921988b7c5d0ab9254883b917ff85323ef15dab20d44fcee5b4558d20b014b74899b199a394f4881abb5620f0ce974555bc273f90e8958b70a10833

theorem n36_prime : n36.Prime :=
  ecpp (l := 1892) (a := 0x17a596e1ba11ed82af2dcb7eb9cb063d9586a6daf43db22b582dad9fccda166824d21f89ee1713114b75f75305a17aeed6a98fa822fbca0e3eb5fd6a225db6b14b62df218420bf06f1d77db8e6b15b62c5bd3904406f76b00ab989eed3c518e895790a2a9e82ccb8c9aab1d91f63ec17ed925434a7fd0d40655604bd4dd2454ec992ade0694b7308f2469d77f285e5d277e13ab16f471feecfa75e7c16e25f1576943ae83e272ad647583fea9dc485e19f5324b9320b3aed4b020f223604e5376b9fe79f524f7f8a5cc42c28023e9c14a9382b34f0168794b48617f1c14c9c41fe7d65f0794b12c7da28ad709ec28fe1283b)
    (x := 0x25a6e8a718622aeebc65149b07a4c86ae40eb97fbcdc9740433ccb44feade5b3453f7761af01d82f8437bf71c9a030394a506196457bc49a658a84a8b43491562502c481b23ea666b95091a031f13074ec2832b3d7076f4a309331bb40b8b1c99b40cfffb457b4f8bdbf7d11814cb2fbe6c869edbe0db4d4fb727f16b2420a7dca8dda6507c13594ea6fdc4692f895989d8d2d1c4a0d990f4cfa7b4b294fc70de4d2f6afac8fe84732f49cea866e52836d650411b025ddea82405c26cdc60bc966db546f31155927ddb082bf5963871c60a7c5b2207ed36efa9ffa49269c0feae8a870a13753c59eb71aae246e1f6e57bc3e)
    (y := 0x77960616e35fe3546fd43a8e8fae02d9e22f2bd06b7a0b8507d15445a7646132fb55232579eccb007f7084c048873aa920ba785a6f38cb084b7976e554c38325c60c742d386749d9bd9c7a5186e254dc28e1f69c176824581ecbd96a09f66005514c976f4c6339053d0e19d0b55b8aafa32511e49e01e22dc9b299ee05d0b1c2d8cb2a0af5e733294b23679b574bca5082e5a5cd2947a2376e90f30699ff3c23f27fe0567cb57b4b78873d0934bddc237b648722ebc5eead6d6165fbb717bcc05e1005ca0689bf83a329d6dd7e55e508e2b8c86c201663ad9bbe75faa1fe8d02fdbc9e36d48d3cc550edbd4cae5d34e5b0f)
    (by decide +kernel : ecStep _ n36 n35 _ _ _ = true) n35_prime

/-- a prime of the chain, 2023 bits -/
def n37 : ℕ := 0x4adf2fa88bcc67be0686c9d93498c9c660f766544a91d4ae86f7976d9f2debc268602ddae5ac5a759848676306f4319e10789552d3e36ba3a6b844174fc1cca7a894187deeba720bfa40c2014dc91368a9398582337a75ec71221b0c91f504a880e1ece4afba8a272a92ae5fce17e765fee1944660719b1aeee063280bab70ea1e598e83856414ae5477cbd71ec5e021bf2572ea2044e1a20d90248ae70840ebdb814d5486999692b5505982985474332fe47bdc37c0e84c492a1873ac01b239e1144d7d0bed18d904a33de01a71efce3a484e78da33120608017d377ef737e9c5ddcd0730b5691a74692eec4aa9a0103882aabe2f2dfc23e0e90ec011

theorem n37_prime : n37.Prime :=
  ecpp (l := 1934) (a := 0x44efc89ad8e95100bb8c2558666d8dfaef2ef8fb6f9508516fbb4e30af59e37db776de173f5d4dfacbf66def53246f83b625c0bef430c35780cccc13adc3baa310c1edd6915b28cb7f9d876ca5397f27475aeac3a28f1ee644db987615905dbeb10b654c3aaf7deeaa87df045c7659b4ed040194fe5f1666a1ea3900323430259b2dfc8daed94223add6b1cebb77d0d1a757808eb0d307391feb893d970fbd1ba8419b486f54ddad902f2e3310142d72fd083b69023c12685bd340bf665deaf8fe7168e240476c1e41ba8134c91dd0bfd1f470b340160cd6e9fb6016d498e0ffcde7f75c560070f5acf6cf6857fa664a213f7e54218270a3f2e6f061e6)
    (x := 0x1fe1e8f602f1df948fccb3a560b20be5a39f65d7e2204cc8a3a11eb840eb34ac2ddc132d9d00d07639581125e196fc69028ade709fc97c0f918ebe0e3db0c9b2ebf3752ef7368100a9176487b774a0ed3e7726e6d9f309e111778a4ac9140cb8857b5630a3a2ef690aeb34213bf44fba75a0f7a9263c133160f9537daead53dd03578ab1e9e3d9e66d6cea9566619722cccecf393ff65d57a6b3ddfbacdb9ab984a3ee20ecc5d0e834f655e989e0e3f471fb2778d42de9945cd49a6c03b569484504525993a2a761d6014ac7a94132d0a5425a3b36367764afbdfba2e474a78f7a39dde5081623ece793b3142b638bd7132b6ea6c89feb8a70090722c4)
    (y := 0x3aa0428270371d45dcc185ff93a617f16372d059f50def3f2f1f2fd85c0630d8f361f7d9378df5a76983336e697a8773850ef23cfb602a20424b7309604c685b7736b873949a21b1cff7d55ffe9a85b561ed1524048e9e2ff809cda904bc4f4f6edcabe7af82d48062747afb87acfaee3384883d43185916c8d62b7efb8987d420e859b19a6711625911f5bf8c3317825d935c4fde9c5c8b4e834578ad844960969257a4b53f05f8d6fb18465c347c83b4a754de512911b2abc5aa69651fea3f4bad980194b30d47a21c6354601fe09f52f182256de3ca6f48773c6be3643372bae285b13d1cb002cd7fbe6008bfaa23ec2d809a0ed78bd160ba3df3eb)
    (by decide +kernel : ecStep _ n37 n36 _ _ _ = true) n36_prime

/-- a prime of the chain, 2076 bits -/
def n38 : ℕ := 0xf0394f47f1d6870a1fe620506744f56975c47dd986c35f1fbff67a58b232e6f4009f99945c7c430aa53d862b32302562bcfab0e0e243e653dc3b0915e1ec096f98918d655df6ad558bd05e7bf31d9ff08f56d542b489a997403d237c1751177b474022237da1d422edc409173e29d8179818da806f123fe5b6419f21858174cbb9b597d7230ad7f557d7359a343bdc7515c8e005cb3d9d7b9fe3d32e8e681f4541795a455a8b37a21d8ce2cb7db501f6e16458859d2c8ddd7312451ec4fa06ee4f51907489aa44d40bf66629debfb3a028464f0bc14d00bd97e2142e8d7d21df60315572111cc52c7fde4d7241c18b519a2de219c6dc7c5c0a1af7818d01dcc5aa14eb7

theorem n38_prime : n38.Prime :=
  ecpp (l := 2022) (a := 0xace6e0b0f8ee94c5bb0407c8c0a879c62023bbf18c2bad012a618379b528579ce9da457b907215ed7b282bb5ee335fb6418e416354e43006a34ac3dd8e3a055363269293523e6d3ccfe0ee1e424df9865a660d3b11d898d3ac51e2cc0716df86e1c183412d911662dfca6163f30008868d0db09c418aad19bc1f1a199f7489a0f2d78e703e82583f389dc7f8ddaf8a5bf391d1ca875f629dcc996d5640c4cbbd045ca3fd2b8602c9cf695854ed62c198c5f32c933ff355f00253607f318c3cce79f2f5aa1980f4409448f0fd31060216cef73f46dc78c92bc66b4d3bb6fa934ad47fb212b6279426e3cb2ef645ad3a44fd3608d18e2039210a73c4e0534c7794676eb5c)
    (x := 0xe35a54f4090e20de26bdec2c52df1831039418f054c6d880ec7378037f2ce91d6c5c30dc1eed2e830afb39bdacb403801c18c05e7ef5d77617e6c16473f702df1777dba342878647f867d0b9a03f9354827374b604ba3d72e69159a622a666d891bf25b7fff318ebe79c8e1a158a09c06debb2f8b357b9847d819d7604301c59a0ccecb5bdae876cb5a9520804adef4b61e1ecb0eac30e9fce38b98e2f38d0f031e9eadd9380992d37073196f4ea20c91ea2740a99bb65f7c822d1b3262a028562eb40851d57de218025cab676bf9f9373e71d8b334b6ab61f88df084711114deacd6eda35e08c3db3984116cf4774950bcb654571d7917a51f672041d0b1ebe27b4048)
    (y := 0x7c6dfbd6422a0eb43172a8d4945522512a98ea69855196855d949c79c21a6a26a16e5c9a9cdb74b6761a80b15673d2542574c90f3e161467c3ac1567ad5ae76597b234b19c51ccdb22925907f47a4306672e1c6ff65d13d016ec1700959f0c182d2c7b8407ed1860f9d2a48658a5444968ae020f68d02f6cc41715d6cfd14ba8fd001420ae63bd0329b2e8609c5fa660aa3c8e9b09bc8afa2983883eddf87bf64fb7eec4647390dfb9ec165b280317435ee8837790f2179c63915d3d435d42b6fc47821c85fc5470d44edb487dabd15a0a5c31b5481bc9a7cadfbd8ce8df9772b5fd4b47389a208ab68a688a677868fad92ca8b8d1a6ccfe45f124395dbc85824670f1a)
    (by decide +kernel : ecStep _ n38 n37 _ _ _ = true) n37_prime

end RfcCert
end MscPoc
