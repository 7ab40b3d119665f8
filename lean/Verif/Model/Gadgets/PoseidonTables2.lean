import Mathlib.Data.Nat.Notation

/-! # src/r1cs/gadgets/poseidon_constants.rs for the features `bn254`, `secp256k1` and `ed25519`: generated from the source text -/

namespace Bp

/-- `MDS_ENTRIES_W_3` (feature bn254), poseidon_constants.rs:1270-1286. -/
def mdsBn254W3 : List (List ℕ) := [
  [0x2042def740cbc01bd03583cf0100e59370229adafbd0f5b62d414e62a0000001,
   0x244b3ad628e5381f4a3c3448e1210245de26ee365b4b146cf2e9782ef4000001,
   0x135b52945a13d9aa49b9b57c33cd568ba9ae5ce9ca4a2d06e7f3fbd4c6666667],
  [0x244b3ad628e5381f4a3c3448e1210245de26ee365b4b146cf2e9782ef4000001,
   0x135b52945a13d9aa49b9b57c33cd568ba9ae5ce9ca4a2d06e7f3fbd4c6666667,
   0x285396b510feb022c442e4c2c1411ef84c2b4191bac53323b891a1fb48000001],
  [0x135b52945a13d9aa49b9b57c33cd568ba9ae5ce9ca4a2d06e7f3fbd4c6666667,
   0x285396b510feb022c442e4c2c1411ef84c2b4191bac53323b891a1fb48000001,
   0x06e9c21069503b73ac9dc0d0edede80d4ee2d80a5a8834a709b290cbfdb6db6e]]

/-- `ROUND_CONSTS_W_3` (feature bn254), poseidon_constants.rs:1288-1478. -/
def rcBn254W3 : List ℕ := [
  0x1051abd795bb781c5bcb3d4c7320b88f033cb1904c5b8559bf08995be4d6305d,
  0x2680c4e5e102394a8c53c7ca99003cbeb3422caedbfa62c2373862e367a3dd00,
  0x132e8252ba372e32578a441ca6b0865f73d890c968dd8b7642f5b483676160b6,
  0x0dff6973df3b1f559d2e21ede06b857c63e4da1bd50a03e4d500e226dd108be7,
  0x05e9463e0290d75eb2948587b1f9a7ca52ea91c9e57b322cdfab3c4822f1abbd,
  0x2365c6a8b9928e31609cb8190336a6a2eebf69b015bc7958840576fd4e42da38,
  0x16aa8ba01611f750811cbb3d4257f53a969fccaec3130b7a6441c39c9bae8458,
  0x2717b1a58bf1978c6af4069069429e64ea024efd3b9be8fe8aa2bf1d8c28f42d,
  0x2d26bd604c702d7c74850099492efb38bc836c3cb88602e1679ddb53557292bf,
  0x174a4de6c44cab3c9781597fa27c024f7c7a114632a541ed7fed2deb245a85e1,
  0x1d3e5ecbb083875c59541464dc6e7d1a59b4f68d985a213b28314a3004ec6809,
  0x014edb6e589987b69e282db5f52c1b0bbe8704e601154c6a0afe84b52f9a4aae,
  0x0e0d8d1e063d74b601a548eae7d368fd8ac907dd9145beaf63f2e2a6a28fccd5,
  0x0602ae8ffb9d13f3cce1e3ae3c2f494b03d3fc2fc6426d5fe6cc1c312d068da2,
  0x23868f037d108e9346a8d63130d6d9aab87e701c1828c574fa67cc8c1177a6b3,
  0x1073b5a9ce850e2d6f16e5776b4ee254146ed65bbd8f50d36e17747778af00d2,
  0x073da226b5a2639fe26496cdc3dbd5fd769984dc39e44003781d9140596543c4,
  0x2cfbfacaaab3b3526fd0dc6d369646f3fe3948da0fa8a132f0dbde96b5ddc9e6,
  0x0fc0855a69b277b726ac164b86ffba19954c0d59802838c4f032df5ca38ae88e,
  0x2649f096f1e407adbe09b44a07c54ec03f23cdef4b1e4c96d81f632df917e0e0,
  0x0f9c0aa8c10f48a205c7ed49d1cffa12829b53ac76840f3a0aff6cb10418ca40,
  0x11547a7f704f1eb0394663d4afc2fe19823910bebe3147b6f0ffb7f8433838e1,
  0x16aff7c7076d3487c8d10e640da7652a5f3a007967eaa7282ced25e89b61787d,
  0x011a06492822359dbd9406c3afba3bfa469147f483f0ae78c80f9077de480b86,
  0x0d7f084fe4f168dd3b06a36866399b1c4c3c6a7f247f317d8463d9e447608134,
  0x078b6029f46dc32407770079ff46c9b20accea7cd0120ef5fdca18a7cb65b127,
  0x2dea4e22de864b493684aebb0a692f939ce841aebf83330c13f2ee57071793ae,
  0x08cbcba0c91b3981c0207f75e4b0f032feaf5480e4aa243c946d938a2a57645f,
  0x02d8f99ea79dbde1025ea741c56c3e6978e7eb7b820eb30148d6c059bb8c365e,
  0x109b2d0bcdbd121d2764beeec0284a1b13cdb171ab316e729f6980adb7e219a3,
  0x06a25826dc6271bf8c924962da4cda44dc320d0c66f31fd2efef0bd9b9f8fe35,
  0x1a63e4e11c99ecbb52b14e202fd651a9872e560e9403fa2d9f33d20bcc32bca4,
  0x03fb5deb4cdadf1ce955fa3c091f2dfb8c58951760769d1484f06ccf3a687d5b,
  0x0bdac171754f43976c5cafd607771b9c7704e9d1c5576b87fe2aa0d80ab0fe01,
  0x253a502bcfb721c80a2774434713ef20fad993dc5751c0673f44ef976d5ce751,
  0x0e21300aec534829255add130d31da0dc54282656e893cba45b81b123671c2c5,
  0x0d9d748361f6bbb3782751508fd274913d9153eff951dba21f3b20e69f229a36,
  0x1eafe91d860ad0794059d7abe25ffa38d1e0229f64f81d34eeffadb1575edfc8,
  0x1208792af32377cd04bf0b77947ef589d4069b8743bc8b4878d09daa669b6b9b,
  0x0c8593f0fd900eba22c520adca2fac43ef1e22676c396804a421cb9b10ec78a4,
  0x1bd21887ff52ef7fc2535b98dc27cf269baa0905b006bc8c347518da237c0eba,
  0x1f286d70c425a4f9c587777c055274940a860def2ee096dd382b3098b526a211,
  0x12f295cba6747661e15782c98dfc37986ff39910b5ade0af270359a0240ac15c,
  0x27b574790203bde222f06ec565eeb97b5cb638d48b91d696406ad922c5cef4aa,
  0x0b48c200ed9b9c2e06ccf0b4bf7879aa04a4f3c96a123c76b141014cf1cf3db7,
  0x102542507dd3efd2985a8c1f32b693db8bbdb68915ddfcde0495319274cb805e,
  0x179ecf51290f06d865c9a5f2b0e0c0d8538f1e0cd827aeebc17a52243892961a,
  0x095495252df2a4b0436c4ed7475418d3ddbceeedefa21c93f869d2ef7af8d0e7,
  0x0199f70bfee188c09adc670d87ab0faf853a05009f4bf5f02ccc1118ebddfd04,
  0x2c4424651e6612ac440f1a0337c11ab8de4e454b02e541f0d9fd94c71fe8894e,
  0x1026a6b199faf95f5d25039aa4ac197858efccc396d022ef2a91b6e8daefd401,
  0x1592410f12e9ed7cb9a4e179545bb25e1ccd1fe651a357384c25c4069c91f447,
  0x2eb2a6361decccd18af7220bf07acaba1aa2f72df3c8987f2de50550e2958ec1,
  0x004e18672f832f967bc48680deea67cfaa5239523c8300431b3a5d6841c6c83a,
  0x15d58a38461f1a3ff4fa48c05893549ccc347de223c3defa6b62ad235f8f273c,
  0x2f8b363cb00ed6b4c59cdccdd8bc00c2b74a20692f50684554d26aded7e536fe,
  0x29723a5dce93cca5d1b5fa130caa23df1a0dc60d1b04a5af92cee4f9725c35c7,
  0x2c54d95a6a6f7e09e4c3562ecf6d09641e29a72cc7a46e97555232044a6a8aaa,
  0x2a62c847a7404e47d198158bc9783f57a7e9e936a512ebdb6ed07ed81040f9d1,
  0x1276cfc056c55b3a9feb8734289c38bb99f2d4adb5df85b9c6baff7f42489ddc,
  0x27074fb9a068da4dc423e47f968c2967012a8238c74008a2d3cfae739a454417,
  0x13b3cc235d66d3f0db7862ee5b3e78a7ae3fbcb379571af077693fa3a318baf6,
  0x1d4f5cbb8ed933063b61afb45c92a6e42cb80baac351ddd75efd8ada23535e31,
  0x2d4a0453f7e3632194d15444457f033b28822ac9e46aa9e8141ec98968666229,
  0x0996408db77890304cec004cff24e7031f20d91245bf698b8d85185ba4c6ca3c,
  0x154c4433d7bc73b4bcbd880f933fd7ae87e618b381b3529bcffc2281cbb1ba7f,
  0x0dfe738c2dfa783eeb594adf67c5e2b5581de47f8c9cfa8a37fffde204eeb4fd,
  0x009517fcab532346f0c8b3dbce4a6b24e901772bd3bfb55dd4f4cc1886be22cb,
  0x0e87f69b7ba84abd34fb9822c91cc4053914904860eb136b5f24dc56c7ea4ef2,
  0x20f6ebe7f3b318d178af7fb4ebfe5e71b5d3380ee0ce07f275051f52fbce3d50,
  0x1f93934dc4dd378c4ef0c106dd721e55d59db5910d92cc721dbd1b71e8b16ac9,
  0x1c9601af9f45092f62ed342e62ce154a3ee2583025f089235ced1ae2f1f84f9d,
  0x04dd1e6797a385c12d4b7f911a28ac12149e3ebbe1ad536870725a7b494b13b0,
  0x23e7a5d59830db614d16a0ed4eeaeaee5b793aa39af8ff56aa7ca3bfefcdefba,
  0x12f8f2d6c41e9d384e01d138695acff6a73b557f5d2606e598cb0ffec69f091d,
  0x01376653f8bcf8fcec5ed8c851453e6bdc678f31fc9c8b94453230e99068d2b7,
  0x26b0bf23169407407b4c3b437d920b74c7ba13058818edcbe4eed125540eea78,
  0x03a8a2797f6d8244e383f51fdc0edc69873d81d75b6ac0b92643e4b02f67113d,
  0x0758e495264cace99acef218843149d62c2de064a62936ad4161a862198b697f,
  0x1973c04a42a8996d5f38671e71d3be5778de8bd4854259e8bb461ffc56399278,
  0x2ff27debeb99ece34cb68ad054c3725eb8ee3857dc97961896e1691a1e76a6e5,
  0x1b2316eab766bda304543e47474aef9ce91830a717686d5f74891d25eda9e3d2,
  0x29186c9e4543d1e838518a836cd160fea11d0399d40d4a44248b5b86773454d3,
  0x2fb5e09aaf4fb0f3e29d8037046242dfcfc25e0acb6942d709f339c80d62156f,
  0x2d026814a08dc4497c6e249debdf0be4584d75fc1565dccb36549687fcdce5f7,
  0x1f530540f99193b2535359650505dcdbabd5dae0e7a25029eb427da77dfd29d5,
  0x059f1ad84cfaf236838c5dd78cf530e0f008631d7b911b108f9e9e35927a6a0c,
  0x0f0cb8516e7358e13f8d29e3d7ca3b8772da3f34c38dd54b79f32a64d3a173a9,
  0x0a7b0e2f1fa2d3b05d30ba4010d38a04a413e0b31aefd44a62cfd75bdefaacb9,
  0x29785cee4a463f7c6a9d0faf92b5d7835e2cf7ed758ece279a896d3165f06e2a,
  0x0550c951520a57c7ea1253ce4198f5151aaa801da0c49b6b1599e1c4e9cd4a41,
  0x0e4f3013a99a670d3b60456f721932b60627daa3be8aedfe7e4d84d5528d5a94,
  0x116159f5f5be7755a0d02232fed8d99f2bcf672536c1373bcbddc83cfe7fa461,
  0x05f3b1526b9d0dcaec2d707ac31e87e8699a46c852ac9ef94abd5767de5cff47,
  0x095e04894544e210764ff538802121e800b39970585063fe611136276aa16fe5,
  0x2ade487b239c12bb48ff17f278758dca8dd1278972daef778f4c118dec3dcf39,
  0x053e3aa1aba2476edb26d2463332a0e186ed428adeee869d822401930f9e4128,
  0x2df9eb23269d857b49c76080928a62e518402ec26aeace0c0d88790830e5e23f,
  0x224883469ecba978372e4e9412c3a434b7058d9d76f1d1869ca187ba7c1590d5,
  0x0e0dba4c312b41bb89edcff913835681a106d97ea723735220c2cd806f16968b,
  0x2d9ce08f05ffc1eced293bd9f8fb89d7bef456b2b0fec016e795c4159325337b,
  0x162b649549c5adc5f781e37b7df61e7ce65f084b9825a23d9b6aa4bdc248e998,
  0x2323a160c2346980dabf302e69e2cd88f307c1741dd583d36a06733f0a0936c8,
  0x047d629034c42906bff290342b2bafa612f08b0f888fd5c5ea02384c639adb87,
  0x16749375afac68bb87291b6167aa55e389e69932dacacbf3762fea925d7ee5c1,
  0x14f633ba5f21231117f4d938bdba1ad6587f37312dd852ae22e508b2557524f9,
  0x2d02f2b341f65ad9d99e89cba23a797806168efeb2da8169f7893783c9acb782,
  0x25f565e2ea7cb2faff221c35deec04b825960e1b26edd936b39fd2c55a48bffa,
  0x0febd4fef89c49b6b12c353e3efb358203aef5f13e2e25cdc88a9fae17a48ba9,
  0x11d001a9456099cd86c95cdef6bfda0434d6f52394944335cd6513bb41add7c3,
  0x1cc2b66fcd7d66e5ff81955bed3ce8d976aae481f100e40a5078171cfad690b4,
  0x16a755dc1ad34b4562a9d57dd375ba68bbe5424df505a5df3d1d1c16fc6f516e,
  0x1c6d0e7f77d871f89f0324dad2cf370292f81cd8d567129b56384ebe8f14b078,
  0x278006a7fd3b154b9f25be54a013734b0a5372ff88377c26eb219039558a281d,
  0x22eb2867a539a9b6ff51d4a48b4cd8419252d07c0665d0baf82acf8aef7de8ad,
  0x1a128b7188d4e3f1c22aa4bc4525bb26b50ebd80f50f267988bfe2e466e56a94,
  0x1d2faa5c28aa1d533513cba89750b93ce71b4510c4c215eb1974a59051c5b093,
  0x28eb1c41a050dc8aa3f9a8037cb81f575e5b1acadc49e886e90bee7f1a485149,
  0x1e2586cbca2364027ac96ad1490271b866e723385e96c9f720a72b1f67078e6e,
  0x13c7e5c7724e33d7acec9e42ff8a4ee4f1ac8b6d0038f0faf4908e74ed06c9ba,
  0x09bf059ab4925c39c6df84371572785d35e40be573fdf1be914ff6a87066923e,
  0x1b7375f3920e121871cbc71e92a2f47518d26a20f236f9194a5c48f86dfabd38,
  0x1494848f10672e535de527d6d0591019987f6e11ba33b6f6eb73dc59289c2e36,
  0x195378dcafdea646a00ae78d9e30487a41aa8b8864ef4035a751c3b8ece36b0c,
  0x0b6a5c76a2a2a0db3843ef11176411388025f380e7a2d7ef1a6acafda5899b0e,
  0x0823e1d157f7c4712b4988af4a0396edb0950b1ccd001692e4eff681e14c2fef,
  0x1633b048d2f14628309dbdf5a52736c0c5de9bf96d7fb9d13a2cb4562074b222,
  0x1f77ddd90f1eab23737895ec06a295467086513dec30b69738d226c82ed5e430,
  0x09c71939b3672bf6aaaebcf3717dab67765d8b94726c19d76d57e7aec751b94f,
  0x048139270f0ef8f68d0b07c5d0005d7ad91d41fe306c8587bcf32d742ca1937d,
  0x003adfb1444cbf59321984d74e4434f3ed8a2f2376a41f5b9f52b1a6172c03e5,
  0x2eec4a7de823bf9531d3f842e9a9c74b0d0c4f8b56a5a25ede19b11f868b89ce,
  0x0ea574b644b9f4cba43338122827d08f07484a4ceb24ac9d00c4a668838900af,
  0x054da055cd915cca9a0da4dd2cc86d99f08b287bba925305ecc28ed0bdd28990,
  0x02965a1d1f26fcd147af96711976f84bc3f08a50e8b8c38f7e83e8638b8f4706,
  0x1f97b34b9622f33893182c89f86ef052ce8e46a3bfe2e33fa2a34c5e051d91b8,
  0x09a063b0b5ea468d93edeecfc089699f815eddbeb5e9369046740c7fea6d1cb5,
  0x1242820c24afd7cc595f7a3dd0534c6cf1f00c6a84291c65417397c07d46b778,
  0x2983c402aec15b1d15f86a8d0378769832f0d5ed57aab1d11cc08b4509512da6,
  0x136371a4b44febffc233bd009ba8673764d2a73512e0eab44024cb97134a3dd8,
  0x2970729690bd8c8362bf5d0a76c215a03c26ef8a3e01eb91cb0e0c70ee25525e,
  0x1c395ca2c5db9b254b9b0ef75ba5c0961750f646f9a6a68d60e33ca2ce84427d,
  0x02356c76528c4b9ae14f13f529206cce462782256984db7e1c3aad5d6f367f68,
  0x0c5a67378876463bdb3ff94d63e062ecef7bd040316eae92c8b035f693ec388e,
  0x1b2aafe5f720bfc99ef31b5e48b35df72fcc920e66c3d90d86537ae35ce6bff5,
  0x067987b7638b9b082848f8eba41ee203d3e90fc591407a4d87f81f088f9612a5,
  0x148d4b0218744bcaccceb62b6313a57272a1545fd75d1a8ebbd736e4276d5e6d,
  0x043f8986cc56fcf8e88680a1e8f1c247165bcdb9a6ca2d94c7418d10ad8ef847,
  0x1ef035d9ff4391c8001fbec565a65ca3cd3b7d0823bb062a9141503a79731f81,
  0x0a5162e6b35a320dec11ba8639a1192f6a0a464f84dd3899c4dab9d4ebbfe024,
  0x2b5c89e9872aed76baa36b83f87eb830fe16d34169f9eb1628e6fbeaa940cf3b,
  0x0625c126499750374f2d3fd08940d1c0238fbd8da85bdf47928188e3f9010627,
  0x116bb85cfe6730c6448192438af1748221d2bb302b3258350cbebb1c5eccd965,
  0x11aa65a2b09da598bb66377e54458c1dc4a7a3775f9c9cf51b2ebea5c871abfb,
  0x280fbd8eb1ccc50603dbc78eb0bf9cb903cd9df30f0f25f215ad4c3e1fb6baf5,
  0x0761a3e812087679e2748d24993af14664667aa3d713796c79507f2a63f8ed76,
  0x2ba668f10abf878c8010155d539eb3cc30bb698f0062b1ed338c526fd12ac96d,
  0x2f4e05914ef7c1b2edf41c51266d3dc3e75c91b4c8dcefef873287120021ce0c,
  0x29274bd37d7863d5ec7a82f28bce6cf183fffd4f8176ad07b158f1df83c64804,
  0x0c48fad80901003d9b0da5451971f8eee03e4c394ec29da5bf20a7bfad98e41b,
  0x16cf2cf2b9da985924e713d6559192ca6128ccf71b4fc7c7ee0142d1c32f20d9,
  0x00b7d9233273de8b110605a3a7820c13cf7019bacf7e5882a85d5689f15c8cc1,
  0x0f291f5ae7e99aabc73894608962de3b6b76490754c0861de32a58b1cdb86e18,
  0x253406b596a33f5cf4b7e83f26116eb40d9707911b4290b2af400d58d92cf210,
  0x0812a4144d0d74bead1c5710d5239b640ccfc39fb66dab8eaf7cb3160fe35861,
  0x2d81a6da9eebc5d5d239d13b961bdeebadcce19f0625de11a866bbcd0ef6f174,
  0x1a22dafad979cab2f645899290eb4daccd04feef3155d88567324d23646f5064,
  0x1bff73ae8dcaec7d09db8cdaf9ca7a9a5d685a1665855b0fd4ab9c15289f181a,
  0x0a16f8b0834ada0c92b57e0f3e79e31f4bc6c4fbfe1e1c8a22cce904c33ee709,
  0x0ce7964c214c6389d581357e69009a141e16451def5e801d313bad966d99548e,
  0x2825c06bf975dfd5e8466bee81947fc45b6a3e704dfe0350a04a9ed19293b3e0,
  0x265917cf756c617609b958a33522fbaad9bdef1dfde2da8fc4d33b067058283f,
  0x305a6987d779fbb9c92aad8c64fd4398a501b347cf24d3ac0374379c3b988e0c,
  0x19ba5a328c09be61df3216db8ccfca1392a45d45ef73c6d0bbdf798f52b0caea,
  0x0569057f32180f19cf467121a3ff492228542300b440840ead6ed63ff96fc92e,
  0x300ade0e02d409aa9cbd650c5018bf52c8aa6b46c3523664404942451cdfd7f3,
  0x13e7afc3e5b8ae05421d3101c6dcd069e9730f8b9a4d28b707919627d82ed576,
  0x302cebb80f47bc0d048b047e3ec4370a824d7741209189d6fafb2e923c95f674,
  0x0fec1e8606f9c19f09f3f6cbca8690f2a82c728121731c10b70a0a27425b7617,
  0x01b36c8b38abe36f31c85dfa0a4223c2127f9e70d6cb00acca7b4b820c42b4f8,
  0x1ae800dfd62a6f893226eaf46ed30630be2e658ca33bb2f8cb64a0ef6936167e,
  0x043f80240127ebfdfe64478e6b490c262943c0891c090e4f9e5da3a777397962,
  0x284cc004329f4e38c3ca0e7b3148a180f6769757d97698a510f153ed07c0618b,
  0x0a18cfea20c4b70b9cfafbd495e4fb978527dd3adcbb2a1b51338f37b58eef02,
  0x1bc11b2f6acc89e45bfc09641d1f50fe735abfd0fe6b4485e134afe45ad302a4,
  0x27af048a94639f26777e999118a6a53c031cc694291d09c52dc41cfbf548c07f,
  0x226ab5b34d54c58d1b8fdfa18c3718e0adb3382accc596eaaa90c06d43d6e8fd,
  0x2434cc868807d7dc6385a67ab520f6908cd692288595b76156d7b1191d024617,
  0x05f662504bc7e177ef21ed6b4d8ef9a3dce1e82b88b2d48c35c0e23b405a15cf]

/-- `MDS_ENTRIES_W_5` (feature bn254), poseidon_constants.rs:1481-1517. -/
def mdsBn254W5 : List (List ℕ) := [
  [0x135b52945a13d9aa49b9b57c33cd568ba9ae5ce9ca4a2d06e7f3fbd4c6666667,
   0x285396b510feb022c442e4c2c1411ef84c2b4191bac53323b891a1fb48000001,
   0x06e9c21069503b73ac9dc0d0edede80d4ee2d80a5a8834a709b290cbfdb6db6e,
   0x2a57c4a4850b6c2481463cffb1512d51832d6b3f6a82427f1b65b6e172000001,
   0x2b03d3f456650025159cafbeac013219ead8ce794fc1479d91ac688380000001],
  [0x285396b510feb022c442e4c2c1411ef84c2b4191bac53323b891a1fb48000001,
   0x06e9c21069503b73ac9dc0d0edede80d4ee2d80a5a8834a709b290cbfdb6db6e,
   0x2a57c4a4850b6c2481463cffb1512d51832d6b3f6a82427f1b65b6e172000001,
   0x2b03d3f456650025159cafbeac013219ead8ce794fc1479d91ac688380000001,
   0x21dfd0839da2bcea0104fd995aa7577468f122992201cecc15eaf8b45b333334],
  [0x06e9c21069503b73ac9dc0d0edede80d4ee2d80a5a8834a709b290cbfdb6db6e,
   0x2a57c4a4850b6c2481463cffb1512d51832d6b3f6a82427f1b65b6e172000001,
   0x2b03d3f456650025159cafbeac013219ead8ce794fc1479d91ac688380000001,
   0x21dfd0839da2bcea0104fd995aa7577468f122992201cecc15eaf8b45b333334,
   0x1198d6b56929518388d75f2b17d1f1963d2a25ebcf2c28ef01697092e2e8ba2f],
  [0x2a57c4a4850b6c2481463cffb1512d51832d6b3f6a82427f1b65b6e172000001,
   0x2b03d3f456650025159cafbeac013219ead8ce794fc1479d91ac688380000001,
   0x21dfd0839da2bcea0104fd995aa7577468f122992201cecc15eaf8b45b333334,
   0x1198d6b56929518388d75f2b17d1f1963d2a25ebcf2c28ef01697092e2e8ba2f,
   0x2c5bf293f91828263e49953ca1613baaba2f94ed1a3f51da7e39cbc79c000001],
  [0x2b03d3f456650025159cafbeac013219ead8ce794fc1479d91ac688380000001,
   0x21dfd0839da2bcea0104fd995aa7577468f122992201cecc15eaf8b45b333334,
   0x1198d6b56929518388d75f2b17d1f1963d2a25ebcf2c28ef01697092e2e8ba2f,
   0x2c5bf293f91828263e49953ca1613baaba2f94ed1a3f51da7e39cbc79c000001,
   0x2cab5c1b46066c7547ac8f1e9eed8ca4c2a6117dfa350572660ba79c40000001]]

/-- `ROUND_CONSTS_W_5` (feature bn254), poseidon_constants.rs:1519-1840. -/
def rcBn254W5 : List ℕ := [
  0x169e0b2aacfa56f4fd84ea67de23ed61558806a0b86ab411a28baa592a9bc8be,
  0x24c4554f0c2a3255e1f27b4c7997366522f222c2469c36eec41b375637fe56e1,
  0x1ee762d4fa1d3d2b4d39154b36a508af77a824e7cc05a1e922480a530c723356,
  0x07156e951beb076f80c43235ae5bda7314d6b61e53c9a2132fc9d26cbf1e3ab5,
  0x2b7ecda7629b337dbbe9f7992d441d568485c9ca616305d90acb57233068a16b,
  0x294c5392996d576ef5f73e0e80422357f6dbb25c4487547b4336ec7463ce38c9,
  0x1a4eaade9d0b19744b943e3c48e797a13f27edfcfc29b6c42c86cc9fb58be221,
  0x1c701dfe7237c06692ea2e87bf4d4d81915ba34596f0bb3eaeda0db7243b34e5,
  0x21f6a92c5896f6b7c54dffb673e31be9348a614c44d7949e2f9cfc030e8e3b37,
  0x1aa56484d24dc9829be011e7b5433fa837aad9d5d4a9e807f8983478dfb4a1e6,
  0x2689e70aef4a11ed4725f4ee44fb8d09adaf4b561af623a4a8bd658e1c527059,
  0x1937a3e7685e7533f92809429add3f668b1c7056c3de197187f99ab002fe0048,
  0x26b9ae43bdc17ed83891a94828179283668641cd946a70374b10e555d2ef21c6,
  0x110fbf7bb66f43181c11d0a35578a61fb4bdb63d9efe22722add05bbad074dec,
  0x127aa1d80ddd8ace44f62f20f2403574cc98b9ab347d57046660610cdee2c9a8,
  0x0bd9e9adf2fd980111b3d1b69ffcc9e52ef5effb048df9e7b4f96e905f64df1a,
  0x11baa428b39950053c58737d1e78f95bebc18591610f972acdac1024b38bb2e7,
  0x112596a6060c02811747d9411310ecf658165abf9ee6529e9c7efaf7c9df5e1d,
  0x25096c1ac29720bd24f0be1f63ce094adadc8c8f18d935fa3f022d9014954f02,
  0x1312bbcf6683da8b108b8df122204aa6cbde76ea983dc31fb6736cad955b967c,
  0x2ae617b3d189e6a115b59d630d825c2ff75bd4af30751722d449a9acf4084cdf,
  0x0e6dc87d696c050f99a5934c26d34ff68881414ca166c738218a6c37c3b1a704,
  0x1981a20d330df44d4938ae4ac068cc046d8179080c3ebfcb4e77f0526d9822d3,
  0x293bdf0829b1d1bfb0b0c9f483ffa27518fec4b40f796aa91c7da8dda044bea1,
  0x2781f81dd539df45f4f286498cb8432cf93fdcb4c89335c7dcbf605cac70e61c,
  0x141bdc09bcf19aa1d6af5e149b8be3d70bea9ac947c3e00ee57c084dc1c0ee37,
  0x125185209550797088f3a092df271f99e264f304aa8e2a328e36184236ae9254,
  0x2b0eee03868a7854e553de5d6e95ddd6238c72669a412a9415ada25e1e8e520e,
  0x14bb77c46ad0a725062df2c8da1de33a4fd3b1db3f57bb5dcc0a6b4926043587,
  0x057f71d85edd010129e6102ff5234349f4d86645d188e3092342ae1cb9eb39b4,
  0x17fe856386abca97c32603cc05575c1d6ce0b87b03818cc71232da324ea0cd4a,
  0x28b473feb37ee118423113d14cf07a7e88689539a1d5745af679ad5a19e3f364,
  0x07b117e1397237302a460916df3773c00f8b030cd0da464317b9b8aa71a58110,
  0x2ebbd0ddf22442afd195548502e9012d814e29a5160bb143f1e11e29abd968ac,
  0x215c3835a5a82ba55bf09131d3123fb20e649e483f7841731108b6fd0e502c8b,
  0x016150168bb9b8e124a99b391ecdd68e476da7acacae5e34c3eee45d0b1cc002,
  0x28e9303160b96eb1849d4e6e68d1ed1830b84468225bc2d65ba108b1da005374,
  0x1092c0b12b960ae50be8d00497009fb206a6767254f08cf956574b0fcfe39f9b,
  0x2c6fcc4d9e8c7488d38eb9894683e6528b35ae8ed476b151a7f84161ec78b770,
  0x2233db47bb2f2c59d8dfd4875927e15054024e43c6a21cdd53168e983061852e,
  0x06b4fd740021153e514839ad5ccc2797bfd5ec656dc917f41195c74728e52f8f,
  0x0dfbc6cda9f9363092e20540eabed0947cc5a99af287c0026a3e34963d7a64e7,
  0x29a47b624c3958b02c42967f72b1391bc03ba2b67954aec86b34a6f36f6d6e1e,
  0x07449f23de79ca338d8c951ad4c4a0533ed4ebd2b9fe85f57d431df8c295768b,
  0x28b64df95a334e8bf131e846b38396d789254d6a4cbd95a56eb5071946682f80,
  0x2b62b8ca69c7b9ff4cfff7a8c672a0b2ce8c59b795cca61cd885db44aa79f883,
  0x0d6e196ab314f5a7f2a08b1c9a7416908629c17dcc702af71016153d641a875b,
  0x26783c6f043fea3115c77e68b266ac1f445e972d55110eefd2270d5ba519ff78,
  0x170937d45f7cffc0c58608fa6e9b89b378507ed4f2c0ff413d0cb17abe6335e1,
  0x20f741a5b0f3825dc35f50d76b201c9a60dcf20aaab24fe08c5d233e4a7b840a,
  0x249d6949e80c4d3ca25dacb2242be184f6fc66a808f66b7c3aecafbfc4618f52,
  0x19216930903e48a9bc5d88d4a7e748104de08a67e1ef166daf3af5e306d2e68d,
  0x0f1122c6dd0a938d556d20c258df9493a7e0f2f88292ea267db4a81f936d5943,
  0x2010f9196535e5c0f79887bf874c78a25884489f9e6d7712f98c0414e0ef790d,
  0x12ada3a5de079f1f1398519d194fa0c23823fa692d4be30b0479f69f68126ab0,
  0x0ba83bc455d81f3a165a22847874ee6253171ffd697f719ec38b21cf2673c93d,
  0x190c59d8d29db65007cc4153a0934a2d7558540477c7b04dec1421b8a3a4da78,
  0x15318a5ae2442ba588c87915a4319d6ec4af14f9957e959faf41a94361fb6d60,
  0x1c07d2f4462c9e6fd5ad22bd4a98b8b1a8ee8ee4d5c006a88932307e83931e66,
  0x07769e73d0d01190e8401661c16eb76c3d41929acaeb7aec8fc43756ffe78ba8,
  0x2bc463d8116b490e6a99f45625ff3b89eb59af7d2d08f61a897fbc48b724dbd7,
  0x081cafb6d9c9d1811b9ab25ce76202864dddea3dd6c5de03a2737c6c6744ca2f,
  0x0fe37888822242a0c0c3eec4dceac8bc73d9a93ef81ef26bb09dfda4fa104ce3,
  0x1074dde4c3d150fbca1bd12f8b42773b6e1eb645a64d69459cc88c808c9a2baa,
  0x1edffdfd62173ff3ad153c8f931543b3ebf3bb3d5d318cccf8d6cc2785bee7da,
  0x213676d37a012d74a5870ee2305e6a28bd56403a1e5f8256a8996edf4356bad7,
  0x2fc25327ab1308e55a341553708134f907e4ac2de6738720227ce3ab72298b21,
  0x198084fd84f6b12b300ed8a33561189a4587011c88344e3efa7a7f2690adb063,
  0x0f4869a358d2d5febec1e97a040fa9c9a02b1ab1f7e7237a8630792ad1de9e58,
  0x1428450f2b955f682c42215133fe3fae8771a1207dd65086df64d7f8065376b0,
  0x1e3318733e0ad2067115565ccb1d20c253187cacbfa6f1d2a7c8b9e601738aa9,
  0x04b3acae3c68c59e9642c792bfab6a1a7c9107652072f34132a34455f0390b97,
  0x02d6b10a12e71b8a8bb058020a0736b73655ba3016f6ae588b2d2e711bf8b552,
  0x122c47f8cfff2f768c10be160625512416da0b7f7b0b89c63982f4464e3d6783,
  0x1c045821139f0b05c8ec0aa6594f8db66ae46d664ee74d3ff16583d7583afd7a,
  0x2fcfe31563d4531b9eaca70beed62e7494f9c591ecebac48d88af5b795bf26c4,
  0x01c0aaab55402c02b9033e3e2e765c8e5180bddb810b479a3e5f2939ff6e713b,
  0x23576bc2c321249ba2ef2b42491dc416dcb2e828c052c2770f8e24046844261c,
  0x2e8ce3a6f7d8cf0c44ab937f1860f667f9e7f30eb7615574630f3a30af1575d5,
  0x2ae261a7244a4a6bc54470db50cb6eb72a4dade704224189c54adcc58f7a3c36,
  0x16d97046c3dbf70a9c2b4984fcfa313536615dab244c1fc49cb89f7d1870d1c2,
  0x0e8c836523f5b621f18cbc4b0bf3d9500162575dcaac76c52986d91b860e555a,
  0x06f9144647d2b8712c2fedd1b91dec4d21b001f9dfed5a8b18279ed7f51d74e2,
  0x21c73f4e29ce40df37551023289959906e0068dacd754fea3d10a558a3552085,
  0x29637b3fbe0a239f854c7e2838e3f5a8b3de3d8b1a7795bb53170f8041c85822,
  0x0765d4571c1f7ed6a8212bd6aa2d5349dbe4d837e9ec6ac73f56cee6e954ca6d,
  0x14c0432919f3a66b421eb603604921262f41e303a956bf2a8e40dd9e45afe259,
  0x2f01f170aab9ed36163471e9cab5915a065609ad4153306c1605984a47b50f8b,
  0x018bc5d39b6be5a61b0f166be7949ac35ac1db645952f83838db257afdf37895,
  0x27525eb67b8a7d0a94b3e0d5f951eb667a1c8fc0a147e0da4968eb7706b231b1,
  0x063e5620fe15a9e95703a1dd1fa762f206e9f7886bbdf6e16975a0942bdc0efa,
  0x2ff9c6749e3ad37183cdf7446b4fa8ad858faf7988f95c6b3e1ab784653aaf52,
  0x2338b0a847254b585b9362ba4616ce7f1fb3d64a5ef638758270e6fdcffff458,
  0x296f2979099690adaf52eb7b7a0a7c81870b3586e471ec5111fe463c4e1f1d06,
  0x14b4a5b8297e1f7227593fdeab3ca21f8c2cb036dab9d42d3f2e2e9e6c095fe0,
  0x2ac8fd0c305e808e615a71b35f0e0885ba54668eaaa8143aeb92c613007b46d7,
  0x01e30bba67852d46e1dcbe52a5aa523b133b8b80c9c604ae3f3a83869ad0536b,
  0x1749f848df2734ec416fee606700e30fb66b1c2c91d30020f65a0a18f2dd88f6,
  0x2bbce44f1db7a05d748d85fd35f52e91d33555e181d96dec4b20b124248d24f3,
  0x1c8b45b40fa8a2ffd3d0f645e29cc33ac57db56f851e7be1219aa3b1dfdfafd1,
  0x30389cfbab40f06201c704501424c90200a391d2df2a5241c2672eabe84a25db,
  0x01df941a90a97e40f8f4d77f3969f86b07cea51ff02c2344a438c80bfc97fcd2,
  0x15569e3a4742e6842e3f4d342a1bb5dacb326f88767e98043c3aa081acb194cd,
  0x293b84b23e4090172720aed6bd8457a9184921e42ab5e46cdd74fe303a1d515d,
  0x2729bb7942b8f51d6dfeb944fcd6abfac3a99f5327fb47e600aa3e577e94eb05,
  0x12d27c6cf1defd3cc24d8005de3a220a0837277cc39b32c96f80d81728c3b568,
  0x18e277158e12892a93a8b3a44b3c8766665932382d72079823ebd406701e1e3f,
  0x051cc980e75b6cdd4020ab017567f16ce008a7aa69c8052b4ac220bea56a6b8c,
  0x2876b8674ff43f7ad980a4585724829d12921639ecc727ccbc2ab3773f405c38,
  0x1f93d4da1f1dfaed699d6c3b951acd242706e1376e801abcdaac9288c4654115,
  0x02affc28df82badbd5b88cd8f7b9559e162f195849ef2b040c36115298be4dcd,
  0x045df577d81c5aa07484a1399f19f71c38cdce3c20cd3ab18659139f295f8e98,
  0x0052a695d6ed00aaebd2d7f5026fba20c0317c01d52047a39ebeefa41503d28b,
  0x2e0cfd16fa9b4659b1ea76a63ad446ccb68098df459480ef45ad5e09192e2269,
  0x0a5ffa7c650d9943682af980571b905a2171b357de832d5789d5dd66d989fbae,
  0x0865973303c34970709aef6802f3a7111c52e7ab2c6f49addb97df16da8074ce,
  0x2a146ad8b7d155e2bae227fa5903100dc00aa91accfb59bbb296a7ab2af43723,
  0x0701fa422fec5b73a1ee4b40e8e2343cf6eaf17f5320c42fe7e314a05b0e22e0,
  0x020531d8b1dc5f9699ff771c5cfae4366d402189732b8f8737dcabeb111ce8c7,
  0x03867fdd2a6673e1b50abc5975d7316950d7353b8015352a423c21dc6990ae72,
  0x22290eea63dc7d64cb68d612f81b8cc086acad4e1770f2ac39f772a04b78eb35,
  0x25f7d80c5b1a7983db95a9bb1ca87fe5ae512cc2c11f1bb71422fd5ecf00c225,
  0x1e87f2b4c62187191aab472d5d0a8d9e9a09c99de333e8b5598fec555c6124c3,
  0x0d08367a654f496ef7922a0c29df53c483795a40fb8c9e4c8c1b808b58745706,
  0x02b740aec51ac3b4f72f68c9ce980c6a742afd263923d9140babc4420735983e,
  0x2395fafccb44dae94b745704245dcdc3a40deb42140d65dac5ee1ddf518da0cd,
  0x0d030aadb6b1724255e5d0de79d5b821bda23aef00839e3734a8107706dcf527,
  0x261a1c9653f7b0864b96482423b9028826f8b023a7c8be80c71685870dc048a8,
  0x269b620c6a110d0d6454428e6dcec6c38fef4bff8c824e7e10f9cd816447a789,
  0x20a8d439d69e8c09bc7e2089227e4bc607daf1b398b7622d447eb7b22e9c4028,
  0x2cfae1f6f8146f4647891fe70599be52f3e8e36056acdb699aa85c7e3a178dda,
  0x2531be82efb0f032b83574f6d79cfa492d8475ef3b823a60c44684882e1bee47,
  0x1caa6b56db0f92c8170b6cfb7df29177efc297ae771aabf3049b5741320b614c,
  0x05efbf306b5702832578594e04e8406338fb04907726a0c075ac9098e6803e60,
  0x054beceb211f563e3cac740762d3ad69155d2bd318239fa5eaae4f32b6161f86,
  0x20f1080e0faf42dbd458da33bea67f1005eb3cfe7f1add3498750513e2582df5,
  0x1fc913984207e4b8e21dade742ddbf5296878f1c680b17577eed2e7ea0d3b1e3,
  0x2c3457d4cad0ae6a4883dff3811ddf0700e30fe22594650365afe4c3d0e249a0,
  0x2192b63e7c770d06c59b2c81c928ba9356f67f6b53b53d73445b37efa19466c6,
  0x2c79b01810a81e835cd6abdffcbdfa8a6f55a8a9b81a471ba53ba9c34c47b408,
  0x0f6b85a6ae3552313f838aa4db3e2f15bb0261d02d887ea81b1fb4d78fa7c681,
  0x215a51aecd7842b318c3a4e51a71fd40fd3a706005c0062113a2b082e57d9b68,
  0x250fc765d8a0bddea524d57205266db04f695f992acc1b1ee3015be38c7fb9ab,
  0x2574ad69c3a7474490b9a51c2ea6c60d6a8832551f9a016e6e4b23dafc9b368b,
  0x0b1102260886e6a8e30c158c651cdb66bd65aa463e42a054ef291aef8826da39,
  0x1dac46b2125050e63eb3d8c3f8477e68c3d05c5119a038ec13d3a12f819fc931,
  0x26d7459e89e2cb173b2bf9bdc2d125d993d18d84e1f4b3235ecf36004c1d0161,
  0x00eb89d6f592494c9ab4483dd34e56363c361e27b89f4a1787ea50e551ff1482,
  0x0208dd71381f0aff1b67ed86e14e3f67846d7e9e0a68ed47216124cece5cc1ba,
  0x26c771e9bf45c944cd77cabb7d4c9781a9ff6c9f8f2c0715aa0f2c66a5018ceb,
  0x0877be318908d2a7259e0f82721855b6c04cec8eb5e814f295a8d2852b7086fe,
  0x1a92f613c92e683c09b46afe45207e4d9e371d53a598101ec418c04bff06acf4,
  0x1d7773fa877b2ba4f7cb59b13bf017c049c8f4d9ac49d55ef440829e1047f9af,
  0x0a12264ece5228741371e25a99c4a8311966c3b0721c16a84093eef528444f95,
  0x16aff0c83cf0a3468830e2b6b54865df9c8e7873966ed26997f4ee024a707af3,
  0x2faa26a4c65fc961e0b300e09fadd66ed11becb8617c87ae3bbab65f6f01dda1,
  0x2aa05432c943293b075212c57e3ee8ec3d767bae5f11173b50e1abaacdff8cfb,
  0x1df4332c22abe87afdb15b274d2b4c0c4264d65f89b779c98988a9d9f974c4b8,
  0x14d295e044b969d03686621272dd0b77280b180be4b27bd485ff1423e3355456,
  0x074beaff8e07450d2304f71370b9ec6f705730258cd61e790ebc1cddea0b245e,
  0x29f028763e86761f9b1c96ddb2f16c5c151ed733e61cca30a6dc62e14f384704,
  0x2a5d5b0e8a4eb2bcb07996b4d69fd979a9ac29b9720354dea621cd2fab2afbab,
  0x23f996c26a55fb1fb4ef8d52b0aaa745ccb11dd26641c4ab889a4712b513cbb3,
  0x14de7f00121b3fece59f5a96bc310853a99a19f6b4918cb7ef9ad711488f0c3f,
  0x132f8c03f7481acff7f256279c91ac760ea4f6330ed15e09458c4a2683946491,
  0x04ea68c782e1258365d426fa8f22440d3f09851ef805f7bccb1aaf2b402dae6a,
  0x0dc3261b30da672017e762c09cc38a88c279e88f47d9e3e5d500acd69d190d81,
  0x19019aa1b7aa0b91fd3f7d23246f51e92edd3c36a5de747b99a302d853bce08c,
  0x2da30244646f4252de0ab59c929a82cf7d5af2ca6bfca856be710edc921e4536,
  0x2da95e97aac1dc791e1ac6c1bcbb0f906dec5512e1519e984e1ac94f286e6209,
  0x0b80f5bf9a4fafdcbaae88788b8876868fd3d552086c9d31fbf6d3853550a638,
  0x1431f816a86574d93bf26cdff68c51865e7bd5528c44ff682a98ad27acdf5a79,
  0x175838b7eb892dc23f32c28179ab684a6018d941016bc8b08c527b3af5992c6f,
  0x10d176e0ec5b415285fa74a03cd2406ac9c2eb50ac6a73ccb04e8c13f4215cbf,
  0x2806ed1c819835769591240027f92b3555d0a23e3c1c0272494a7672634bae7b,
  0x07730db50954f411513c549a6f0e32eb138f8877c27216386f2940194448e2f3,
  0x2a3668507e52167d9097a3583891ed25f6cc4a3007776310bb607eb444b41203,
  0x0a81134fa2e0b904858892b9e19bee5703de023ceb402980731bbcb193bb65f2,
  0x025408792a8e7bcc0441b372e95e5f0ec96768a7ee6b20ec8ab1419e34de4df2,
  0x296581f50a9d58b5fe68ec3cc08aa89dc08055927b388a6e5413874403fd2105,
  0x089abb4233db666b4f37b2536551f44a9ca03e168d16250aef246cf08248b4ea,
  0x2e8d689758111d9978b056f9f0ea29f1bc49829a28f0ddeda2fff116628c9fba,
  0x285c243b3fe4ad30b217b5d234cc4f1e7e8a0a05cc2c6335eecb73fcbb93d1f2,
  0x151d91bb720a1099afb35ee32acb9252c083b2e2a6e1172814a059156845acbc,
  0x128381be4d7dc0b70b87a732260d22bc6ce2c247d7f300abcfaa6726bf3d462f,
  0x00cf8a400267791c997a72b6d760a4a3e0afa01791fc0f6702e899bce4d3a757,
  0x1687f96f6aa78c94e10f8a0e296c868705d0fc16b80e7b1dd08ffae4a15c3e25,
  0x0620d94e68e026d350ae4e18797b77373ff0cf580bd2eac0712c87cf24280185,
  0x03ec9f5bc08fbb9928dbfd8065652183dac82dd6a050b520dd8e360020a39df1,
  0x115ebf06dfe6f322d37f01e38770f1718538f3e08a5b49e6efe803b674662378,
  0x02bb7e4a21acb9098cda57fa733a2e8933d84af1e68664e05de7cb608b678c40,
  0x117879f5b19c12a46ee187af023545f3e11a5f77962fec55a1f3959773096407,
  0x24b34021978474d2c50e12d75680cbf9d98620e7717daa4648fea22b200888f2,
  0x01f90d8356edd94c37b04ebd7340b2cf08fd7cc64a1f1f8474eafd36a7af3d36,
  0x090235ff9bda4eb36df4fd00757031e4d7cd9a9f9a9d724f5c5b49fdf68665e6,
  0x20f0ec689c535663e985d8d44cca83251d327106e0683caeb21ece6eeacc3326,
  0x093aee6ff4e0210af4cd4cd3a69836f168b627d1fdfe8aa5fa7532c208a4025d,
  0x1f8067d05b15e5a183d4fa36519c6091afb8dbaa9ddffe4e8f42d1891b7bb942,
  0x19f02d3e42724e4b5a81c0ea9b3e673f9267d1230010cb5a8db653467892c8f1,
  0x2ad57a1269dc6d2f3f6fb7357b583f1afadc3c43faa2dcf6140985eb90e113ed,
  0x0f953c207f5f00dc8524025672fd965c9122eb7200ac449192788a58af1cbf84,
  0x224ae3951afb60fd5f69add430b6d05483a0963e3aaed645f2de0e37fe24406d,
  0x151632cea16a35d5fe8b25039c594f232bcdf56675e89796a17187da378d16be,
  0x0ad8d1bf7d94454b593c918d340d1cc0fac21646f94ef46ca89ebab277173316,
  0x1db7e1b349130b2c6e07aadf8ae1ee2c10ea3887f14c541ae76ce89e92669085,
  0x09839811c8861e29ed900454a7d2ccbc89df3eb6a10cee25285e081c2197cf67,
  0x2494559f57e1563d6a8c84fb67d9cd1610751a48c1de519a6366ddbc4b829378,
  0x2a82d2a122cbb235ce3d4ff5abfe419869471239006dbb99654ae150dc0b23dd,
  0x2baf1131ea6d1539ffae332e073909c3204fbb5ecf923c330cee3fa5912231c6,
  0x2ccd34c478ef034f842370d72450d76997aac2b1215e94f7329af7d00049b74c,
  0x2ea5e34e3ef25984a98b2659c83dc58ac8a68e151c36b7c1c6436ad0adda8c4b,
  0x0af21cd8feda203f5475f213af092e7821c22ac2c6a58d26b7c8e63e00ce513b,
  0x0bb21d93c1b36f11b313a56424a2c753b322b82f3027ac5329e1c9be0cd703db,
  0x0a580bb0553e6795d78bfe4c31fa7cc5266d99903d2e930809356e9371bd3593,
  0x036aa6600d9e2d4661f462350b5e4e003abbad048e5c30c9590ffb78ae219422,
  0x0867c84c5fde72445a465ea45e59f937b76a3f74a7596fae34adc7ef6d0ba585,
  0x072d7b525faebf1ed751f1e692b1735d6ad3547b8c535d0b97f360b69762fff1,
  0x205f64201a4369951dc0bc527c6d1053e95491b3cfd1ae4564bc4d9961e0c52d,
  0x191714cb28d34b69be150bee7402dabb37ab094d7ddfc555fff51f7f694c0575,
  0x21da8ec3a4d6a085ae8386c82cf16fb2a4dc5ad2b1397cd1b4d05e2d16e2befb,
  0x1dbf09a6511670e2428ea680e2fce58104a1cefd2555e49abeee89c39a71fccc,
  0x25f3b9e4044af092327d2408795a59b292bd1b5b2405369f2c21d119b19705de,
  0x13a8d3183cd22e6e88a9e9fe0204ec9be11c3ce49c0c369ec8ff6386b4dffa17,
  0x24e80512db55ed3e7c4b41fdec6a85c126903d806e919bb2e8011628ea1b7a9a,
  0x22fb902ed515628308f797c69e893ac2612cc75647cde00ff7cd1b1f647533c8,
  0x2a4dcda410a768479498a85e5a37213c8dace5cdf1dbde2494c29527fe3a69b5,
  0x0eeadc5b44e93ca94087fbb13e95f420144548fca701a1eca02bf6e62b6b73ed,
  0x080362806089f6fc55c82701ae85280fedcd4cf32fbeda8c53741fdcb9ac42f5,
  0x12485b6f6f91307dcb18500373bbfca93828f291d109b484dda10245729346fb,
  0x0af9ad70995828743ac4e6f7fa7995f2646a193033378aa5db40b5610e393b6f,
  0x278cf0545002577eb9fb52f3c3351fe85c09b7f563b4f98a13a9c4e41c75f318,
  0x02352746b3c30c8666304d150964c18ef6d60f4fe784caf979d9c171caa5de0a,
  0x2d31d6200c8681e52f82f0499aac6f71f0a4b689a824581b1292d06dbfcbb7bb,
  0x23c231840f5161283517dc3b5dcfa10c955ba1fe274fb016abef8cee96de7b9d,
  0x2c68b0797f56ec466902e461ea0c815844fefa8ba151901cf67357d9e0c05b66,
  0x04a3cec562ee2cac345e4d6473ac9f08275846e6c299dd4b38cd27b11dedc014,
  0x0813392d7dcff823fbb6c6c775074f6fb1992e6bce85bf59558cc1765c59c4d9,
  0x04e2da4a2e35256ec592b0f31d9279a258383a14270d75c9d5e177e6020060c4,
  0x123c532258f1bc2159dbbee2d0c7604d97acb8395075b71e5e72185938be9840,
  0x117d31d6a57ae6456495c47ed54b664b6b1cc99a0767de34eb2133db7cadfcc6,
  0x1abc5b90058af2fe8d76231a70c565f5e8335ab3f91187bd929b94c83b2060bd,
  0x13e240d340fd182e231d43b3fef87f9d34580e82cee049a6faaee28301e5b683,
  0x1efd9a3e27518e6d789dd0394b5fb77e5096d553d6b5cc58f3a9b188ae6edde4,
  0x0b161998a526efd5ed0a1ab3b40564a1c8f00979f5dc7ca6f67148d4bdd9051d,
  0x092f7a3cafc92fdb4160059244e53629008de4790cee79ba746ac5e24e9cdfee,
  0x240630df8ff3478c02ddf52a4b737bf6342c909d998167ae9c89b26aaea37a4c,
  0x0f1d0493a05f1fe257bd798cd130b72600905d4c55a9021ebc8ca2d1ef29c522,
  0x010c457133470ad74e675860e89d5128f5016c3edfd46fc086c6bd870f681e13,
  0x2868eb408d1ea218e2ce83db5e09283539eb53777ac740951d12f2ccb5a7e973,
  0x032c5fe9c8ed99063972838d8d30119c14075f97f4543b5e408496abe3616798,
  0x0c80e7152cb910aaff64ada21f726c91e44f17fc7de67adb14039042237abe13,
  0x01826ed6983979d7e538a49b5bd5d5ea206d3e4c48029e594137709a18c68183,
  0x0362c328f063d6b1fa5632dc628039e6882e3d3adea7e258640a7b4b288bbda6,
  0x062622918cd0990fc3cea3a16ee3c7a1796a5a352624e1c068fc9fc9cde898d3,
  0x21fbb7aad03d1ed19e11e95904ce497ce63835916ba5705fdf333ba80627cd04,
  0x1cf46ec86a723624b5383ec1bb83e40430abdb237233bc171e8114a131e5f329,
  0x1ed36ac0a4fcf536e23266d37da5ad1e2dd44c0a4f3c162005e3bf050ba286ce,
  0x0c5967714fbc06ceaa506af67145b87b1a894b9cabddda513ee86c640c06e4c6,
  0x1136503a80bf203b8dbe60abffa5985095607ac834c781798f9610e134fe7802,
  0x2cd0a19181a4f3d67a969deeff41db03398be5ae10e08fe86443f14256bec9fd,
  0x17725136cc13ab9a72bd7d54aed13df865daa98721835504a4807923ca5b5e1d,
  0x0d721cba0aa72783f9776a28724088794b61ee5c1d23b34ddd63389fa5906104,
  0x1cb85825a78d85b4962cdbd1e68af07dfa44820e8bc3100f9fa59003fd709f45,
  0x24fdc5d265a097d31455ebfaa1e00e30442be6e688621f9ee7667f9af5bb2ed3,
  0x1547328347f0954633649e4240f5e2fa9159e1306fe059ca1480aba22ce071e8,
  0x0160da3283d1d4f5c80431c6cba131312340c9e486d768381ff4e029063dbbf6,
  0x24169ddbd6e1b3a6a11713cf8a7a0b36ee5ef709527ee3943b3d0e9c6e82d39a,
  0x136818ec48f000fcc95c3628c6206ac33a32c4a82fcd92aab31fe626c86e3412,
  0x0bdd31f2e58eeb82ea91840cefea4cdfe49de207d98596d0ad3b5b01a8bf1194,
  0x06b3978b23abafa1ebc2eb51b25b8c10e5f0606358905d7736e9742095f7af00,
  0x08ca53fdc57ef525c635c6a58af7423525c94d0d94193d6bf281352463a5db6f,
  0x161cf939ab55c7bc3b9457ccde010e45c11ae3533aaa38a9a49deac713b00780,
  0x17764c3d5db746fe1134d728c7cbbf964c3a34539046bf1da3d6773a73968fe0,
  0x06498ce93442b0bd2b62958a528e1b9a18aa7faf6c94ab2ffc230e8fccf9e196,
  0x290e16e51a2fc4a13bb1f1b6bc43db8cce5333489f986b86dde668212f20bc1d,
  0x025e15e816136070ac725810d7551c207d6bd50db49d83f39477aca9790bec68,
  0x061b396485c93c38ec7c2a1d943101dcace5254161d9bbd20c71e84e5476e419,
  0x0bcf0e1e7e7d92b56c0903620107e169a4c3101e6acf9e12b4edea46fcbe53c9,
  0x28852df83d00df67ab97770f6875fac7f7bac47980fe30c6b65888f9fd0ed651,
  0x2f26cf21881efe6eb8a5a16e201b26d90138228e61128649e2a43976f7ce3d40,
  0x28185d949b0d344fd8527cf4610ff37bdfa665156499ce205ea571bb6a2bbc3f,
  0x174b975bec6c20daadd717cfcd7f75c3983395d4dd43883190f4687ba1ed1854,
  0x2ef2e0f3f99b80f0b2cf3ac256e6f8d70653f4a4183573545e8c0df21132d52a,
  0x238ef54897b1dc3e0a90e2100c1505531f7bba765808f2f4543bad0b2d8551d3,
  0x0b95476d0cc32118f402032bd0cfb682246516b910611c57deb8a1b8d53ca49a,
  0x0592618796afed0dd23dc83e938219f522ccaa4dcc220d285b40bcf90f3f58f3,
  0x2ae2488a022c67ed1de6d2e18819ef1cf4c844b91d8482f719ed7b298670743c,
  0x1437b10b23ae2f8b252502a5a74b69652bf92ffc85c12107a79cd41be17b8374,
  0x295058eb846d456234537e5172134546916a1538abf5f8ad872c8d8e8546b833,
  0x2a5cbd617dbfbbb4bc6b8b0c1aec6fde7e90b414d53b7cc068ce2f7823e5c46d,
  0x11d4da4b15cced5af7007206903212b1bcd4d8a5789dfe73754d87c885c12a38,
  0x13c32f072d91991c49c5767f4c56d18cb85626eafba62e72250f63ced503cdee,
  0x0a208771be2a247a78e7f5ca9ddcc16bde1c0fca5e7a3a86e5feaec1055f31b3,
  0x18bda04fc1d53ba5596f6aa1141bc62ff605bbe098f67c0b93be8ede86155ee6,
  0x036d0cb4163b7ac700426d18c2c3fa30e9674826e2a9923fb83e0577755e57f0,
  0x173eb5863e7b7b9a8f36c3fd04cfc6742008c5292af28d860fef4ee1c58967dc,
  0x0b08f05e562f5782b2eeef3a6873fdd78763e0f2b6cda7ad24b9a46e6510d894,
  0x0aa103cd7a5ba5ac5eaa260f6938349a5f9e0347b228994812a7fa668d63f181,
  0x24b9877256ddfba151d4f63522f81b887dd1c2dca09a6da5651e9e2756296467,
  0x1a2cba623482e75bee2c81bacb86570ee6a10ccc041a3e796a9b13c8480524d7,
  0x0c335f0ba1941e69657008db26898b7abb560f343628401ef09999862796cbbb,
  0x2b18793f3b5ef5fe81583014a4496ff83778c2db71bdba3da0d91914fe47b2d0,
  0x2877bf20e78cab69ca2bc52a502205d3ebc58a887baf9d642f91d86116bf3c08,
  0x040947afe30ee20dc10e7a65fd652c36f3126e3bf528350b2916a0b162d14dd9,
  0x01d8c2ff271f078ca16ca82daa9a26c5bd0092646f7acf01333b1e83b63ca3d5,
  0x03c4008b7af55877190f05e13f9c1bd9a5f920b807d230d1b7ce2981fe5c2aa9,
  0x2996a61c647f05b8c97f7e47936607dbde5740ac9a710adc44a7915cc819a163,
  0x07f845097d3365b26ce4b635310957887d1dc0c88d43fe1da589ddf753846324,
  0x29e5289132bf5040d654050902e59731ea00a7654311e29e91467a5b462a093e,
  0x19a91ce5717b54d341f16a477c7f567285d51c16544743da3450128ea37da547,
  0x247be82f575e27c7c30eade2a7ba803c443100f2beb72fd781709521c373aba0,
  0x2b045e0e2cc760e04d86b9829c723ceda7c273d102bff4ffddfcb1a35edc7168,
  0x1b1f4d790a3de5ba02f0c2dd06bbdfb92094872e0ae6bd82aa2e40a00e7c639e,
  0x2e8924b94043e77353ad898ac61104e47981711a508f4af46b108040e2c7a872,
  0x17e42ccb2c96833403b1881e8557d238271e1b3ce71a6f8004345de1c4302c4c,
  0x1b697d59893ac82bc0adc62e2771bfc92a8e5132dab81fb8789d60ae8f829995,
  0x06bdbac1ef26df9668e471a3f0d0712b952b8ac9cd1012a4ae00bd2fb07be592,
  0x29c474fb52745ab3530c2613d86ae854b6cec9b8c224a4cbbfdb96fd79050896,
  0x149279eb70575f4aac70861f98609e0370ec8a10fad3c3d24b742ef07bd7e128,
  0x0eada110dccdd1af034646cb89f743ecb437dc4fd5d1a96c694ddd438e3b6e92]

/-- `MDS_ENTRIES_W_9` (feature bn254), poseidon_constants.rs:1843-1943. -/
def mdsBn254W9 : List (List ℕ) := [
  [0x2b03d3f456650025159cafbeac013219ead8ce794fc1479d91ac688380000001,
   0x21dfd0839da2bcea0104fd995aa7577468f122992201cecc15eaf8b45b333334,
   0x1198d6b56929518388d75f2b17d1f1963d2a25ebcf2c28ef01697092e2e8ba2f,
   0x2c5bf293f91828263e49953ca1613baaba2f94ed1a3f51da7e39cbc79c000001,
   0x2cab5c1b46066c7547ac8f1e9eed8ca4c2a6117dfa350572660ba79c40000001,
   0x0374e10834a81db9d64ee06876f6f406a7716c052d441a5384d94865fedb6db7,
   0x0673c631735bf338c33de7296699c783e33a1ef898c36457a2a6a946eccccccd,
   0x2d5e098bb31e86271ccb415b196942d755b0a9c3f21dd9882fa3d63ab1000001,
   0x111457ec4f7aed3be6b2eb6d971e97a8688aca73eeb9eb7e906dde3436969697],
  [0x21dfd0839da2bcea0104fd995aa7577468f122992201cecc15eaf8b45b333334,
   0x1198d6b56929518388d75f2b17d1f1963d2a25ebcf2c28ef01697092e2e8ba2f,
   0x2c5bf293f91828263e49953ca1613baaba2f94ed1a3f51da7e39cbc79c000001,
   0x2cab5c1b46066c7547ac8f1e9eed8ca4c2a6117dfa350572660ba79c40000001,
   0x0374e10834a81db9d64ee06876f6f406a7716c052d441a5384d94865fedb6db7,
   0x0673c631735bf338c33de7296699c783e33a1ef898c36457a2a6a946eccccccd,
   0x2d5e098bb31e86271ccb415b196942d755b0a9c3f21dd9882fa3d63ab1000001,
   0x111457ec4f7aed3be6b2eb6d971e97a8688aca73eeb9eb7e906dde3436969697,
   0x2db411339bcb502766f67aba96c1453b89865b60e4bd5c176ac72f0bb8000001],
  [0x1198d6b56929518388d75f2b17d1f1963d2a25ebcf2c28ef01697092e2e8ba2f,
   0x2c5bf293f91828263e49953ca1613baaba2f94ed1a3f51da7e39cbc79c000001,
   0x2cab5c1b46066c7547ac8f1e9eed8ca4c2a6117dfa350572660ba79c40000001,
   0x0374e10834a81db9d64ee06876f6f406a7716c052d441a5384d94865fedb6db7,
   0x0673c631735bf338c33de7296699c783e33a1ef898c36457a2a6a946eccccccd,
   0x2d5e098bb31e86271ccb415b196942d755b0a9c3f21dd9882fa3d63ab1000001,
   0x111457ec4f7aed3be6b2eb6d971e97a8688aca73eeb9eb7e906dde3436969697,
   0x2db411339bcb502766f67aba96c1453b89865b60e4bd5c176ac72f0bb8000001,
   0x028c0420fe60ed7b757d7ceea880121fd9b1e3cdeb758ca9546a3558a0d79436],
  [0x2c5bf293f91828263e49953ca1613baaba2f94ed1a3f51da7e39cbc79c000001,
   0x2cab5c1b46066c7547ac8f1e9eed8ca4c2a6117dfa350572660ba79c40000001,
   0x0374e10834a81db9d64ee06876f6f406a7716c052d441a5384d94865fedb6db7,
   0x0673c631735bf338c33de7296699c783e33a1ef898c36457a2a6a946eccccccd,
   0x2d5e098bb31e86271ccb415b196942d755b0a9c3f21dd9882fa3d63ab1000001,
   0x111457ec4f7aed3be6b2eb6d971e97a8688aca73eeb9eb7e906dde3436969697,
   0x2db411339bcb502766f67aba96c1453b89865b60e4bd5c176ac72f0bb8000001,
   0x028c0420fe60ed7b757d7ceea880121fd9b1e3cdeb758ca9546a3558a0d79436,
   0x10efe841ced15e7500827eccad53abba3478914c9100e7660af57c5a2d99999a],
  [0x2cab5c1b46066c7547ac8f1e9eed8ca4c2a6117dfa350572660ba79c40000001,
   0x0374e10834a81db9d64ee06876f6f406a7716c052d441a5384d94865fedb6db7,
   0x0673c631735bf338c33de7296699c783e33a1ef898c36457a2a6a946eccccccd,
   0x2d5e098bb31e86271ccb415b196942d755b0a9c3f21dd9882fa3d63ab1000001,
   0x111457ec4f7aed3be6b2eb6d971e97a8688aca73eeb9eb7e906dde3436969697,
   0x2db411339bcb502766f67aba96c1453b89865b60e4bd5c176ac72f0bb8000001,
   0x028c0420fe60ed7b757d7ceea880121fd9b1e3cdeb758ca9546a3558a0d79436,
   0x10efe841ced15e7500827eccad53abba3478914c9100e7660af57c5a2d99999a,
   0x126f5ad66e2b493476fa022d25251578d25ceac646c08c6819dc2ccaa4924925],
  [0x0374e10834a81db9d64ee06876f6f406a7716c052d441a5384d94865fedb6db7,
   0x0673c631735bf338c33de7296699c783e33a1ef898c36457a2a6a946eccccccd,
   0x2d5e098bb31e86271ccb415b196942d755b0a9c3f21dd9882fa3d63ab1000001,
   0x111457ec4f7aed3be6b2eb6d971e97a8688aca73eeb9eb7e906dde3436969697,
   0x2db411339bcb502766f67aba96c1453b89865b60e4bd5c176ac72f0bb8000001,
   0x028c0420fe60ed7b757d7ceea880121fd9b1e3cdeb758ca9546a3558a0d79436,
   0x10efe841ced15e7500827eccad53abba3478914c9100e7660af57c5a2d99999a,
   0x126f5ad66e2b493476fa022d25251578d25ceac646c08c6819dc2ccaa4924925,
   0x20fe9294252d78d6a093d270cca9a4f9b2af071a2472ccc022a5b31369745d18],
  [0x0673c631735bf338c33de7296699c783e33a1ef898c36457a2a6a946eccccccd,
   0x2d5e098bb31e86271ccb415b196942d755b0a9c3f21dd9882fa3d63ab1000001,
   0x111457ec4f7aed3be6b2eb6d971e97a8688aca73eeb9eb7e906dde3436969697,
   0x2db411339bcb502766f67aba96c1453b89865b60e4bd5c176ac72f0bb8000001,
   0x028c0420fe60ed7b757d7ceea880121fd9b1e3cdeb758ca9546a3558a0d79436,
   0x10efe841ced15e7500827eccad53abba3478914c9100e7660af57c5a2d99999a,
   0x126f5ad66e2b493476fa022d25251578d25ceac646c08c6819dc2ccaa4924925,
   0x20fe9294252d78d6a093d270cca9a4f9b2af071a2472ccc022a5b31369745d18,
   0x12ef9921d28dda7fa12a8a95541138d68a2a928baa10e943f92be5a931642c86],
  [0x2d5e098bb31e86271ccb415b196942d755b0a9c3f21dd9882fa3d63ab1000001,
   0x111457ec4f7aed3be6b2eb6d971e97a8688aca73eeb9eb7e906dde3436969697,
   0x2db411339bcb502766f67aba96c1453b89865b60e4bd5c176ac72f0bb8000001,
   0x028c0420fe60ed7b757d7ceea880121fd9b1e3cdeb758ca9546a3558a0d79436,
   0x10efe841ced15e7500827eccad53abba3478914c9100e7660af57c5a2d99999a,
   0x126f5ad66e2b493476fa022d25251578d25ceac646c08c6819dc2ccaa4924925,
   0x20fe9294252d78d6a093d270cca9a4f9b2af071a2472ccc022a5b31369745d18,
   0x12ef9921d28dda7fa12a8a95541138d68a2a928baa10e943f92be5a931642c86,
   0x2e6020836d24e427fb4ced7991714a03f131be9ac9fc6135e10de0adc6000001],
  [0x111457ec4f7aed3be6b2eb6d971e97a8688aca73eeb9eb7e906dde3436969697,
   0x2db411339bcb502766f67aba96c1453b89865b60e4bd5c176ac72f0bb8000001,
   0x028c0420fe60ed7b757d7ceea880121fd9b1e3cdeb758ca9546a3558a0d79436,
   0x10efe841ced15e7500827eccad53abba3478914c9100e7660af57c5a2d99999a,
   0x126f5ad66e2b493476fa022d25251578d25ceac646c08c6819dc2ccaa4924925,
   0x20fe9294252d78d6a093d270cca9a4f9b2af071a2472ccc022a5b31369745d18,
   0x12ef9921d28dda7fa12a8a95541138d68a2a928baa10e943f92be5a931642c86,
   0x2e6020836d24e427fb4ced7991714a03f131be9ac9fc6135e10de0adc6000001,
   0x2a95b5acc62baba9d5655c113ec3be66754c660256a32fdbfe4bf6d41ae147af]]

/-- `ROUND_CONSTS_W_9` (feature bn254), poseidon_constants.rs:1945-2531. -/
def rcBn254W9 : List ℕ := [
  0x20b8e1be8ea94ea6d605717a3c3cca8a0c58c744bc5fb8b6c80d65f2e2e3039c,
  0x21b877d25aed648de30ab32cc340394e560ff72bd4d74c93213f503fe631cfeb,
  0x09905305368399435ff4067410a79606ba5675d2cd073bc25d308988a6f498d9,
  0x1878085d07a58a7716960d488f845628131c9ece9e8c75653daaff953eda1356,
  0x2633012c14625cb65f6cd48f06a3a905a01040aaa466dafafa2f42cb1b71720c,
  0x1fd85c04bcac8137002cd1ea0818e57160d623e61dc0a10492c1f0a1a5a67c96,
  0x2bb695e7cbc75a3cfa836765d5a262817928c3a4a503267bc76804b48c536a67,
  0x022e58c5236b531a74e56f5e25ba4f7e1b68e1d9ab31d73b4d3d4defa837f591,
  0x24bc3e823ae7574d70af0c3f646a6761159a7649ca4b2766c5c1795d56d03758,
  0x09bec99e058dad5bbfc67c1c4df859f03a62e5e59fa289dc64522d47c8f71126,
  0x0e22363eae6ee25f718d559b7b0e6cea0afc688c0083b1c0d46cbda42987abf6,
  0x1fa6acfa869345d6353299cb7561d13336c792e29d14b1eddc01ba7dba17130d,
  0x0bb88f2cbcc14be6018a3fb417cba60408c03b1d45ff682f2f8f39deb22966b7,
  0x0be01f289a4ce85b38e618e48d1d1f8d7beffe02ef354b19e808cac1379bdfc7,
  0x097abbb44ee9c6c4fa5ae3a875dc3440912f9b5b32dd4421c2b3fc4fc29f49e2,
  0x0098083c10d9ac9b4505f416fb973e74039b121aa2da8afd743a61ea95c92167,
  0x1d11e456394ba2dee301d2a7dacb97528118a10e1ff771d13115b7d82727bb76,
  0x097dc0b157d128c18694d7126b433315784ff7781bd628fdedb27b579cdc081d,
  0x23b62dd7239c21d0812052b8f62d5f9c28aa030db4ad4aaaeaa203e695c28b01,
  0x20819749d24457f1c8934acb7a7265cb1ff0454078e3984cf1e709e729528f1d,
  0x0333511a85681213ad21ef139f020fd6150277d364204b8d92715d1db92e2c14,
  0x0c62479dd3df7e072dbcf534442c8991891c0a693cb333f32c8123bc1c1d5247,
  0x131784fb1daa7e57f9217040f47469bd4a88a79ab47bc0fb349cf8dffb459d76,
  0x2be7cf57b64c4997690648977e6cc601d8c8c331e21207c5d481d1e34752ed2c,
  0x280cdeb2318c8d4e22d5350825833145043f3655a41cd5cc8f0b5bd1bb498610,
  0x260ba0d3614ebc857b41945f490a71fbe638960a7660d440c48a67e9aff44057,
  0x003d8c425351dbeb14e6bc2c3542369dadfd13dfd74c6d78a86f429a20fdf754,
  0x23077a54ac4686d44eccb91a8f39fe5f184c4ba80bad88f827a83c394991462f,
  0x2105c7b7f506ee5ea399dd1799e5533455260ee174915915944d8c9bba0a3350,
  0x1347a128ca310821486b58943f02e9a2022768ce6db10be02b2aeed0613f3d82,
  0x02983faf71c14c03dbee3905666f8a90d5dad068a90c10fb1f8f62c646609afc,
  0x0a74ec65e38aaf6bd997f7ac0f256a3761e25ab625968361636c61ed544782ef,
  0x00215dba15057ad6705bf98c2463bb105622ab734d0a96bac058dfdaff74ef51,
  0x09802dc9874517aada5d60d6f21a67ef41f4fc90af99f5da6abd362df4b265ca,
  0x0a37cb4170db11a607cb93634f01e67811f9fb889860b3d5e56d214369c00b99,
  0x2bee6c97597aa7025a105cb50cea6b074384730094643e247ad7771de678e99a,
  0x0e96c8fc6aeac3fa7684620d251ecd7002fc0ba3a9ca9cf8c430219820245c26,
  0x0ecb35e17ae4fb7d50ad1b4e77994ff66ddc12729e2ac1b69ea124628d32a823,
  0x1bddca75c245cdb53be89d79349108df2026325472bee6a90a1322b6b099042c,
  0x2fe6b62022408137f2b4265d713766ee1a044ffa80eacb0fb6d138c1c4973e14,
  0x2960a089357e99f5903bdd3d99a5a5952293e5ad762297c9d50b202c232d829f,
  0x1c76167f1ba1eea3b5639b3dbed205bba67d1fefaaf22e1e738efbd91a189d45,
  0x012fda29df899e8b4fdb9effd00530112d9284502ac73069abb2b4e2a95120ca,
  0x1ed190c6e7a82a098b3a92b936c2b859e2231151e63bae8a6e4b98b8b9f3eb14,
  0x10070ce947d6449e6fe407be4b0a016fdfe9acec1cbac18fd84e4b1321eb5392,
  0x08c58d5a8bfde48defa519acf58409cf526faec422e9c00e3e4a65a6576708a6,
  0x0f705bec60e611787deb9db7dadc2c4e1fb3f7cca86e8d9360c0baab822d91d6,
  0x2ce1eba4c1ee617bd842920ee1e342507985404473b010c740a1981e9082c805,
  0x1e675803f728d48a0e2f441bd792eaf8411a0fe40010bb33bc13ce89b04e6e10,
  0x131717bad13da03ddf2403a6fc7f87d3355bea0935c900911871d3b23e3d563d,
  0x0e1bb2796ec7d51abae5074e59e353cf01bdcc20fb600faab18f2abf3057d665,
  0x1b9ebf164f2776b6d0345bbefec9ad051e7a5936055e34df01ef028f504eb726,
  0x041a031478ab521c1869d3d237280fdd4cda41d423f9463751d10e9548cbdc4d,
  0x235778d8f71e1fff45400430d9f82a6534549986f9b6d235593a21dfb4af48f4,
  0x138e665fabc0b7ef3e1f528695cb010859622039c410b695c87eba380c4294b4,
  0x1197eded032e2b712f92b0cd6b74ae96952615a058252647c61c9f9fe0bb6977,
  0x301404c2f276057f210ac6d850cbe553f8dc54c99d85fe9e19dba3336bb6634c,
  0x14b480e5fb93acb5f8eeee35c2592dfbea6f924bf83256349596f64c3f3a28a0,
  0x029138c0fefa9284165b7b5289eedc7d39c7ce2629dc426a8cb36d11c8ebe74e,
  0x062a0fe07d197713101d685ce3c8ff3e711d8666901857b72dc46539510affe2,
  0x04a7db4c8d7b685aacd64ca85fe1f26452461d777dc409742a462d8dd886945f,
  0x15d656070bea2d4c9e380538dd85414970972248860c5024782dc31f71d8b868,
  0x03c8aa7e2c52e80ff4a6720819de477feebe0ce1f596de26876517068d77cc6f,
  0x06b69b611a8aaa3d01a2d185bb12c94d71bc0badccabcfb28698a36df75c68d7,
  0x2fca00ddc760df1c303ad28320f1f3d07020286f58a19637f778128c46f5470e,
  0x000433ecb5e394d05f1a48d46ce7c300bfe241f86c09f34a3e098852d858cf5c,
  0x0a3026bac11a0960d73026bdd0e7ab5ba57bb8a1c529099e71bcc5310d169b05,
  0x11ea3a7a38dd167e24cba122cf49b79dd24026840aa75e490cc7cd524241526b,
  0x03c340475f70a712caee164496e401ee10b7791e45e5b61f5d461d8bc52d701b,
  0x1ca1a03334672ae2fe62c46187dd66a82b1007376c453631d3dd9aa30dbcf2ba,
  0x14b5b700fa4688ea669fc44071d55860ebc5c466a05e7f14d87e800c426bd9f6,
  0x22bd965ac91eb6e8c7e163873e839acb063efab94be37f24f381b5d6a8c30d66,
  0x2140ae36de69f0bfcb995a816959ccb33c53d43c720c89fc02f1c5d539c8c605,
  0x0d98a9058c09b58bcf54a70d0db69719014eb095c7f347b751d7c9e7ebe472d9,
  0x12775fa9754d8ba361616c7cea56c9ccc27bf8ecb8173a900543bf438725056e,
  0x15049b395c8d79dbe42a7a3201b318f3b06d686a7d460f3b08bcea47fc51bdf7,
  0x1d0edc726b55c61b72ea52f1ec0026c6584581afbc31da0a0fd96e983bd587cb,
  0x00402c32b0474be970f6433882b8ded1018690fc2b5bc8e252f1bee66571b176,
  0x263e4988236c3c042be93b8736752cc675ae25b6df955b94a4d0b29672e0e476,
  0x0304681c5d7c86e5ed5ebf54cbf6cd2df250b2b4c3d2d457fe6f98f53ff112c9,
  0x09a33549ee7e53af32e78b562aefa407c4b89ac1be40d091c57eeb2cad259786,
  0x023fc39e4f1a0898d2d7f0d2a2d0eececf8faf6a2ca76081c8b3510664909664,
  0x0cd0494535f902b27042c5684f23ebe33046d38cdc96c2a09b0d4e48d74aadce,
  0x0ca05b0ff6e4843b5a6bd2d53ba70dd190a19efd39c6ad3274ae019909122421,
  0x21c3b9720552e96ccdec859c6838fb028260deb56b0b6e6a25a8e05b04809252,
  0x0f51566325b7f4f8da9d99c0a17f25dd8c92967ed8b4a38863692a08a5c052c0,
  0x07a2f22fa60c5f6206dcb301d5fd909af58d76c069cca719a58d0e9c3dcafb77,
  0x298b87d97332b4f8e8d64227e8aa21dc93cda861e6d6827aa8a05dc64bec25d8,
  0x135e20aff318920789535ada62231245b28d33bb966f475f3d6ea2455ff3b222,
  0x099101eb6fd80432773de1e24b853798b4c334d29bf7a9dbf331f27e37069f64,
  0x0393acea15327b844da6ca5569f31a9339c04bcce616e7a4f19ea6ea676cee18,
  0x01fc314d6260fd865a657c32281ccc2c03d7b72363b890c32bad7dce1d57ed96,
  0x1b38e5187bfee59fbcf35e8f6860087aba944b8832a047048d47757a10735f03,
  0x28359a00e6dfa72f86581b923dc02efef6a88ebb8d073736bb8e5c6d7620d7de,
  0x18c653b385447736c60d4dfb4f507c74ea3246958853b423a2b2ef59b9ba3397,
  0x0c905156b6f914e0e49c279bcaecb95cbc0af91aa2c8da3aa022742d3d263e6e,
  0x0e560559972cf8ea3aa85d6430f35566f4c0a016947446243b4c29eaf1943cca,
  0x0206d0e27ef5570f3557c8f1fce0dd7851d6a9acab33ca479e8690d740fc4018,
  0x09ec2ac8c3b26b06bd58cb82fe2e96dc4f8991b1f7af19762566d9a3bbbf682d,
  0x2a7df654f70b5ba881e9f56a651b53bff6e671e46bf98b649448d597a865dd0e,
  0x0928f2c4c24513a1aa8b1d81c2a596a6f06d6cb1adc93e65988fa395f8755d80,
  0x108590b671408cfc2741d7e8ffe574bb3663c92b743ea36fb79e92c37fe88d4a,
  0x008afeb167e1b684969f4c3842884d0d6ae57a14f0cb59cf6d7e2c3a573f0832,
  0x23a4092f6068217af1323541760a8cccb0f0ef685168181f05c1082814b0b3d8,
  0x22e52e052d5febfef509b792d61834878ebbf3b18e636fa2a5c103b6b44c6e5f,
  0x2c0fbb287e05649152f6d237a67fda0f3a9b02640875e64cc70509e68698abfa,
  0x0e7bf07d67d1f962479278e7a2fd02c78f10dbc291c2939d35e1a8107677ebeb,
  0x2ff5bb1668df735cd7ea83ae968cbc6fd54d2786d0b72fbe7a75e128744f630e,
  0x09753123470efdbb7cc973c5cb0c87a5190ca1e30869b29a0f88d72bf7cbf8f6,
  0x189bf5a43c839ad276b2d5e330b33ed7a3419b6071b475614b2fb9de0493ff3f,
  0x21ca5017b524f109113af71cdb17e4334f5fd2ea888885fc14d97a43427f50b8,
  0x16c016fe8de5351113bb241389bb990f5f14366cbde6a69367e9008c84e18bc3,
  0x2bb5b66e19b1d516cae49fc2d8cd1224873ec7dd1d6d84611133d04f1b10864a,
  0x12c44aff89b469e709e65cc397002e50812d0250fbfbbabe16df141be309f8f9,
  0x1222da8dd58b698bd37bb2455a3a1cf985db9d3dea01b46ce2fff30e4bb85fdb,
  0x226ef6b091d2393edab12015674f4d87cb0822c5391f6b1d1f4f3a8429655fcd,
  0x14806c621438077c948e7b41a71e49c5e6b2eba8443338e18a622bccfd714181,
  0x24a26ec575440bb6da4ee3ae261650eee5e0df49cdac3dcf08253c513ccf5a63,
  0x1f022927e60f8e0030c6f1b70000c235f9d635dd3bc9ab53ffa85982cd7fa5f2,
  0x162327bd46461a00c81a37e04934d2927638e7afc83963f9b1331222dcfcfbea,
  0x15afe52784ff1eb493b7e2d87470ec39cb9ba870461da04d46a2f8246d953585,
  0x28aa3d309234d5fdf4dff3af6bf6972363f0ae9feda9524992c8b6d8bb9e2104,
  0x0f0ce556d90bb9bf2bb512c497f14661de2bcd3cdb3330662660f7d3d045983e,
  0x05b7ebf5781a0ec13767168a13fa70ede57168b4f1b6ad9a0d101e7b407d96dc,
  0x15303ad6cf101d783a8f2f83bda078140fab92295bbcf1ca7efbe1b6a11f6195,
  0x131e8d72687e1117c57889903a6a124569d5704c4b4bd9794715c22a697dd752,
  0x0157000f6669f0083e3d590554624dece5b14860193de37782f602a35c7bbe9c,
  0x2214418f731b6ad7aa8f2814eddf1c10f4a1198433c6fb6032dc135fa8c21816,
  0x2d68fc0670f1b07ccc79ef3291b54e6b7282c97b72f4a9398d1ea3f314521645,
  0x1d4a3b8e74aa0463f09e0d161dc504fb44fb719b4a090c99522b524c2072f0e7,
  0x0a31462b0fd0a250cd00197c44673306c1d0b9d26444a7481b2f436f09ce52fe,
  0x164b176d21897185f1936590e2cf9ada9378cee8f2c49f52d1874f943c8749fe,
  0x18c6da962ebb058385a8d6b118db0f52551de6397f050d8d9f3d044232506a2a,
  0x2ed2714d1d889ca82f4a28f22198d4fd349fb1de0a0863399cbbc1422cc037b0,
  0x11e1adacb76b6dea760c9c66a1050abb038e67ea69b3ad21dacad940ff6427a8,
  0x09b04d0e7904d6efe611ab4f82d49241fdd8c6bedef70fd00769888cc390e8d3,
  0x04389c70002349c036de59c06466c2b0a76c0cba03d10e81bf43c64b0de6eec5,
  0x2941438cc983e8b4045d9cb2211104936cfbf64a8d2863c1e0b9f943e0c76800,
  0x0d825182e641e5edeb7172657f9e56fbd5f01c61cbe609479d5f9a09ef96a89e,
  0x2ec8a29141244e2322b4475d03556c0078d6151277eeef9fefa1e0de9fe24527,
  0x14050fd30ac018c1065051c3af98af7cd65d24d721f3642140851a1d2b03ec73,
  0x2ab40aee351fad32b20a2e27dfedf49feaa3222f14455395ee7751b0c38eaddd,
  0x21e3960c1f9f9e3b9ae30ce0996adcf6a4b8aeae600324e7940bfb58a72ebe3f,
  0x12140a21ab482e60a275438f2b12ff78f3b9f8337826c1e244c0d81a0bd2d4f3,
  0x2eb2c5254bf8a7af10ec4e6a034a48a1ae30ddc650aca0c0cce38eb98e9ffc04,
  0x1b67f78ddc14574cd61ba1205de58d1e59e4aa19d45b7edec79a58b7f91bbfd3,
  0x1932e8b715887d35355d737277a00d8944b3f08d66663c12fd0f3701669ffe58,
  0x14cfb5d022ed50f016a9a80b77fa680256c54fa6925a9d2ec39cca0d5abd65be,
  0x22148d6fed19767995ef6babd88ae7e6ab31ae807ed1d0e076ecb023515f1550,
  0x22aa6b22eea0d8dd00e3274e1eab3c7a244dc9c2f32e2a2347f19f2d4e26b5c3,
  0x28329722207611066a277c77e2cee1aa3eef4454fe60f13e4f5fb0435ab52946,
  0x26a743ac10ed17e47f9c1b07571189e4f96fd4395dc4a440b826b6395aca284e,
  0x14043364eeb9172647a632287b4c1c4cb1d7523ccd1eca45bc0f34ca14e7d394,
  0x1df41f4c9dcb949d756cbc5099dbf82a9068deecb5918003289bf034cd708c83,
  0x20b62775c9f7f767e1618f017b1a696dec5ef6322e1b1089822be35a2c9a1e3c,
  0x1edd715ce8c160cba76d78c65265bc0a4f84b56c6d340738d75b9d61ce4ca0c3,
  0x064541e98e6e84eae80d236587827e84b9c807c7c124d12b19ddc36af289ef72,
  0x245a010fd3273f19787c24e7e645a6dcc4920152dc80e5310f1d6f847df52cd7,
  0x02fec1e8303a3429e396ac369b598fee6ad038d54d0af54467bf53eccb3d6f69,
  0x13c5b8b93a8fe99327e65fcaebde853d460c533719ab3900b213f48b8fb00840,
  0x06bf5abc162e6d47087e73927eeff1f41bd903dbe1402678d0b4b05bcb5418c9,
  0x056b624ae8f640839df661bb0c678977eefc2010a744154dd70cbf68a9ee2a87,
  0x1ec05946855a47caf9889f75000c10164110d95f0055f0ef0b4834c3f7f0044e,
  0x15433210bb94a7b2ed54938298ccf126d93bfb2fe7271de0db4f1fc2b18f818a,
  0x1253e4b5a7fd0526d7e7d4fb5af0a7aaf2a4f1ef0ef2f71e8c407c456ae0875d,
  0x1c66c2121a722b5a561086ecb2008d7a69923e773657c3a373dfd9b8f9cef8bc,
  0x27243919423d2e6a379c1c5496ff705ad3d3be2ebdf098d24f20f661d83bf141,
  0x010531c36e10c4ab33d2477bda438ec9bdc03759f71ab2a905d62516760a04cd,
  0x17610c384ae5fed16cb1ecd03142050f7c2b9b8a438a29c6c01bde46ecd6a0a1,
  0x11d3e66e1864eba6f287faca9d6ec912ff60059550ec47e252af053fab302eec,
  0x17f00deb9b606a11584df418193f96df93a9e670d561dccc6236dba1e58de4d1,
  0x00b13be393b202c79b72bba12b9127e5638d7316dbe402a2bea2fdf45696f16a,
  0x20e289954f8fdcf92ab74edc3af5780e65a4e38d79f0f264012365c44062dfad,
  0x04acf3ec2d1b7bb6c7d2ead971e894d4648d3a709171259234e067861658e6bd,
  0x0c0972ee956f13fd81b2c19eaf3c729fb868b67cef9658a6aef6c6738b224bd7,
  0x04afc7fa7f968a3e79a37e6a685521aa14045acfc225c7da2e44c33a797442e7,
  0x1aaf13c94091ad34036c906cb873e836682633e7d13aeb3dab1d322f301c7983,
  0x0c0f4ac864e0767bd970f1835d6ca8b6e6cdccdc0c5905f8d8e9b7212aa9b129,
  0x1a193ee516db5abe6f62fa6d065ced54688329b2c2ba983fd331a601c8e34a64,
  0x13a855827aa5867e1f65522ed58a8c16a7e2ba32a70bb3676ac290e6c528bffb,
  0x14ce33df16294744e314d1bef5320c2b4c9bb75f0e3e2011b97e6c260463be34,
  0x2356e14b0423898613798661a663b3d63a10e057f1e4ccc787ab1126d2f099a8,
  0x20bdbe0373dede396f616328aec36161f25f659b1b5a2fa622679ebd4ae08cb9,
  0x3008a96cfccc40bf1156fd2427104530fff4c1ea24dfdc59abd1ee26509bda1f,
  0x2bc2286ecbdde9f767e233186626114cbe69b1c92bd7185f2be7b722c2f2ddd5,
  0x027ab950e8027d22ee827cab4bd3c4830349feb7de7cdbee553c516b24692584,
  0x1928ab62d01dadf36c37e60c633ec1b65dd43b67ec3f350e30fcc6e343747cd3,
  0x1936ca610ff48f52e07659b2844fe59538f4c6e27d919a484bdd802595e29e89,
  0x23e5baf5128ff2259e5b1ccc5c284f609e6ac9a17b2361ff6b395afb0b866440,
  0x2a979d3f37a6cc2fd839b10146f2495a2cc8900903fa10265df4d0542506a563,
  0x23a4ad05293c8bee6e7790a2ed59e1852e8674218b76545b4c19d8948e4d451a,
  0x2f15e76750ce50c98c1e95418e8a8b25510a4fc143549c462fa85a19e6f2df72,
  0x16a4400954d0eb3edab858dc48bab78c5d0896e36db390239ac1d63f14b452f6,
  0x10c11e99a8b77959e0590f75a2638e693d895bb23f3e0fd51ebd9e6a95f4a373,
  0x2d550cc537eded9210df910811e50b4fc718615997f93b33764e3e62c4c53a10,
  0x1e8a6c3df619d44ed787da7d2f25a95e282b08cb2a1d3d8cdc8d9ec7c4875c3b,
  0x1acb2396fa03431319f2ac5dd5545b4207c3d56b3e6209504cce5aa8a9916a71,
  0x3053ef547401a6790d4a2c8f5ef81251113b726a65f8de0f97924f018231ba02,
  0x0ef45f9048032e0f4058627c4289bab84d8e3055e2cb110e893ef2e48e715dfa,
  0x26b4e41162b9cc4dc5ef8935f5d6374267e1c43d6579012b868d14a88e380781,
  0x0d88fd149c80ae28e319ace4d7ce968b50e1b6f2c22ec0387a45e7333afaac91,
  0x29e217388db68cd0a7902aadaf916c91bceb0e7e1d1e61e0dba442e0f318ae76,
  0x19c4004832a2798684168c995663dd3d7a6c0ff1cbe0d42e80971c0fa86575ec,
  0x1308a1b4a962e6fc55a57ac03b08582448ccc9d632c32ab8d304ec510c000af9,
  0x1ba913b4b8efd3de19d8c27b716762b951b30a0e84dd0b46cd4db0076204eb1d,
  0x18494fd8d6974f52087f83c3e78edaf66d66205993de0384be7c56f0a919e0a1,
  0x10fc3f1493b213ddbb805791277f5b28dcc791e489d127f7182180c23924637d,
  0x09e9be34f6f292fb2c00951a43883e3fa4d9325d2fb900a47672ac7b33cc8e80,
  0x06874becd266cebb54cf324669a377a163b5e06dba3e7905ac26ba375e819910,
  0x0527e33434aaa329445760fdaaddf4839bb773f610a5769b807eb827c56e458e,
  0x1fed624a1c6c305179c0f6ee2c15258f34ac896f09590ccfe212d9521ba802b0,
  0x1b4e96b21775c344f8d9947bbfca9c308d31c5146eda92bdda9077a73d9f525f,
  0x2831606e566959b8e22807e7abf0ec3bf986a0b4437707307576fe3d3bef665c,
  0x07bf8739feb9aee9ef756e446eb669ec56f5c14610da030ece154f36e79127b4,
  0x192a8d68d4ec80625ae395524a8c1a69402af399e13c05ea729cfd4f337d64e7,
  0x0e27a071e05783f7cdc3b92fc8a927eda8f57d6404ff15680b9b1529a8de4def,
  0x062c413ff020f9981d0e8de124b8baa3ad95cf716f3249d76a2a8a06b5cd94a5,
  0x0b19fb81d413b4dcbf49d3824bfc04a1b8921a574b6bbea25ee6df697018c208,
  0x2187fcedaec5058845578b71bda798fd96de498df1951c71f616cc302b625616,
  0x28bea4e6242ca677a0ee98d27fa95c8cf75ef1c8b5efd5c593e3b0c81f97ae85,
  0x20e0585fbb74d9af65a11be090608ce448824a93199cdc2a837e314921de5890,
  0x101e2d93c497750655de2e5d93d23345d1500c79355dbe7bce8c87139359bad4,
  0x20be502a8aef981acc285da5038b99c02a81395749385882352bd0f6a7d6e813,
  0x0068a2f177631060a7a2bb9990c91ca92a60bda50aa1377a654119aad4e71a5d,
  0x06dd2b9250404d123e5ae2e7bc5a6c68190b2fa2d72e9c0a3df63e8b4ca2c8ad,
  0x2d1504c2ef382505ec2b54d49b8ca34e4a2818067d6466ab197662629e85a37e,
  0x0051aa182ee227ab71729cea857e78e568ac3521cc5cbdeafb90d7fe9cd4d659,
  0x2f6a2944646f72b944a7769919bddd609c98263a1270225e26a9d8a2b8b3d31d,
  0x22e72f2cfffda8ea5e96dc35930f9e6fae466501aad2745a3c8b5a48e6cdac67,
  0x22409ce8f01e2beb0c218bac863429624f18f78eb80ba08cb1678b9caca31f7c,
  0x2417f47e9a6cb7b93f3a91a703d7e55689a355b2f40b3c2495df3dae674f6c5c,
  0x02d700b16cbb4c6b2afcd306d7656a301af3ee82eb61e76dd46f046d87b521bb,
  0x0447a82e20ff3547627e72cc9f6473f7655346cddb940bf03e6393b45965a5c7,
  0x0b31a5da2fa4a0254a644ab26f47063b830f7ecc92380aae0f5491fd3d23cedc,
  0x09250f4e00055c711cb07cb9eb27e98b7e1be6ba84245769fb43e64afd67546c,
  0x23051af0630566342a219d264a51c92f43bda3b36abd0f3dbcbc516ea27b64af,
  0x15a83d0b3c08dde994664df4a0ef4a71ad0115b97e891ab09ab0673001b5a14b,
  0x20abcb5644f92eb598bb12da978aa8e5eb2ba682690244dd22986e7b4bcf140d,
  0x14008452215827725440319b09469363088bc4e2a22e3f9ab4af6e8617e9bdb4,
  0x1b100ad82bd84a5c9e08392c74b65ba8ea86256bec5bc251275a925001af7f8c,
  0x046106d4001522b4883141a6a639f48c58b0382e5cfa7565d49fabdda0a97337,
  0x1ee662f3ec46b775aa89772e61fc61779d1df20ad348d8c3c84b1674ac56360a,
  0x2c6001e8fc79c3dca835fd1934d8a168c12977c7fd0ee9f8f0e77cfcdc344892,
  0x284409547a9f3580b4e5e5a3b0fc505d45aa660fa9a5082a9e9bb3a82cde425f,
  0x222e4db0326fd7bba5c09cb22c1c1bdd5afca6baa6ad06dedbe109890fdb5951,
  0x1cf3c0218955e48bfabb99adf746b1702c73c268bd22eb2f8516b34071f349fe,
  0x0ba05ebbde0029d6cce048047484efc5a031159fa058062c90aacc23763ca3b6,
  0x23090bdbe18dae43c1a97e74b7992d694541955d87752704fb012f514843fe0f,
  0x2c2dcf6efbf97668ee6792829b5e9b7e8509724326e6459fea58868d88b3fc0c,
  0x056ce2d1e7395c9fa36da2cb80f12ecc5da86a72abdbf52173d372c21d2c0a02,
  0x2aef351c66ceb1bda76d50e07b447127227b1caac9d73c42b52b05a40b902ed0,
  0x17b4f8c3c83b0714c2b650814a2e0a84f6f9480e2835943db8df1d86f8c7e46c,
  0x0fe4bf5d1c3e1aa64a8098053e2a86c05a4aabd4512923b9fc0c2ebc636abef1,
  0x00b92df155603652830ac64663a936a312c81dfc1b489110d064cc3610aa0aad,
  0x0a36d554111927a06325ec37150a2e34ddfb9c27a02ba4a103a3fe6651f1b094,
  0x28273d4029664bca8734875c814a934c8ad898ddae2c9c3c0ff693ece5186df5,
  0x2c8237959dafda3df24f027e994941a0e52060b1f26fa41d8e02dbab462b1610,
  0x220eed905e7839f428b26630c905b9f426e82ff4b334c0230ba9414cc0131f81,
  0x2688f3f921681f82ae8c3e3f999c74d0186def6f6c9fdba0a90dfe6c07f77eb0,
  0x2e8720ba4e17e16a377a92a23bcd33714bc258242cc28a9fc2017a50259060a0,
  0x040a970dd2a1912abaf0d5df9dec93671a86edbe55024042acc3f87cfe6a5ba0,
  0x02a35ae7f1c8c01c63f425e249fda72fd4dd0c06fe19cafc3d460595dc7656db,
  0x0b9416dd79a53fa3626ddf458d72e0116e7357a0cb6501310d62bd05ad5f88cf,
  0x108671dd4a180775e033aba4ab1328fa587d4dc4b0326d4f6d44782fb2f8784d,
  0x07732cd4e55fc9ed01cdc8f4d96ea3fd9f04373759dec6c4ce9cfa1865b3a6ad,
  0x2ae84665cf041234bdfaa207dc11cbb3042a691490aed4b7072c747c5fac786d,
  0x215a3bb4a085b18ac48a3ad933f6d15c348f3af6d0cb410c3446ef271c9383c7,
  0x0e8d33c2ab084f4d01da12c0d322e61bf7b7e446bdd23639b52ad9685928df3a,
  0x0f53880f28deeffb72282c49c71e7b08c7a5c1a8ff5b561b554be01380fdd1bd,
  0x16d16e620b2611ae8aa745ecdc6717d51ba55ed133dfacccef9425924e5db2e5,
  0x0a76dbc1458e5323b7700d855950f901904b686a085e37253fc5ea33756df579,
  0x08887b7c5f30cdb0cf0deb8ee19d40f959f7685a56893a8137f69c7d63c5893d,
  0x2169dbcb443b09389bbd3fd05fbae663e155cd1d96f549fe984ba53214ec53bb,
  0x3043e0e3a33129e13e378fc3d58667ced0a543443e31fcea9a37e9f991a756eb,
  0x1ed8e951895c4b81500d30bedfa89a8cfce922cc902a687d108b3e679b38213c,
  0x2e0b42cc6b814ee4aeb1ae8b6833fa143ac6db4371bc286b3bca19c9fb65a215,
  0x24ab2d797794bf1ecc268523db21841af3c7fad336c2f3c463a8735f7679605d,
  0x1e5d3724d4f057e117024bee1cfc05d2eafc4ae44a3e49d684d12455b9d0ad66,
  0x16a725005f1e36c39a7f4668e30269d9071c04da8478d2943dde590c51cafa8b,
  0x2bb4fec2d739fff7fe01c487dff584917d876465f6ce099e07550279b82aff4a,
  0x04735e14b328992c962e90f693fe41a8fa3ef8ece82eca6d6a1728e848a80454,
  0x0ac875e01f383327e8847d8d02cafb502192164955595de3ec9b4cfdd5022831,
  0x1d4accddfb793eea6dc75d75df7aa6ead646006491157e50260f1804216db238,
  0x282ccba8434ddae6da87a13f043f836d81d85d25e5d1a6fd52c6ea479f73241d,
  0x277a07253fe6b96f570fb7f691314699d583e448bdefca505d14bc62acf39bf7,
  0x224114ee73b95bed487637d3b605f1f6c23b3973721b21fa671b59c7f309e57b,
  0x022b887f5c70bcce2d1052dfc4464357ac2e575fc76787d0804a5b381a937a11,
  0x0bb53eddce1b649d8100f955130554e7da63d91ae1dabde7fab666c917bb5f1c,
  0x091e8a0e157f517b8455783f5da7feecdf957d2ce4c75417cf707d537be28598,
  0x0ec7e7c27ab42f2afc1cb6302e7397793e5453dbc8efeb28f5dcc755c1a3eed7,
  0x2855bba52ac64f7c9a0f8696c3a1fa0126e2e375b21397dcbbd71863c98b9465,
  0x037726e306cc92bb3188cd7ad4e0dad49c63b47e05d63cd3555d4072cde23aa0,
  0x1c35ea7e2ca7aea8ebb6f1b2e04fc3ba4ffdb3c1c4fe79dd5911f728aa730432,
  0x17f5c7b5095edad383ba59520c4e670bec60554b108eb17e6370024397777b69,
  0x1d041cfb687c3d7148681291144693647be0b41a7be830ff303ab5b410b20102,
  0x295979fdf1b29e5756b3755d2ec764b1b451f42813303a8f5b43e1bed1e0e642,
  0x257073392fbc24f9e28e072bc2744a780438505ad28eeae9354198556d629411,
  0x211a3709638ac8538ce75ba06cb4e0cdab95d8330f7b64b6bbbf75ab7ed43c8b,
  0x0492351d893dc5123b1f46a30d085d145f962019e1f724ae34cffac3d8f8ee20,
  0x1a5a45971b36d009714222187c9530edef7b84034f2de2f8faa80a6028de6f0a,
  0x27e6f704be35a3f303deaca94e1316df84cccd065cd291b012ec2e3d67cc8821,
  0x037b3fac46edb6469e3576ba3162e98308334467a12191ad1bb144a030994f4c,
  0x1d43c29e3d813c1c5f942162d13f787eb2b29b0b78bd6607796c0e1a2e67888a,
  0x29e38336f31ca6e3cfe722e1320645e7448876a6bd2a80492a03b4cbd7ab54c3,
  0x1f129ccf8793039f1fe21b89df7d6241960cbfc59d50450dcb466ee5196b64c8,
  0x0a8fbe0d4697f5c031b2c88e5ed87212b568505f4165e57cb4999c941e881da7,
  0x27f1ed8355498a7ec0050cea8e06b62b895f2049f851c4c8c9a436c60d61cd47,
  0x244658424778d2aaeb862b4c0b34d52032058b253c336a1a19b870806bba534c,
  0x0f9e1b109a375e3d18681a162ffaa2b81b7e82a9aa24bf8b2e40b5f04ce0b2d1,
  0x234c836b60b701fe7f5db55b528b7f988279a72a0dae39f83e6d453c929463bc,
  0x024b9b21bd693ca02fd2a42ec09407fcb87b6022cfbdea40b4077efe6776d3d3,
  0x236c710bd5941a8032ad4e85dac256655b35dc1641559803120f7b2bd69276b4,
  0x0699ce61cc74660227b5ec88b5f8af16f42783018f94d0131a6599074e03c542,
  0x2bde19ff93f4834b3be07124b1671403b5265d6706f8fc9aeb1d6b3b04815092,
  0x28b5beffad20eefb89f985ef292cc35cc637b77e959f92179f417b1a152cfbf5,
  0x1a4265405772105c93c3fab1fc717a6b32461557477dfa77da5109e3722eebf7,
  0x116f327777342fc3a7b9767b58ffb784bdc28d4911e8544c9529e4a1f9ed1c19,
  0x2acdd57ddb77e6c60a67e94f9925e9d4187e9070cc370a608be1de52f2b75516,
  0x29cc79831a3955595a64fba6b72f62a18ea58002c994fae7089981ac1fff09e7,
  0x1af8c18b9cfb3bd70f3db66ace4448f8dbb75e1182988f1d7210864580964fec,
  0x1615e204bbd674935c0defbaefce559b8d0d965e1ed51d7e8f9496419ae9ddb9,
  0x2bcb0a8a84bf3fc48f5015ca329cb825ce51b2f38a06464d0f6ec470fd461a32,
  0x23a393ad11a0c821d50a80d0f87f3b1cae54bc7daa2d24e3d70e83b1075cb891,
  0x0b521678680dd93013bfcad301f6012e70aec50eaaa0601b5940f6e33ecee18c,
  0x0ac7e4bb73fe25da9e20ec3afddfe3a459dc411266a0d853a36e62b0e585a819,
  0x03b51e493d5df85e328c2db853b63e6e3619fa667670666b256aae37ede5f107,
  0x2ed9b5890b1567aeac724e4743596159023f126175c0be4cdda9394026d961fd,
  0x03175002f34b1e3558f8cf845aa1777d4760ea3aa22ff6d67abcfbfe839a3b6c,
  0x02a1d500b7467566ca02abae0e307ba38a5fe6d89c1a4d8f4fa69b468054dfe0,
  0x017216c9b279337730d2247758d19f0c26bf94e23f225d2d026fe4b536355982,
  0x0b867cc7470c9eaef7b04026b7090a75df7d868c7f7c2a5c7d054487f676bdd3,
  0x1cd154275193c3bf0e05833b832c42287278092d96b3e229c508652bcdea7d4f,
  0x081fb10fdaaabcc98079528cd0336d8ea6d68054b5979fa539da86d57b2dac8d,
  0x1a0ffaac4d28f4a5b89daec66a280839303490722a664ac73dcd54227d5493ca,
  0x159b45dcf37a8abcaa6f39ba94defdab3da0a2dcbed756047224e523ed4b329e,
  0x0c4250afc47b590883f1df916caea9338bf7865863de0f52e80e76cef01d833a,
  0x17626ea601a8b031a71f8104e01ae1f343b142765efdde018d113e2910d7dab7,
  0x1b44df98c0304164595a412e5068e8df9337c804966f530118417c9a7f5b23ff,
  0x0a9481a4beedeadc7b013bf38d1035769c48b794b3220c7a5dfa43d208c43905,
  0x1d2982a2663f630c871101caf1d0bde7c0c40120cadc58599f1484f99c1df95e,
  0x1f2b420ee747bf1a02c3f8f4d185e55678ecf3a029251bfa79ce93d7aebe58ee,
  0x0419db3d0d78a112eadd3a33b2a60c8e4e3e89102313a289789df2a578dd52dd,
  0x2b754711d69c393fbdb36bd14a3078a762ca2a00897fed44937efe9548c7533e,
  0x098b4a1ef20bee608b9e8d7b7dc4e4cd8510492fcb6f69a1200b5d0cf472144d,
  0x1b64accdb073a3e621aeeefd0dadd180ef5fdf6644409201da3119171c7a6378,
  0x08ad1197bd29a0c774cfda946a9c6169b8a6e28f0dd8fe41226f4ff0aabae610,
  0x2368d131d089546b4c97c689f56a938cb84cb0c8da1e54ebfe123223c18f8944,
  0x20227c25dc864f42d5945067490113136b045798c7fc57f1794f5491c72294f3,
  0x090cf52ae1ea0b8528c6b5756d4c85d8ef462a8ed377405c370f414268e8d164,
  0x08157c8c71f86659fc29f5136122807e749afc9870c1711753e77453a2804f7b,
  0x0a29b8cb83fa6fdfeea87ac1dd9055568f13b8c7f2adc44a37c2d61dbef3630e,
  0x009e15893fabf4439fc095e13a8b718f805e5d4fed7bfb3551799754d2487333,
  0x0e84328d7bac587ad31394230e967484fe9fb07bd279369367492e3baeb89820,
  0x2bd1d4c22aba4036b7f1352637697dbbe4adf9f375ab521a33ef4d1da122ed86,
  0x1d56eeaf4b5bd2dd9aae4860c32f2267487f299fdde4e70122f7179df0785e74,
  0x0d57e0cab06cc9fde274732731edc96fbf069720e11ffa993cad543e335704e9,
  0x0a8fa8534399271c3b9d0bfec90f4ae7d5eb412eec177dfb9cb93ecaf78c6cbd,
  0x2b03a58371ab3f973e840a82e0c9b2b82223c8355552e78aab10c98c98456f5c,
  0x1ec754248b40b8a7e738a44102c99eedb88b119d9b30b8ae0e07601c83dcc51e,
  0x040c21802af4e36af46ad76242b204c94afbf8275819b6374c8ce83888598db6,
  0x1b18cafbf9cd098708a342d01d24020492649bab0b7e5de9149acdd966bd5655,
  0x03b638942d7e91f7f6f4495531c0370d07f3cd2f5cc52a34487d4495cc22f2f6,
  0x1d3bba127c3a7d18d79302aee11a460cecc6dc182cef4ac19736c940a723840b,
  0x184d976415038a76b34a1b001b94aaf3131dc84573e1868d55211eda6b0f061d,
  0x0ef74a616133fb2c025c8d7e80cce59b40d62b4013ac0acba91502651c1a8e99,
  0x0d24b96bbc0e71541adeb3a899466d8719727d4e26c3675565829a617c37d861,
  0x0b7fb40953ec1645b5b0df1137b781d2c3065133db20ba9b20a0fa87b2cfb944,
  0x29859cec3b1efe81ec618959929bf8211f27868703cb97a19bea85ebea409421,
  0x2b373c2869a41bb7de176abdf62a4f1a2c78d1cbfa2f89d5b5844960d44be960,
  0x0051d4a9a2a184636500098cf9133ac167ac00802c6dc6aeddca161876e1406f,
  0x153812779489bcfb34ac44667cbb539c9a58f163b9a7f899890315fc71e9ddb0,
  0x11c78c94d2fea3c3501b14d559d99124625fe2a8be32e41b103461e3f9b79de6,
  0x01f8fd6c159642ea059873d16a6e58b26ded9e2645a8f69044f5e1f8044de386,
  0x2a350944705d0614de889b3109cc5aada389d63af5232a3a310b9ba92ff7b197,
  0x278c32025794546de91e06af818981bb4d30f944f717cb631df4d0e729b9e836,
  0x2bc5586505a57640ec9783eddb2a2ed1e65ba80fd197003c861f1a658a7d9fb1,
  0x09288a1d52190c8e08ee19d56fd0c2b53ccc5e27bb557a8e58837035420eaa68,
  0x0ea0697fc72694647a12ff5a9af281ea2ce024653ac611ffddc9914837e66ba4,
  0x10ed4d000f5bda5ec41014f23eb6213f0ab3816d87750fb6bfb3f784ee4529bd,
  0x2838444952ddde179a2c790ee96442a194b049611991aed919497b8c8daa6b8b,
  0x09325a7a1695e8b5e3be2077333e76fac185939888880ccbbf47fe85bc05ec7a,
  0x251bfaf9585e2881c4d3f10bbef70fe6da3bfbbf819168030815f27c3337409b,
  0x11cc7335783696cecad303c4d12edcaf945db4d0491682cd9451e3600ed387ae,
  0x099ca349bcbad76122c6347a8839bcd76bd4cad1fc31fbe7f9c8601a55a99399,
  0x0f65d6e60e15c168ba09f08b60b60de2d54bf84d32a862d7ff3747b464a1fe5b,
  0x0bd7136ceb952f0a2e5a5e685ff04f04d28c378bba697ea684d505f9c08a2a3f,
  0x25ded571d49dccfc64d30879575140659db815924e4aab48d64cf0b8de356303,
  0x2fe5f05becff1dac6c722a087e2e53afaa00abc8df22de33d3c7fa4df7d52465,
  0x2ecd267dd56abf63a2c0451d82491670a8a629cc398f19926a1bbbbe2fc776bc,
  0x05d8414ae818ccd0d363cf8f9b297405cc36c7f51c156f32b5a9ed731376b338,
  0x0761690a44340b2db23b8389b6b3828b5360a28c452bc4193f0424f3b66597c4,
  0x056d3a786c7d8e9b34f523f5f4be7c0a10a71adb4412fd708a64b863aa4e4633,
  0x1b0136ae2e56c52569c92c2c6303fb3331c17d8bc5093fcb942d79e560f695ba,
  0x0669b40aeef051b7e98ad64847db2607a567ab24ebb250216d9cf6b1c3c7ee93,
  0x30131d534bb17a42abf3c82da726284a870c8541822b9706032fc170d26c746b,
  0x146d1c48cff2a00da35adb43a4a24c3e711c1b0f7c34af4eb7a4128a33d6e2ba,
  0x2db1a60683af7b14078a92cbc0c706600a31a634c12b5137b0d0036add76a6b4,
  0x1dbeecd1e73244634a64e974474ece84e529ca95c1c3d140e5de65467d2aa11f,
  0x0b3ba64cc5bb11c7bb9495bdf6a78f9a4d59fd79c63726d1c343c546c9b98b29,
  0x151e911cab9403dec814396d37e9818fb9dbbe4751f8c5cac0593bedd31ebf73,
  0x05defa7bc45c481344771732f285529a3720ac6bbc0bb39d30385eacff7e9c29,
  0x058b2ee7067a9a23fee9818850d9e159b50e3f18de46278c1b232f5290d2e521,
  0x0660b3455f3e8f207d0dd2762f30f3739127e1c405bc7b8278ea9997536993ed,
  0x00a23180ede65663f4f58dec17b8af902e270d90205ca700282a22af9e71ca2c,
  0x13de48170f9599c8b342480535516f6fc121efb6d5428af1a8ff17eee3fd7f2c,
  0x2fe85c84bee15ff27211e483865dc34284aea400d78fece8b4bb910c45ebef25,
  0x198dc322b0d219f28af3111efb11a299a63b295d4691132c859866db160d9faf,
  0x19ed0156c20031ef35164ccb902d3d74f9ec62e803931e500939cc06bc7855ba,
  0x1f2dd3e3fce828abd5b7f49c725e4d5797fa6847c5624322b707f03ec43f3966,
  0x16d21530c34e5626850c0013fe0d5ff094657ec719d4e6091c514c2abe031f63,
  0x2e382fb2375e976ab5393618c799b78a87b07719343ad27619e5226855cd1c9c,
  0x2626b45ce9d069558cf8356d2dfc2bdd00737a561e7aebab9dbf2da71d37da7a,
  0x12675dfc19e388db6324f2d129f7e8e3189e0ecf29d4ca461c4f9618f0c3a9fd,
  0x1dbc4239b06b2921811e99b5f2df5d4ca99f2281b956fa2bc6bc0d92ac2ef76e,
  0x23c11b8e0658f3baa0f23fff69c4e4067411904c8201f59fe04468bba201df28,
  0x30175441218f51a6e0250e942ff111a5ca2d8d958db8224c15249f2adc2cabbc,
  0x04ef7480e4fe4baa3f3193c411bfb705d52dd54e5b81bcc25f061cf91963b36b,
  0x2c266a9877962c9dca52f5d60f173a752e78d45942f8753d99335348377caf7b,
  0x05c467a9d65d3030868b1b426bfdda0330df8ad58fa62dd192c8610568b389c9,
  0x175623e071851422eeb1d6657813068bb268946627dc088fb1b6ae080e0e9a66,
  0x20874924779beca46d46d2d6726d8dec50e184bce2c74299def14efc267f7e2e,
  0x0fe7ff8c7ca0172818b8fe7d58d13fdd16d1e453ebc4ed6c3b396dcfe08fd75d,
  0x08a1909305949094fdb8bfb6c2fff7e1fb1608efbe221c8972dad5d42eb99467,
  0x1e88a1b2dde945c9ab7f97326119706c3ec3146f0929243c1445eeff67d852cb,
  0x3030d36d194e42e65eeec90cf5a6fab424c6f52d4ad53c780931e418ec237f30,
  0x280cde4041aa602dea9f791883ee5f2e8015d5c28a0a83502c635b1c53010abb,
  0x2ff03187ebb230e56af3045581eca89283a6890eedbf6b55b18136a403db390c,
  0x03269e60d318a0fc2c8ef31f5167353830a7e4ba87f8c4741f28015243463abc,
  0x2ec4e3ad2e6fd3be4127db0789b5ac4b303c5383fa5560053829b4c92674f5c0,
  0x128c19e5df934241fda1d5a19b58bb60314df98cfccb0ecc82609ba339ae3d2f,
  0x1b0301096511447d96bf98b1a7fd06ccaf5bd28f8a17fed34c4db32ff47f86ae,
  0x1531a098a24be30a6c3083d668f7ba9398758c4ee673f935eee6d4c490bd561e,
  0x1e6fa9aca41a4103b9e002d45b43886e69fe42a1296f5a9553d31a91397de33c,
  0x2932ff85817def125f28a5ab96c5d8463eda4877cf70784afdeafe538a30c2e0,
  0x24f719d1bdce3f4f0e2d69a30637d1bfc06cba15ad81286444c652916cfedaf7,
  0x0ab9caaa7d2dc0ced11ec1526287788c633b9b7e50228e593324625288667176,
  0x07dbbb3caf9b3d52278e63c727189929040c0328f0262ec23ce2fa8750e37904,
  0x2b2e0a29b77de13dbec3bf727d361aeccf9191e2abd179c343569200dc145eb2,
  0x185f5417a6b50764a897c54ebab047f0f8edbfbe41c3ba408f1f0d69dc2ebe71,
  0x045c5321f9c20c935187413f9ca85c052bbae327c2f36193ddbeb80a8523a7e4,
  0x290568b1d21ab4faaad4c3d19ea65d5e78249c91ef9947dc48536ecaf4a67225,
  0x11d02e16614b134438856517c5c055a323af67c0dfbcccb286f655d44a8e188d,
  0x2bf6072f3480cfe752f3642bc4b4bb9c4e9618d6df6d9366fcb54dbd5b9c438b,
  0x12bd8bca247557c1346e2db1a1209fad6be02a2eeee6215407781c0336665561,
  0x1702404abcaef66add94222f1a6817d902a9cd7330e1cdd86ef5df92d512443b,
  0x05b7e855dd0d4557e67e9921be299be685b5f74e7f1c1ff8a9a9f6addb796519,
  0x1e8e308d8db1a204726c30e5f474714a334208838501370e9e0170d9c30738c9,
  0x02325973dbf87fe73621040f102f5cdba71ac04624592d606e17cf993975663f,
  0x2080899ef9d1dbbcea04273e97238231ba11f08c7604dd07556e6a8c37c382f5,
  0x160682139929afb16ccd64f5a938996dc43927797e1cce30a24de1480143513d,
  0x24bcbee0190f05bcd7bd863db762f29232749ca465fe4aa2785cdd1b425ca2bc,
  0x16e8896ec60362afbcf557d47ec26f30b053ad6f2f415fc5a76d915b94f76898,
  0x0b7cf289fdc0721c07b05fa901fb122c9ad4be35aa259a1ef45a5d13113df8dd,
  0x0d0b98782b054a3c7031b2496f61e8919504d51dea567d4007d9e9007d1c07fa,
  0x1c8e21826142eb3a5906bcba4c0c6296526ba70797b747eb3de14c893f5f6f7f,
  0x1e13317118c3e36ee21060d508bdef17804341d2d5d9f0f75d65474f74ba83df,
  0x04ef3dd159dc0df5883f02126beb9a7f645dd4bd383236d1ddcbd1ac647a6320,
  0x2468ce1f444a9c3e06e999e3f98859e901dc2c7ce91da6e6b62a50a1eab27e10,
  0x1309466b2f8a18e8a67f037948fab25b43bbe2f2aa6647fdfd466bfe28cba147,
  0x152ceb286a525881d030d09e9937f126f8c1854b6a2e858c2f7a2ff00052fd5d,
  0x2508e9f7a52e7ec56a694c58774bafefa3e1cb9aa9132c386a75c68540866d06,
  0x28e72a2cf024409cfc9c4b779b5ecf704dafd217e09785260a0cbc13da98a94e,
  0x23a4a079c6ef8fcab2b348d329e2dbed0528abe60629bdd0aa966599bbbf8c84,
  0x2e2db6f0e2ea618221b290dc0c90e4d447fa021efc3656633725ece60aae6985,
  0x184dc659925503c7274e628e39a4d3683e6536c060803ffc212196f0ff2c67e4,
  0x0ee9cf22df83ea65498f9a21c7fd1bc8146230a8afc35d4b113496b054628483,
  0x080ed9d2cd06f594c5b9d4173c171d45589555471b447d0388770279c88c5f66,
  0x0d5eab16b7f6a1ca4b3d11bbe71a411c1a5af9fe266908cefc1f11f05222cc73,
  0x18c10114385e685662a66aa4f00056208b299d3666ec6d59a75b3ccd97940a5f,
  0x226b931af7aa4f0b427594f085793d35c0093878ac2eb9cc17f934756c78f883,
  0x1f0763a58cd8d1c5a4bfdbd85dc64e6f313cf743be788afcc82a103b4e5f8d52,
  0x185d223a098c064ed1f00d9038348d32647c3aa0406cc0c25385007b8cc07b3a,
  0x1fe79a06864fa291d168c02941b8d6c17bde9634d30dec4c9d2efdb5d0ef96a1,
  0x167b0bee9844f267deaeec669d09f340bb4a98db8ad6ab30b1e976f8395192d4,
  0x2ec0926f0846b6b42acd0ec248b08ed426f9a058e8aa11d6a898dc9894d4b5ee,
  0x1f28a35e6593c89c03a17ccfe34ecd8ce5b46338bc79503100c77a9e860418e2,
  0x221a992cc22d1efcefeb79b79746be182b9bf34f1817f5e153979009936f01aa,
  0x007ce77af0587be79e06d5e9ef477aa8aa1f88e9392321ceb9bc670cb37d6eb8,
  0x1feebf1f4732b3637854bbd35695e241bd4d60f8f1342090bf8824f58d437375,
  0x2842a4b90bf492d36d701b29985907bbb53add82553f45d03e3d306f8a03d543,
  0x256809b2f9f3d3c4d8045f35e95f1b9476364bf8cccb91a921f4c57e7b829e3e,
  0x07525dc84bc5ae49c154a249f85068f817923f691c1b094dfccf28149a9aef9b,
  0x0231b93b1efc6ad6894022a9411df3eee98e21c78680c70896f36bacd74427ec,
  0x20f402f48089d73e24bcb205b2f9a4d0cbfb83b718186c95c1a6905f509f2b8d,
  0x3024c8a765af4b944b8e57b25b9be1ad761263d77b404c23f482445769f2b6e9,
  0x24f87b26ff0137138ced83149d5de82c06926ffaaa628c0e8884067ff05569a9,
  0x03b7ea406b7257952cca18e2e998ae164b1df9c2d43ec9243b9e7e8ede9f94b6,
  0x2f00037ca863fb6b50e0a9a0696506e4287a0307b26a8dc554f3e7197e0b3dd3,
  0x28126796027578f44fd2c3135eb454b797087fd970d576ddf335f54b9998572a,
  0x1670e4fc8f8df364b43ea85ede2a0cfeced43dc33a7befe8dccdd65d4799c43d,
  0x1424f710c8c88560b653c233e18151659d1ade52649bf8d5a1d7ee2b2c7090e5,
  0x2b4db5da7aaeddd192b6c6ba4da325ca171af1a9bf0d01249c5cbf55d23e1e9e,
  0x0065ed5c44f587dd8295232fe97bc97b31e877a781653a556b52bfbfaab56cec,
  0x05bb8b7b9a933df480da5a5d2e1cab060c4190d95e11770ea1a92fceef22f6e9,
  0x27bcfcad647ca794db60ce42b1e2401b02f33b050951f5f8b3e900f83672f240,
  0x07519003b29faedbf0f0d3275899aadf83da9de12ad659ee6774f2573daa37b9,
  0x1ff1338e0f6a2bc60e1dbde7e402805df76164b037e08bec3e43035deaf4b27b,
  0x2881d16b82a369b1d807716be0b5d77153522b454553f072f6d07b5d53127ecd,
  0x0d03403f0609f0f136ad2c73cb01209ef970af8b7687acb3f69a1217c6eb357c,
  0x027f61dacd335aa768444a921f7eb7a151e423e89cccf5ccc1f5bd98445e10d5,
  0x1df102356c48fb1d4317cd76b41a618e7d3a90b6068c6714877273ee38ca10a9,
  0x071f1d247593bc6290d2440c0d7910c2a080ca350165ab4a4b8cc5bc5c07607a,
  0x0f161eeee4ded95da8a6e1a20bb80f5138bb19d20b0f3521db1550d3e7d355da,
  0x14cb86a08460d48be81bab8d0cff646110855d89f0456bd7eca7c7a77d3f5e63,
  0x2c1444082148903bb14cc0197096a1168fe70eff648c01019244ab4d5e862e80,
  0x2d4e31537da2920d03dbd81829c107535503ef3df089b3e717060e6f95425f84,
  0x142d85a93f44913c756f30a93eb8184d4531d6808858c8339dc3da25fb33043c,
  0x08b5e12b7d6f1d8828805acf03dc91b8aebbbc8b73735593227b940857bc4809,
  0x16e73781668ebdb7362a35d8b7a18b90e08ab20e075584119b1371da6eee5c9a,
  0x2a91dc50d769fa81d67cfc88b6ef47fb9d763df560d1c1b1523574079677321d,
  0x0cfe19f42d404dc8110c939e7e5174d659c59d257265ff1465436f3ac8090c02,
  0x069989f8c7991706a721ef1f37c1c9e528569a9eafc5c2e5223f935d7b5c6dd9,
  0x040bf9985e0c4ade21012afe4c162daf99272ae48939d95ef2a4d4c5621d536e,
  0x26a4341f313df9c3a023ff96a4dc19f66a5ff91055c0e340165ac4d1a5542ec6,
  0x001c63e5d5f08afb9c2e40b5ca83c0ad1a3ff22a2617add37871acde0ab258fe,
  0x17781a1f936cacf95c581a1569876b0462778c716ec56695ec9c6f9a6eb498a7,
  0x08759b719c1505b40c2ee023fa2d6e29d3f07b5b5fd58355e5d78d60e35dc637,
  0x132271d001d80aaf9042cb9192e1147e9d23fa18ef102551cce3993bfa583d27,
  0x1c709174f807de4865f0d76748fcde83e5ed6a654bb96706139e4d3a8bfcc941,
  0x23423bfde02004ea14ce32a0b2c14c568deb7ef61da9ee8b780d2eb62ee4a782,
  0x195bf8bbc98db6ed28e001ab599af96a594449c9e98b4ca92a42a3c9b66b6028,
  0x2c0b31a98c2fe19228fa7407eae6feb05cf7ce1f15696df3a2650df42db5074f,
  0x25faaa13140c45e258c820ab71cb48bc19a10a574bcc0c17d74af0c903990da3,
  0x2282ce13de71f15b82f8ccf085cba6d347e54e1d9bfc4e3c3fa86bfd4d02b482,
  0x17cb1fde9d640f3da22f12b47bb7cf7e950df5e4216cdca86e4cc355188f12c4,
  0x00e1f33412f77f6a9eef66def9ce85c3679904a76c8eed891c61edf15e7a0f79,
  0x115877bb743ef46097d9714e0f6d97ec953d7b4171a78e945617a57454f0b938,
  0x22433e623ceb5f37732f85348abb85e13b58554a0b6eee6b5e2eeac10cbd5a74,
  0x18acf20210e490b3b7662834e791f35eec92c80cda30686b339c698786ffc0cd,
  0x2164e79882f082ae20ebe09dfdff6f3649ce588796b1bbb0220b50047894d8b7,
  0x13f890d0d86fb086608faacc220365924bc5f3124c23e7ebffd2061bc539e81a,
  0x151c3049b7f4769e88404f562acf36dd01684b6d4d92365457958e77780650fa,
  0x21db3f7519441ec6bf4522ae1aa648455a77b20d4ffb6b6f82369c0f9f12eeec,
  0x0f7159f65d1d2c673df6f7ff31a93d014d9515625e40599d8f745050a63a2a11,
  0x06677a075f09eeae457ef6cea8bdb1564a4aba713bff944692237f043b09626a,
  0x0a80bffb9f7332bc87ae45e3daadd9f25a377ecc98be462b8b03054ced8fad74,
  0x1dfc460fb9a88fca0a5025832eae1684b2d340fe9bfc4412dfa51a11a4f819c7,
  0x0e4d23fb5923fc509164d95d9547dbd68bebfa8a4cd168a7582157f46acc930c,
  0x12a49e78ff7d784572f00feb5f7b5b6188bae8ab9214bae64407ada83d023193,
  0x1ec3f491f63d1c27cbbf437f2e4ecaf06f82130f0dc24aca38a17abc00b4f89d,
  0x20d4160f1ab4298baa957d7d8453ce1851b40e429abca95f8c52367cd4a2c55f,
  0x28256caec30dc6d49c0f62bbc9626fc5a17fa692e206d74468735a3986ff9b1c,
  0x2c554239e5185cb31727030d9aa6974a054c018a6e1ab71f89227b85f68f0ec8,
  0x1e798b000628cfaa54f6b6db53df1b5d8dec1fbec5a8ba6956d57a1aa9ecdee3,
  0x2bd211e00f6dfcbc11cf02c08b29a7dbb3b602d9b2ab09ee0d6243704691c983,
  0x10c0f67b247eeffecfac5c16d251e0652d5b1828f7353cf9fd07647792640079,
  0x2aa5ce3333a1767062d584f100d62e03b6de9f2d6dd1242a434286ca8912951d,
  0x0a5852cf3a6a50487659ff7a516bc29e4d6be89e4389f6c53c577a42698930d7,
  0x0cfbd657ebc944cdc11400211dc2567bfbf14e7114b9d4d520b9f7db45ef72ae,
  0x220e712922b397ada88e4c37c82ad0e6b2cdfa8dafa615c4d39d4a2eafedbcd6,
  0x28a9bd1ae9fdffeb3677058f424559313b32a2720263de70f81d105b0b877f5c,
  0x0b592054b87b0ad768cfd86bc1cc1aeba9d49f55405d9624d2d6e52b1d7c2ca2,
  0x0a81a40c49461adc4f72731eaef0b53bdda96bd653fe79e249c165864a5c9a5f,
  0x19fdeef9864f02afbb4a056ffc36769e331c58a75727f7b69291275cc8574d9d,
  0x05ac8073df5f25d1659daf20fad51acc95342b9f3c8644074582a2dd9f08f0ae,
  0x2711454899dea12e8ba1ffcded5a14dabc9c18add93023f0432be689e2de77ea,
  0x1ff4c7e0c57efd39199d8332cc1253ddcf434e2a1bffa8ea0b8baac64dc4925d,
  0x18b8b4559b8ed876b88697cf9a7cc4ca873cff7f4cdb8e074459b631492de854,
  0x1ba8af43c68587af1875469f286393de0ca0867d7217982374b0323edf691185,
  0x136c08d4b03d2fae2e098b93ec24f3433be488bd85451180f23fcc4561923657,
  0x02fba9585198372c96fdc4afd17062a99da7a52a3722f700ea2989f302e15dd9,
  0x2d2ab813664f5dd34c4bd9cc4876c25bae0cc8e9194d04a9d58b706114887053,
  0x24e8ad0ea1aa365d38acbfed67d8b29a8a2aa12290e7c11261c62c7ba3e9cc0f,
  0x0c713507c56b65853be64008d65f60c671d779a39080003acefbfbf808ac45b7,
  0x077f5ff391be46286c74fe2ecb96b2dbd05af2d92e96804899eeb5f8acf56e61,
  0x206cfcfa0bb0bf82d6fa7dd0c92f69c577a3d69ae3f9f84fdea960d7076c7f25,
  0x07651c0872e4413f38ede150326ea180453f72c10c0619ffb86f11ed7e196b7a,
  0x17bdfcbf0ac0a35926b7db1807fe3d7c28d50036e245ab72b6aa5328c53454c1,
  0x0e3a46cfbf1d6aed47489e4de5ef30ae3926cc0b995cf2ac82a01630ad6ab111,
  0x0b939af76997133e8318968b0a1bc24da479de0dd1a0cf123243d3e97783e9ed,
  0x05c763c230888d09250285627ff353ad959becc1e3c3a0e955a0b6379679b1fa,
  0x1b974cb31e7b6df7c2f2b4874d0ddeb5f2f1cff28ce40585042d68c22d194fc1,
  0x0049c19694a1ea5dbccdcb953a9c3281515c1dd0d692d73f70041fc23d5de4a5,
  0x0de300974fe2c6c0fa4a887fb0a6af4db30fcfab432c9bcf0033dd04499db448,
  0x273a9b6a8876bb0223a5d2e65e01c4fd90a4f7a197b0bd4b596a9c92d53e3b91,
  0x168466d88bb947d672c98377f0c8e5a6e9b0c709427b703b94af56b34f6154c6,
  0x2b1431eb56ee8afd7ee8153d6bebfcd4029f031e137186ce1efccbcdc3ceba1a,
  0x0014f59606882e3c824932dbb3d314abc99890293bad2639afb4e91a357ea608,
  0x062487943a1f6fee80e4e230c941d46564ad41de1515770605c3793af173f812,
  0x05b85d8ae496d19353849cb28d15aea0d2a7bce39c7cfeda40690a87f682edd8,
  0x15e91807106ea973d4de718af55b731d29aa249600bbb635ea1b0117ef5225b4,
  0x225cc56c20ddcd921d30a6d1174b9482c052e9e1c6f6115f60861af58f06c7ab,
  0x1f72d4c7e5ec731ef184efc57f64c77e579ddb838575ebc3ed66b162279b9131,
  0x0aa3cfa73b52dcbbe87e1282c62fee52bad4851840c5b2802e2a88c6fb0ea5cb,
  0x1dfb008a11e5157c1d142d81948c8178bf2ed42ad16d0a7ddaaa9ea212994530]

/-- `MDS_ENTRIES_W_5` (feature secp256k1), poseidon_constants.rs:2534-2570. -/
def mdsSecp256k1W5 : List (List ℕ) := [
  [0x66666666666666666666666666666665e445f1f5dfb6a67e4cba8c385348e6e7,
   0xd5555555555555555555555555555554463c62c03cbc85871fd9f975582d3661,
   0x49249249249249249249249249249248c79facd43214c011123c1b03a93412a5,
   0xdffffffffffffffffffffffffffffffee3590149d95f8c3447d812bb362f7919,
   0x8e38e38e38e38e38e38e38e38e38e38d842841d57dd303af6a9150f8e5737996],
  [0xd5555555555555555555555555555554463c62c03cbc85871fd9f975582d3661,
   0x49249249249249249249249249249248c79facd43214c011123c1b03a93412a5,
   0xdffffffffffffffffffffffffffffffee3590149d95f8c3447d812bb362f7919,
   0x8e38e38e38e38e38e38e38e38e38e38d842841d57dd303af6a9150f8e5737996,
   0xb33333333333333333333333333333324f7a676e477fa35d0646756291bf9414],
  [0x49249249249249249249249249249248c79facd43214c011123c1b03a93412a5,
   0xdffffffffffffffffffffffffffffffee3590149d95f8c3447d812bb362f7919,
   0x8e38e38e38e38e38e38e38e38e38e38d842841d57dd303af6a9150f8e5737996,
   0xb33333333333333333333333333333324f7a676e477fa35d0646756291bf9414,
   0xa2e8ba2e8ba2e8ba2e8ba2e8ba2e8ba219b51835b55cc30ebfe2f6599bc56f58],
  [0xdffffffffffffffffffffffffffffffee3590149d95f8c3447d812bb362f7919,
   0x8e38e38e38e38e38e38e38e38e38e38d842841d57dd303af6a9150f8e5737996,
   0xb33333333333333333333333333333324f7a676e477fa35d0646756291bf9414,
   0xa2e8ba2e8ba2e8ba2e8ba2e8ba2e8ba219b51835b55cc30ebfe2f6599bc56f58,
   0xeaaaaaaaaaaaaaaaaaaaaaaaaaaaaaa980759fd3760292e16fd62c011431bbd1],
  [0x8e38e38e38e38e38e38e38e38e38e38d842841d57dd303af6a9150f8e5737996,
   0xb33333333333333333333333333333324f7a676e477fa35d0646756291bf9414,
   0xa2e8ba2e8ba2e8ba2e8ba2e8ba2e8ba219b51835b55cc30ebfe2f6599bc56f58,
   0xeaaaaaaaaaaaaaaaaaaaaaaaaaaaaaa980759fd3760292e16fd62c011431bbd1,
   0x13b13b13b13b13b13b13b13b13b13b139834d5ea5c40a9dd3623dfe3727a53ca]]

/-- `ROUND_CONSTS_W_5` (feature secp256k1), poseidon_constants.rs:2572-2893. -/
def rcSecp256k1W5 : List ℕ := [
  0xb0835506f78ecd84d49ebfb8feba7bb3b899de3caed6159b8d46adc1ce3e2dab,
  0x9cf23894ce9dff82fb8a9b46121429bb1736c7c3cc5cead0f5b2e4f0254155d3,
  0xb7521c203913afcb31d87626340dec9ef9c51701447059192640094a57fc5209,
  0xa6bfa7161b9a55167cdc41a8ce4db419132c8026f93a4c8eb6a66a6668f5a190,
  0xb95d0c0927f9d5df17f33f10db79162eb59383ab8c378ed7b95fb83812906f85,
  0xc3f2bad9bd99c9f174a5c1e26f8233e387cbd89d14de744ae751f0731132f393,
  0xd6611ad3289379d84f39bd9cbbf59754246049ecd367709061beb4f7f8e0d700,
  0x94d361be149fa653a3508d1d204c43c16749ebad46a2d7e9526b12a34d5ecd4d,
  0x116f5680b4d90d21df0a49af2bc8f2f4a1d67041a440ac9b49fd01206b23f924,
  0xb6dcc7186f70f493a135c38d65361c9171524bb486b80ebc01068959add622e5,
  0xbb2e9a9693b9bde47049d4aec94bfa06d0985d57ba36ef0cff546a96cdc2b309,
  0x200bc1b404ec8ed7955f4b2b76420d5ba1b1905760f0b5f013c854ba74822acc,
  0x216a928343381c08768d5959d28630e129ddcc88c59f2a36f93d2fbe5b5b1391,
  0x31bc8477d78d655f8f638fa0fc84990f81417dd7b302151c49e3565043bec800,
  0x40f67d25876999f4e2b0a9dcbc119d958212bd5d2e2ab1aa57270697660ed258,
  0xcefc2fa783f1a04374296fdf67ad1b05a131346ea4b85f5ed421115e1fe95323,
  0x4cff38a5983c45e02a7b39b02f623e6ceba83a7decf6530db85da8d560bcc47a,
  0x6925caf314d5e72ec389ca147f3e91f490a2c9686d22ce205e6f2955bec7a33a,
  0xb144981cd83c5a634ea589dbfd6cd7eb41de45b0e1ef5167ae3b77fabf29420e,
  0xc9413ba6d815343cc389749c0cc5120775f98c0b3d6ed15f6b03b13b847011ab,
  0x92fc38cb3eaf3c51ddb89d02f0c4dfc32cdfbf5640772550a3d013c3f8945305,
  0xfcf822a7e7a4e116a9a14164720078ee167e82178810f822faa97f04df3fa92a,
  0x7526782fd22c54d40714e86e7384a02e058a4e8f04c0211ebab2546cedaeb045,
  0x4eab238efaa16ee9c86b78ca6bc59072c82427a89b93319b28503fa86514349a,
  0xa2458b74c5f24f42b5d2d4e99e0ee416b107f51d2b7e16989602158c45c06e33,
  0x69d932d8f9a8a1b81d12a107df1195965f3198733d239812c74ca83841162492,
  0x9168214b1434ab332b4b45cc34187d5d31585ac5f5eccf6a3c3f3436c3b48f8c,
  0xeadc978604684e4933a87fae901128d26983f221c700d56ce94e5a9a30fdf1fa,
  0x2b4bb4ecbb601b72919233624d01be77a564bf0345c553486cbd45330992d959,
  0xb6086b3856802d36e1ca62c9c8206ee2718796c7407f24ecdfa4eb269a6d99d4,
  0xe4f6e595080e8b4baa9857f7da81e439c09b8591169fe91ac959944b15d10b2d,
  0x169f751b7257aeeaf9a610611736df349d4463e5e1fb8854aae34988b28cbac2,
  0xb1ec4ee82187942467109315d2deae358c364bfe5b63a7619fb061336d1d6d27,
  0x44315318354feafea37f7901c5cc04f5cc44bfbb5ed244c3540588a22d1e21b1,
  0x4b1fece2b1ae5a328d80399e47453a72d56300cdfd60d798cf180f8c437cd087,
  0xb48308cd662f470320d3eea4ec82c6c4ad23458450ea5cdbc8d22d5e078f627d,
  0x4c64e8c512c6f43c39410b76eb751828648286dbf26b4e358f9e7bfa20d8a992,
  0x598e85c7e856e0c000371c472fb9bc30438b8e84fbb6e6e19b457bb9c01e4343,
  0x69f1f45ee795d8299fb376242a58e0ab74d231af93a8609777bc0d0a2c2cee78,
  0x5efc9a767eb2df2a0a1ae81563aea3361c457bbcee279143e7cc314c9311e5a4,
  0x7daf1fb9852e1109cd77ea083980a0ff922105314e73a680ab529b5c88939ff4,
  0x3e82c5291bab365a97a301287be17ef3322778643d630ca2349c464c114ef71a,
  0xa6144db5200bd9b8411446a3a37de92563195717eacad8277a62e169dc94c45a,
  0x49f93328165dcccfa6b0ceb77297ceb78acae69dc8292500ac6a7c7b8026ea74,
  0x4195da3fce61213b9626f5abf4d3c918c90347fd00a229ee3c05c3e4ac665bfd,
  0x3756c83c119b00075e00517978636cd29c36f16f118f6b8ecbd9462e3a70817c,
  0x97c8b649ec46d0c6629dce4aae18d040b2acc8189dffea18e0d19c8a7445b98c,
  0xdade1eefcf0fbe33024338b437ee9f73d4ed04bcde66bb16dca1731f0cbe39df,
  0x1288a2c61c5779a6c2b66427148f71060963d3afd32ccc9db065cca0a067ffb0,
  0x3b07e5262fcd2863156720065f64e7893ebb878eec09a9b42555a1f6b2f71dea,
  0x61f7d8c7f3ca33154856e9017dcbb364c9ce44a5e718debe554687c5e370a595,
  0xe746b944c0098501b97616376c268354e8a58b34a951bcc4861376b34f51d026,
  0x44d4ece8e2d4e22c2581cbfa7729f777fd3b6e43ec86035b81e02ce25574adee,
  0xdb7eec18243aed20eb741e4027cee15737d1f309e2f6eb81cfdc1d436c2affe4,
  0x4a0766d720a9925c8a9bbbcdce80269d1e88ee610496c29c76fe49e46e0359c4,
  0xb5b3cf02b4ddc8fceb3f48cbbf822c62181e5c12aa4dc528ec65d16ffa715202,
  0xf9d201facef4b8c42cacfe88d4e0fd869e1ad35a0b2d9fdb64ae8da53dd7bae8,
  0xcf1093ff69df88c47f43b7e499785fff7c9e1607d3ac57b1430cd48ee54c3601,
  0x3e5132645a42592d5402ede8aaadf18d90b1855c0278532a87e4fadf73fd565d,
  0x7fb6dc729915e37ceddc6000f573e1ff9216f058b55a855f1f43e70a362479bc,
  0x86dc6ca262255b7298088fbb62e65c018cc75422df3aa91ba5a6f2158845e2a2,
  0xb834a83be0b6f83ca847fd31829fa0f74c4456f8ecf08dc23e93f083a5727308,
  0x6e71e143290f45dedf0b0d4f6ccfc42c154f20c048d22ad80b0b0e94488d3974,
  0x10a849507e2f13519dbcc14bed3f34c7f896d1a491f9fc4df7eca4cb53921e76,
  0x8fe322e400d2327f27ddb2ea31870d721fa1789aff985481d62fdd3dd83f97fa,
  0xca3b8e0522fed6a97dff8483f3491a3371128782eb9b52cbbee31719b4bf7ead,
  0x57ad6effd2446058a847f214ace6a11c612088bd20d780ed9dbd529d6ba1cd61,
  0x2805845261cbcbfdd1b1ce81268253d58f2ad8c146f7d6f7e9c4c588971d06ab,
  0xffdcadb4bbd1287c1cc255562b64803051134bffd23417af69bf1e29c3529694,
  0x92a0793a5da88b4f1267601c6aacbc29b6ce31e7125e1fbf7a6b936294d06073,
  0x6109dcb333a6db1f158b2c4bc8d2582c5b1fe536de23af610d7498038b23051f,
  0x18a0a45bde899c6612a1eead00de50151b9db55e8de0696a5036533961faacc6,
  0x68269b874d5cd8925273bb71d2a1af75902dcb7eed4c5d597d085d6f769e8b41,
  0x8763e87227e9132969bdc195cb6bbcde543c1460b2cb42fbd8e8014901386b3e,
  0xec79de5d9e2498cbc774782f853bf0cb8aff39150376cd191b83aaf0bbb6798d,
  0x8f2acfd93870fe8497c647fa117ad3d6cb81647d46e5dbac6b485c466eb92f60,
  0x114396651bf786c8d61cd1b1eaaffccf0dcc6d63198f2837147fee68e672d96d,
  0xed22b03a2ccf076642fe45b5ba124fe58fbb1e26d955a6a4c9352ba748f12ea9,
  0x15c45398942e7c438486c96ce11e3443935a84bc79f827f6ad96fc962ffdaea6,
  0xd3af78fcc447a3bf6798ee152e44ed1381e750405d425bb7a0076d06b69bd4ef,
  0xe5d5da9d446779be59118f932a162fb9469aed1ae1c64c5fd48bdbd087b6f98a,
  0x245faf951e50f79fda1ca16ac0c3f418db642151d2c43e8335bab4de4fe80d24,
  0x34ec7df2af58baba80ff9bf24508308ce26d7d1ff738e6d2e0744d93594916b4,
  0x9226991a08885b3bce15b72aab01e2b0bcbf33ea1aefd315aaf5ff20915e8e3c,
  0x28d6b056030b98dd46099be98c35e420b340d9cd8fa07aef6bca07fbb002d7cb,
  0x1a81d74dc395272019b499cf6f3c4771c483c50345797733b296e04df66b50a5,
  0xedebb22a4b5b57d9e94385524c358f0aedd0af0599a52f113ec51706006c1e41,
  0xcea19cb623de08c37e9c68b39ee0d7614d52fecb666d165fb7e7b70f90875d96,
  0xbfef2c3c7811745e7a737466a397feb3d0fbba633a37b871b331eee12993d6b4,
  0xf818dd0d016ba7ebacdb0ac92f4f6070446dc2570e58e88550191bbf58d30d86,
  0x5dd13832fc2de56d3974535b2ee97ca54ea162844a3f55a1b104401aa3c63bac,
  0x18a96d6f49fc0d1d9eca0a5daca9f5c6d38aeefb903f2d417a8309e932ddb87b,
  0x7eea703913290bad8ce1262817857218ff57a9ec9518bd99fc93438c3bcbaa1c,
  0xda06acb9f9ea6d33bb7b3dae0326cde293f9d06d099228086ed13c8d1306be01,
  0xec087c67d67c7667f86f82dd675dc356eadb74c1213ce8c515ef36e5ecf75db5,
  0x2a1e5810973b699dee5d4889609877d6e4acf1e0c9d0ce564caefdd33c77a33a,
  0x59ce732288fd0d8634b6746ac03affda85e093c55ccd7310b3bd04bc2a778398,
  0x5b1015420d8e5ced057b74ef3cf383fccc94853cbf2c210c4916acee647bd348,
  0x8ac03fa48410edcce05f47bf04222cbe840f8d3a0d6523852709fd9ada47534e,
  0xf638cec3802e25c680e4287f059a2059b837ddc59a85911420e32ae4f1210576,
  0x658d8d7b37a7ef0da294277f729108c1210b4678d6a255e2692df4acf5e7c04a,
  0xb65073c062b18dd2c5789da84c741908933245954b723df13c304e14365011a5,
  0x71935d002fb605d5c15d73bfea9d8f06404ca50b4f6e27115e5725527c0cb4ae,
  0xb7ed1514213ce71fd58e00aafdb4b73e984c8696e7cd19c581c2f958e1098af8,
  0xb8ffe5ad82def1d3e8ec2ba097ae04ca49d567042aea86eb8ee85959048ea665,
  0xde0753947caf4b8592a44b0e5842b3b71d650463e9fd0de1405d17e3d0d30e0f,
  0x577d9122ea7a7a9eb80cd695a8353f571bcb7afc71f7b7468d89c5c65801ea07,
  0x5ebd477e4cf519921d3b8b85a56415ecab9263ecc274198693eb1e1266500df2,
  0x27e84d35382d2135ed03a52b5581d2ecea4cf9fbb51e19c68a007db4d44f39a0,
  0xa8bc3f829a0138a9f72707c7f4f23db000e38505b23e3db3ae6f0cf57675ecec,
  0xd831cb9617e7232edcb3f968cc7d6f029abe6029fb5c9296007c7e7c2743410b,
  0xec8450df30e7f9d402a4002b5a251819935ec84097f184f2291539ccbf3a1a9c,
  0x6fd6bca9eb10142d59314f86e37421dd197531401843a07f89f94748cc137187,
  0x66ec29dd315b24460f06010c2aee396b44b8d430447899c2efcc15e2f5447766,
  0x9f7949ae5d515af71d05a7e98a334b3c2544decc080ff6caeb602d07b4656042,
  0xf17d059755e4f546bac43a1bc2c46745e033c71f2057ebc36a1eddc8b56b0f16,
  0xa7b03c62bd7ef76910efe347b845cc7cc8e0b38065a13ab2f36651a329b64d70,
  0x058b3ee2cff2cc261b4910cf14a9c6ef991a635602fd6ad6541777db6a1cf7e9,
  0x2174f91c995ea777fb1ffb7df4d33bde20fbe6c34a65b452c8addeeae8dedc4e,
  0xec699194af6c253c13e7389b42a72cfe99ba389aa9a8b3a43e68d07d07028b2c,
  0x454cff8c2133475baed4a4795b1102ca9ac748f47e8d616ba7aaaf4490f54471,
  0xb131a68247df04fd76334804abb05526640de32c26c35420951102935e5b24df,
  0x83141a4d24f301d40f1f6812e2be39b4deb56f02c6b2cee37ccd65e62351f78a,
  0x9f6945f45851ba2e6bb9aba603d3ffcdc75bebee194c74f4beb833de981cebe4,
  0xac3cfc950d5ab7f608d8de00756785ab95689391d89b26d5c3020b2af05e7e55,
  0x7ee9cfb55efcbe9f26059b37c4d3c71088cb268a05789502facafbc9e5b7f0e6,
  0xc9a083b192acd0e7548c6973eeb1fa99d1691556a93aab155667e031da628b09,
  0x4e11be8cda39bf0c2a08c5bb4ced7d621da02abf81adc79a9b015105f0f11579,
  0xc18629a2dbe99403852d3caed6165a02cc4c1c475268d8529b8c772fb45c0019,
  0x8668b5cc6b6cae3dbbb7dd1ecfb480cd4994165eb763149fd76521bdca1a6bd8,
  0xaabc8d65a8e88e7855d469be3c39f2279be11c7dfed3d7774fa0eb0bb63f77a5,
  0x4badf4e38eaa82da5727e3793c950a13be34b5daab837844ad88bdcea42deaa4,
  0x007b5ec53cce451e20e04516e717b45d68eee5174b1b18537f406bfe160219b2,
  0x14863d25ebcc130c6bea9e3d5b2aab52bcfb716600600d49a751a2762f8550d5,
  0x4ed5d002bcd635cfd4624590c46192836df47ec6ffa767c01ad6cf75273e791c,
  0xfbb75c0d2b30ef477b7dbc4e561d428be5627d70b014e92110f5bb7e6aeeca49,
  0x747eae56113544ffd602b5719ab677452e9b213edff1c1906d9110b79934fc62,
  0x06c7ef27269a916670dc97768491ada11da09b7f71c97c0824ec7a3a3908ea22,
  0xe19304237aa65ceb6d31c5508a6bfc05118c23c481debfd600f19d390c232644,
  0x1102a9b7bc5bf2768a35f0bd4db8e13f167fbe4a30b22b1e36bc4e517555c63f,
  0x2c4cfe28ca89512ca13f25defe24d6378f2183c35fb934377a761950af50445c,
  0x0987d96cd038cd51f95c2aa0934445c5c2fb4d050024d15bd32bb5d479915522,
  0xf5fb3ada08430914edeb37f764a06fd95b62f8e5b72b0e9875184184b1893c51,
  0x38316197766f9a8baf3025d4a6b3e469440d762666ed912534909892bc2acd97,
  0x706a319e8d22b14d17eaf316b092860a7b5ece7a47226256456d7a5916276ca6,
  0x9875415c14ca10ac2afcedf2a063c6fe7b9a7a5c228355a951a1e8c2992c068f,
  0x2be0d4b0020ff87857c149bed9b5141ed14abc5b8c29bec9781a34566b104510,
  0x21dbb57d5c7292f10892b366890e1981b5bd1111936d3a0839168abd326af619,
  0xdfa21dc4b355de640d24b2e930bd5d60f97dbe7232ec12a46c4835b47778c2ec,
  0x17900e986c46e93a8f6e5a5e2e6871f3bfd2a5793508fdf6bcf4998f1c808c46,
  0x1888cb9587eb5ffdc68f7df7b6be34e0ae656c259a87cac15f289b80af93fa25,
  0xdf3d8cf81fa56a54a4a629e5b0b3788ebf8bacdcfd91bfeccc1c624b114c5855,
  0xf5bfd937ab11faec4dad3ed1673ac6256de27aaf21c46a5e3950ba07710d00b1,
  0x0d0dc9d8f38beb26da004414e210bd39b13fc31c2844b2de419c278c9ca98222,
  0xd0313b6763cac3bfbcc434ab276f95934847ed70b337ba752d59a1f199ddf5f5,
  0x0b6a432976923a5ed8010975a983bfb073d05a004c30126de7ba88fb26b33908,
  0xfcefdedfb1dc8df10afea189739c9424953386670c7201c025aae9edb85da000,
  0xf23a457d566d865a586eb21655a07857f33a0cf18764490e21d64e53e041a2e8,
  0xd1a42a4a8ee436b42338b5668c66cdcd359b876fdac57e04b60932132c0d7ba4,
  0x8c9e7c8f72ddb68015fcf63dc6c70855f4e08b024f2a5211cf16a4367a238e1c,
  0xc6be2b4252ff1fbb4f608c8d2df1fa115d5a757c48aebbe9d68162bfeadb91a8,
  0xef120a8f43fdcfed49b8f050eec3a7818751ef8000f8754067a95eddad831700,
  0x5c073edb30d99feaa1ebe774fe0ae7a675708188206ba6c8a8fb54401976b2fb,
  0xe233fc08aa80a5fa8a3f2670fe59c36f86726354db932b2347c63488565cc09b,
  0x6f8ef7f77f049b8a1fbe8dc175acfdb295e15d089597ba7f61e909ec805af3b4,
  0x71d20b9c8524f0cb128daf508d4940d3a96250729b57875359e0005b84b37ebe,
  0xaf87711ff3a197121b8af53bd29492370b899b7a23baf43e03b10d7ee2a18309,
  0xc7756ec53b323efbd5e84e450e2edebba32d079c865212676afbd8bb165e96c3,
  0x5a4599169b6662b2df2c0ed2e569982cdd851812606da22b8b45c0aacbaebb1a,
  0x0e1bdeb4a673442c01e9a56e8701255ae795e90c233d8a9ccdeea1222983e628,
  0xb87a1b8274add16cb200ec508819569ea5adb0a4384c663cf27113b7088164a4,
  0xd640ec5f93b6845d8b8f7ab0e0e6a0729a07aa0250b504e43769162510a66276,
  0x6d1c9d15873ad75cc011bed6b691557454f1822ec2dc1baae67c43209fb35603,
  0x1bd4bed740bdcec639569d4c748f447ca850f6f12795d0568ef18c430576306b,
  0xe9583a2980e1243fa7744e44121df36fb2bc15e3dffdd8228067e90bb2557f1c,
  0xd1e467f8143c01175da7f30c3525617cb7d2b0995765be35797f891a42255a42,
  0x8393e546a09cdebc7ab003e3eb733d8cc1192d205091549b82d3a2d1044faa55,
  0xe90722cd4574f555a285ffb5cee154e9aa0a1dde6832fde2a1a01af08b2503eb,
  0xb57e2f405e1661233749712e6ce90f429dbbb067b931115ea520cca27691ef6e,
  0xd666a08d31279f11cda04b3984dfe7d0157221958fb0676785872a4beb736186,
  0x9596117d74e4d3ab44732a8ae48a3c8637d49a358c881a4e290692f752286a71,
  0xe0bb27644955232f2eb3b9208de65176cfeecd875613c4b1102bbee6796c863c,
  0x1bf79dc313562f7b1cb78de4736dbf88bac484b8fbad4abc5977692d6488bbff,
  0x463cb4f932c81921da7d577bf624d35a0da0ee901b5791d457a1107f7978695d,
  0xed4b8cf7814b5ef78cf07af0af46c83e16ed1ca98b9166a00a4a524382640387,
  0x1a31d7e243be41cbda7db77be9bc35c87affc6e9461c32996193077b450a719b,
  0xd1ead56a450dc67c38fd1dd3cc66af15d581bedb7f4fea5439ad88301ee43d16,
  0xe52c2839f528c5dab692004d0717c782f46250700eb59640d0aae57d3517a4de,
  0xf60b6d5b9d47446029279da0b1417964f72543d5ef995afaf913681745fdac62,
  0x79343929c1576204c73b6ee82529aa8a14ae5726c8bc5c784bdcb027421b70c8,
  0x95bcc4b08b0b3d387aab8a602a02f4b23d1e310690f7c080ccf3226838372693,
  0x8cf1af29b107fc5a52e312fd1826e4a4c91e773cb55062a404f469b834d6cbe1,
  0xe798dfee7ede61886bb668e2095f7f91a8e8fd050bb343e9c563bc77ffba3f27,
  0xe0ecd519848d94327aa461857901af7854a2db678bde47967b7d15f0d050b1c8,
  0x5d1b6ee196ec831fe9bac2f96e9d1cd863e572f269e35c543719782733edf53c,
  0x5a1e8bf4e5b1472116c2ae1102f432ef150f02157d6c2fa77086d130a7448948,
  0xa6193e9943c2e8b1b193904a4f871f5014e66e4aeb0a4a5e85f141feaf41a0cd,
  0x1fb6895a2072300a8440a3a3906ba82e0a820e43b4cf79481c406d4783255b50,
  0xee9e784c4e5d18479ebe6d51576c7f0f5f34c4a56ea8532515f698a2b9bf581f,
  0x31c696fa0a16f53522b95c63ea407592960bb107396593d7610e17e5abbb3792,
  0x8a7a03c459b0d1b4662723778aba0673b7c847edf258734b0d125d2096981fd3,
  0x27a0a9056a50ae40eb987c8da2abb6f24e5894b1de7bcec5d730812e437268bb,
  0xd00737cc58cddc1fd924167846475ae99378221d665356ff5de8237dd24e7541,
  0xbc3a37d79b6244bd1cef8677114203581e4623d1ad3112fdfa43d7246f9a6086,
  0x9b24d605661b4af907f24849db6cbc67c33dcc8b6cb938072a355c18702dd858,
  0xa2707dda910c0cc08e9f12b6fbcc6757bc738c5ef2ceecbc082b855e665e0279,
  0x661cfe077c283d7040bfa92036b18fc587446eaecd7fd0eb778e5283073bf067,
  0x052c4a7e55cec86a5afc08a1aff4a64f1734a9ba550988d05437b7df809d5903,
  0x0622901208c7ed3fcf199cd33f83e3fb98b250936433a5dcf06dae2243b2df51,
  0x6a9e2864e9f7ef603f0b5ce4904f8feb8322dfb4eaf0b0f9a3784eb44b3ffaf0,
  0x76350f509ce2edb29a38cd80f87221487c3ada6d18074fc245255470ffedf309,
  0xeeaad5d523ffffe4badef984594b879ca8c8f34065cf5217f67550dfc58b4e44,
  0xeca2b603eccd1c6233da0fec918823607cdc04b8a173872e531408c9819dc7c4,
  0x697966a9a9ba3a1c40b6f52bd3d829416bb6855f4a18e3894958b098f7d1086c,
  0x774992f85d670ea3251a1f07273ca0b1bd6ff9d30d4510006ebe8e2533578993,
  0x81bbbef26104e5fe39f0efb6d953b1ffc78708904efa5fab0a782bcb376909ef,
  0x2c3fbf05e0450f9ce58c04cb83b8bea738e48cb76eee7d917df1f258cd3670e2,
  0x04e4fe65860f5d81a5a4a3c1cfa64d1920048d0f06527c4ed43c78b91dd1b569,
  0xbc6cd3abdc8320619f9eb607607179e87c855f92d68aca052ea60d6149658b71,
  0x1946c8f680ec598ba94e2cc1f2945828b6ed08b00001d4eea664de676a1b3295,
  0x7df982e83f55f99228e98079405ca3c1bf92e1fb8a51ae6ae90d069f29efce37,
  0x9d13c33dc9fa4e34b7ea98af48dbde01fbde125693432b8495a738315b14aa77,
  0x2c3c56cdb50158e08fef04b11dafd5edd25c63103d42a36a0ea54b7cc377590d,
  0xcdbc0a586caf36c87a43118c6a1956090592875f5bd4a1ed1796601b31f8a756,
  0xe50f76b2d74cf325d5633722a798d2922a0bb8590d66aaa4aea6523643df503c,
  0x9df9e4c9d36b0e1aae93f2ccf95052e26a030d4fd2c80f714c440bb2661c2c03,
  0x1acb355307a7475afe8cb58689311c8183112fe222e810e3c6b9aa68ee753dc6,
  0x313258eeaf606d935c072373fe632e99d1a7821f46611573b7e1f3ea3ba04064,
  0x4f3e478e6bd71b475864ebf68a6834f8936bed7e9fa5f55ac4d2caec83a833c9,
  0x99c402988d57a900e0cd62046541b18a4937e689bc975466fc470e9082ca3c95,
  0x4f52a653985accef3c8e4cc1a263d5b88068544a294a7c98cd95fa77d42931cd,
  0x3b0734c4fd3956670ef6dc567e467a208b8f4c6c1b41acc4a13f1474a25ce461,
  0xe2cdc7f3b938d8f14eaa8be9c9d13604b9922d32999d6b164413d887c63e2679,
  0x139d6b39d3218a5046b73978599c8c277add91dd4a218a72465dd3a596d0d51a,
  0xede8805561ee710db3bea66905f55b981fbf08b114fa1771836f7a69c638608f,
  0xee457bfed9c409dd1064d46b6973f5b34451ae4ea71dad4354b711b46f9943c2,
  0x04c2e79b92bd564bde3204c5d97e9b4b3ca88395b450e7523ce23daa0f07e85d,
  0x4aafd2e4cddd93e5a9bb778c11a20f13fcc1b13b1f92920b8f11fc6d1c3d0230,
  0x41ea6d5af118a6e71709668e5b4272efdd969b1e4ef836bd109e411af7f8bb2e,
  0x053a9bc9bb0fc611fed33ce19c073ed8c6fdf58f0391c2c1c9735ac7066a4d1c,
  0xd2ecbda0d2156910a116d16470c8b02238928a42fd6d4964b6b2fe389d840d80,
  0xbdf3d310479a766989155782536e10cfe52bbcc22f220caacdd60e06dc34136e,
  0x79cee6d4d8e7d9f1d771b748ef158e271347a7b72bdb7162bbbc6fe3f677fe50,
  0x7d2842ea35f42548054df67e35aa01f66ec886bfb244d1bbf37186bbef2597b8,
  0xba6536899d8e7d1980b6602b29488709c705bcd570e45e8d01195d62fcb089c5,
  0xd3098b6b2e1445802019f751d1c24358311bbd5668c18eb3092721dc97d75f50,
  0xd302dd42712a999ddd1e7617db9bb7ff71646c913dff28c107f4325557a12bc9,
  0x31eb30fa2df1fd346e274a73dbee262afa976f370da29a249875e16654fd6322,
  0x4265c58a1f768ba42773c417dbdd14750e3273762ee510478b858b47bcef6701,
  0x9f10e5e8f87003c5dd74e71d0dabe46c07d4db6ad5349b814136c87d1d1ae36f,
  0x72bb2104d0b42db494f674c00ddd5abc2416ca766883857bddaf734002cbf1b5,
  0x58f54bf1d122950eb801b290f967dbaa19b78512e8a533b1f17c71d97ee5840a,
  0x3fd8177db53702106392d3f2ef141df2c38f2a25ac570bb785b7fb1337ee6301,
  0xb0e0d9e7184da12bb6e9c804de54d38e54f4f6fe1703395c4b35264efb6268bd,
  0x549ff1f482f69b97033a2a48556c6e193019a9c9b03268147f27b91c186843af,
  0x5e18dfdf716305bb8a105ab9453a8d76c2897c609fafc0bd6e424d1e46a6a178,
  0xd48c044ad809564c9616040c47c39147fa0a344b3c657b1e78869e83d93fc7ad,
  0x8a27e88834b77f514a24faa49c9f832b2d83b6e57fd1506b8a6014000d830c96,
  0x532a7194eb8034d0e5f5723f8b645532c2a1e3e88163ad5d9bbe11c7b94fb9ab,
  0x0c9d9d30ce6f1c0c2364923911e74455e528e4351d61258a930a3fef0a3369df,
  0xbd394fa71981e7da4d5053190f20f0fbb0f05febb710cf02d2956d4629d311f8,
  0xae57557dc30077f5c81d51b26b9fc7c0b3a7067fe3481145aeca2149c971db2f,
  0x6f14469c3bb8bbb11047079efc2fc05fcfa82ab2cf1fdbd388cb4ea93d287e5c,
  0x957f020f1c5aa8d24ed4795ace7f189e0f90bb02ad09b301e0518c116c4e158f,
  0xfcd494f13e731c0d17a5d59cb7aee642baf88e97a342123ec57e14fbe304a1e8,
  0xb2664e6d9fc241c00bff90d195a7f8e4bce168b70dcacdf6a2a851e8254f5634,
  0x3a4223cdb7641e5377e7cd5a6accf46213295d1c269fd3d6ae8ab16eb293621c,
  0xec8cf2b68a29ef5025699c3d127751e799cd6ac0cbfa1a16b701fc02afc0854c,
  0x4c6c4252e0469a8ac09dfa40c8027b5996d531edbee5d61ce87d2405059521cc,
  0x9d6654b3b8fe98390351ed1588ac184259facc11df78499c2f10a8efb3b47e86,
  0x87c651b195b3d149d9ab4a0b3565c5160859b560c3bc80799e16904934105ad1,
  0xf0c226a6c4f0773a80c84b66c1b217db906c31c08249d991456a994c43936200,
  0xe26f93cbab8f3aabd529682d24101f64584650e0258469c50463be0255b82fba,
  0x674da58c37e152eb4990e057cb31023fc7bf2b389a4293119cd9f349502b13f0,
  0x388a7a96a842ac721afcd78931e085d54e610ef174533c3277c7178ce7b2eae9,
  0x9c61c723ed03748f97c3add507b8963b9f7e5563090300dc843f7993b0132871,
  0x0ad83bac89f009c63daacd9f10aa5fe0aa5931991ab660bf99e7e5b70826774c,
  0xd48ae1fcd067ba827cccbc6f507a12b886484d0dedbc90e2d45abff464e73334,
  0x66abfb0a029ace07fc96afbba2ce7adb9dbca1fca4488e806e58661058e0f61f,
  0x27ceed53c681185569112c8331e4a7710ec3d1957a15ab3ea252a26b37e0b851,
  0x7b95ad7a928dcc4e578e312c413e2bd38ef386c9b94aefdd8643e92420ad3462,
  0x0d97e3a05330417782cec4b90257a683c79a10cf6537040a119eb483bf91d2f9,
  0x9601ecb0df6b5206669bbfcfed4840e0d72f5160be2e89fdb6ae64bdad05b0e6,
  0x597cb9f2de9d7606513c75761a7ff1e0aad7f7674ab5e0c3e2d1c9a863811cd0,
  0x197c4ee122c49cdb39a805e200a1f8c21bc0c2b439e02dd6291b0b7c5e300a0b,
  0x68e676f2a7d9dc4c12ccbd45d2c1a12b724f5569612f90edecb048b76efc80e7,
  0x144f329811f42170ca7b12814901fac2d55e5f0e419cea14c779d0646820dcd4,
  0x41050d7b7dd183fe93f193104d206574410e56c027802bd6f10c8436b924c2a9,
  0xc3fc9574f1e7fe8f42f1457d1069e2aa689c26c56ac7ff55d87c53ce28f29f2d,
  0xc094ef8278e54e3b202f6bb5b945691abb85144adf1e384d24f114d393506bbf,
  0x2edc7eb4e33b8ae46e9f34c51b6fa01fd934451a97c4b4cae65c44ab99df7999,
  0x0f86937a9b1ab79b42a6e15d7336c4e757d23f43cbf8ad5893e0842f7299c40e,
  0xa1b410d79aa2d27702c23fd2f5bcd2457be53f8d47e54b32690409817d33e72f,
  0x44cbc0966186b0cb726576c8231751c90b74e74578b3e31148a9726231fcd82c,
  0x3959925177fa9770753b7fab0beb79058fe153a29214b003b122a5a2a8ea7535,
  0x1e887f26c2328a434d3abff793653f20591b8f873576386d017b6bfec1f1e629,
  0x1480abfb95af0cec274af45b1a417277a4ec72b16ede64ff72929c1be8056626,
  0xa8acec771c7ba623bc51d8a90839ee1ea7f3491c0ddd8bb783d3b961c3f5fc24,
  0xf5ce213742f4af366d75f2643149325bc5baa2d5688107e76cf2d46c8f3802d8,
  0x54775290311f2e227f3eaeb2e08332241696d7b0d654303d4376991ce7d13187,
  0x6ef26d8d237ca8a61e5a714ab656f71b3f0783c2775f4274851455d5ef694873,
  0x4a2b5891f6a2e970d06ffe244ed70867158ae9acd9110654ab73274a5f7175a7,
  0xf07699ad687387ae12f26eba22dc7e39bb334244e720791619e08bdaf85284e5,
  0x42d12322622706bd704214edd867e522286928d8c36140f6049b065073605872,
  0x353295014cab2ab3d0910a9d9a499db376f122456e3fda538e4b85e365a36a11,
  0xaed6dfec9106d26834a70ab1db04d7599b96a4653bb6d3c739cd0befa0d2a808,
  0x9a59a07a61953bafee79cb3fc42f6cbe1f2a095d742ebb9e1da2a7f8a59155e8,
  0xe5109f159f349857c2866a86c830b271f761bd06285fc63b484d1a90bef109b5,
  0x9910ad49d56129e891f37bbc40a5f1000da5bff0322bb59364a127a94a592357,
  0x7b2a7a449cbd00c8744c8ddd180bc4da125a406095d316c21e347e6aefc8e328,
  0x8a128a28d4caa301f3378008d059989870c85d33ccb6cbb5f57f90309712111d,
  0xbdb4e29d71b2a9cff14f33887dbaa0dfc3ca0155505cb33b618c15b5206338da,
  0x3a5d012b8404260cfd38fe0d7ab84d79b4cc8a8bd1c89dce07e78d7665b61f53,
  0xe26e5615223d69aa4323aec54755fdb703d1187728f4caeb90acf3425081ae8c,
  0x3a23b5d7f5321bdbd69354a96ba5aa508fcf5a7e36d5cfb4e5125cdbd8db2068,
  0xe4e00c77870142308059e45d1f9b339adb67a53b1f97a08342557d34890d7f94,
  0x72ab5f7a8f737e2b7f5c8a4f9ec947e79d682b03962b787ec129fb558ac5fdaf,
  0x894f5f024c056fb86e60fc7535bcdea835743c8594e5d33c3c4b5c0e5280fe5a,
  0xc953391c9c387b8300e1a4f48d0ad1865341d79464ea426ace583b0186a2f534,
  0x6e443c9e5ee6fff08863e98d802b6f798b6a83c5b7dd209611e478cc44b44465]

/-- `MDS_ENTRIES_W_3` (feature ed25519), poseidon_constants.rs:2896-2912. -/
def mdsEd25519W3 : List (List ℕ) := [
  [0x0aaaaaaaaaaaaaaaaaaaaaaaaaaaaaaab894a6946ca51339900c4211934e8d49,
   0x0c0000000000000000000000000000000fa73b66fa39b5a0c20dca53c5b85ef2,
   0x03333333333333333333333333333333375fcb92ed64b8f7ab36e09edf645d96],
  [0x0c0000000000000000000000000000000fa73b66fa39b5a0c20dca53c5b85ef2,
   0x03333333333333333333333333333333375fcb92ed64b8f7ab36e09edf645d96,
   0x0d55555555555555555555555555555566b9d03987ce5807f40f5295f822309b],
  [0x03333333333333333333333333333333375fcb92ed64b8f7ab36e09edf645d96,
   0x0d55555555555555555555555555555566b9d03987ce5807f40f5295f822309b,
   0x024924924924924924924924924924924c1fda8d84fecd43312732ba9f90d522]]

/-- `ROUND_CONSTS_W_3` (feature ed25519), poseidon_constants.rs:2914-3104. -/
def rcEd25519W3 : List ℕ := [
  0x02bfd8f9851d1f9a4dcaa89e020674783e6d46975628e8fdbebd0d9fc65a6bb7,
  0x0606ddfccd8f40410b7b00e081b3332e0fb550604c35a4ac0878f377a079f7e0,
  0x0a684320db7bcd61a20fc37eb5727a3634f4e91020290b6f256159525e4677bc,
  0x0f61194e615a23d9eea116fb57862edac47d0ca825db657fd7190f87e638746d,
  0x0151044ea56f8049f6234c98ca402a913923b5b44d5e78aa1c42dc5933020bd1,
  0x09587d54ffe159a876f31c5c21b61732c6bba5860fc89601f0de43527bb1b8fc,
  0x05915d9009d072c98c26ab9141d0d75d7ce85ef748b711b881c3d0f0fe0476ed,
  0x015c0386a816cc429751a36fb04c2d0faa7e308c44b5fe06ac6814322e25cc96,
  0x08628ea953d9417500115041717416599cdb4cb996f2880fa714fc5c035092b4,
  0x0d0ad0f0dcbbdae016c2888cbeaa7746ca9f9d740494445524ac22cb6746586e,
  0x0ec17410a87ef7f117c833e9245793cbbdd0c43c056e7256525cdfdbdab7b612,
  0x05fa0ee2b7e468d63326b8b34c0b3ea15bd81b2bb088387b4c462662952be961,
  0x01287d1a6f4bfca8ce2c400e553c0616e95d7a58a2fbdbb2fd3d2fdacbb98e57,
  0x033d3feec5a4074e731827b1668904c4f18aad29eea4c93ee7740f64e8db3126,
  0x0f92349a75320e636fcc6e8898de20136dcc7a2fdae9700d19a0b29e3be0a370,
  0x0ef1dfc3cba7d96bb32fe92eabc0f78841e4bb2f550cf377787edfaeb80d10e1,
  0x05569f32b037625fc1dc26966d9b145f8bd101e65061bfbe145a99e20fd19aaa,
  0x04e75cf05535a347c393e5bc272953ae210527df1cfe765f1836947d9fc99389,
  0x04977bc616df96e25a662ca0b12359f7a74284f001248a728a4e46b9f0dbbc2f,
  0x0fce502e54a9f9b3f6276da8f197d839006894d0f38b2a9ea36564a3d9aebc79,
  0x00ff9e673e34d84d93335b1fbd729e965a57be49627e11ddec8d5720df46533a,
  0x09f0a449778dc1dc3cac6dbc295bfb11ce7c582939ebc5dc93045f9b33718112,
  0x01958cc08af22930b784587498137ab695c9b0c4e948cde9a6a136e62f72cac4,
  0x0c9dd7972b98ad5ba266058cc90e734266f816b296d4ff00434ab070a88c755b,
  0x083fc09e539863776daf8f6c51640dcb9f84e0ec24f0f95919849be466b15e45,
  0x05fad39c6824b916517e9d639ca0c0f0977226b0c6eeb17cfb3fe8cc8a22eac6,
  0x043004129177fb9984c0cf1b59a84584041c4622510c965ad4a9a46a705d26a7,
  0x0223669a7bc6fefc1f263c9322b6adf8b2abc4f92255eaa231d5845f665ca130,
  0x079ad561e3f946168c35bac7c8f3f5312f4d8d8b692158f8b47fb624791e5ddf,
  0x0321adf640e90b42867301427cf2fceaf7dbe0cd8ea6d3822cfeea25989a2c67,
  0x0acaefbbff0fe974f31ee065131566dd73a4d54bcb8c38bbefc8558907dbc44a,
  0x0db749ce9d71e885c949e99883c59c2b5224fc7ba7ed31dcae6d5d0df69d3351,
  0x04a709d41a3d198ad5a659e9212a671bde3e7fb695368d6c8bbe1fd29b23d7df,
  0x0d46c6a763f2169e9a1278eb922c50b1f0eff4a46eb0b4073ee8f0dea1946750,
  0x0daeae4f46d5e47315630f2940c4e4eb2e286c0942262eebe26fe4143a261567,
  0x0c5d7e083a4648c4ca6a21d0ac4f98080b7318eb5e265cd869d589409b4c3ddd,
  0x04b99f23c63a16e2dea1ac6f527c2e42d9d201e3d79b05fbe8fe5ae9b0ca92c3,
  0x0bc8da222eb6e0c404b57ef53c096376462f9b8cd0b362b468fdccc7e4d9809a,
  0x0b44b34b541f20dcd164f25cadfdcef8ffa7b03aaa5c6159bc20c6f52480fbc9,
  0x0624c9029a029b2d046cfbf901f759383881a987b93a848500c1db350c53ea12,
  0x0c3866b18be1a8e607ab0347bc21a34cc1eb6d33f3ffcc2270271e3dbb8c6d66,
  0x0211ba7c253a7e5b65b3023c1ead95aab7c40d65d17b6cd69bb9ef0c4d851f6a,
  0x00eacd434839fa36804cebe4a0732ecebba4a0bbc72220aa34a7548731680cb3,
  0x08b6fa3c9e81d9b8a13157d8a5874d3e6c788cabc48d918d39203e235e1f9793,
  0x0344eb5c9de6a7acce99297ae084cc8be66089c661b5905b5e1089fca5fb00ec,
  0x02385a4e70d3fa11af76e74f2a27740f046c03cfc464618a26a2bbf0f5038b5d,
  0x064e58f143952b74b137d0e000fc0d649ef7b3a5c0d1834b653a0c6b90ee405d,
  0x08c4792e5cc97d6982b7fd4f2282947536075e271d4cddebbc82f37a47beebe6,
  0x026da130036fbc5b036789430da4733562257343ae8caa1ac4e246547e233eba,
  0x0e31fe9c9750c7fb6f8824fd1482eec2fe329f67d740e4df2ebf4f623beb21c6,
  0x0c6f3c2e56a02a97e83241e33634999f16c24da5082d33f5fa642b65a2d2597b,
  0x0cdac02ebbc0d7a83fdc24a24fb11f642bf22b90f099bf5dfdb7c27ff5515797,
  0x043562646b45ff8d07000e757a9e6df2ed5481e03d6eee08f2cbe4fc91b40d03,
  0x0350040e99c46c82a028798c6950c0f984c2410225deaff968d9ca9656f50430,
  0x0644164e4b60cdbf74c4dc86802aa5947d200b40c74285b1cd6cdc7a19b8f6a6,
  0x0b14b0e2ec09426392a714be98eeb679762fabd1c428619cac745897826b3264,
  0x079979a3e9b86ea2a5214542eb7007bcb9b3d88b9d127a3fcafe5e08d4f2df3a,
  0x012e5873f084a893ff4d8465af08a4bdc9fdd3cf0ce2c18d9625d9b5d004e6a8,
  0x05edca55011191c507862be8ffe232391e23bacddbb3418bf96bfbd300fe4822,
  0x0d38126fea95a661782c80948d7157a9188c757ec6c9c636c75ca18bb1b9a2a2,
  0x0e2545edc84af20137946fe0ae26795cf7a8d4acd5b59c54c014cdae6d24cf78,
  0x07c181ef8762247302975909b14c064b78e058d6e19b224cac0fa2ec9f947e1c,
  0x0ba7ad3bef4ef439dc5921b0fa7ffbbd5b94906eedde737b0ea2d476b986764b,
  0x051a6386a996b22b0e3b4ec9b5c7b52eac46333d9e57bbd8fbc070cef542eb09,
  0x018c4c2e4e9eded83275a7a195f9c8ddc082a5b4c182a91638e23fc9e4e50b6f,
  0x05ac9431f4fc36c716a8bc79bf7fef14b43c86e32892e1dbf0736954c4a2a92d,
  0x00575cac382a36fa0d3445bd73dfcedf87b3381c6ec32791c9e99bf2c4f0666a,
  0x0c4fa23dd5847a23d8402702e0a4d9b75bfccb466129284c644d08c0e9edcbd9,
  0x09820d212e83e9b2dbb6d1aa1fa7df6bb6436021c1943b5161eeb4068d43a831,
  0x0b00a9e055bb766e6842fc2f736f26d72124c76117e5c50fa4598fb81fd88807,
  0x0f085ed1775fede439326321f497415d88f9ae1fa223190f85173d2318ab2dcd,
  0x07eb9a5b89d458879cd5b7f3ace2ee94aaa6768b526629c96edf8a749c027805,
  0x06a391e0fcfe46cd63b0c688ca8cfcb1fe0b27fe7b00bece4c06d7c116d0a583,
  0x0f4c23133fe07ea97b37b918228eceb1d4e8f52da16327054053e75cf1bd822f,
  0x02510c5d1a64784e5cf9b2fb9c0bad507e7b9baeee20d6d8d3aa18abc3072557,
  0x0b5f1fea840ca37472a36e5777901d17903900bd91a36b2b869f62a740d2748b,
  0x09db50948ecb706f301bc06e9e861a08b3de58c996dd3f3c15aa69166041c488,
  0x002c86619ab3407de5f8a39d8da8748ba5989bb980704493cea1317890f9e804,
  0x07c1d068b858fdf4e0708f9f8634b99f7e95ec11ed5d1e087164c177852b91d5,
  0x0dc7d7003295df0201de3df34ecc01484c68c1e215c1c7dc76ab954342c24a5d,
  0x0363bd67285973968b7bed056fe4b1d9d7d0979277d8f3593ee0ee70a3d9eec9,
  0x00f12521c4f5dba6ba6d841d1a3dec39af5b6e01efb6b186ee8c27df58dfd6f8,
  0x0f30a8a5041db65a7eb4a98345e8b1fc25fb373554adde824527a0c009fbec0e,
  0x06889d57ba5a0287551dc8ca3f0067aff22327e835ca1048dbd4cc19db82e106,
  0x08262c54bf90ca518c358cc50681b5c56537d7bd4c692bd2dda9d2f48b7abed9,
  0x0ecbffc432bc5d0caa1e11415350a280f02007c74f8182185bd3290a7b0d3108,
  0x0c709f9deb1b4be81df39c5a2cdbbcb3445aa849aca442bbfa5e4983cbb706bd,
  0x022060eca2a543e27253d25d45d10d5bb07809aa3b4c9e24654cb5f734e32d17,
  0x013fb58b1a8b832479c6d2d00fc2e98ae69b8db06177b1c85f0b3baa04216ceb,
  0x08c1162df4a85caba6df429b04ee82584aef89e318eb0833a34ea04510b8f11f,
  0x072d96c34887d754373c61848f53739ae4b7d1e7c27164ca076f724d1a7aec11,
  0x03eb21bb4d80b67da366df7b6646459590aeaa7800111cd053d63b1305dc5467,
  0x034d422bb875b18cffca4aef77f9ec0665a0dab795c3bf13dfd2028a6c9eb80f,
  0x018079ca2ccfcb54ae2c4bba17a096c6834742fe17b43391f211f85f2e00652d,
  0x03c4f80ce36ef2ec1b03b838c520b5279517c66f3137617c37c4ee48119516d7,
  0x00dfeaf82aa8e3e516e1e1c2a010b2a4c7293333a85d7b9bccb8ed00c9348744,
  0x077bb24cda14f59f201f2040a01f51d04b728faff5e8d3ac0165c46a88b069f7,
  0x0f0a99a631edcdcf2cecef040cb26859b02a099da1a9119c5a73154703796c2e,
  0x003cbc1be60ba09587f0ba25b6a82684706f0d6c93d4058b83333df24ac1ced2,
  0x0a75373165421852bb1e48adc821407d4af62bdf8da32dbaa901c119dd7f657d,
  0x07d0a7f1ce645ad34a08fdde801e90c4de3000a20c7be26485ad8798ad8f08e1,
  0x0ace545bcb159e24fb6424c8a2cff9923de56cc1150921e4423cc4b65a953567,
  0x0b74e6349481db679febfd6028fcc7bccabd17f5704e7ffdbc9335f380b2c189,
  0x00a19131e568b1f1092c83c9d0abe8459a159b32de0a3b478f093571836cbeb1,
  0x063700d8eddbba94b0191ff2f1306455daa407005eae81e4aa7a4ead5722a811,
  0x0546013d18f67a7ec1505f4f3b97bd6595aba0c3d27294fb864a903063ec6fe5,
  0x0e2362d021b9400fc5535fccae98c308b3a2d71854b74ba38fdc961e4ca54b86,
  0x0b35299dcf6949b233494a10c6c2986e5cc8399b431d8cf6287f6a4de06ce674,
  0x0a4f05a623e48a4d52b1cd24f8ce346a6fb8c50e9a6f5bdbfbbaea19ff1b4c3e,
  0x07549141f6739d5987a22dba99f57070d3c1eefa6ccb50591c3707a9514765bb,
  0x02fc6b20ea61a9461ca4356d95423de66ff9ce8ba633b9e80f5039a2a52f292c,
  0x0eb872d59fac0d8870a1045fd921d319c0291aacfc8a25ba44b166f6f553ed1d,
  0x018a15ddca1c374f28fdb061969e718148c54688dbe57f0dbd4b6bf6de4fcf46,
  0x02ea9e2eb945f43bd13f183c8fe7241ee7926df17b0a4966f52d0eaaaef493cd,
  0x0dc166a8dc018b001f57c4e82dc2999ba9cdecba241895cd695ba3d2e66d5f2a,
  0x04ec49777e8969b66c3705d75cb6d7fc1a3182df9ca5b0fd10d6b6ba1d2fefe6,
  0x002f842817ac47af6414001c82313a4533923c96b8be46eea9a05aba881c4302,
  0x0b79b3562e81d39262a6d08e7d4d0317d369a4fcf88688243715d4b4d3a6bfcf,
  0x07f7f85e2f81c2784ea295a0a3b45746b970ac8d2535128801a448825bf159b7,
  0x0c3e6f3b2a1f9183bb97371a6eeb89122443edc28bb8dd2bd89b41af5aac3c67,
  0x00ec67553f2952a878b34465dc98a1a0868512f4bb5677bfd85e7881a5343fd9,
  0x03819bedcb8c8cac9c9095c5fb2a64d87135e700ccedb50fd0522c36dd27d7eb,
  0x05df018dce43213cfd108e7ff96c74231a093ec3fd6db90542da6f45b651a790,
  0x062ad56b945bbc155bb1c84f3676f24cb32cc8985986e5a3c4e8ef7073f78cab,
  0x0dfde6f891cab27bb216022d48e0871ebf19d689dcc6becb1c787092b5c7f33c,
  0x073fd0207063d27b93ebce8b1cdd344fdc9f5ad1dd48514a0ed9ba4863e580dd,
  0x072460952ada82315083d61cb247abebb5aeda30d312185e1370b2fdb132b7fe,
  0x0acacbf7bacb7499bd771249a43a3e528e0177ca6bae4feefa0c0cd9d4cec871,
  0x0a13de7d5c8e6b833cd9f37d9e6590196460c528533e762bc96b564d0233a8f4,
  0x096846982c9482928f7ba229b6c980a88eb98cd1a3c932cdda2ba9b9f7099135,
  0x0e92e5c74df42537072d85e21d0da734df53d4ffc64d7237eade819eec3583c5,
  0x0dcee124ffc829c1ea85ebde4aa183919a988213a01f323f1b120a7448babfaa,
  0x0aea8ec45d9626165d01e08b40dbe2cbef40a049c0e98cdfb80713f433597fbe,
  0x077bbce7e763f0faa96878493f0dbfac75c71e09ed1cb1d73eb3f5ae80ccd500,
  0x08241f30cb3436b1a233c77ae849226c48c5917ed599e94057c144208d0e0277,
  0x0912e27ffe1989e19e444905acfe3baf19139e974aa254054783495a13ab6937,
  0x0f79c64ad5c11e26a10f3ce4e678b80202620fa298bd6cc83f57a7ca67e3fb45,
  0x0154bcb985ae4af7798dd83ad2a7871f2fa271505646e5e51ef9fd943297dca0,
  0x0dcc29379bb758f36058ac1084d5413f36705c1843e9d3d52ab7a3acbaabdca2,
  0x0214ca92f875b99e5c53b0decaab2cb1fb41204839d23a948b113be2a76cd450,
  0x07b6f2d9b2bbff1fa97e95a056bd881fa7897e658cf72e9ea3a1e23be9bf21cd,
  0x0e673ab6e86c398b01c1ae767e59640e1cf94d1cebadde98335c275a5c95a750,
  0x0a580644bbd321c130fa0347a5b64fb334f7ab0b827e59dcc36874ecb08dda88,
  0x0cb6b164077cc577604663f98a37fc4ffcda37e8a170ea24d8045b0e4741cb32,
  0x0fe22523dfcd14c644ee7caf25b73fdfc45277480af4a84ffd1b2124fc50962d,
  0x059d0c133ed67ae665acad6b071fd63aab1614ed557b438ddd4724baa02861a6,
  0x0b5de37ba7d86c618383cc779b77307c41d3fd31e3fb69e0a02062fe6f50f989,
  0x0b2c425ea36e3c68fbf63433480c0d03f9a0515079cadf5c53b22059a60b4f45,
  0x00beab46a74e6463cd662fce4d6d4709a2253723c9a37d97680828f21677a946,
  0x0d53a6da660ba25d8019ec11c2d66adda2c7efd77b35e3d2eaebbf020ec576fc,
  0x0099eac13af298440f19ea563d6948ba1f6bcb5579f0d316ef138b80bb343e74,
  0x038095391f57ca1801b4318573de645a8bee0ae1ee414e7ad35b66984761f8a6,
  0x0a9d9aef97212c6d6a71095061133585db5f0e91cf478146068abddc1995c141,
  0x049d4473867706fe556d865a183e88e5bce91c27e8a2b570ab4b588476829748,
  0x0a4b5806213fce349b922121a5d55401b1c8179db0a64495d4bd865487fba38a,
  0x038bd6ec56d4a2d07f5470759d6ad5e8a3deafff21bae56b4bda8d59ea6a88c8,
  0x09f1e99f831baaa1f8e7b9cf0db48c9cdb4f6434c717193bcc7e7e9abd12b958,
  0x04b3c3f5eed2b245d38d17d7d68debc73119617ed3f3b6c383b0ad0e2e029c1d,
  0x07c13f68e1fb071f838ad74cff71a8e5227c5996a38ab95343e48949f6547bf8,
  0x0b5cbacde0eaf637b6883b7c7b468314196b19b2a670f77cd26d2e4f6155102a,
  0x0a00ee1e0165ee1f728e38fb128dcaf90505072b04d68197006fd7ff62a7c3a6,
  0x011272356618b4a01f38300b10958304e1c1fb2350d028200342aed51b87b4d4,
  0x098b467db1c619ec5743a5e03795818c85343f8f60b1f941bd1e0553f1a93614,
  0x0b5ab8f18d721dfea921b71cbc6ede86d9c1e3383f06f114a43b66fe674fc5ae,
  0x03fdc69d53220ee4b0fc06fcf995792c78af960f3541858b5eb86afdfc58a0a9,
  0x08f6e652ea811d698d86f7f8f46c14f3ddae5efffd9333c6ac1f6d8b4866c312,
  0x0f9595bd1cb4071e23bf8fd0ecb657bb71820f38fe4cce945621a316b7b70bd3,
  0x02483c77bbebe5ee5cb9f1567cf53bb96081c1e8dfab3c0fbf43cb638b5b4148,
  0x036a701fffbe6bfc0522ac4bfae356905d2287ea15606ba358178c9b37aa8a98,
  0x001ced362de764ce98ceb4130fc9cb3617d63525d2b4f1641ebd24c46854b53d,
  0x0e931a1ffb0f7147d64690696e15cb689243d94d73b987e0ef12eef141d765e6,
  0x09bce6f1476deecb48d8254186b7ab4bdc7fe454e3f73ecda587479f9793fedc,
  0x0595a32c4209ae9cca10eac80d1df9caa0cd89441139db0499303d0f04ce6cdf,
  0x0e910b4fc8d66d3846ad32f328db02951bc5ed4aaa2d17f1459f8d8b0e22fefc,
  0x01bda0ec5e0b2a16427f13defd05b1fba823af66bc60a5bb2756a8719cefe4af,
  0x0fb1038fc7fcd835935ecbbd8a42ab69de567f36caeb43a4b4842cc27027cba2,
  0x0d49339a2257103af7dfc01ea6c8580d0bfeee722a1245d8c81b46910254fae7,
  0x04cfcc66772f41add6cc25026d03f40b9a4706fe07af0f9a93017f2defb4a53b,
  0x0d6041118b7f38416fe01c1ffbbffb31d570dbf978e66d622088117d4b030016,
  0x09c8dfa6b5ee4a8f3f3e574574af07d56fab2d95000566c5b0355dbe7e24498b,
  0x0633a773522be37790c63f52031e3e5769fa4c5145a924335ec5df040fca4bc3,
  0x024cf05ddd33f1db77917c12de307d5fe8b0b67a0f725830fd7e0c9cff437964,
  0x04fa578394a5d106a7bd9f905f5d52c0d5c96407a76fe078a706c7b3b6b39d37,
  0x0d436b31a2f38f30440bdcbc4c3f7d7816b16265d55dcfe36dc878748d880fd4,
  0x0856d2206595b8134516cfad2b0967780b2e02c3e3830c47108afbe160ed3499,
  0x066f4bf44f2efaa93811850c8e4f571d947d9c8a7166cbd38c426af08eda78c8,
  0x09bf5342eb5a439151eeb3118658e0a9f7b68fad52e234d54f1b182e64b503b0,
  0x060410a750fbfbbe37bbafee9f18c525a7c79382e8db5f2fe5196c1042126b9c,
  0x0de36eba02265704f870c88a4d3a1dad4efc4150de42afc7e36cdf0770f30bb6]

/-- `MDS_ENTRIES_W_5` (feature ed25519), poseidon_constants.rs:3107-3143. -/
def mdsEd25519W5 : List (List ℕ) := [
  [0x03333333333333333333333333333333375fcb92ed64b8f7ab36e09edf645d96,
   0x0d55555555555555555555555555555566b9d03987ce5807f40f5295f822309b,
   0x024924924924924924924924924924924c1fda8d84fecd43312732ba9f90d522,
   0x0600000000000000000000000000000007d39db37d1cdad06106e529e2dc2f79,
   0x038e38e38e38e38e38e38e38e38e38e392dc3786cee1b11330041605dbc4d9c3],
  [0x0d55555555555555555555555555555566b9d03987ce5807f40f5295f822309b,
   0x024924924924924924924924924924924c1fda8d84fecd43312732ba9f90d522,
   0x0600000000000000000000000000000007d39db37d1cdad06106e529e2dc2f79,
   0x038e38e38e38e38e38e38e38e38e38e392dc3786cee1b11330041605dbc4d9c3,
   0x019999999999999999999999999999999bafe5c976b25c7bd59b704f6fb22ecb],
  [0x024924924924924924924924924924924c1fda8d84fecd43312732ba9f90d522,
   0x0600000000000000000000000000000007d39db37d1cdad06106e529e2dc2f79,
   0x038e38e38e38e38e38e38e38e38e38e392dc3786cee1b11330041605dbc4d9c3,
   0x019999999999999999999999999999999bafe5c976b25c7bd59b704f6fb22ecb,
   0x0e8ba2e8ba2e8ba2e8ba2e8ba2e8ba2e9e9c28f8f13e317d0a3f42d225f6c0a9],
  [0x0600000000000000000000000000000007d39db37d1cdad06106e529e2dc2f79,
   0x038e38e38e38e38e38e38e38e38e38e392dc3786cee1b11330041605dbc4d9c3,
   0x019999999999999999999999999999999bafe5c976b25c7bd59b704f6fb22ecb,
   0x0e8ba2e8ba2e8ba2e8ba2e8ba2e8ba2e9e9c28f8f13e317d0a3f42d225f6c0a9,
   0x0eaaaaaaaaaaaaaaaaaaaaaaaaaaaaaabdcc650c1562fa6f2610dad82a8c0244],
  [0x038e38e38e38e38e38e38e38e38e38e392dc3786cee1b11330041605dbc4d9c3,
   0x019999999999999999999999999999999bafe5c976b25c7bd59b704f6fb22ecb,
   0x0e8ba2e8ba2e8ba2e8ba2e8ba2e8ba2e9e9c28f8f13e317d0a3f42d225f6c0a9,
   0x0eaaaaaaaaaaaaaaaaaaaaaaaaaaaaaabdcc650c1562fa6f2610dad82a8c0244,
   0x076276276276276276276276276276276c18248e23d4be8a50087c82524a130b]]

/-- `ROUND_CONSTS_W_5` (feature ed25519), poseidon_constants.rs:3145-3466. -/
def rcEd25519W5 : List ℕ := [
  0x085d902f451eee85cdee2403ac5402cef4cd95e24ad12e23a9ddc318888da06e,
  0x0f9bb49d7a7a24a3e417d4e185ac534781ed82dff01ccc7e66bcc3146ad0e089,
  0x0debcc8bc4b514a908ae70076e0298276096a45e9b6c21a0cb22da5527a71df5,
  0x0d4bdf45f089caec15bfe123948bdab669d782c6c03ea89dca710054b3d65699,
  0x043618e0e1541407a948a27a4845e94bbf526d82d9d82e9a97a56eeeb0d8499e,
  0x0db55a794754b3a0f3dca794b1ae4f30e4a74c18d175232da542c0162bba2896,
  0x02112bfdd9128c6f015eb92ca16749c96b8ae5f8235ad8c1c5ee75ea8fa56cc6,
  0x084c591f5a629480e762056bba319e52228f0846463851ff3c5bef14e82b4a22,
  0x0a1ff1ea37bf13f06f44e7df17c68090fe971ddc242833281696314f299a501a,
  0x017951ed32a919ed4d9c186fe5ec93a4c1fa51c7cec7632dc36662974e115912,
  0x0b8eaed471374cdb346f334834fe0bed223f99c1760f12b986141edaad9328b2,
  0x0c966903ebbcd28abcd35c394063fd058cd85cf1d5c81664555b326dd97f8348,
  0x0ac2f739e165af70f3ade383ee3fb947e7ef5b35969cece8d74dbbc1ea186b70,
  0x099186e2ca907e7ee40cde117d9392f57a39fe4976f000a8fea9f3daa33e5cea,
  0x0c390cf8ce055a9283f230660f9e64f81cef7f5f2754403f4dbbd2479abc8584,
  0x0d14b2fc0fc33f928fa4948401c3d5507ac2a03192261cbf9671640af1f991c6,
  0x068d2c0843b73e55014be0ec13401563dbdd6d7a6486ee81c492edefc67f819d,
  0x0e7af19ccb035dacfc23b263d3f43e4790c0475cfd154b2961d89beb9a20a896,
  0x0f96b0e8748b993394906c0accf05895e9b3d6f9c5ba8e4d3976d590013388d9,
  0x079a184d1a1840b80d143d406a73fb5fbb6d0696db0b65c4354c4d1aa24274f8,
  0x0560361ebc26f2c1a436cc9e55a40022a0aae4f2e630e70a766a9e2ae14c63a4,
  0x09db639419ac0878ab2cebf73cd6b86d26e202456701c2abf6473881efd45d8a,
  0x0f6bc0a08ce36def65e4e4b2819df667db26844042321e9076550f4275a5c522,
  0x021e9459737c9b72979745c84fb4d534eed5516998f2afaeaf694b1942d4317a,
  0x05cd1e9acf732a93f5fdeee59e8a38cd3d5fd8262da93c4e2ea621c248053a69,
  0x05ca6edff3163e60a54e6aab0cc70ddda3083e984f101094969ad5aab3cfc193,
  0x0cc63422fb81ab22727a7d124ccbc5ced0532a04ec5768d820da77c4ec029b74,
  0x03c75d483c6a48adc7f87a3f2e6a5b93379babc78c394006b4b8fa170d061c1b,
  0x07b23a371baf483df997bc726199b21ab0f40e0812830fbd7b9a3dd5fb164165,
  0x0d855149f8204843a9f16b8ba62b27dbae8d8990191812feba20bbeb75816ac3,
  0x0888afa89fba97335e43b0aea3f82c23411f855a17e752e89a498923ac781f3a,
  0x02ffc4f4a971ad354ea81a9394e9fd09d1669e9e30400ec31db123e5973c03f8,
  0x037d9c516c33d053127c295e08d5daa08560d4802344189ea329db8c2a4f5134,
  0x09d65a01d7873645a6e12f6feb958e9672243e5af88d9f95bf5860e30e945cf8,
  0x0166c3d85e3a4b51c20434e46f639a43308680c682879de5755ded5f9f220a8e,
  0x04782478be0dd50f34f9bb41c294d4bf2269517a84736c5e9f1e423e8f27ad00,
  0x05c91e618f1eac4dde7dbf34dc40d3a70e94f00112ab3e49cb19c526d8a4e636,
  0x0994b3a5d0e85e5f690005a0f241b5d1be5d11f9e2fcbf16d8f446964f0c5630,
  0x087ea0d0d2bb2c5ca32aec2e918d2d2577c017d0d529a4d3abdeaa27b3c5ec30,
  0x0e8f7a9d01a7151a0e933350da9d408ea64e4e10d87a7638d0b54318674ad7dd,
  0x062da5cd842b3e445fb33cf8045cba4c23aa4dbf94d7ff2838e7f8f60d2cf139,
  0x0d3285b6b7553e7f14a1994a7911a748aad9addb65ccaae754e503a8bbd4566a,
  0x00f02d8fd63b35f7a7bbb2440bb013777233537d47f3a2a03d242cf24f688b6a,
  0x057f0193e5037a9f6bfddc5bd5ad372e7e4122231ae6a8d16b0018e5e8a4e67a,
  0x08f2dbebf82f9c2ad7ab786ed7eb4fdf71607478a9d461026c64e85c68e9a758,
  0x09d9be31dad19978c2674ae057fea9656732255157442a314a0cff3b604c28b9,
  0x0eec0e47e0f2d874ee68183ce096f47ffe46b0618540f5f3084a84ecc593a00b,
  0x02b278484209c8fb1ea980507a5e93b34d97de5aa6ebe34a5962d732138c74ef,
  0x0bd5a23b45f2ca214ccf694e1ecda29c72d7164ea6a29c54d6cc9347d4dea098,
  0x023343ed5ead9f770f11d81dcfe9776c56010c4f678d47d99cbd56703db270b6,
  0x0bcd909ac3a42637798353186cdd3904f9f42e3b01976e019646f01f334a7fc7,
  0x0c80ce5e57ef6f9f906d36774028a69286c8cc5145290a615bfc9050d6e895fa,
  0x056dbe8bfd979fb65e087bb194224608578bddd90bc1b10c39eacfcac4016edf,
  0x02d6238889b035eee88ae161c4ffeba555a1df9d13613460ffd7b79ea4021093,
  0x00dad2ff1021bcbe406ceb20aed1d286032976e45a1540af2ba4242ba71f46d6,
  0x056a1d9601102ba910e3998598029583d7c58322354d00757dbfe165e44db2d8,
  0x020ccf5d1ada831698addda66b51d4b1c54ad12d01f9716df461a85a9db6597b,
  0x0abc43796141b54623ab78024c2a1bef6c54fc09581d7351ce623c1bee9b0388,
  0x03694edefae8c01e5010bcde2b11d8dfe900a05dc8e648ea152625d1162cbbea,
  0x0c5786dc9a3a20dcde46d2e33325b2fffa2d86931f3a3e3a7dfc51b13d769309,
  0x0754265fbc004f561a9c6c9573875b72cf5283dd530923789d85b8d81baaed17,
  0x01021ac29f2d0841d04e5e6a5bec5e3eb296d43e1dfe817903e937156a67c976,
  0x060af2b209c6db7b650dd2cb5b1a35e567fe3551f4cedc7474eaf3859ca6c40e,
  0x0c7023e850f3150675cd9990ed25ed4139b0a557e794097b0d5da3e77fb4b215,
  0x010c0d1ab592b68196c43f83edbb501b02032ec98152f80e7805cc1418c675d0,
  0x0832366c583aca77d2354da12e55a26e91e188f7a23be85910b65534b09e46a6,
  0x0e9c3f0bde553101400720359308f23042a5ddc45dafc7c158f23816061e8979,
  0x0a838bea4eb2efe7e9ced4ec57aa999bf0ba1c31cadf8a49e0a9aae9160cd6b9,
  0x0a9960335b531baaee1517ce338399e99734a60e8f47ff2afc30da8770169b93,
  0x0c8822e45a9c88b9d6a23822b27806e8a0194086e787d67e100e7abfd827ca39,
  0x030de6331871e7674d5e8c098dd0eb37ba8eba71f10b3fabaec209f6d101bd42,
  0x0d8a34e4b61f272d13d1c60e87ddcec4ce090a16eb879dc1887e727971bd0440,
  0x08e9f1699a08ab8fddedfc7cde4e941c989c71f8b2255d2eaf5f37bfdc19a1c1,
  0x09054db1bfc51e3032689521741e60d1695689d781b197c5c53e9bc8cbe1c948,
  0x078b6bc3edb5698b0f86edd82b7d0abfca697d48a1520a82cf210b5e96f15d59,
  0x02cfa4db573bd037e64a1baba01e1c3a969668b30cc913ac7c8a7d734723ab87,
  0x0bbb2ce945ced7e6a60c6b304b908b77b4313cc2e8c117910a36172b9d9f70e4,
  0x0f22b4442b4fea8b405cd947dd479f8f175a09a794abc7b5a4cd0feda2bd4a53,
  0x02474e5d436a6f31a994f1799715756f136e3e44fc5fc96143b714bcdff66137,
  0x04a1974362c96f29431bf05333233086e47866075d483365cdb110165f0887e7,
  0x01a6027e7d0f3b2d9bad71e9196e158e3d7eeedfe62a9c8920424710d0189f90,
  0x03b486791db8de743cb5435aed838fdf786ea10db1157e31ee75bb917c6e582a,
  0x00f4f36d36527b4e9aba12853cbb7da2843a49848e198be68603a2117d8b4603,
  0x006eb4176f5ce048dc9f975a7862155660bb5388876505c388997f049e5ca31b,
  0x05e5bb46bcc19971194e80a6915fa125fd0a661812d26cbe80022fdc05083d80,
  0x00e034447d849a8f3b3682100cba5202946a844bb6b684a80a1273785edf43c2,
  0x020cc8c995b6ad8e31340eed1db0195d6cf15cbc39e72621747b1cba4bab8100,
  0x09e7945171c02dfe2d99aa18298e60dcc40b15496959028452ee70d715b9a130,
  0x0fce92ffdd872bab8ef2df199a3337b961a5fc0632b67049ff0851a4b0a8c987,
  0x09a8b26e26108c45ac9f48e8635593293541baf38e41dbe872aacf9334e16f96,
  0x06d6c46f8733539101993a4aabe489d77b9f6fcfcddfc162371fdde0dc1a0dec,
  0x0e188f4fac20f9e837b332fdb10ed78902640dfe62c18b257ba8b9f57c4dce3e,
  0x00938ac6fae83de39d7b691fbb23981ebca4bb543a93fcb7d851aa4f8f817032,
  0x04efe6bbea4b57ee8a68bf82245f92a8735bad2404a6bf3b00130bdb507bb3e7,
  0x09642182ac5325611feee862374b10521393637937b6d3bdad0bbc22096993d6,
  0x057e5c6cd121f9f40f870cd6622b9c4c5d2104edfe1759f97f5a60abff5d37a8,
  0x0cac17dcb19241982c3d1a4a72137ef7cbddf96ec20f74a25f114b60e4a25680,
  0x0b6ee63681937d6693e46b58cc557e3c4890fd57e928829afe3060f57911c111,
  0x0f09d1c079c52dbf8e2f9675384e672fd3b411969c8d0c969965de758cbb27a0,
  0x02c865fe1435ff10b7c913de7aae579ad0be2a208e3904ce9ae1fc55bd644a4f,
  0x097717cab92dfc45ac8147fa54d9051e88e5b6898754a9f0b5bc6ba48667e4ac,
  0x03f9fb3ecf9d5e2ab1cbf99c9efb33363186c3603df99a3265f78b1c5ff9baa1,
  0x0edcc01b2d54012f8b16fbf8e20777c11405ab30c029d7aea1159c696d3b2bc1,
  0x0bc94afe508dd9737526b40e9fd31917609fc9aa84a17b0becc75fe9482788dd,
  0x02d88236b4e46219792f35b7a54350a80f4fe8e52d59058a508014cb0a1e262a,
  0x029cd74c75e28c46e2ab44a12a4c92689c2db8b57ddc973c1544cb5b3d6eefc4,
  0x0a9ac8bbe40d2a702ec58c5b115c83975306cade1f5d408f6e856298d4026b6c,
  0x0f1eeecf635c10a0cbb5a7d46439211ebe538e8a7f7959f5d766f2d285623bfd,
  0x0fd39429a3eae830bcd06864a9ee0702dc8acebe16482daffb18f3fbd9aea734,
  0x0e6ad93548bee287ba3b1c70ca28394229879b62ceb1f499c9c3c71f463384fd,
  0x06a30f8ee13e1e2893bfe47023eec8082842ff8d1b10dd9e3905f677948bba4c,
  0x076865651f0a8686cb8b195e73cca062c890e21161a6e29e492d9aa38b8edcfc,
  0x0cdf954cb2ca77ba2c77b676c7fc04dc9ff4f41bcb5974a71bb218772680d831,
  0x024f3544c05c433f255190d83e3ec4f2ec0da46f30920d780ea4339c22684f76,
  0x05980fccbdaf081c9012e0f3e3322bcbf0585f20612279a927fd6f36dbe38cad,
  0x0fb986ff9dd6f968bb3e82d14a91a7230cbd310aca9cbe6d4f0a8a3ed853d454,
  0x09de71a866ad274d5cc25b534a64ae310da4337654ace1d09f405146ac695f1d,
  0x0a9c4447ca99f7023b89983a2f46e053e85425c323536647368b706163363de3,
  0x046b26f385e1e5980c1bf6ba252fb9bbc8bbf7178a5a44ef356ef958031f7e25,
  0x0e563ad26d5f108b25397d6f2e1ff8ea335c76e961c5f3bef91f89e94840ba95,
  0x0913929219bd8eb4e541fdcd4118e3f8b04e0a73718812837701f76d6d570308,
  0x0130bdef65285b9f309fc821ed23173f64e0ff1930413e0383252c8f8a82818d,
  0x08210f0682b39453a31ec42ff3986185cd8b2ce7b1d17a12f913ae3649eb83a2,
  0x02be5aa510ba7ca0076bac172c17cee76dd7c63edc72732e99e488c12ab98f67,
  0x0b556e94044807ad732457b4ad6315ec4719566767c5c7fda544f036dee64f01,
  0x05d8ad52f5ebb45e53ad69d11f898b692ad39fbf7245abe2824940b009695136,
  0x0ce8291b7163af3562c173db7e71facb602654dbff3adb683e4fbe82c95af0b0,
  0x08792f6f5342374ceab49ef93c528f85478a37bfb649c54b5bf01f589ed1b25a,
  0x030f2b2e404767d6c5874fd001355dabbfaa15d6523e4287a750115c982feed5,
  0x09978cb95e2820f12b01508a56b253cd8325c939ded456d843ccad8e4caa0366,
  0x0bd93ef3ded420a0b8064810f7c63574850bd8df0efdc669c84ba540956d7f6b,
  0x05a00675ec2852613da2ee37e240f60fce5d77c6ad28cb9cdfc38963de2ccccb,
  0x028b75260cb521f0ef5b86695382f4caa4cd07934bc95e9ec88959fc16cf1b7b,
  0x0d673e7f16f27bd2ece800ae9a02e9447533cb01b259df49b087a37a91d79679,
  0x0a8cfc7331aa3120fb8ac9c133982a1986825dea2e52cb5fe35f79f38c125ffe,
  0x0cf078f34b2e754f47bd24a62510348cc3ba546fe6dca2a4b8de6b8cd068e047,
  0x0cf425a45833d7ab15d0f5445449ff575531bab777e8c8c4aaff408a8e7e3754,
  0x08328ebcfd67542a35182c81c9e1aee778712f6ffd07f07b54ee34a76268a6b2,
  0x048029efefa010a9557ab91df40139143b4f97ef6d2d0431efca62963d4d3c11,
  0x05813ef55925f6365dfb41637dca1727b99361b330ae862cdad66a6cee9a765e,
  0x0e2db0dab034d9ae0ca4e9f3a167aa36bc1189f3833c4d52abee57ee61bdfc51,
  0x07f593f797f7b4e7b162982224b80297d855dbffce8cf6ef22beb2b9b84813cf,
  0x0a139c4450157a0de15d677acb8197e1bfe248390877599f7cb670c4139c3512,
  0x09d1c46c87b1e029477408c0e68cd5c494442fe0cbaa6d924dae19852220b15c,
  0x0ff4032d760525e23eb0d2ae5ddfeabfe5395e0196a348609d4a58ddb766bc76,
  0x0e9e8aad81d5a6bbdbea54031d0a6ad044666d1f73fd0fa07ecb393e3692faa9,
  0x0a5da8174c0e9569ae4a7b6cb2c13c852ba28b1809ea386a80ca3cd4c7569235,
  0x09b375a6451be3a6b11fa106527d961a0c3924316a50c397eae36ddb6a52b470,
  0x0eb12ec37f13c792e7a2562645bacd4717535b4da53b47cc629b2db4576afee7,
  0x071576df5409e115f73b332a93eed952e29bf475f5cd92265497d9eebdd3bbe9,
  0x0ffac6ba2df323044c827d3d6e809ec139f69e7f1a9348a2e87f0f7fb2903dd9,
  0x0bf12fdff93afb383a0f0a000604e4d32a0655bbbf73baaf785cd22af46fa283,
  0x01b350d7a0197bdf57c22dea8080a68b03eb91dad5e9ca28cf55bbeb0d3eaffb,
  0x0df43a56f24a8320c4930894b183f6c943a2815d996ea48aadc85384d2af74cd,
  0x06ea095d18a04270706e031a364220680d4a578b114bd851e5422f74b37c20f9,
  0x0033d2124681addb4b101418485a993ccf8edf50e8c82de07035f9ebb4d4e2f1,
  0x0297a5b5d0ca4defb6769623513de25c679e3ac8bc19f02e46bae6105ab9a1e0,
  0x0a2c7969848f561703979245fa0b6b6da6cda6a9a810acf21bf0950bba078bae,
  0x04c7342c2a6b74eaccd1ad06f260aa6181e39827abe8bffc087af5abddebbc81,
  0x0312e786a1df9d881083bbd950fc2406dc71b7edfd4263ea0a4dab1d3030387b,
  0x0799c1aa81eb9a3c0a53dce0fdc61cc35fab5e85c42e84f73c9f8f176cdf2c0d,
  0x0b12789388cb1a376739e2055a27b88d4abb82df8b42d445e9863b3908c63915,
  0x03abe34e5774d6ecb99d30482d1053df64f8f6141744a071dbe618bae125cea6,
  0x08ce99fc790521aa99417d259969125d69af4f35f660c841485f16aaac2bc8fb,
  0x09399c0eb84272e8658328c39c5ffed5bc0e9993eb197872090869fcc215bee8,
  0x0060ca1ea448fb22cfe9f54cf2b25b9acec91603146fccc1a293ded6e91d9156,
  0x08e7b1297cea451f1d45d1a3a2967297317065b037e402871d8fa4d5cf2b24f5,
  0x030e9fb811befa8613fe4eff4d7681728619fc3780131ba3243f0befa1de6ec6,
  0x0cc56821ff31338adcc9baa6e7cd2cea535a2c8158f258df7b0ed2bdaeb19e91,
  0x002492caa602d0f5effbcdfc51827818f45f08489ea75789eebe438e9920e6ed,
  0x09ab40971149877c767519faf7547ff7720a0a10c782e4e684d9b4cf22e04a29,
  0x07fe16697dc7b862ef56240480d474cb663f7b52e814a9ea8164a62adcda9b7e,
  0x084999bd3ef74afb8f7017902b4223792abd9752d622240011d85ecd32c197eb,
  0x0e2d2bfec7b5ecb08f1839a729cbcf46385c57373aaa4df0650a5eae838887ff,
  0x0e73ebb075e9b75d37d6244333f0588a79edf4e32517e96749034e44f21124bc,
  0x0e8d39dbb5dbe7da8e8c18ae99bc4886dd8cc3ecb7c2bcaeedba0576b186044e,
  0x07379c96a4ad13b2b59d5860d0b9faf56e231bcb9c73ab1b04f11369a1b2786e,
  0x004fee4b640bfa95351ae4e9459734077fc7e450c88a5092b51f2619d6328905,
  0x023351ff2a8b93661e2ae91bfc651771878cf0f8e09caf788edb0b67e19bf77d,
  0x0411dac532ef73fe0576270c72b58a47515b28820ed22cc083fdaa6c1ec605b4,
  0x01abbb0f6ede053b0162ebccf3d5c00e7e0c8402f0207a0cb7fcfd6a9ac7442c,
  0x02a0322178c179f76c92fef23d0c8244402cc734ff1cf9879a8e8b40fbcf7ebb,
  0x0b31c3a61ff791806aa01155f87ee61bbe0070e99c450aaa292e771089c1760e,
  0x05407074acf7f865ed866ee7b6c9ca6c89bc3b67d748c6d5d0bf74d3767bc69d,
  0x096a8b4a95a07456c44ed5ac50abb8bf2dde69fcc4588fe10be34251627d101a,
  0x015a98da21fde8d47159d5e3ef0d524498406f5e0255e267e59ee4d6f21bfba2,
  0x0cbe3fb7a3471dff9998c2c9f9531559bd8c782fb839d12b6e161a81ef42141b,
  0x087d286eab269e29cf73145f49c3979fd80301581ec6b162b1db9e2de389dc6a,
  0x04688d77f423d5180dd6862d1b0aaee08dee71cedfe413b5e47005a8303310aa,
  0x062efc8d9a7467cc5bcd03f56c1a079f421f36e9afb2e5fddd4bd55b224a20d5,
  0x052afe02d2d261c65e6ccf63ec896f5bfd1add71e48f94f166ce86ed6ada9e2d,
  0x0118bb6141510e13e0ec34e16c1a847e655e12c906c6cab7d8053a74a6a69139,
  0x0ebad88d8ce59d48b2db048069ff14c4ee26371a7f2311cf2bc1d1d553fe9124,
  0x08441bbf63c8ed135ab9f33aa999fa254f3a5de2f35e1b56f01c14607f1e2239,
  0x0f045c1410617941d7d22fcf6bff08c97660103ab1dfd1a09a95e69e58ccc0b7,
  0x04a33d2ba5d9ef389be65b76cea2325e33abc1146eaaa0bd3a75dbd9fbf13a6e,
  0x00d6a9361819e21606b3d2505a55bc906c5cdfc173fc9dc40b7219ab4ae740fd,
  0x0b4f6024740c7ecd65d6564e8a7650767d51d1ed710e95abc46ef361156e55a2,
  0x0c71122a9f698dc812354922f7f0cbd2012a12dcc2e23e02f3e6f65f173b681c,
  0x0dc837c62435c25e9cb04e93439f0d286657e57e1987c89c14def42daf242101,
  0x0118b566221168d87f81dddc21bd076b5802a27839660e76fdd75e75290ed8aa,
  0x0e71f2846c956714acec5bc0af563055cb16a5c036da96ce01623254c43554b2,
  0x0d5720cceec083c149c1432e38442607e0cbad4747278db62c79fbccb4476108,
  0x0bbd620d907aa0e9b1a8c836c03795c4dd3a0de925fe9637f05376c8b278d2e7,
  0x073774258e870ace093310c639c9e9fb25f2abf64daf43b2d577db18c28b2a7f,
  0x07cbad2f85205eba829469d8c039947ca1ecedb2b8659a8ff34a95b221c29578,
  0x067a8cc31107c0d014ad14269bc2d6fffa3b17fb005a66bd85f1a4c3f31ebda4,
  0x0a8ec6c303c6012902c6ce6f91ed4298811cc992e58cd45630a2f230ce2fdbf6,
  0x0893f67c17df8cf35f77f6dd2abbc954fcd012098424754ac0bd301004e1835d,
  0x0c8ce07b765fd21fb181b61f9cc4f48241806603aeb805e1a175458c5f779421,
  0x0d6cfbc83e5ef062157a9b1649483372056b530dd554d7aabb4a5534ed3c7a06,
  0x05341e0b88a367e45f375be5209ff0bb9ac8616a88d129591a01005517d7581b,
  0x07709a42bee42a5b29b94e77bec63a93bc1f24fcb5a4a8e10f20f754e34e286a,
  0x0c993341718749b188fee165905d0e10c478e7b2cee4825dc89c9c30c5ae3c95,
  0x021913f09b7f2bc281cf2cb2d21302cbfa1920f572e3e705aea263e9f8022ce3,
  0x0fa896977172d4ebf9ba0add17571bdfdabc894d27b4e3ddc19656ea14b67d48,
  0x03b02003d7cd730756285e2069b6e8da46eb9d34e23d57284070599f217f8c1a,
  0x0ad1ab92076b1180ee9c59a7125e235587e0bf6611007be16be651d094f9e965,
  0x0c4ded1c8a40445fd01984025ce868e3ad4616c73b7232b281ca4cc6140bde54,
  0x0387a72af7936f8efa3d82ae9513883b45a3c46c9b99b8b5486bb488d1e76497,
  0x0f8863fefd51c28b20c562b0ab3e86db06671420b1fa9a58f8966efc504d9e2d,
  0x00b38cddbdcff40890eda7d80ee892775b2176d2999615d30037a1581ffa728c,
  0x0df7cb50be9e9e068c7c8b6859d6b30a8f3227d4baf6a00ed3351626d5de9019,
  0x05bc71c672d80d3d44d25aee20a2a02efeaa05804e4feab5a8c59c548f208f45,
  0x0f91e3fa45427869b086244364f4999376a5dc471dffd692cc1d498330a964bd,
  0x0e206b60c3ddbb510013789e38bbcc309687802ec35834254b363a95c3777103,
  0x0fd0426eca4a1f92edcfbc2483baa19077826155bccbf17c77680adc457dcce1,
  0x098d8b53bb4f419b1afab3c72160d830d7a4bb1f4eec9adbea39c7c813a8ed33,
  0x0f727ed3ad27811fe72b1b59ac3f99a4cccd9e2870f8e2931320095c384135c3,
  0x0dd70df4624a53e3671e8621d5dfe421772f8b7f9580c02590712ebe6bb0bd83,
  0x0985341e48770bd872b1141d99d7284e22d2e0db429ffb474d8b1097fd38f75b,
  0x05ca2355ef4b09504f0f8c684afe486db9ec05beb3ec39751e05ac7891315b7c,
  0x0a87e191c0d8e7d48caf2565d4bd5a39005a605abe9992c58c804dc60dd511e0,
  0x0417c71e06a5d160f4e69a145a2311c9f1cc5d67bafd1a73b887d1f732c173fa,
  0x0ea94972007baed7a0df38c20b95ecbcd209994114a6d23b84f4f0e788f1b5d9,
  0x01d9b0a0607a60c7664a67e618e0df32ea7617b564382c6154ca727099928ae4,
  0x062cf0234faa301cefad262361f5465f7f8c3ed80b451382863669a196266f4c,
  0x00901cafafeb1bf508d92e8bb4a05999bb8aa81c9c9f8efe7f4b5bc3ce395d42,
  0x00295d482a5497b0bdd2b1255bc4ce8e3a9a507c8ba9fd142fdae81f8e17fb83,
  0x0aa3d96f44f6e3e7c082b440fe7a19cd2e82aa079fbdd4f283af261444bf266b,
  0x0c311be2d061cd35aee8761b01ed4ce5032c6e2ab3bf26000c91b41d74fc49a7,
  0x0bf25aa8d5ed44d81303369db87023a09aecfe508556f8bf192a73490941ef05,
  0x00b15c3fecdd608a3f4c86d56752d212757faa453fd3c7050b42693690e58962,
  0x047b8e56bb12aec6a114dba81b21c6c1040b266369b9c4a70106ba6d6ecbf450,
  0x0ccd14476a97fd82b552bd5671eedbfc2362bbfb34fad7f3281f53e6309a9104,
  0x0e8a8193f7effb2a5cdc9567514d73f9552b81d33bb5c72a64685990f7e385c0,
  0x0ca6750ab74e9129d2a2abfc49c9a7d5df83ef85c08743a6bdc8f3c96f605e42,
  0x040fb59f7de1c28d4975a9d2654b09989f8674c75d0d080e80e7dfff347eed8a,
  0x0d9657563eb039ce785d6eda27af7200f2eac33d71e4cc02062c94d4a93411e4,
  0x068ffb357e7cc7e7a2caa2495d766252d1c15ecaaf1aed36a42ec86290e2acb8,
  0x063b92fc6e5609fabd6b87814177a424c79cc3538e4f6eaeb37a6776221d8f91,
  0x01a78c2de0465f386d0b34cd11d432bf228478fe762574635a693ffcda2dc18c,
  0x0a6caa380ba21d8830735fc25e6aab2412ffa0d7aac40a2d1df9c58da3f818e3,
  0x0a4a67d4d93b4e29077be42f0ca79aa9be0d087eb1cccbaed37ba39da91baceb,
  0x0c0d3f861abf393389d6246a931ba743ef8c7eba472ca9607f48cc9fea94d7e7,
  0x0dabf6b35ba6727ca32b9d43e55fc8bed8ce766147be9d991cd73a070eee23c3,
  0x0324d146b9f204c47d676c176d1cfb827f893e567d067133c1796e2c0864aba5,
  0x0e0bbbb3a0d2be14682a9aafd899fb2d81decc46605ba0336caab4ef157d62c5,
  0x03908e7ef5fc029d1e5f16c8d259c624647f2a196c289d685c6a131519356465,
  0x01abea4ff646e6de1bf09142c10efd97f9238abb40dcd74fd91cc927052581b8,
  0x0798b59849a00e5479afcd60c226727f39e69ce2ecd096afc13cef952dc587fa,
  0x0bdb8c6ae9e98dc871cb093c592d22b3ae969fad3b207cc84157961c2f0623de,
  0x057d205df397ec5f52babedd62aa866495658dbdb479be19f86c6ea5201f41a7,
  0x04332f2a0c5419cee57677f1625414fb54e6598d3cefc98f21a674a4ed09dec4,
  0x0f673d012a55eac18c437ed681be94632303e72902356804b03ad547e1a5070a,
  0x07628fda187072fbff9220041ecd73274d5da1202f6d9986e68ce75f58b6b1af,
  0x087244d4b05b3a5ab31623a58cb7b5447bc85106e29a2f9c3a2fb9d155e3a40a,
  0x00bd3f5074643cc2563f2dc297db13ba5f52b4dcbd3ce80a867a1709cf164dfb,
  0x0cd799c2618581b2214cedd1545e88b1eb75eae328c5d7342a3b342dc7fb9e2b,
  0x01a85c6c5c45597d8ae1051d3bee2e621b0c35f8c5e491d7f74ae7ece9a9f6c0,
  0x0129862ca8de2365e12ba4badefaf73559cd46c604f6d8a5772279ff3c8851c1,
  0x0ff5b465684f388df0b6f7cb78a089e74e7567dac268b6a40ed928092b7e2640,
  0x02abcdcb7cae2d58791663a2108613e4abb845f32cbac424ac563606b13e6a8f,
  0x0de3545230d033c8ccc02f210c98898b78dadb7001d92e459cf690fc3c13748a,
  0x0ce8435e9441d85fdf1d0bcc6485353330589b0f3139233eee66a5ef3b70693f,
  0x0fde854d34d718f4eb8c64487d4bc2241d805e8db5919bb575f7fb8696254da6,
  0x05fff9ae602e423233368b8f4d49f6039e015ab4788d09b5fa60ba5768927896,
  0x027e13c47fdc109df54bcf2548f8fbc1f1525c1e81274bba3017f158692c8ac2,
  0x00a226429cc6bbb26958ce952ccd80e724662b51b4cd9baf8ea7bb0479f95e73,
  0x0cf3b4887ff510c044a4320877ea30879f89f1db61a15e387546ffbe86898364,
  0x047e278ffb8813e420233f4e417ee2c2d2a58d2b55dcfb6357998eaf3eb169c3,
  0x066a1d2e1b294be2b468f2c0daba6edc3d161141e4c090eb34819c042f53f5a0,
  0x050bc8e99a92a6168ae7dc87751bbbfe745836bcf21284799873d8dcdb29b592,
  0x0c239c537f3812b9444c956d25c9a7dac877b9e92eb9406b5673ce2f8996c5d7,
  0x05629916dadd8c575bd1fbcaa19e459068375ac302bc2499bbc2b09ff883f026,
  0x081ec3752fe8f0936c22b89fb47625571ea5db047d4e02fc7fce55fd8f36957c,
  0x045f2f620be96c0660e607bf62fde4add3381017e916af5b93c1e45912e822e1,
  0x04fc74524ece5318caa7cee944a4e343e051cfd912765c2aae625e7bce827aaf,
  0x022181cce443e755fa2e738a0fbb992c48978a6db0539f5fbdd3d0ce3f4ae3d7,
  0x0cdab37e9468db2e01185f41d24e19385b85f7f0eeba9293a8b7895be1193b5d,
  0x026f26b3639ea9878d889c4cde810feea57e6548a9fdab60c3123601a370d546,
  0x075825da2498f953ffee65812a057e7789f9d00cfaf6984d6427144a1305f9e2,
  0x02ea01991dc5d1aa253e15bf0f2eb59ac621e60506f65d30141f4f7b48a41612,
  0x01557c11b247613be642e632ebde2bf04e9d787b5230193e3c9d382c15c6fcaa,
  0x0c4977ec0cb47029c0230ebce62a200dc1ffac52edbec1a900256d704acc6271,
  0x05b3d7d4b5d52838beab15cd02a9db5be3a71229ba143c1efde9cd25cdda63b1,
  0x065b0202bf082ec6fe24aab233e8d087b1f8804a5fe6c4931845a5c6a259f766,
  0x09b1087b16abe082f5b05f2f618ee9834b41512eb613a98d0e93f8efcb5d5d67,
  0x092ec7c90c9620548d78b7fd25433736347e6345d82cef9c9ed7d5c3415b72a3,
  0x067eb10cd868ee248c42abab431a6cad8eebfad57e8637d8fe51853d79aa4c32,
  0x0678bd87a54fc0b2dbc88e45286a1f2f5076873ba62b47acd337f7ea0687bcdd,
  0x0ab83a8853f157d0e0311c6cc56c6575540cab7c814e9e7f7b004d573d189480,
  0x0f278597dd39a44f838a9fc1a2381adb6f945eadaf82deaad2491a93a3952bad,
  0x0aa8ca5b02b81572a848c6f3010a3196c3bfd0d736f6a5698a2bf70b7ef42f89,
  0x019d28aeefe63c7b6b93c04282e9b39dc8a5e43837faeece6e62aac47278d37a,
  0x01681b3ae80e91f8a37b53ed844eb3e5dd786bbd51cf6a725f412d84c1535537,
  0x024ffce4995453ab073a34918369983c81bf3050e0ef39976ed07f4bd37a127e,
  0x072c152b85ea7a7046a553bc44b4de7dcc68ca67222a525c5fbf8365a79aa123,
  0x057dff83889875fe4231fb09ab16870e55f5abd19a2f9123dc7857621425add6,
  0x01d349ab4cf42425069e7224a1d3e6122ab4c02f1c1ad4d5d5debea641f64b6c,
  0x0448759404e9f46725d468e3b410a81749876bbad772b2420ed88328e51653d2,
  0x06ec7e03dace03cfdd3ab4161a6d339c5aece509a2173ba7ad20c0c846d46e16,
  0x0a9bb600d07a5967508b8890a793e36eb29bd5657892a28ba67d8941d260ae7b,
  0x0c8bec50eb171d1c12552697a8d3cfd5f52ef7ccdbab2d10a7077f4341a450b2,
  0x044df6081481020919f5a9bc74d0cd39953f87df55384fb8ddf867d5b43ac2d6,
  0x0c72927783786aa3954f1370684979ba8af5186a830cb572c98478061e1a1004,
  0x00b3c892fae00d2a2a24e390e99c1e8288479d82ee5368b2fe6858f228d00427,
  0x03e82912631bb25a52ac6fb18ec4c3dd711b8edf18649fa0a864e06ab16d93cf,
  0x0d278ae1b203314080ab1cbc00e1e50a13b430ea44428594f3befd7f8fc5bccf,
  0x02189bda151f1db26699c2b8044f40c7742d3dbf32506ef78fdf507df959eaf6]

/-- `MDS_ENTRIES_W_9` (feature ed25519), poseidon_constants.rs:3469-3569. -/
def mdsEd25519W9 : List (List ℕ) := [
  [0x038e38e38e38e38e38e38e38e38e38e392dc3786cee1b11330041605dbc4d9c3,
   0x019999999999999999999999999999999bafe5c976b25c7bd59b704f6fb22ecb,
   0x0e8ba2e8ba2e8ba2e8ba2e8ba2e8ba2e9e9c28f8f13e317d0a3f42d225f6c0a9,
   0x0eaaaaaaaaaaaaaaaaaaaaaaaaaaaaaabdcc650c1562fa6f2610dad82a8c0244,
   0x076276276276276276276276276276276c18248e23d4be8a50087c82524a130b,
   0x01249249249249249249249249249249260fed46c27f66a19893995d4fc86a91,
   0x0bbbbbbbbbbbbbbbbbbbbbbbbbbbbbbbcb09ea70111bfb8c1e73e246887001d0,
   0x0b0000000000000000000000000000000e594bc9100a3bd35c8ca4221fe901b3,
   0x01e1e1e1e1e1e1e1e1e1e1e1e1e1e1e1e45677bfd6eff45573c5ed8aa186552b],
  [0x019999999999999999999999999999999bafe5c976b25c7bd59b704f6fb22ecb,
   0x0e8ba2e8ba2e8ba2e8ba2e8ba2e8ba2e9e9c28f8f13e317d0a3f42d225f6c0a9,
   0x0eaaaaaaaaaaaaaaaaaaaaaaaaaaaaaabdcc650c1562fa6f2610dad82a8c0244,
   0x076276276276276276276276276276276c18248e23d4be8a50087c82524a130b,
   0x01249249249249249249249249249249260fed46c27f66a19893995d4fc86a91,
   0x0bbbbbbbbbbbbbbbbbbbbbbbbbbbbbbbcb09ea70111bfb8c1e73e246887001d0,
   0x0b0000000000000000000000000000000e594bc9100a3bd35c8ca4221fe901b3,
   0x01e1e1e1e1e1e1e1e1e1e1e1e1e1e1e1e45677bfd6eff45573c5ed8aa186552b,
   0x09c71c71c71c71c71c71c71c71c71c71d3dd98b2b8eca6f4c40b3c901c5d56d8],
  [0x0e8ba2e8ba2e8ba2e8ba2e8ba2e8ba2e9e9c28f8f13e317d0a3f42d225f6c0a9,
   0x0eaaaaaaaaaaaaaaaaaaaaaaaaaaaaaabdcc650c1562fa6f2610dad82a8c0244,
   0x076276276276276276276276276276276c18248e23d4be8a50087c82524a130b,
   0x01249249249249249249249249249249260fed46c27f66a19893995d4fc86a91,
   0x0bbbbbbbbbbbbbbbbbbbbbbbbbbbbbbbcb09ea70111bfb8c1e73e246887001d0,
   0x0b0000000000000000000000000000000e594bc9100a3bd35c8ca4221fe901b3,
   0x01e1e1e1e1e1e1e1e1e1e1e1e1e1e1e1e45677bfd6eff45573c5ed8aa186552b,
   0x09c71c71c71c71c71c71c71c71c71c71d3dd98b2b8eca6f4c40b3c901c5d56d8,
   0x09435e50d79435e50d79435e50d79435f122c68e5e5975bf765b7cbe6bb6be10],
  [0x0eaaaaaaaaaaaaaaaaaaaaaaaaaaaaaabdcc650c1562fa6f2610dad82a8c0244,
   0x076276276276276276276276276276276c18248e23d4be8a50087c82524a130b,
   0x01249249249249249249249249249249260fed46c27f66a19893995d4fc86a91,
   0x0bbbbbbbbbbbbbbbbbbbbbbbbbbbbbbbcb09ea70111bfb8c1e73e246887001d0,
   0x0b0000000000000000000000000000000e594bc9100a3bd35c8ca4221fe901b3,
   0x01e1e1e1e1e1e1e1e1e1e1e1e1e1e1e1e45677bfd6eff45573c5ed8aa186552b,
   0x09c71c71c71c71c71c71c71c71c71c71d3dd98b2b8eca6f4c40b3c901c5d56d8,
   0x09435e50d79435e50d79435e50d79435f122c68e5e5975bf765b7cbe6bb6be10,
   0x08ccccccccccccccccccccccccccccccd8476fd40cd4fca916d6e9b4e654015c],
  [0x076276276276276276276276276276276c18248e23d4be8a50087c82524a130b,
   0x01249249249249249249249249249249260fed46c27f66a19893995d4fc86a91,
   0x0bbbbbbbbbbbbbbbbbbbbbbbbbbbbbbbcb09ea70111bfb8c1e73e246887001d0,
   0x0b0000000000000000000000000000000e594bc9100a3bd35c8ca4221fe901b3,
   0x01e1e1e1e1e1e1e1e1e1e1e1e1e1e1e1e45677bfd6eff45573c5ed8aa186552b,
   0x09c71c71c71c71c71c71c71c71c71c71d3dd98b2b8eca6f4c40b3c901c5d56d8,
   0x09435e50d79435e50d79435e50d79435f122c68e5e5975bf765b7cbe6bb6be10,
   0x08ccccccccccccccccccccccccccccccd8476fd40cd4fca916d6e9b4e654015c,
   0x061861861861861861861861861861862054f17962a778b32dbddc9c542ce305],
  [0x01249249249249249249249249249249260fed46c27f66a19893995d4fc86a91,
   0x0bbbbbbbbbbbbbbbbbbbbbbbbbbbbbbbcb09ea70111bfb8c1e73e246887001d0,
   0x0b0000000000000000000000000000000e594bc9100a3bd35c8ca4221fe901b3,
   0x01e1e1e1e1e1e1e1e1e1e1e1e1e1e1e1e45677bfd6eff45573c5ed8aa186552b,
   0x09c71c71c71c71c71c71c71c71c71c71d3dd98b2b8eca6f4c40b3c901c5d56d8,
   0x09435e50d79435e50d79435e50d79435f122c68e5e5975bf765b7cbe6bb6be10,
   0x08ccccccccccccccccccccccccccccccd8476fd40cd4fca916d6e9b4e654015c,
   0x061861861861861861861861861861862054f17962a778b32dbddc9c542ce305,
   0x0f45d1745d1745d1745d1745d1745d1759bd916bca1ae729b128d2f641764a4b],
  [0x0bbbbbbbbbbbbbbbbbbbbbbbbbbbbbbbcb09ea70111bfb8c1e73e246887001d0,
   0x0b0000000000000000000000000000000e594bc9100a3bd35c8ca4221fe901b3,
   0x01e1e1e1e1e1e1e1e1e1e1e1e1e1e1e1e45677bfd6eff45573c5ed8aa186552b,
   0x09c71c71c71c71c71c71c71c71c71c71d3dd98b2b8eca6f4c40b3c901c5d56d8,
   0x09435e50d79435e50d79435e50d79435f122c68e5e5975bf765b7cbe6bb6be10,
   0x08ccccccccccccccccccccccccccccccd8476fd40cd4fca916d6e9b4e654015c,
   0x061861861861861861861861861861862054f17962a778b32dbddc9c542ce305,
   0x0f45d1745d1745d1745d1745d1745d1759bd916bca1ae729b128d2f641764a4b,
   0x0642c8590b21642c8590b21642c8590b298ee7571e60e453dfae26c7888cb71a],
  [0x0b0000000000000000000000000000000e594bc9100a3bd35c8ca4221fe901b3,
   0x01e1e1e1e1e1e1e1e1e1e1e1e1e1e1e1e45677bfd6eff45573c5ed8aa186552b,
   0x09c71c71c71c71c71c71c71c71c71c71d3dd98b2b8eca6f4c40b3c901c5d56d8,
   0x09435e50d79435e50d79435e50d79435f122c68e5e5975bf765b7cbe6bb6be10,
   0x08ccccccccccccccccccccccccccccccd8476fd40cd4fca916d6e9b4e654015c,
   0x061861861861861861861861861861862054f17962a778b32dbddc9c542ce305,
   0x0f45d1745d1745d1745d1745d1745d1759bd916bca1ae729b128d2f641764a4b,
   0x0642c8590b21642c8590b21642c8590b298ee7571e60e453dfae26c7888cb71a,
   0x075555555555555555555555555555555ee632860ab17d3793086d6c15460122],
  [0x01e1e1e1e1e1e1e1e1e1e1e1e1e1e1e1e45677bfd6eff45573c5ed8aa186552b,
   0x09c71c71c71c71c71c71c71c71c71c71d3dd98b2b8eca6f4c40b3c901c5d56d8,
   0x09435e50d79435e50d79435e50d79435f122c68e5e5975bf765b7cbe6bb6be10,
   0x08ccccccccccccccccccccccccccccccd8476fd40cd4fca916d6e9b4e654015c,
   0x061861861861861861861861861861862054f17962a778b32dbddc9c542ce305,
   0x0f45d1745d1745d1745d1745d1745d1759bd916bca1ae729b128d2f641764a4b,
   0x0642c8590b21642c8590b21642c8590b298ee7571e60e453dfae26c7888cb71a,
   0x075555555555555555555555555555555ee632860ab17d3793086d6c15460122,
   0x0a3d70a3d70a3d70a3d70a3d70a3d70a4acc25095e0f1cb223e2cec931412b79]]

/-- `ROUND_CONSTS_W_9` (feature ed25519), poseidon_constants.rs:3571-4157. -/
def rcEd25519W9 : List ℕ := [
  0x05010f7ccbb2213b6ae13a438a282d4b8ccbf13c07992e9213e272391c9d4522,
  0x030f230785085af485805a62e3a4c13ed9f29f251e1005071acd05b3c42d5e99,
  0x03709f980e67339c1dc93615ea3a3786c987938fb3f859801be892a10aa36185,
  0x0d63fde58ddb76d47ab623a64aff5b94e7cb314a78ac580a53f975b25f0990ba,
  0x00d6998a4544e566caafcd9993c3a8bc4f072ebc487890687a14d25b32d31b9c,
  0x051e24d0a17cd6e4bdfda1c53b1452db6742dab6b64f8ac3deffa754abbcd134,
  0x026c02183905d4456d419b2837cd9ef5a0730eb0d8693c62b14fe7dfcd5fb225,
  0x080e701e72a668eeda99099155e32a2038291d44c52e0fc1b2e348273ce0da54,
  0x09030a13e37ac325dabaa30d764b19c2a9e84a3f77b39c80d166a7bada9475e0,
  0x0496b195873ffeced1cef6127e9188cc3b2d620588966c8d3dbb808745f12f8c,
  0x08b1e7c5a6a6876d8db9cce7a79bfff5f38a5832e00d962917402e635400fe27,
  0x00ddc1737ac108f89682107b7f354ae717ea4339211db8a06e731c7f18f7d9b6,
  0x0143449b8039f9fa042711964ba1fc6af65b7812683fb33dd97894bd5d1fe98e,
  0x01678de903aa7809326a239eb528739e8524f6fe89e789d019f229ce105ec9f2,
  0x086d06499742dee4e54dedbc9dfdea2176457751be5314a555a15d909fef77ab,
  0x01d08149935128a874eec9bee5839eddd1b616ba662edf747e0e500fddd06918,
  0x051e30444b400cb1b05917a49c79dd2d4c4f46c754a6c2eeb0c5795ae3f6f525,
  0x0cc42ae6454ab91c735414cf7dacd06b1f6224a6f6bd8005574afffa9c8ff1e7,
  0x0e1cd731c9c942a7edc897f3e9a632891dc5ad639a2440c3d29a1713092701a5,
  0x0df321d5e5d3c50556478897e6433194173fb4a2d870c9f5f7ec4127c85de743,
  0x0c8a1d5430bf2f0d6ef2192bb4480d050e0919c5eda9b969c5a468ca59617938,
  0x0094e2bb30afc9a5d33767922217ee2c5e38260e4de975eaaad402bff42b0bdd,
  0x0920fb95576fd057b12cfcd649aee6ca8155678a042f328c9d3371fc4948a62e,
  0x0a8389cb43c3fb76ea36b7b5e4d42da98b96658a40c691a6041a30e6de9ea143,
  0x00eea8d00d2671893ecc5e4d807b6199dcf1afffd3667000eec27d79cb7fe14d,
  0x049a77257282b6f987d2fd3cf4cc57da30bfa7e0741c60e9dd962bb31fa7b1e2,
  0x0a7ad22d8c6a4bf153b139ebffc39c0e7c9679ad4c448c84bdd5751b707a6aa5,
  0x055af7fbf14293169e1cf2b7df6a31562cad6dd746c205c043f9c5cbe8c33485,
  0x02cae3b4ede518d52dcca003719d2150edbcc743467848c28c52d5c385f9813c,
  0x0ee74a28144f71e5eed21aa586a8fdda71f7d4b4942f668b45b968a878523b96,
  0x0994597faf2dd9937fead2ad24a37f0a3fe0b60df0c962e57aeccddd2ac7911e,
  0x0cb139b872af6b3b510308f427b5fb752f2b5c0d22cfe93606b7eba35881e843,
  0x0558cdc7622d04de0aea572aced9ae2865c3804baf1fdc6e974be806881bbf18,
  0x067a4cdad4f7493686b2e0ec0c1ecdce64a9c5ad690324f34ab6b85a5d5b9eac,
  0x014f30f3c0cf145ffa35ace30a34d5bd55a6440d28a2cd216890eb4a31a9a5ec,
  0x0c4d29fc573ad70cc0d51a6d11e7117284fb8e9c8f4ce0c6a68b0fabb3c66638,
  0x02a543f5763447ee01b1ce38fe6d79798f868072fd10eceeb3a66510cc26e234,
  0x07595bfc6b1f80acbce3b5be8b4f43c503af9eb3d697a2225cee064851c8020f,
  0x05a88c38e4df289bdfbc4df6024ac67c82c6f59c7259f22f795798d2f27c3666,
  0x048360a2321888af09067c39ca03d5411424ed47410ddb5dd251552e86f63f86,
  0x0ecf2c2b807f8e82942840880d9a57db3fdbd09eefafd860ebaca4589284ab76,
  0x0a74b5e84fdeb42eb7e8799bdb4717be1d9388688483034ccb4115389a6fd782,
  0x0a736b1752f64bd8b2cad0778a91a71e945fcd101679ac2376d38d5bd4e9a1e2,
  0x02b893dae9403121bb260264849d408045a659ea25e4d56a1b49d65dae533b2e,
  0x0a99239b287f5ab37810f81da15f5e0a0e14aaf81628ceb7bd52ef9cc88f39d0,
  0x08c1f5719879fa8815354f15e32a601fb4205d4d77101faf1e4d32b2ddd76329,
  0x0e958d23054873dc3cfa382c89276077c6d40a0d6cec682dadecc9232af11f5a,
  0x029ab7fbe56490ecf21d39a7fccf08b678aa8f8f05e19d39f8080c9a7b52c3a6,
  0x0d8ccc5fcc11b573f56b58905e58c124ef18d13541eed24b2985f9bf592f1afb,
  0x0cabc54ff10adf72aeda5dfac643fad21c505026e94b1b7e8745c1801ef45f5f,
  0x0cfd487c10291e81b87f12d7493630e65f26e456243eeb225e2c07ba2ed860b5,
  0x01c7881ca45e306d5e2cec68ea4682dba6f9ae271c9052f020bb8e9ed96454a9,
  0x0ac7b1b99393c0f38210bec6862cec6216bf74db6eeefeca4843cc5e8a760330,
  0x0421bbff61dafb124498b0ebe0de2ecc7e4b29e6c5a2905d21d4f5eca1453623,
  0x01c8fda220515cd4ef029eb9e87e4a52c3e67f04fce806fdb620d81e5bf483f0,
  0x0dea62635ff2df6d0e6400afd6238cfd1a9944553fd63b2b298965bee46e43ed,
  0x06f0235fbc2323d1ad000a684ff80aeff29bdfd1023b6948b4e5909be73ce468,
  0x0a762f66a157fe922c7ebb5ae053706c2dcc35bcc42b349a6340fba4d1089059,
  0x00b10ebfbdc75ff15b746a217869142c5aafe1f8354a6be1114e37431c711013,
  0x04ada3263230f01586c6d61b4ae4c39caa1e92501a3b4bca8c6196e0814c1625,
  0x05ffb13072997f176f8b04359ea0168f1238d9d8c1c2f961dafdcc5e9a11511d,
  0x02a59c98f4361cabde8c3a4ed061a015d53dc117f6b8c5fa57ae11dbfa4ce163,
  0x0fca8c9e8aaed4a165ca56c8343b126efca912f9fa322974688c5c63061d61ce,
  0x00bcdce152620d46ac08e2ce21fc5f31bf4c1957ada49c41fcab531c2112aa37,
  0x028f224336c33acd84e412b7da65dde45ba5ab11b6ce8e8f1d4f24f896fd074b,
  0x09988fa1d6dabdc8b39c1d9e61ac31ba421952ddcf2a49bef6547af022d788b1,
  0x0cbc1eefcc4f15944a415da702f8294763637c70834bb75ede26259467389d2c,
  0x0edb6b66905d99ecf2c452695d7fdeec4972e5134b74980bced66a785e57f412,
  0x037d313abb8f78c4bdb2982e26fc26f9928001c1bfafadd6acccd5b752a2215d,
  0x0a778ab8ce1ad8222d6c31ba7be9dc70e5b4ac39a6273e1b1d1b436d401f9083,
  0x0ed19b6d591aff70e12ec7401f1c1a2f9a78ce68bcbdc35da49f9b22c356fe07,
  0x062c8a06140f7e9c90abc9284ad4503eeeb881dd1e757633d16755b28dd5bed0,
  0x0412388d2a0b5b9fe41b47cb4754e3c534e90db46fdceb48ae7ff444bfd25c3f,
  0x00195f5966560a9a456bfae6606f9a1e3c3bdf2ea6f092dbe6888c74d33d6a92,
  0x0e30377610208565949d512c96b363881c80bb6bb1be203a423455ed02430c5d,
  0x005d6d939fa390b06b38f2de21ef4af76f5e85d00bfa515e6f39fa6df0103eb5,
  0x0a90cbfc42e2db4adea6f59ecced7c240eb0cb9d026335e8720a29378ce806ac,
  0x06975c74fde7acd9e3a9137e291d137f0d3ba15aeb2d6491cc10bc06621467c1,
  0x0a7e1a3b8dd58e08d166f293cf194ea75325fab3a61e9b00991dfb1ce052e1e7,
  0x0b2db3085c8dfababa376888dce8aea7579c2530f4e9af941706cf0e1dae51af,
  0x005794a5ece2351388594c6d98649db398e88abc45fee24a10706e03f7adf054,
  0x058c6a3de18bc12952175c5d033f080665a285261c547f556841c7b3a3d0011f,
  0x0503d7a19cb92c87179dc862a05954789134db80676d6d92a43aa01850adcab9,
  0x0e9cd99a5c04b95ca3e073efa8d095139c89ed119cab05c700d5844727241ec5,
  0x0b8833b790197fd1ca002b8e2c3c8b070f3711aba847be1ebb3869072de755cd,
  0x01f2059d9374aff00f30d01b681a5f2b30b53e367db8b620ce846576771a08c5,
  0x01843e8b1f351b0144e7217abbac51f21e55054e171c5222476b3e1ce286c3f4,
  0x0c364f6ec06d48939414cee4d089a2d9f17a7d5201ae70e8d3ae23ec1ddbc57e,
  0x073c314a8a775602d09f7ce86f693ff3a637090d2ce95ad3040786d125af36b1,
  0x02504767deb2fe668190edb91b38ddaddc49709838a3717c4212dd0f52dde420,
  0x0ade0d088cf43aed611eda9901edaa458794ff8f22ebdf91837ed2f6a62b662a,
  0x05509208c2e73eaeed312936ce9dce6f32387636f0714e52db1e5cd56892bcaa,
  0x0e40c5038ae750b5e4e5a8f43477df4a5863e1427e1c35a8fccb744576413e9c,
  0x0a0de7b8843bd1345ec2777e898fb6054beeea1cd3354efd0237c2f9284304e8,
  0x048e0dcb8fd19e3e4223217243810b9dd6966c67f014abc20d345c2631480fb4,
  0x0254b31fc34056f4a585d4beeb98e654adb304ff24d475330c00395c29e1cb8b,
  0x0c86681d9f74e80e0cf1e104eccc2840a47c5f899dbc65877f049f7478f0ae1b,
  0x0816fd0354102c3da35b229e1c9608d1105feb27e4e6989879533043b5a0c22c,
  0x018ddc30b7e684824474a919646180c0df3f1e19ccbcf67352dcaf2f6c3e4409,
  0x0bec4f8d747f77919b7584530b7056718ee3078e16935fec7fad9cb101c2ac5a,
  0x06722d3ffbf434d9c0752d4ed55935b58fc9fe9faca029e257b37dcd9e1c2505,
  0x005216384f9fca005a7c2ccbe0118e98199f4570d55df52cdd82fde75f9c90e3,
  0x05b34cd84b06763a826e575e7fb96ae6b0ef1f4d8b9942afbc305a0fc8d3d0ec,
  0x05fcbe6d164f6b041974125fa76e0e75d1b6246061f4a471592e1316b6cd501c,
  0x04d411306b34079ac4d507218f0cae5939e887e7f5737d2e2d14b28669881f78,
  0x0d5481821b1ef4591545675c037e3bbe4cc03f0cdfd70d450983d96560075105,
  0x030bb01b91fb58218de80e3e88403108fade992f880eb3a92f05283b6213580c,
  0x0514a338194ff4938b0bff30400477d60127a546b6ec2362f399acfe6930c516,
  0x028b5cadbea5fbdcef3862a3f825bc3942bab0ea70af943c95c96d8069c38835,
  0x0f4b2f70e7f84321609852fe359471660fa9af31971ecb87c2e6415e6d02a314,
  0x0b8eafde102ffeec1cc1bea49187f4fe4a4b02f06f47551f2037f3aa93befa36,
  0x0a19f54962d0083ada23a37ad48b5d79cd7e2781c0f18b035687d730c9d4b2df,
  0x0211c25d57d09bf933c5dcff2f22ba0a2abba454899ed4aa1e69edb08c2e5e80,
  0x0a4ee7481d46155b02e0a5ec20ecb79ae7407470e2e064e7af16179fa3cf1201,
  0x0a3933c237ea6411515c42b4918bc00b70528bf4245ed3fe337f1b00a678aeec,
  0x06019950a821c0757b97623dd54cd72b7ce1c1d57d5738a81e3cd87b4097f6f4,
  0x08e38e3a2c5e54bb69b818272103e7dfd81966f9c840a0375e45930a16926093,
  0x0da12a895e6c685a1aff24499cf54e0a56e1561a798ec451a03cff9dc18b7b22,
  0x09cdd10136c7bc9d2ae1f6bb1c3257ba9d2896dcfa39afdd0ca8cae403342914,
  0x0f915d70a527638ead7360881cbd435a39e104a5faf410ee5a4b702cc0727da5,
  0x07996889e2a54d364a8de7ff9d6e165a04fdc4acc56a046d3d157f8b9571aae7,
  0x07eeec7606ba8515345e628d7a0259c18c82e6d7b6e4ea9d49df03e8bc90389b,
  0x0d75f412355e4e31ff8de8d191517040f60fe38ed13d14008f0766bd76b32f17,
  0x0e3ed29c978760382e73049a48c616f8f0ec8ca9e5280a3528c0271d823de5f8,
  0x095995c34447fc61f4839fa1750864212b0522ae4872a352797f0acfa8cd8496,
  0x0dd78d7c0cf1f2480f47f69e2359760f06566b304497905ae07524009a6e97b1,
  0x01076210402d024240dbbcac2a689efa377ce1518361b435a6579944b062d0d4,
  0x04b61d44e356a796c7f2a7e9fc303665a3bbdeffbd53cbb97963451046d9fbaf,
  0x057bd9fd16528b597b5d65781d2685abb87f0dcde9446c4aab99b1f7baeac7d1,
  0x070414b2e44fe61a84f349e8d5916cd55be869fd71f21e9771b062bab76c9ca8,
  0x076a89c01606f2be81808d6be439c0ad1aa5a897a8ba9f5fee71f1dfa330680c,
  0x0b63b8a2dde148cc165878b3be27b00efe8e725c2c62ae91434060c00c5d267c,
  0x03a50d6b9b6249b8ed9e69e71c0f46236000faa271dcf2ecbcc2b3e1c1b7ff5f,
  0x0b811217a1a59ad0662dd1ed10abb2b7e15f3c833238a006e1c197eb96151bd9,
  0x0266663b37f3741f19e465949ea43ee68f8b1fca1cd9571e8599250ec9cbe290,
  0x0f65af3a5020dec0cc5317f428c2541dbee16f350a486ae6226abc8de299444f,
  0x0ac24ddea87893eafe76950c4aeddf24513ea25831d736625469c77d1923c9cb,
  0x0c08960953b921b1875d01d0e88c308a4f724b0c76130c0272524af7fa18e01f,
  0x0575e65a772d9604eb3871c800fa3d96e3b4779922a59e1398ac45fd4cbb72be,
  0x0782361ff9b329873206c2755fc01575e66ecfa45d791f960be14dd95a11df36,
  0x0dd0779b94baba774e02efe15883c5f532ded49ffb72070977aaa319cec9ceac,
  0x05d5fdbbad4269b0b22b7c5eaff7c58f663230caec455b76735cbaad9e176d40,
  0x0e3e239a73d1e763093d97470bc56351a8329a60c7489638f532129e19481b7f,
  0x0c5e82f4d895e678d779c499f0a452bb0efbab102c367798f0566967c0fae3d4,
  0x0f219e50fb24037154f1cbac9a0b15026f49a0e653f62ccf8d2c2f5696a3fc50,
  0x06d5b277cf620a6e87bf0ca936a75f511e2ebb809611eb4e931ceaf0762f9d1c,
  0x08d02ab66fb7309fc3c58a27f9a2161e8cd155b6bc6b2ca45f18f36dafdf64cf,
  0x0b7c78bcb0b20f598428c637d73459a54f502f5666426d5736819b6916078ed1,
  0x00bbd030b0bd9080b303e9d292cb13e2288664a262c6ab3eb89668ffb98e780e,
  0x0ec14419f8a2636ee6c094cf66445bd936652d69eb9a5eef82b034880263384a,
  0x099c5d03bef499eaa5b93e7b963300614f606b47d70fcfbbbc3ffdd08b8c1ae2,
  0x0982309354156d475885d55d20bf9375a2423126c8337e5d896e05cfd61e72a3,
  0x0d1453768ca1956d9be32de972bc5202b7420591c9633cd67b90936105398f7d,
  0x05ff93cdd7cda36664182147647effa579dcd2a830e16d86d53de8b26fc817cb,
  0x0447b54dd42357b5a480e47324eb7ddc6e01b71050334ff9b157622d072979c5,
  0x048fd889496a2741d853ec42516122a4616fcd44b9eed47a8eb7f3b88f3670ef,
  0x091f717c6e2dbc4ed588423447f1781aedab97a74a7efaaed3737e24f17a2deb,
  0x0253af6d8305aa1296f51f923a0aefad928c5521e3b548885e4f869ec103910f,
  0x0ce4ee9e1567527b0de136b06b5d6b16bb1504dd01c4829aeff54dd958afe284,
  0x07e4664988d5f5c69abbeb10271514e5bfd4dbaf3964a77539b424fe6000b55f,
  0x09a5a7e62536e6d60c7f2c0e366205b4e2ca58abfc2097c9a730a981b11bee37,
  0x0108d4bced51978e674b9e00dd857738675d00847844cb62c06888e343328e58,
  0x00526c9a331e505cec3174d54ee13f46f267f7d7a9a075f472400ffaa7303a41,
  0x0433e159a6a41e751ef5a5e202cea22fa74f661bcbf1763daec704601a9eb180,
  0x0115e689349f44cacdcef47fd8ecd6a9c11484fde91f6d7a4ec625472257e674,
  0x08abc466145389e4f3866a753946c597820a6e82fd4a6d8e0ba95ebdedc339ec,
  0x098dd495265ecbdd26ef73020c89d5d0463e25c6bd9b4137e6379541d6353bdf,
  0x0df604924ab6a06a758b674d7eca07864d8b6b893ea7ee0679cd0cd7d3e26fb5,
  0x07499d08a00da17c017c6517b62909d2c87ab5186a5c22d86fe6ed19016b9ea7,
  0x0b1311eca530e3d26b27e2aa31f30342560494f1874478a85eb52d018874339e,
  0x0303ba25591eebf9019a4cc1ec5422e350f0934dad20d154e70af330660b33ee,
  0x0c64b3adeed70244ca0dd475cdd5b5ef7ec868d8b0cd2eb5dbf20180aeef6393,
  0x0d0d71eec77f0e6dac88f9b42855f0290bc709b12f7e9c75f838564623c8a981,
  0x0d095565d38095ee0c2952705b1af42b927ab84d5bd7e0c79cada5b6a49f274c,
  0x04fcbb7db40bb13f1cf401e89aa01ccb0a33848b8a2cd29f833a1e46b60e97fa,
  0x0052e63024a62a9b6203358086edd8b758aff1b23f6aa302bc6ae018209b9275,
  0x0b2106aa171e21980a21ea8ffe21f4eb907ea368b8eaca2b105a2087a7f5c206,
  0x0663f4816e90415dbb1cd70062f0e429dd7ea5bb0952db8c18788ef5ff94bc5c,
  0x0fa292a183bc4f9223f6e6b2b17e8a66a52edcaca60b4bb4c8deaaa7c1658ace,
  0x067bd8bdc8590df1eb6274740ba3fc74638bbadc4758e2eb86d522a6e4cd8122,
  0x08dfe1505468bfdbb909f03c5d53ccb858d582567d17bd201ba7b700b6ea8bca,
  0x070de31624d276db464bb1b345974a809e521dd8b275ae86995f699c3dd06ee9,
  0x0d6e1c8bc7b1924e48a52ca61b9952da6dec6d6961ec3eec4e4207efa78e719e,
  0x0000d46ff6d5349b9b52c13c63393d930363ad1ecf621446f9fb08848501de60,
  0x0ce173eaa48f9bcc7b85731d16ae37c39efa57755686e4cf1b8869b52711873b,
  0x0c69e23755321c06a607655aac6ed6f974c4a0d77c23092c7c7be07ee4407f2a,
  0x078abfe6218aa30aa383afe31397455eda957b3ba1f85f313fdfa61ea8addaa1,
  0x0e805087bbf220b3f8cd79cc9129bf3a7337bf5f58b02e42b9b5f11a7a4b0bd4,
  0x0ac06847be007653a58f794d6e61deb5cdf556a9eb393e4b224693f28cc4d4ec,
  0x0767fdf718a6b90dd6cf75ccabc73b86eb4a6549295c51f21b6cdfee706212b6,
  0x05f59e30b42a978340eb65137085926df8757f91880f9cc3d0aa7f7aeafa3521,
  0x0fc785bf2d576a9352c69f8238177bd61c8a4799768018d0decb88a4665e9322,
  0x0570d292390003abe3e2ff8fd51b2e22bc2442d4a47f322bbdce0ee1ba2ef684,
  0x090368ff1ca62f73f73450f78ffce55ae73ec692cb0476bdbc3a5733607de623,
  0x05533f290bdcef84299998fdd8c951181db79d724cde179dda10db9d9113e355,
  0x0531c00dde65bb8a57a083c0cb3806d1fd8226b29b314c1e717c6755c57f0b99,
  0x06adab494a58a7ce9ced5b79425777e77a01db933208e135b2edea1842f2fafa,
  0x07a6ca69762cd05f7b7fbdeeedac68e6b753e100cdbc88f5fe90e6039ace2e34,
  0x031a4fd9e9a4c119c124b180eabe575d6534d5acf87c5b28ad0a908078a64284,
  0x0c3998a568a3a18b58f002a85de5184af9224eebe73e11ad1c6ca14e05d73373,
  0x00a90e967467b1bebbea2d57423d287a7d19ec43c5be0d42b7fca2c94074d9c3,
  0x0ee0a89ec16b00c8fbadece11188a436647f3e4f899fe3f2c3e593349c58fad8,
  0x00b74c0823249a47fb5c1ca19500542a704ad223deb53c910d59316107e46fb1,
  0x04bef21e731c51c0aae3083d9d477206b34f644b3db8f15c453670c2ac598ea8,
  0x0f3078fbb3aa0e80047f7117036d6a35f834e80dc4f1c1f886abfce1f6ee8f9a,
  0x0b12ed348d30cebc1ae89cd251300c9717227b6de23e8be9d9d0f44a2d1d1a53,
  0x03a182146f25608070d89eda204c8f1c8dc4797a3b8e9b853936b455f0698b97,
  0x0d08d474b722761a7b5831060ce088fb71ffe185dd6fea7c3443d54b6c5ff4b9,
  0x013b2173a17f7d0c27dcf2cece2a5f9d9cefbe205d14740d1e36624676393f2c,
  0x08df682373d74bbf39de77194df83f111fbb523a7a2855d684e750e94919a16f,
  0x0f85c6af2b29e885faf9d20ff9cec9604b7b0022b39afe4d29507637deb87b9c,
  0x0c1e21b1448f90b010f579c08439bccb9491f0db2ca28659fb6922e4f6ebb1ac,
  0x006b7185f64bc7b99124dec92a108aabb471345c959bbb7f396b774bce608860,
  0x0e0105f03636086d1e1a6bca0efdb17dbc875a46dbfe94bfc8d36e6ab41d8a84,
  0x032f4fd96a3b705a6e37ae8419e0df74e46dbe3c616c2422191a88e98cdba0bb,
  0x0339cb4d8af060ef6633f80b7d99539ee2aaa0dac3c65876a43b5eafa80684de,
  0x002ef917c525f68f87a2ce20ac0edbc74eff686009bdf4794a81068f1b34fe52,
  0x0b896ce4a89c66bda91019c0156659385c04ad567775b9efa99f3e89a32dbf38,
  0x0dd7c5ae0753af5597a1be6c5e9334c612b633397ee0dba4f8e94bfda57159b6,
  0x09afcccc9f3a52840ac634c59e3e48e2e9176b2abb681fb786b9e6e339ff7c71,
  0x0481b66798fd5e01a3f0b84854f0d8646e4d7a999dd9c2c3caede0d45c7aa159,
  0x0c700b120d291c20e3d3d7c803a387ec0c039f130b7e72ba74933a0d715140e1,
  0x0d8ff25aab3584b43043d351d5f0eb0939c00705b60f41778fd799e90c5f4845,
  0x0da0d6538d2753f5230b4ec8af3c46fe6a721b73f3fe45a2bce1ccf407bdcc63,
  0x096a6833532bb7fe6bf2baf7ce834562724f8c547ccaa9e38032c12619008245,
  0x00314663c4e68285f9eb2ebe066feb051e161ae09b31cc3f81cb932243795e0e,
  0x0d931ad5990a181a658a71384396302cd8bde0b2ce1c7d71cb4ca7314fab6dd6,
  0x0e70977883b43513e6442b9e8f99e3c6861b746b73d6d265526c3d55985829d0,
  0x0e307c0ba2a5de1ae86fe36eee8fddaf10083b1de11c0eefafcc55133c21645f,
  0x0ba25ad1f2dc862875e8b3d3303f56d4bce391d2a871746dd6df27d39b589617,
  0x08cc4cac7d1a57c7ab70a284c1b8d11725c1e876748786e1f2ed0d266e042ddd,
  0x0210e3535591c87845fe403bfba32316b32bba9d5982f11aa2d42d2fb62d7954,
  0x097fcf85ae6d8c68a35370a856c807bdef0f9ad9ad8a591dfd2ab3bca66004f2,
  0x0e7f7b45946465a9ee98872533a792081a5e41fced2a2eedc59dabe3b6274de4,
  0x0d4bb3ee76c8fb8c8472e7aa6a985f57dcfafafa3965c0e72a66e4309358e94a,
  0x0ec5c787f3ea62f372974eaac3c455c93dd38326b01455db5bfd9cf395235e4f,
  0x0fbd0a3af8b32b0db89d58d6edd93a5d7ea4aa6c89202edef662fe24ee8d8b4e,
  0x081f056d9bd7ce2ea4a0c91631db14b343ef7b0e2a583ddd8d234f0e62311ed6,
  0x0f68fd7ce066b2156bb78f426e1f890f73053a4b29b26a4df929fd8f5aea51a0,
  0x0a93101af498e0dd08d10b6c5a8ab7cb94190329962bec6f0ba9403d07318aaf,
  0x013473f3a6282af2935703bb4c1ac02c08b7f1b199abb30bc64fa17f5555dbad,
  0x0310ba340e017ae0472529b52452c37d99d03462f5eba491900ee1c6e7bb55b2,
  0x02aa49e58d6ad6f619d3dcc1dace060e7de028c9fbd3048c148d96e5e23e1793,
  0x0b3160bf66c8c79499353d53f6f2edbb0d4f4d80f5f746ddb5e9e7a001b71139,
  0x05bca8479d499fbb5575a78e45ac817d612a284e9e9289d925b10c5aa439d8eb,
  0x04f259f57138b35d230b6127d98247abfc99db896a9d606a7e2c48ec6511d7f6,
  0x00202ece07ff5e0ef4523a97ec2ec51c244ec2dfdce842c0f28a950d7fefc32e,
  0x0abbefb766898076dec1fa92c9cd470cca611806013cbbfc1a5afb6f637b886a,
  0x06615887e7d8f8a1a2cb8717102b376c79fb0d9a27cce7855b988d59e98f6898,
  0x02a3157e2806c9dff9e80de78a98b40144bbc63040aad444fb44371218bc4f92,
  0x0b85343d87d677ead8f6e9dd32663e4d6d535847b37e5871bb63fbe9d47e1cc8,
  0x08d8837a83dc0d9bbcd9485b8d0d9bad86c6c88aa798f5774d97aa44637ae090,
  0x06b77142079264a8506810412e058f2985d9c168073509be242a8ea29ba15aad,
  0x0afa98eaa0e300fd624bd1e66c3c8cb0192d33308440c974ab746fc915c30b28,
  0x0467e18b9cc7eaa6e4ce05f2c145b2aebd6e49f0f7288f8aa2164402fa4191b1,
  0x040f5ba99a874c19cb44cbd80bc2946adc36a7da5bf67594fabf3fe90817ff6a,
  0x046ed44ccfea1ecfa329c5226bb8f1256d612a1e93041e9e067b7fa8bddb3494,
  0x0c4fc57a4076fbb259bb6aa7698b95ca416972c44eb50a049319ded359d6c4f4,
  0x0ea6bf2512070b8392c8d1d00ff906148a9a3684a1d02c3e57f693a363c3ca09,
  0x0f9c5e16237fbf6564a4ae9eda18671b5156fca206e5130a5c394e4cdaf6a51b,
  0x003a4058dd991ba648c95b08c205dbf2e15ed283bdbe99581ae7f3c462dbfc6b,
  0x05517fbd47a5bc202bf5755fe9b14b52ba25fa1f7e623cc299cdd1770092fa27,
  0x01a47fdd64f93c8e747d5c06a1abdb9ac5061702a4b0c637263a2c9c8c7af03e,
  0x0a9a17115479af6b604d6b55be1b053e9cbde6638cc69308b524cdb03618b86a,
  0x0054249f1edbd0f640963cc136199a9ad86f00e14c6df5333192191640d317d6,
  0x02e72ef9759456ab7ad793da4acee980bdb6ad1cefa1997ed687a3cb3598317c,
  0x0c0004b1319a8b828ae8b5f4fca6245ded5fcf16747ea1073e326cffcf5a2231,
  0x023f029edf2b6be5eb7a28721dbd453d1ef3a1f5a3cff2cef9a38fd94e912833,
  0x0511434c6383f4278ac3e94f0b25feba7ec3b0a457f62bec92c5e222f6aa13a2,
  0x0450a8209537b4fb006cdceb80ecd19557a71d0f222eb2f4538dd702d7af7a77,
  0x0f12ce9e86c66f25f6532f8c309f8fee5a5e243108a23b638995c6005090cc86,
  0x0febb949d82f1afb6912c525c158aa389ea6e68220ec30f634f1e0f9fcdaf36d,
  0x04aab96b9706242bf6fd94878c06f25da31021cefe8c62ae5d065b37344e21ad,
  0x01e89cd39895e83c7fbc7055a99924f825925ab864130060424d8e9c70a0d106,
  0x02fca4bebecb0e42d92077045644757ac4e2aa1372d769e78ca0152f060f6275,
  0x0fbcea4e4b4c4639bbf644bf0ceba7a004f9812d5bf2c0b6044e21cefbb5a22d,
  0x017a611337b742c4b9d4a8816d81f37a0167aa2a0d89c1b213746e82ccc2f1ae,
  0x0451e9bd73ebfe69ee3aff09fbc804063af3f159fd145ec3bbdaae1bc77e6346,
  0x0b735ad820907dcb48dfcdcfc446b891e2714e036ae3b661dbfdcd604b787127,
  0x09cb9018e008a3950b6ec5c4c456f6bd62b4a7465a22456f576fa91f6f5ba525,
  0x08c4709a2de4394437d8754df564e30cf57928bae37e28bf9f3ad2184f9db02b,
  0x016203eac5e55511f7a7aa82adb7477af35843571c77fd8a80f55d6d2d3002e6,
  0x0d48ec51270e4ce6c93099ec97302ae20901123a1cc71469bfb7f0e81e7407fe,
  0x0a7d05e703fc9edec3757fc15803febecd10fb6bda80ba6e5ca59a578ac80549,
  0x0e21057104f648a9cb90ec1fe2e0a71d1914385b4c1e39f6d96b7bc6850931d5,
  0x00ef857f4471f691cd7364ca1fffaddfdeff56ce6da5a897afacea1ae34b2e51,
  0x09e6f688c77d44070aac1ea6e625880872b9c16b4779eb5528bd5f3f363b9fb8,
  0x01bc6db9a6e5cdd30fdbcee51e87330e6d808df10859caae165a6c64821fafc5,
  0x0fd6268b94d686be2d2b3c4a6f32040cf68231ce3dc806b193c0e0d49ac089d6,
  0x0f084cab35fcd5b5624d0bc49f86de7b7f974bd2467115017f9a76b56ae02371,
  0x0793f77d8ce2fb94149a4b7758b4f3a908fc2b5876a4e73b2e0dffe306033e5a,
  0x017efa4c888159a42d62bc7f564dc5bfe672eedb8db1a6dd6271875c0fb984d6,
  0x01138a1af100014b0d062c702eef94384320a16d16fd09bc48ed404c36305be0,
  0x02ce3e59b07ca34ea6b85f70783556a9a8d3f721f4b1c7a90b0e4253e3fe42ba,
  0x0e75ac0bb6b981cf183a84be44bd157a6def65708e61864fba68fc740906e3af,
  0x023c98d6845c5afeb4edac4274cd128c4b682031dfa8f68a7296063660bde53a,
  0x0288cb3a0a3d489115abb492e42afce0ef89a101ffe3460dc956b27b36ede99a,
  0x0ea6c76b0bfd018bd71cfdbcb561e5c18c37c8a27331877de6c3e10cf700ee77,
  0x0b9d08a56cf8a403795781f355b0a429fd1b53bb7283f576b5b93ad6ff3f7a87,
  0x0c08109fb07db57ef93b91c413aa85d2de9b07af924b6bd88bf14cdada8b461e,
  0x04aa50d98d3799d9bee4f6617c76acb7633418bc05348bb8ffa94fb3d2d5f82a,
  0x087296c375f6a9008bd46149414e01d61fe1de9a1caa765386f9edce5e3feadb,
  0x0924ce6efad98e32b04bfffdf7394bd224b35904a2ee283c1dbde91c92749005,
  0x0b87371675752f18bd4655997927a9ba54196b33177c1a9320478573d55550fc,
  0x001e7b96203751648b40c9da1ebc51244010aa0fc0bdebad4294661fd638b59f,
  0x02322591b518942abcf25fa255db09612a4c9ca6864ef6c2b2d385f1e7dfc62f,
  0x0de2c5dd8521072ce4c7f71191190984440c109ae91a181043a4b9d3e61b8c4a,
  0x0e2400a2464b748ebf2d86eddf406fde20aa69fc7e46985577f0becbc2e50b48,
  0x07514eb8262f516ba21cc191841fd7af9dbc19d3d42ac2c8b762abd1678d926f,
  0x0b37d0bfe33590d0e8b0c43903dc20ab19d1ca0fed974de75e66b5f5a67708f5,
  0x0d91f2f144455b0d0ed0c8c15162d138579c2ca57956384724aee9e27f8ad312,
  0x00591491dade90dfcbb631f32f7c8fddfe15b1f57e6c753414887699ed266636,
  0x03f0d16234064a95dcea466a017c667fa6687a9e4942bca07a1f85e1c1103209,
  0x098db71e4a25dede0f3db109ab7a5d7183de0e507c604e8f25d6a201a5f1d9f4,
  0x06a6a253521587d011a82c5ba13b2de8a11b5c3e8323c2e95b29b840c278005d,
  0x0e8b599995783285a81031cd424d3f8cd16479d6a5bf3045b6e57e303de97c17,
  0x04c36ed046290c9c43ec6b7eae8ec43c571bef466b94fb0881dfb3a578bbfbc7,
  0x09c8f937f63b90182efc52a066ed733b3662cc820a334a4aa4f7d7265c1eb769,
  0x0b7feb66f49876486f6c27549fc0a0d5f8106b6b3f4dbb91704f60bd8dca05d4,
  0x0834e6cca992d0051f36b22979f0fbae31f572de32d0d503b37e78857b42c112,
  0x0e38c7c11e09e22641bdb990936d0d578409ff35484493e12fbfdb76da92163a,
  0x0cece2b44dd36748d6592418663a7f38b0c76e8a8bc161f6d892f2b4822eabab,
  0x07b9946c7115580d2893f0a18e5ed2e65ca95760bf57cbdefc1d0f457ace009a,
  0x0c4303f6fab60129b192fe8133bdca771075c815e1764ccba0798aae07e9fc6f,
  0x08c38f223c990e6f22ad57e6d65c393d4c57ba266c85c8724435b9f4bf75f539,
  0x08eb2261a05ab0b98e7aac308f5aefe7ae8d75f71350adca2a007682b1af15ba,
  0x06ab15fe953d84a0e42735c83b66be7790472e2710f8792cee09a753b7eaef8c,
  0x0ffe11ee7b26158dcf4767dc3d2c1e0b35631245da45765e20e0c9705d0045c0,
  0x0a81a04c100945e584040816357ca423d009da7c33eec6980f3491ea11e9537c,
  0x0ce693e2c07a19668a3df33b3d82f09fa713b48905f5f7b81b897b1f8ca1f254,
  0x04576abf65f04221166585153f131f8b7a17e0e9f2ec2afa48ec1d7c675d26e4,
  0x05f9acafdc15416839353157756151240da89abb4b7cf9f8e6334e34c174eec2,
  0x0d500f70486ac3012716be5c5c111c3f46830f149216fe909901646ca5311388,
  0x01e23296a26d3582cb2d9ea834a9242b9f65da4a040091636ac8af9452bbc513,
  0x0a480f4fa874c09ddd2afd628f0263f9fbe7778ccc60cd272ea313a06c853d5f,
  0x089d143808da4a5e0c763d60516a8dbadd8742d0c84a9e0bcff676a76d59d67d,
  0x0a55190fe0da275c69555bea90a45da2f6038f8c4e6d27e164a921765b13e2df,
  0x0ee307f989c10e7274af42f783cfbe0b3b5cede674992c6c2246015c57e6e813,
  0x058badb591b1b16668da17f64eb0f9c4b441237c574ad5b49dfbde5d6e39a4e2,
  0x0a437e2adb60271ae2111ea0f2fe0d797c0708e77da78cc869e7353710b18866,
  0x05efa36050edc5fb4b793f2ed50326e0c8f0da22354856876d0fa844cdb9b8b1,
  0x040a3f31c074fc28806443c7da385b9c2f082099369dda16582f1531e2a9b1c8,
  0x05f0ee53b5e330ae53a8ba82fdaa4b245e436709bcf85ac5d3289c63ac511846,
  0x0a8b025e8c867a3dc150079bd208bb25865ccce7105a5e93cbcbdbfe6e738c02,
  0x06a383220c4ac53344af9ddeb4d7adb170886741d76c9838aa41c649c52f5ed9,
  0x01008d503f25fc6e831929c503ffebe9a7f74444e9c54f86d66b7d5eeb285f07,
  0x03868319d959ac5ab446f1daa57aa201ce03b9dfcd3f4030fb50d4bd1bd7cd63,
  0x0e0d1623790bfa15e0390b6905650e67d1fa56c09959f44fa5ae0f32cf1798e1,
  0x0279b3e3d6a3cdadd1e6dd01dff1c505550f98a1224b4e6d09e1992730f89498,
  0x0a25ffa1ca315756dcc46038544833e6ebe29e866162fa92c06bcc11b6f4c86c,
  0x01dee90b4eaecc9646c2e12d6370dba8143beee4f844bc500f0decc4793c96ea,
  0x0b182dcaa71d52c7b132290d9928ac0cd82d92dd0298771fa37c0792a275d0be,
  0x0f3790540dade529176a703d1f601cd281a4ac14d73a5fabb6f903e87aa4c0eb,
  0x0e95041dab151923c682abac70612ca91deaaf1e61fc3226d36c9eebfbf357b4,
  0x0dc83fcb0eaca049efdf56130645cf18cf464fab2e4493d9630d05a7a1f14738,
  0x0a1c5651f85416a36a745ceaa497a85ac57b4533d8f69434229a43d353b66893,
  0x0454472f040b4c6019c09a6e623a42f9807c438c2c6348c2dd385a40b120ff34,
  0x0f71b6e9445a2f4be927710bba9c725dcb683c0e61f0e7ddb1019b1063429681,
  0x0f688c8ae8006c80fee98710486dd1f07a8b0daf07730aea13ef5663c2dd5af6,
  0x0a3cc81871f8c45424963203afc35a2991506f4628cf837df4a1c979f440bfc4,
  0x0bdcaa02bdffcbb6feb5f113a448861f128b711fe10ed3b9f922e06c2e24a808,
  0x05a924aa0fb8fb1ab5b1a2beea52ea1e38b6b58f83f44a7bea54a660a4d3b725,
  0x040f41dbe3c569ea31063f24bd3b33a2cab9c16e492bdc97d5b8ac3d6d5dee63,
  0x0d9537ae64e5fbf3f88b4500279f5a7be9cd40a9a656b8221e47afbdbe0aee18,
  0x0cf4f71d9ed2bc8989cc9b7fe507f7a44c5261c100e231d607b8eb650364aac4,
  0x04438535796bb6859182957d6808579b98a6100715181e5ffac6c3b53e8879c2,
  0x063a9e8ded32743640199ca92b3b98e24fe7a00977be5ba593eec8d4d7c724f9,
  0x0c1e8c4ea2d5960f36ade9587915ba5b101fcd7204325b9984e4e28315d955ec,
  0x0b8be14a29eb9b8aa72a01cf9023d07f260992de797bce0369ea07a4b87ab39a,
  0x0c942a456e9ecc8de82274ee254587746343f4414e68b6db43825d00d3920ec1,
  0x043d3e9c8c8a1cd229c100e528fee7d6421497f42290387f9f5fb1a8dbc27144,
  0x01bc69b964fbc68e2b494dddbdc26f505358f593122badeb6897e4a3b59d0944,
  0x0f16242fd5dd11ade3656930e5a795c03f1070cec248bb39a217a744a98d4582,
  0x09b232add8fdacfa4207f99b63f6a322132d3dede383c5320e7814f8342077c5,
  0x088b84cc84fca53da2c7e62e283e7e71a588f32faea405bafe8d5e2827fbc4ff,
  0x0554fdec885716d03e5633c3ddb2050b9966fc3653563a957a34e68734136624,
  0x0951b27a6316169c025f0a06bb9979605e3baf20c1512871cde4016b108e1dbb,
  0x034e0a84b5e639ab2b8e7ea2b67fc89db45bf4d43cb49da14c7a7daf5bcdfd09,
  0x038efbeb8c66a1f5f4f8e4dd51bb1005cce86049fa81ff059bcda1f6a3641a24,
  0x09d4f48a5c5866960360ac6a5c85c1b53ca522a42f80bd1c90198ccee22699d1,
  0x0aa32053b9075b9fcc5211c592c65865b8f78d83ee959eca0015370484c4c13a,
  0x0bbe26a0b48de00b3a27c29937759c47c2e558fb2c285c058ad17b2adf3f36d8,
  0x0ee26c9f46880966365965e94a6475f64f4042a21f071145b873cac1d0d5f065,
  0x01864754dac64f930af5a59c327e846a0037fd2341c4d07567c402d7f90c3a94,
  0x0f1066ff3998365b50ff585bbed6cd72b2d9f3d3f850fb0c16ba0c35aba71ae9,
  0x070323727ce022a5a4e7298a4957367d0782b271ea49047e3891247ea4e7ab93,
  0x07a02fd36e442661b2ec3ada8d6553389ad44e1c45aafdb818b6c282d7a90c38,
  0x0a588574cb3e07a51be38f0e6fb03939be52a91eb263846f2fe950fc18d53722,
  0x00750533d66a96af9e2425a1bd308f617308a2ffe31c561dcf41d83d97074337,
  0x06d47c63c6f372a586780d82e379cffb7af09713fdaca142c1fe8fb7ae3a4e09,
  0x009610c1e04552d9d9b55e60249aa8d93792b36728b9e4e3657061a7d7b17bc6,
  0x03b64bdfdc7808ad9c96f62aa6ca33bbb38ee640993858686570a1c23f24282c,
  0x0ce1c75955cddc2bd2c9059172704aecc9e768149afff3debd08b37f5b1f0ace,
  0x00d48ecab7ab5d90d1daf96593d772b57abfde1e9d292171bcb45be084c4bf98,
  0x04167fc56a5c69fb33034503966eea8e31fba379b7f72ec6956b8502067a4c17,
  0x016e0091497c03ffdb9433dd091f12ee3a54cd85abf79d2ae5d4274928608165,
  0x0ac24bcbb1c5cf4ffddf675e473ecba5d18c71ec237c987f61c3e949ba0d9453,
  0x0a33824e73ce694ced56b7014ce8895f4d37dbaf37b1dbc3e140b3b122ea9e2f,
  0x09b0ddbdb2d0556af44ecbbcb4bfb0b0522237d672d79f14513bf7d64223a67b,
  0x009b7812a056eaf9aac9f9b603e91b2f5c267971ec8c119452d1f8f7ab1bcbe6,
  0x0636c628ee69fe505d6b2241c07da68c30abdb415bed93a4aa9e5a0867d9b527,
  0x06811c95ff60f295942231ef8f36fd40699f3765087f529eb66de6af23c367cd,
  0x08f0ab7de9abf232fbb00c5ae6c4ef23ec49080351675e52e0a6566fb8b1b1e0,
  0x0fab91a09d6dad148ff099d2f4ef26968dd9453d6510127daca33db7c2e4900c,
  0x050a9ef4005c754acf25001a6c33dbdd2083f560f42304775afa52bb38af3cde,
  0x0b47cadb0b6123c4f8e382733eca08bc9af10913ad4efded19c82605eb441eeb,
  0x0ffbc800d140646dceedf68b6427796bab5f3124df7a5d559a77e6be3b158454,
  0x0da381eea88c81943d65a3f9715a4eecda67432aeed8814b6b7bfb9f7940d751,
  0x01ce27da331ea8a31cce3384f18ff5d92d7f1f92eee2d973ad88af52c3b11af6,
  0x069428937541decf7be262202244eab59f6e3ddc0126116a7ff26120b3ab23d5,
  0x09bde9c84f7be2869f6a00e912269a3d686de76f372f532789a601d45cd83127,
  0x05c66ab3a3154e3ea375a98eb908bc4fb0d49e86f8f74fcaf497516c2c427ff6,
  0x0c51f991812eaa6607861cb1c829967e11b58b7f5bd6c97bd6f7e1b47f62d9b7,
  0x0f5445ee7042893557eb997f333c2b9ebb3edf5ae48edb198964d76bd81e92f2,
  0x006b2f18e49cd9b3c618f15ef8a944f1427e22b92ffd940b1e2bd4dbf7928308,
  0x068c9e5873337059173196b9399d7800834075a64622e706f5cb71c8ae35dd02,
  0x0770c1ee9bde2a1f78efe1b52435867b57d469d11fc039ef893233bfdc2b03c7,
  0x0be5b26e4360814c4de82388458808a8bcd2e9e790792e154e353b1afac7bbaf,
  0x0743340796e3574dcbd405d5aff9e8133a3c5aab462f11972b3d71352ae0fa3a,
  0x0e75c15cf98696cd64e21b69f8968d6c29fc2acf98fbad45f92ecffde3b0d186,
  0x00137d7c1ad81fc7b19f78d7119e47a409799a7ec6cd8526958dee3427e43e7b,
  0x03a93bed193b6b72aee539c0a1067c0a6e9cfd2b280a9869b66c78896c099c75,
  0x0ccacf14d0012e57d47eccedca351ccefd3bea5cb27b3367cc843978088eff5b,
  0x02d18eb8b3635b16950530fc96652b61022ff961091a6f379f1d0a129203b7f1,
  0x012d3bcea2feaa97d9a38a75bec5fcc66799b313e40606820041013bc8a221c0,
  0x07ae30983d536273d6538705e7772095fe5f802b08bc18489db7f89508e814db,
  0x0246ab73f6b2388a52f8aa7cdf496ce44b091f2bb26a5b301e39cd5f8cab215d,
  0x001116d61548216583cfe865afc36890c091ceb2e6f9ae460f0e8ec5852a3cc6,
  0x04e335d032b86a97d088f821f2682239e6ff4275b4746daad45a916bb6994b21,
  0x01fd0b50b17cd625d3c7316847b2c10124a69a73f95c8a126e20e72ebeb65cff,
  0x0a33e7f0c55e1ab5266311dc0e6b44f84e006f55b6abd14df6663520b7f00fb4,
  0x00352a2fe925febe9b1a580d92e9538115e12ccb1d0b176935b48cb9b8328a25,
  0x00fa788ab8541adcf65a6a00b24a7cb45aed29b1f9c03b929ee534c4e49c97b2,
  0x0dfd476280a8fa606eb04e987ba0cc8018ab580fae5773f3137164c3bf5dd825,
  0x0e95cf07435b13b5886d1a654a48b63dfd0311db6044776c0dbf9eb9aba3bc6a,
  0x0265e6643900117f97823588f779d210688338f71663dbdc1f7cdda19e27ecab,
  0x0dd0e55f4450ac22f06e9831d4ad78643d735152eebc5994a524aef590c9ec96,
  0x09beb7d7fefe8f439dca7727877d938e3982f646054519eafa44f2a59abcb543,
  0x097066318c8a3235a2dd21b943956e507372d806457d4f7deb535391844b9b6f,
  0x07c7a89dd665f25adb8e40ab0367c0e7db871cede4ac9dd32f8e2ac7148bb9d6,
  0x0d23eb9b4265f576dd611647e8b5742c4c26ae0b9b7bd4a5b4db765cac71090c,
  0x0c805552ee6c26b1924c59bfa73d970a9ac7fc3e2fa30832044e730182745654,
  0x075cd231e726f16bd8dd294d3983c568c4aa5794cbddac4f79783a593ef94b92,
  0x0aefda6dc4f8ac2726d5cfe6727ed122543543f954d293feb94af3281a3c33e5,
  0x03dcb8d482aa1cff98381615c3f60008cd5b1b7cac0f680f99308f7ea462b048,
  0x0a9fda85a4cd0114210b5a6083e5d930fc8335285831272a7b4f93e7f4bbf8d9,
  0x00b74af4b55f6cc3a2d990c36ceeea82f6545092604ed133798eb5e614a16373,
  0x0ef84005646050256e688c1b4e5d96664a31eb5266304450dda77a5a3364345d,
  0x041043789be8e826e8abd373955692f21de92304dc5b9f318651ce84921bad75,
  0x0b776fe65ce0beb2b4c0ea527f9a04ca1241ca86089248a771dddaa6de3cfbcd,
  0x0b944aa00062f4f7f9e88b2fe97bba6eeb9c0d12a9fb5f6b180cd1274f9a5b23,
  0x093f0c36cdbb94f4891a81c9525f0358e4a9acb2c46eef71b4089afa6e6f251d,
  0x0fc68bd13d74d0deef74806fd061f5e714776e2eff2bc2477f982f03cc20605f,
  0x06ec0c68826d54415c6174509fecebec4cb41c5fbbddb953c6b6ca5ff6765d29,
  0x0161622da8e22eb559c401439c6db0eec5b7731d2af7edb1a7241e33c82b620c,
  0x09d49a9648b647a49c082274241932677c254bd1fea030053d833805bfc5e8e1,
  0x0209b8360199c834a01030f168f49e7c35aed06a5f952cab2ddf6a90ba688e43,
  0x0216116fe3fb09d5c7f84dd7e7ee4e35ff93ef0781ccec4859db7e03e032714c,
  0x075836d43c4b773c363b740ab8bcb2fe000d85046dbbddeb904e01b08f6c5aff,
  0x08339a844217773825ce6887d8e6695e3f5b1d75c7e8caa0e215c53578e01d87,
  0x0a7f3248390cb9c0e7b91e9e3eb817cc7bebe2a84c2e96ba431d7c6872d9a13e,
  0x02a90797faec4623c8a3306a9d639f7ea737df615027a61a00eb0f256144a47f,
  0x006dd246875afa21daa3e05368f54533192a5accfbd81b9b713598587c94bf1d,
  0x0ce30f313c0c532b5d8b1a0919099146fb494305f138fad165a60a0e97be4622,
  0x0d79533124e65d7b74f8f05fea03d1dbdca6c9b8cd76099aa10b6ac572d5f7b6,
  0x0a47abcb9b91ff09634da79f967eed78b9e13780894b535ae4039ac7d5f51def,
  0x01d3c88e17ed547efa3bd63891ec6d9448c66f2c1d3bc352121710a688e8b05f,
  0x0d8c9c213e6b0a6784bfe747ee6c08b8d3349930982d751179062d308c119d6f,
  0x06b6596e4a5af0354d926e0a605f7d8c9c6f6f3ad51a402926fb69ab691aae7b,
  0x0c9a579f5ba771b702d541998c92387414bf24808068815b98ac6bb112ed4981,
  0x013a2bff789a02d8fa6c10e82cd8eda33c4cc48ec4b6af51f57d98bebcbbe26d,
  0x061ed1dc1d02b8cf84ea081799656c09f8d790cdfb916b60f6770d3ad693a9ed,
  0x0885efb4d3c51f966fb479bb05c02c67ec5e526f5f5ff04c0bd3783f4ffa7e00,
  0x0145d86e790e31ec2868784e6ad04c36f3ce41e8d9b640970c191dcdd6d6d178,
  0x0f515f006c33dc682a36298ba519482a33b1741a726b7ba0d4511bdf2476b104,
  0x0fb29517761177568919ce4ba878fc5fdfd284a749f38b5cb39bd289501743a0,
  0x0281b9c97f3ac767c4dbc01e72bb88b591d27d612a5a5ba5a5008a2241e91b12,
  0x0fca5646c2600a73faffeff05767f6fe4e6503d2e00260a90055fa41041577df,
  0x02d04ddea70afc01dd5cb8a88e15b91e8d192461e209cf26fba26b81a6823ce0,
  0x01fe40e1e02c8a6429b7f95cc7e9f25dddea80fa098a649ab8fec0ffe49f9295,
  0x0b2db536838b7dc46fcd66ecf32195baa96256061eb0f107896d5ebccc38da63,
  0x06d69b881e373e497f3394fd1e0ff5a2b298cfd5b20bd2c27e8c795b2a275382,
  0x04818ccc8659a49ee7b25d347bceea86e684853af35912ff9ae741b249cb73c1,
  0x0501e013fef0a3e8d2d92103d70baa6a82226ee6b3321ee8fb2ba8b14c97bb1c,
  0x0597b682ca230f2880d68c31125bbf46c40ce013618880150ba75f7c64e966a5,
  0x073568614f59dd9e58c9b41d7fe16af6429e26f7e088142488e2f949bdc6d58b,
  0x0c02b127db85ae2c3bd2f4b340b1fdbbf40d487ec88d4b5dade0da1204c925ca,
  0x0bc46fa81be92b10f6a95d7ebc3ae2ac3a687aec2bc9cd3c1447efb84ef0ca7a,
  0x07ee6c905339f1f53a7a0e33bd643060053e94bb39eb1bfbd10ec8892646d0a7,
  0x03c7e4221f2f7c88166dce2eb9802595a38df84e269c62b5c7de0be28434f898,
  0x02ae2f6a543eb2571748ca114f71356b890c3ddf94f3630a13140dc2b5abdc45,
  0x074c073fedc06dc78adcd72efcd59ddd4f9096a20a8455948ea20c96eb1a68a3,
  0x06ee0c9d22a304833ebbb3c2e64b09c11c472c15cd16c4a138616466b98e495b,
  0x0981e24d82a21e6271caf7115126c9e568c9eafb47a85df0f50838eea5bbd55f,
  0x036ab88ad0a812ad99d811d74ac0a3499409d5bf95b08ec69e74996cf1095d93,
  0x0550a87762caaa8d9766fbeb7f9950fa077fb5d4fcd74795deeaef5a7e716989,
  0x028b2c4519eacc0f6fd446c3ed98b9438be449d9f9d736f4682ff3b6cb1040c5,
  0x04c50274c2650892b6a000df5784746f70c4d45147833c22e0875dbb53436ebf,
  0x00067199211a12b74cff6bc9a2993ead2dfd823d8a72c1eb382cad4f6ce567f8,
  0x01908ea2df9822ddf8f6d5a4117cbeb4e441e5de64ac9ecef7d65d84fd242205,
  0x0073ec774e66f0c4f25011df5a4089f568f2f855fce1b4193b8b91cbe23c31a3,
  0x0fc7c9c82a968aec6c0a548de354e1e5a4a331bd266bf56c3958ab5904c2b1d3,
  0x01ad0cf1b5f8a7e3569a4f2f06c7765d0faafb05dc651e883930f5257979c064,
  0x0f6034500374d7d1d35cad96552516a9396bc832f06469c5cf6db263b98a22b5,
  0x01d6b859a852ca9c8b41b63c9f3d2b327a74f234572ecb50c737d3f29b280db9,
  0x008835d9f02b7ea3182eb17764feb5d97c7fdddad8c24cbc94a9e64b93664ad0,
  0x02aee505eb5dbdc4b5a5a2addbe2cf56f2fe6920073c50e35303d72ec22def51,
  0x089b27b8fffc04e0a4d73099f02990d3f7c013b001d3f7b48930fb0544d0a2a2,
  0x038c182bd7212bc6533a7e4d6e8eb867c042b6f7f028962c1f0a86c120fe427b,
  0x0eccb6d9069046bdbc816186fd16cbda5fb8edc94d01e59d30abdb858abc8185,
  0x0b4b00d9f679b6d91e7bb24ac81827f50b7c6358a363d2fda55e4fc1e820ac29,
  0x0de8957b6709e765a0c3a5eb428e7408021c19ca0410f1f67ef04aa7441d5078,
  0x0d02444a25b4eaf1d0e1513eaea38aa979583cff0b60b9ea62ab45ed65b0f1da,
  0x0ac7e997e9deb779aab5627e45a62bb28110e21a068dafa6b84f70cd41a6167f,
  0x0fca97671133908a93f0aba5c320649834f32a84149cfef00c63cca052491643,
  0x0f56cd9f8ee1a59d3cd1ed50f4936f26f13291d3dfaeb0190aa180c9c417db16,
  0x00e760b2a2b348ef7a59f9000e37e147973eb0e3061b15d97ccfd3370e4fd18b,
  0x084b04cc8664ff30d66de5d5c85ee694262f80987cf6d1560f1c0be5363a4efa,
  0x09fb0580aa484b8c2cfdf35edb047020d882ec24c35e69058e2c7ebe15df64ed,
  0x0982ad225250ef97d4033bc47bef2c7735b612fa1a781b1a02f9a673e1dfaafb,
  0x02d469dfbc0fb99c674f6880123f651ba7c3a5d0e72adbad741677341b8b30e9,
  0x00cbf04b7ef3d34897dcdb07a1d11ced8056eac3cb01c21422a2d0c69082b3f7,
  0x0521e89e095abd4d5a2bfac75aa9e919c5ffbe92ec830c7168c585add1fb5604,
  0x04d45a0a794930a67183f40cf4c66a559b4ca6b5baf59af1731aba9b00ffb867,
  0x07f85ec6ccc81659370f30b890c908e6e44d7037f6934db7618a4942a4fc061c,
  0x01752a14e91a2de45f6cfbba77836747fc765c172a823f196470dca6a446e976,
  0x0899cdf812b522ac944da5b59ca5b28e4bf2b6b8b92642932059dc17b7384718,
  0x03ed7244072905ddb215609f8fcfeb693e4f8fc844d06bdc032075496cf0f1cc,
  0x0086d873e19543a2e779e4c39e30dd234ad0f6f4026b0ee9b39287e971d29c0e,
  0x0eff4fd48b7df7bcc4ac56b0ae0d7045a6acde742efa6dd347e5103905afd20f,
  0x011b61fc6c30a69a3ab2dad603357854dcfd619ffcbfcb48c81e76708a12ee53,
  0x0117ff2dbc304e6314e9473f5f73b99b30fb23275f6c15c6b364f0a2c7c35118,
  0x0932770e5f87989467639e8393e0a0ae23ad2a53a7ef80c9d7382c130e4b9fc0,
  0x0c8c76a3cf9d52b049347353c299156318e4c463f432252ce8c5dacc22daa8bd,
  0x08bf369ef38cd7d635731573ed11f61dc1ffd217355edcbf96c1f4ba760a0449,
  0x03a61257aff9cd8a089c4c54f90dd9b1a42f20e2cbf8e83a0f7b49add910c434,
  0x0e1fa2323176cbcc3818fb17bba609f686c08cc16a3277af5ebf395e49f891a4,
  0x06c90adb8ec5cd0476d0d8f998bb09f27a4a7400fb82649d6e9efa78a1d5ef14,
  0x03f8195ab171b27e5ae02da1b4fd759803be5a2cb1cca0212f311928d0a0277c,
  0x0a4f11b46bc3401291ef5f5ba22a85c5bd11d46198a2c6008fe73f5d11094a6b,
  0x0abd49cbc72303aa16b06460912e1f6b4f6871e662b0ae8d8bf8e167fbd84ff3,
  0x09e307f47e359210d78c1a8554a8b0c099bf27e0928bc61d271f9d86efb2fc73,
  0x0c173615e2a99b97c06dcb2f04b8bac1f4e6c55fe43e666d1a68acbe5bea75c7,
  0x0f7abd3f3f51d86015e57accd586d26654b5656ae023b324e1b9b3d3a517ab2f,
  0x03b0549b9eb7cf0dd7c7bc9eea7c2a55acdc7f3467082e5d59a222f17b9a8fa2,
  0x0faf30b5122c5b288a8eb6cabb080e23f4e3135324f3820c60d8f93d22d188eb,
  0x0524b6f5feb798ec049a2ff9993c01b9e281d63538503583baccab76bf8350fc,
  0x06aa0593017dd55abc825bb584f825bcee52be02c2f5a13ad81aea0b0db86298,
  0x03e377a386026fa149a60b0527a86b41d5dc0ce3788635e5f91668be0ff58d93,
  0x0f0643a02b1bb010ca77cd3c6703cc6876c510a3f7b770b814b0e124dc1ad8b1,
  0x0b17dc505d0ee7772318ec95fc9d06decdd922d42dac9b77ddfa61e3a8866a5e,
  0x0dd3540f63413c21bd6427b7ebaf217ef50008fa37edbd45c6168ce8fe1ed526,
  0x04582d8f324cd380b1f13b4a134c88feea0621e2a79174cc356da8ad6a576d2b,
  0x02bdd9725f5362cc5f633b960861bf6e3a45b5026958f73e31345f6396c18a2e,
  0x0739e399d1ccb3cd3abeb5391a57508922051977a7aa7d5d697ac06a78fd1951,
  0x0a486ddf7638a380e6f5e5461184edb5020373d1d87b883d66c74c825fb0cfa5,
  0x07b2976d439cc9b7b7112fe4455d92f61c94029ac342e494b4fd10938885eca5,
  0x0e350424c876a22f1c5fce1db06decb678bf344980c3a096a0e2264e12bd8f27,
  0x0c45cbbfdb6a5a2d371decc1e7170383d4d3274e664e4036e3825d18522de226,
  0x02b9778722744816089456f29d779a03519825f5af92f299fe1b5783805e0628,
  0x08682f817095055fb0727cdb062d1f5c62a1dcb327ad0b0d9232df46533830f0,
  0x03a458d3db830ed248420d922d1b9ef0df55ad499a9124c2d2227b09a5d3cb4d,
  0x0fa80d490bdb8e5a241ade855d4f98543d8ebaddc5d133c888e7df5094913fb3,
  0x03c1efe731696b15c209ea486e37891f41a7ef0bbf5ea07fd95874efb4156cbc,
  0x088b34bd1015c1077be0286f96bffd74b534eb207d377d1b0908a649a714f060,
  0x00051f7646a5218878e7a4eedfb080f51105c12dfc45530acb6a5a1c68600ee1,
  0x000ee219ba51d9b2c2c7e1a26cd1f001f0e945fc33fe12d838c5a50a98960faf,
  0x082e53ce57bf01fb94f8820ae9079efd87584aefeb72a71daadbdc336e28289f,
  0x05b6eb41ca86292c89a96f46b53d477dd3077270312ed6aec01e2d8d8544e41b,
  0x0ec8a64f8eebc9826c9c0424c8797814536232152d77b216fbd4aeab2cfb1882,
  0x09fa2b857ce083c7aa73b21e5320a107bdcde8f96c197a5465ceba1d8c48e562,
  0x0f0ddfabea39ee1d0c9656437479210ace3c3f7edc801eb5580907644ba79951,
  0x00cba50b2d64e6cf2ef8f8b3939151da6817ce496e0c7367a32ec9173a7e08be,
  0x0e39e326030ba7788fb6767a619151c61f85af8244aba19843a2af2b6eda20ba,
  0x0be95cce04b0c1a4f447de1c820f680602e9ea7834633c5ef91471bbfea5af15,
  0x0fde51b66a6d2ba0bdef4201e56d72e4be0bb800f8553792b360578ff35b3950,
  0x08aefdc7d3563b18e6069e96ed5361b9362725fb0d57cbdd18d7b9bab7240df2,
  0x060eeb0a3cbf18dcdf5e8422353be577f2992b744ad0383da9ed53f51d480691,
  0x02958e62418dee71888dab0265c481a22bf4dd40a6db0ff6e05bfc9f17bdab99,
  0x0599148f5e2e41d68c43054cb7b8f4d82684f8ba174ba5757ff86ea5609780fc,
  0x0536dcda6fbe0da29b19eb077d66b31d2875c99ef1489c0ebaedd031b3f804b9,
  0x0ceb71f511bb83962a82659a3c3e2a570bb120e44510f9619962d7f164e0f561,
  0x02cc9192d741a0be87e411c18961e6c73f98bfcba79359f584f053de510d75de,
  0x0065fd44faab87208015c3cba2fb96c9d46840ccafbbc09d286dc9a40cbab73f,
  0x0f6b7789ece6a8431785fd02cc22e44bc5dce9615233112166eea0e26615aef4]

end Bp
