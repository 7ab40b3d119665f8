import Verif.Model.Gadgets.Poseidon
import Verif.Lemmas.Bls

/-! # src/r1cs/gadgets/poseidon_constants.rs for the default feature `bls381`: generated from the source text -/

namespace Bp

/-- `MDS_ENTRIES_W_3` (feature bls381), poseidon_constants.rs:6-22. -/
def mdsEntriesW3 : List (List ℕ) := [
  [0x4d491a377113a8daccd13ab0066be558e27e6d5755543d54aaaaaaaa00000001,
   0x56f23d7e5f361df6266b620607396203fece3b023ffec4ff3fffffff40000001,
   0x458e97984c2b4b2b51ef819e6c2de803323e959b66656a65cccccccc33333334],
  [0x56f23d7e5f361df6266b620607396203fece3b023ffec4ff3fffffff40000001,
   0x458e97984c2b4b2b51ef819e6c2de803323e959b66656a65cccccccc33333334,
   0x609b60c54d5893118005895c0806deaf1b1e08ad2aa94ca9d555555480000001],
  [0x458e97984c2b4b2b51ef819e6c2de803323e959b66656a65cccccccc33333334,
   0x609b60c54d5893118005895c0806deaf1b1e08ad2aa94ca9d555555480000001,
   0x211f5460e751918257c7624b7077624aaa362edc49241a48db6db6db24924925]]

/-- `ROUND_CONSTS_W_3` (feature bls381), poseidon_constants.rs:24-214. -/
def roundConstsW3 : List ℕ := [
  0x669f064bfa3ae17a23bd51861dbb4a24501eac92a2758b36a7320a009d6ed3d8,
  0x0a61a8defbacca36e4537ff2c84fa66ceee67c9645ac27346e72ab842b9d3f15,
  0x21e9cefa24b89d09f91b1e8a45df275b17292b4e1aaa49301e234771128165d5,
  0x4e2377d2f5cb43b2b56e1026a391be2d5e4ebc5102b7e51dc161d2b03886ee3d,
  0x02255d26879b6d0d49762a88d8d5d0879f01a3b06fa57c240a8119099cb02ea3,
  0x27aa46e0263ddc662845f98eb5db8645f2e8baeec680ddfc16f4dd3d288d8c5b,
  0x62e1fa5861a7807d02be301fd89b30346f4875c83d73dff890cb8624fcef0186,
  0x19f00d6d8a121f271c14bc471fdd3bc901907fb5e36e40f96a772c143cfb0ca0,
  0x3499f695552f2c56f23e96df7f8f3c4dd3be0cf50259f3ef7e65d565609eafe6,
  0x236d5cf282247aaf3941406ecdb907076f45f12f89b007168f7c7a2b0157e0f5,
  0x445daf9d58581e5b0ed41b01f9228f811993992832094a9782d1d844649b4fd1,
  0x21a58e9955e3645b224d031a69ef9b23678bd7e144dd9214cf29a71c0a8426bf,
  0x48d3f5c7ccc9228420cb0c4d6eda2d5a3cd7bb8f18a0817cbd522c81d998a723,
  0x5135f0a3315e5cc27b414ead7ca52af60e714b39873cf991278d9c83899ab5cb,
  0x1d5284a657f69b5c6ae0b7e714cb38bcd175ff96a11f8bd9c77d3a2f1613a743,
  0x49c2165a0680f7a121d168565177702344690ac5f14fe4038f9c9bbc28024722,
  0x5e8eabc6a3adae0ef1a79060bad37f893ddd5335f4fc71c262e8546aaf307170,
  0x3264d05b6c40c40c0d487222b6f385f69317a90cd6793532036125902138f079,
  0x727f2a5b23ecc1410331890376f382fbad02b541140a28008dce723994810339,
  0x1f00c3b0f6ebf427238bcaf2d615ca05e8cb7b9a6eb7c667d70587f1e7aee758,
  0x3ef895995e82a276f18232d1f5ad341f46e4119098b175038e540a80d926d400,
  0x5606f5aaa845b400ed53b49dfc2119884e00f0729e0f9cf360c5c9d8762968cc,
  0x106150f58dccb090de9cfee7219a9448af8127f93ba645903a93a4dc666f5808,
  0x3117bbb789d8a521034590fe35014bcaa3be1f4cd443985574249e62d15cf96f,
  0x5404ca4c386646a17fba4557ead8a6404f76c1d8ad154c7bfb8c48f46662a7b6,
  0x561682d9ccc4d7033e1957e0aee030249e1e3ebd68a7c72b619d4e628f977920,
  0x609ebf7a728acdf6d42473dfb8dc2a9b2e9435e4b74ffe14721b3a2e044ec332,
  0x206c2444abbaf221cc01b4d06b0915c3ab384102429c4c946846f58c08e45d2e,
  0x41e35e0864e292c378fefc1dc0b0d94d54561dd1498a500681206f3f416edf91,
  0x65963f69684a9459e05fdebc7e85f5e42ec41a7370438ac37c681e1743af3517,
  0x384c77b79a3f1cc004b6d28122541c92bf3f7ade7172c92b06f24e236980012f,
  0x1d641158354425746db2c72c52f05d7935191258c6fc7c419a6c29b6da32c1a3,
  0x4f804c762f12827c32d5b018fb1aae24e5b284a0efb6c1666605e726e94baddd,
  0x02c302e7c79800112c508bffb262bea2e38a1eccabbcfa18ea7c313d50266e6f,
  0x2118be89bcf376e2cbd7741faa335b572f125299604678eca035e35114759ab4,
  0x33652630502c8a44b9d65f5e9815fe36c31023b4d8b7c3639f59447024b9f2cf,
  0x4b15c0ed31137be5b371052083fb04a273796e0936b2cbf1efcc1f686f2dcb90,
  0x3f86a1801f46d7f30a14daa6fce4a6589986fad1b8ec46d42799bf8985852053,
  0x05a46f165678e990fbde85c5e5fb483ef720160b08b9eb343d2ce7db33d2a857,
  0x3b8f9db5bf15e2dc98d96bb31bc7c0d011d23fa38b1079ce1e0aa0a2177246c4,
  0x161e9f7d4ef018f47889bd6497d7f93c6b24d9d232dfc84b50315e6f520f17bc,
  0x264a98f297e5b58bf21a27d1c865dc75c914d49ede4b27168b365da04eb4152b,
  0x38802665b39df51c986bed3c9a386d77643c7a233c75eb2aa0d5dbef34c7a11e,
  0x67fcca14ef5d1f6fb5e2a9be09cc870b49c6cbebc2e860f54e9282ac50284c0c,
  0x2ca0307ccf7f7b3f7ad993a80b2973e375fd28c689ba05d90a63a7c908629be8,
  0x1f3072135ccf376c85d03d9b56361c721422706aba7c8612c9b647ff9c4035ea,
  0x4f6851c88570a7773020d2bec31d919acec86caa1c1b266bb32b1a1c8f3a516a,
  0x54b838cf161d883e4cf655f50389e65815d63f99383b45cefdb4d3e313d14ac6,
  0x3ce7859d585daada6ef747bc68544191c9eb9a59f79703d473424ee64276f9db,
  0x57c14154a0017a88b65492f03154f11af675d4645f69077743b14ea4f49b4030,
  0x5f68e7f4c3235215f6d62be4bfaf7b3c46ffd16ae1c18dce078c72e4eacfecb0,
  0x2d993835b6108c60aa78d1f8b241188a77256399101a131b848212b2db53c67b,
  0x5e4a9799bbb8f9b35079c1a03038ad2e56648c8e4cc192b2bd2ad14948e8f255,
  0x62f6aead0e19b6e33c5a062eea003ea9e4345898eacee8bb2a8b436fa8420a33,
  0x1fdadd9c8da406323c5849b3989781fdd0438a961b2eeb7e079a37c72cd24cdb,
  0x359359b7346f649bb44b8b636523abad631b76a0de563282393a6c147cf4acab,
  0x15675df989854f06371913c37bdc1c006814e9cf4ac6124b11aeb774d42ac2b6,
  0x3670c3a64b4ba2694ca7e8f75ab7f7758e511a30e570d5a9f4e83afcf50f4ee0,
  0x66b4703bf0415b2af3ea660b391d16da7b254fa0b52e318125c78bfbedb87171,
  0x72f66342d2b390fdf253d0b44363d5b53a8fff249be3466ea33727cbe3c4c1f3,
  0x37cf10985d6ba77eef963771323962a435cc9a0f3b3e3a8c11a5ac9e39db1395,
  0x27e4538f90ec0b009d0fba99491c34bf33d48fc90e3f1e331e31446a160192b7,
  0x1b711906c22ac9937281cd1ae0f2e82828f10f229eb5b027ab11f05968d9eb6f,
  0x54a3606a3e8c5ab2ddec5898a33119b5d5ab4a8e15ab22914c52f982f38008e5,
  0x0e0aeb0f0e759a2bbde9c7ca41ebfa2f3fdd3de93f4a1595195ed82b9b2f055e,
  0x29839536e73ae40362f720bda04e4e56f167d6d1d054109a6f4f11466086efdc,
  0x54d8e3ec7800ffb1b46ef89751c6b7b6c4c96ba1168e4ec46854d29d5ed64b2f,
  0x0dd33054f93fa501add5c7bd132146cce38b708774c505c93b604f3a5aa931d0,
  0x58ed1f752578c70c8831abc2f58a332efed3780b9a4eda0ccd37a4f4b7fcf66e,
  0x59c0bd12ac0f1e8df7e4362b9823267de599b9c364c98607d85ccc676e321ea1,
  0x0734e8779b78f832b20642577c774662bde5b65af599e48382a6a2fbd555a72f,
  0x4296c2cd2d63615ad57278a61087f0171f5ca5c88a670cdce45d8353c4f27d6d,
  0x70ca4f659ac365454fd71c2b5bd64640f5b8ab6a706c5b8b9b829eeaa0f7a28d,
  0x2b3ed2067e88294cacc8bca7b14dd4d15750b5ea5f076ca7c41854f5cd16a79d,
  0x1f6005f1c1e35f721df557808f34d2cb1ef353729be365a5ba3e679b2e928fba,
  0x5fd220812f0b9285b3ce0d7d0b87b726d1682c5a328722182550f30bab0e7487,
  0x29fcc8a49f9ace62888ad3b41c7cb12999d3a583dc70d473c2ce7d8871f179a0,
  0x62a4e582d88ceac82e31b1a4e134fd4df8e71f47ca60cc69109c6b543a8a344a,
  0x31c4d94ce026bad4959787e2181dcc89a61462a70c1e175750528998cf81e018,
  0x3f26b82b525e9e40b511580861cc406bb79a074b8a98b32f718ba2c11362f807,
  0x65013234a39c87f836f7f9cc8179904c765ff0fd99b11ed4243a3bf3b1177f2c,
  0x0c22db7080672b164157ab4063e0fcc66c1e221b6e85212292cc6f22772459f8,
  0x1757f9fac9967eedbbb9a3256e3535d67c1e269a14a8fb091ace65e23661ac39,
  0x504cef8899122412be40825c6eeb0f7c86999662ec4c7620b14d6e3bf1caca54,
  0x376de57ed93de38cd2f30a79fb29b92e4e144fcb881ef39426b8c98dd993f8ed,
  0x0dba6d221e3690786243d96ea8c49e84533b982a05d2fa88175bbf19c7c4c1d4,
  0x444130bfb285396e90923711f781d49da1556ab8d94994b3f2bd7b9f7d6e1bde,
  0x423b9d3d069fbe61b5e54d09bc30397da5907d668ce5266f92bdc36fc935200d,
  0x1da3918f5cd423cba96924cfad5663bea9752c74f2931f3b468f9851606155e9,
  0x53022ce831f40d5ced2e74387f326b92d86f0dd0715432dcb4cff11862cfaeb4,
  0x69e2fe14a6875a92c1568823dddf060746525455dbd687157125626ec14ecdc1,
  0x2ac84677966e174c8c71dfe13fbfae2aee0e4d88b3c54135286526cfd9cb57bd,
  0x06fbb5301e4cffa534c8135147704fd7e72a364858597eb3483d4eafcaa9c226,
  0x5ce6e13a1ad45cd2f54893808dbe78c4250984a3f71277b9e006a20319240f7c,
  0x582fd75a0cf50bb031c8d6ab9862c5019598d2529a481fbdf3617e4e91046232,
  0x04f4473b814bef668e7e4a22010dba7874e44c34da109c5acec3750c3ffb9365,
  0x207c2cba5430a95a8f3bd861cb5b0ee38b643eadf8bf659f7c765b067a1cf3cd,
  0x6d0e096809b5e23ffb0cc9b1ca9fccfabe911e532783c3ff5454ce254e63d716,
  0x05969d41cc3bbaaa2e9d4d05b337149453c2028c1d1a4a71bebdd8b9ca1aac95,
  0x19548ff7a77670d86a925c8c3ed6d343f60337ee3bf60b37c3eee2bfad77aa9c,
  0x5796bc6126b98754dc44e77ca7b3c89f02d60a48149081a3f763dcb37b25ca02,
  0x4aa80af316c7a2b662d2e74e63852475457a950aafc7330f3af65a51fcf3dc0f,
  0x19cc9df4e33ed7741e3b72596a0489968be9253c3981e851727c1342eea142ff,
  0x1cee1165c26e9a5698fcb59ee514b2dd2921f6dfbb7d0b51cd841e09beaa7e97,
  0x28ad294f58c5c3e4b9c1aac0f1a014d7a7e0a03cfe4d42585e7b7036a6219619,
  0x63591b7786b99b3ea7d1f0be28c3c389602e31685ef3fd7312a4f952ec79d318,
  0x3592ab44a12ea16648299f14738ea0817e1b563d3b8000a39cb16eb18b76414a,
  0x375513f5f15360c7f90824119b64d79f4e95a792e79bab0ae960235b33d34d13,
  0x6aaff1f098eae8d9c9d29c71a556f5411201785b2e32a321c53494281d4a52f6,
  0x4a60db5b4fda6bd3b43fed4a90b702f61de166efde36e51bb48c98691379f7ae,
  0x16a315ece8d14bf6e327e1c2aa7f9764367fb501470a428cb43cbda39895ef7a,
  0x4732994724da47623604e949d226c07f0ad227e88cf0c92058c7921dc3d1c02f,
  0x66cfb45f6647a095523adb5cdd45376af456a4235f900f037b3ce4c99c9bad4b,
  0x5534431c0d6f15f862d16496529992af11219bc1b936b0003d884e00a5de1abc,
  0x2af548fbe4c0e02176091ffbb6f3a1b9d1f313dd66643eebdeb9126c7e897ee8,
  0x46c38ece952e86615931ca15c5e11f7a35bb2c6312a4d74fe153ff959b58fa15,
  0x0d58dbde546445276d5029bae57752e71ab406d91046f32fdb312592a8d7c86a,
  0x4a61e2f96f08bcfd428bb21a79d56951f7568a2d7619dae91b8432ebc923e6ab,
  0x59c58d944cb5fa9b70159faaa5a21be4762a62f0f5a78e94efe68237b208ac59,
  0x1de64bab1cae8dc35d54bec400e5f25128ad37a1069f8fce553b03ad0ed33fcc,
  0x532d70f037959493d5f3a90120495a4c97a3a12440dc35ebdd771abdb276ed2f,
  0x2fa34fcd7ac076e02e9679ffd214ce9d68e180184449717a5926b68d82ef116a,
  0x739afa5f847a858b43940441ce2a87739644a930eec30e9e929569552cf616b6,
  0x0f2ec24a54a31240f34724ea1476973ff062af17d068b27512e241ce51351030,
  0x5a927a7ff5ff45e058e4d806b6f0b7d6ff171ede3b3d01d4f8385cab0a1b0e5d,
  0x29d8d55cec33000e31b019a0dd8cb14bf9d915a75570bf5f9320b6c5d9d0da0d,
  0x37a368626670937de8b35c912a6b82f4aaf60ab63803649802434ca27a071eed,
  0x32f8ef20df6c486572088b70537db5ceaeb79ccd643e9e1c0290bb19350f572c,
  0x009df831fa9cedacaa065f7bdd5581482e6aad615eb472fd5850a4d0c7477e0c,
  0x557f47b72f848625ca347a6d8653d42625e745feea3bb289cd75acfb523d917f,
  0x6b0844f5eb2fc982dc88c156d33bd39b5ba4c8fd4cd0247faa379722820b7466,
  0x227dee5b1c7f8c409f38d4980b01355d7b21d12e0610ac1317ac724296f8dc2b,
  0x46074918624b162c87153dd07b1fb944c38272d01437f9994ef532bb4b4d5f7b,
  0x2527405b6d64e04172b68288cda1cb70f848ce6e831d84558b8be56b19d9db33,
  0x43a67538a944e568afc6cc5c571fe59e89e4cc960f4957743b6433b3d177d9b6,
  0x3dfa278c4f8d8744448747e6340e908bad61b520d15377262173b78d6d3547b8,
  0x28470d01333eeb1857e7595d0778318d986c435b8c5c094e225b7d11ca1174ac,
  0x15fd96cd7931143ec393ba38b3b15e689b611dd3b99196677260cb3f7f8db9c0,
  0x44068fd9a1c6015b4158d15d9a8f2fb298dee91162c63cca3ab814ec29364daf,
  0x4c59f63d303f727c672c388d3dbf6a353f9b84c22e511c0aa5bfdbee41171729,
  0x3101540e1d7f0a923e53e1ef86def6b0a86e9f036a004be5ddde44df43fd7706,
  0x22e2471398685d19af0f408fd1b18cd9442ed279fffdfee27bcfe39d8b8f236e,
  0x5c586d10ae52a9e1f274af47ea80443accb97ac0ea73d68b42d54c51b323f6d9,
  0x35b59f926a693af114bddce789fca3b67c458e224e82be2aa914c79ed039ad85,
  0x0b2d458ee73f4e6054d60365fe40b6120861d7bef7c63c25204577a73448ba0c,
  0x02f95cf5081a78c48e317874ab8670a7075da766fc20154f99368269de3b94b5,
  0x71c801487fcbbc03b61aedfa14de3d4d8184f51a6319dab24bf5e49115618534,
  0x307b41c27156ac0be05eca41a102dc8823b3ddbc1399dc8ce841c1f933caf041,
  0x02fc9786ab1b448457ac98c9314454dfc6c638ae8481c3200ecd17dd31d253a5,
  0x4409ab4f6c0f069d724f86b5b0d55904e213d4a5fc9755c981ffa016af40ac74,
  0x39176c107168eb6620ebfefff311bfe280abe3f48f8751485a1db30deaad785d,
  0x204f0ac20ece2cc11169e30799579971c5f02234708b45ea5f066214cccb06a6,
  0x739fc006d3b54d5a707a40c835fa6a27713717267d5192f77cb65c5cc8c4eb9b,
  0x15a6df21167207003961190a8236d7e7dcd6268085760c8563962e6f87d09acf,
  0x40376b10da48099faba417215372cbb92466b79cbacaad347b88931a9757b5d8,
  0x5d32aa7e6fa4e2e52b9d47032eacd6509d7e5bcd4660d06ae0204e472bf111eb,
  0x2c0e9f70303690b7e14cb877cd268d9781e0050668e9665f04ea09f94ab0817c,
  0x231dda54ee054a0afc0530a3064ff80b787e0b25d99596e37ba53aeb3cdffd79,
  0x274b78559e51e5426dc8ff296a065973bee858b2434639f66f58d466f9d99af4,
  0x5992bb8ba0ca256821c627895438811ae3c066dac732b888fd0e837c669ab727,
  0x597a123502768a985def858caf2fc0b2de9e4c4226799a5dc592de58d6a35f56,
  0x2a0c027d819603f0735178ad5f7bf87ca5b9387ed0a3b7a8c1b7228c8e335e54,
  0x62bd0e7766514106ce033ca67f075830ffc2c54b92903d4228c75762e728ecc4,
  0x00fb6ba60efe32561f1d9d57f69c56fca34c01cf6a3b1ab9ccbcf2a2e647d1dc,
  0x450c9b21e12734bb4ffcd66850045257f923280145073db0caef03014d4b2bd0,
  0x5a496fff496aebe0f694c6d6ed8797ccb76f0001cdbefecdb20f8a1cc3e0cd73,
  0x601352aa918622a208db33a151eb2e3e8d027f108e760055a0fa47d2d91d4933,
  0x59eda8ec0f8cf0cfe509cfc2bb12eb2251d9e30528c92087cc810b45c6289ec4,
  0x47f1310d0e239c2c1e8df723862024239660bc94c20b02c5d8d56e8de98a95c4,
  0x6f53b661d4b6220596d1b6436b68e0479a5f410227e6ec8cbd68d5a917ce5bc5,
  0x6a0728efd48227aab46a8c1e78a6f4fd55061d6a07d1a8c969ba10eadf521f06,
  0x2de99c53670cdb1ed5436b55ce0c1fe82628e2897b39f3c8f47fbc7ce454fc0d,
  0x35a1bad35f8a78a9e422036bc48dbf999bccbc5baf65a9867df972615989d00e,
  0x529d9e8d93678bfe1bcf24d7add25feeb6d6dcbc1420a0c6bcf9ebc8e7c723f6,
  0x69cf3756ce67cd72216b0a58196037587a54e6f9a278a05db40532b86aa85c9a,
  0x4d850bab7657c1ac71fd4572fd69b6d56216613fb89b262e002abd6203ff2686,
  0x2784e7ef9ac462b56e24d1117b25343e45e37a625e3491614513030aa7f18968,
  0x11bcab21e844da9a2a9da9721a1140213ce8d1f5adbadf22d3bdb0393ec5a7e9,
  0x1aa8afc39349a7c2dd1dc466421a8891e04c456cc781e0f8bc7d64462213f45c,
  0x1cdba5a6ff825aff032ee88da1cc50cc4f4e71d012107432c172ac9894c225d8,
  0x15090a6658f804a428093e2f98736de433abe87a4b1dc8b2466a3733a62c6787,
  0x3a1864e0ca051a15ce8c00eae2043a7faccbbc2bc0c94629667ca55db404f474,
  0x2e2b4cba4fdd3698a9047f1db8a13338220e2777f5a1fd5bb83df6a7c4a649c3,
  0x3d316650b675ecb72159173b507f73db67e700372a8943ae3965da155ed9d012,
  0x08d5b91751a690a7545406c32eb2cc458a4611741c12a4c3e4b2ef5865202d92,
  0x1662a1e3946393e6cbd798b894f344ace1d2071489ad43e6d414e393e5baecc1,
  0x6b98576fe63ba1e850a4acbbe5d904dccc6a96c1d3dff54d573fbcd6cb536bcc,
  0x54a91d320b6372d425e262ae021becdf6eb6917be79ad083e2aeade6f7a5a190,
  0x60dfbfa5d5dd06351a917a05466e5884ed12e38ec24d5bb80be0abe065395e5c]

/-- `MDS_ENTRIES_W_5` (feature bls381), poseidon_constants.rs:217-253. -/
def mdsEntriesW5 : List (List ℕ) := [
  [0x458e97984c2b4b2b51ef819e6c2de803323e959b66656a65cccccccc33333334,
   0x609b60c54d5893118005895c0806deaf1b1e08ad2aa94ca9d555555480000001,
   0x211f5460e751918257c7624b7077624aaa362edc49241a48db6db6db24924925,
   0x656ff268c469cd9f2cd29d07086d9d04a945ef829ffe907f1fffffff20000001,
   0x19c308bd25b13848eef068e557794c72f62a247271c6bf1c38e38e38aaaaaaab],
  [0x609b60c54d5893118005895c0806deaf1b1e08ad2aa94ca9d555555480000001,
   0x211f5460e751918257c7624b7077624aaa362edc49241a48db6db6db24924925,
   0x656ff268c469cd9f2cd29d07086d9d04a945ef829ffe907f1fffffff20000001,
   0x19c308bd25b13848eef068e557794c72f62a247271c6bf1c38e38e38aaaaaaab,
   0x22c74bcc2615a595a8f7c0cf3616f401991f4acdb332b532e66666661999999a],
  [0x211f5460e751918257c7624b7077624aaa362edc49241a48db6db6db24924925,
   0x656ff268c469cd9f2cd29d07086d9d04a945ef829ffe907f1fffffff20000001,
   0x19c308bd25b13848eef068e557794c72f62a247271c6bf1c38e38e38aaaaaaab,
   0x22c74bcc2615a595a8f7c0cf3616f401991f4acdb332b532e66666661999999a,
   0x6963af62e003892a5d1d50074e93217934daf23145cff68aba2e8ba200000001],
  [0x656ff268c469cd9f2cd29d07086d9d04a945ef829ffe907f1fffffff20000001,
   0x19c308bd25b13848eef068e557794c72f62a247271c6bf1c38e38e38aaaaaaab,
   0x22c74bcc2615a595a8f7c0cf3616f401991f4acdb332b532e66666661999999a,
   0x6963af62e003892a5d1d50074e93217934daf23145cff68aba2e8ba200000001,
   0x6a44840c3b7b082cd99fb0b208d45b5a376dd6581553d4546aaaaaa9c0000001],
  [0x19c308bd25b13848eef068e557794c72f62a247271c6bf1c38e38e38aaaaaaab,
   0x22c74bcc2615a595a8f7c0cf3616f401991f4acdb332b532e66666661999999a,
   0x6963af62e003892a5d1d50074e93217934daf23145cff68aba2e8ba200000001,
   0x6a44840c3b7b082cd99fb0b208d45b5a376dd6581553d4546aaaaaa9c0000001,
   0x6217dc5a0f85429f8dce7bb808267bb5bd02ed3d9d88753a3b13b13a3b13b13c]]

/-- `ROUND_CONSTS_W_5` (feature bls381), poseidon_constants.rs:255-576. -/
def roundConstsW5 : List ℕ := [
  0x45c919736a0e5f2ef32c4c7d0a338eb1fed3d9e317b7580921072285c7e215ca,
  0x3c8b831256b341d54b67d50f8fc3809ba701dafba05b89a271029f031d96cabc,
  0x167a20b0469ec356267695fc87eaa379ab9d3e169b61fc293bb22da2a5c0c551,
  0x1f348b984797e77b386e89b40070a25b747fbdacb45d3546f0809f5d872a5f50,
  0x57abe8ace6aec57e0419933c4fdca23639b91a0f25a44a6db1a8231e0c24a5dc,
  0x34b95757f2b12c0a11e9e563a6451470f3b5989334a603c69b7dbbea44c4821d,
  0x3803b0901e40b7cea8f45a16d42d1675467d85802e6b4c274dcf904a200f27e3,
  0x0360a63373dd7dd6dee3777b2f89e4f608d7c46f541c70c915ac022d3e4bfdd0,
  0x6d4d2cea65e682ac9f3edd9a75048019d57f99d5d7e2169b61dffdd4c39729b1,
  0x6814af9aed7ba38a6708c8242be42da282b83725d530dd782888c09f4d40a010,
  0x59b5abcd691c2bcccacaf800cbd5c9cc587fa6b2857c26c30e23d1f3f8cb2b1b,
  0x3440b3841d68643f1e06de6bd62c1b29d43084013a87244130f974cb7f012109,
  0x3f92667d28487d5f5e8ec3519b6f9b9e7007c98a8776c7da5a3edd68276dfe77,
  0x45c7fd2d0276da39cc86395947acc63aa929086676b773dc9afabee48ecba676,
  0x5bc7fe36abf2e094be22a29ee688574aa2b9ee01f2404deb5c88330660c8136b,
  0x02574c968dfff1b567bc5c9e8412d7ba1e6ec2e1b6b65a1f5631508b2625f374,
  0x6ac57004b5a44c400b446b72b9fc98cae953731aafc935ddd1e1c1679df6ca13,
  0x3d7f84493535e8d8a68deab5a7da9f143221139e88a9f5dc8f99424584875d90,
  0x24c1bdfce2ab3dd51e46b4476fe5947befeab9bce5bc29fb9c92dc6b4e66b1d0,
  0x040e09e1b226501da9da3435086084557cc6795505b1e31f4083beb02373015a,
  0x46be39a6c9b5cfd9114163ebc2836ee1ad0ce0dde5619c4d11f468d360f91b2c,
  0x640aab5d1ac5d7ba3768208866de21e732ebf0839f9ab2e61197f74196d93989,
  0x0c42b20363bcd5c58f3a0651bcc03adf912af7b15b12b4577146b4fc18f76f17,
  0x5e5c8d6accaedb2d87daf5cd41c3fd00d3b9a85069ee1f115d08a28ac7af04e2,
  0x639a64e76576bf7c7ceb3d68bf62c419b96b4fccd88123567e0afc60b6726327,
  0x2ec0f89c9114e41c049e478507d7e35773d7ba3eab97a19baf99a7475e8dc2bc,
  0x4ef38f3bf1459f371c61f5dc477c76c8d1f7e55bddc741294e41e9d674d0cf45,
  0x3e83e96e22e53a0eec790d320875929e4303d731b036706d161613fad43f29fa,
  0x432bb0ae0aafd3a45c635c66109a1cdc25fe4c6b222a78976ede40726f9552ac,
  0x6057b6e6e0a598fa258a1bf37b1e6a55efeae8647ab4115311ae2ab6dd5e9e05,
  0x6c26f720581a48f7acb5ae1ac23ee22c8f73e28519434f0d13774762205a3b5d,
  0x07f4670080e327f775715f04f6abbe7d9441c334285acbf0f2b098c0e91d20c2,
  0x31da2da112023add2294392bb97b2d9bfad7489973636c3c164e2abbffd20f79,
  0x0adeb730bec12fbe0acb83ee6b5e936ef0edce6943fee2af4c24fdb43d078c35,
  0x706ecf892fa5c7245a6091eb72981b253ad34d8adee0a0fec2a6073932a21a5c,
  0x672103f390491958d747b33969eed7107aff2f410fd1972647baa417f48b814a,
  0x1b0e0420bec52d2aa8338476fefd5c6802434039dfbeb72539aa906de5980742,
  0x4c40de0eabcec0d710e8b20f5dfcb0d91993a14d4328d4ea768976325abf7163,
  0x6311906596fd990df5ea402008601908581666c7b56f5378625123a418f5c17d,
  0x54f24142c6e7831f5ff0a017774365d14836437ca3a1ff76464a3a69e1bbfbba,
  0x31d39effd5b94f2fc84ceff059dc4389a17be9095efb465cbae60d2dec4b9c4d,
  0x0ce518647ca2d90cfe02f24b4f9be9c34b38a93ba2349b28f660eb5cd2424381,
  0x6d1c9ef8bacf18a72d5ed6cd19b1a075585eb962faded28b77027c092920299d,
  0x5629c3152ae82276dc3f84a0981d51e61b01d49411a5bbbed9870619229f61fe,
  0x3cf0a74f2978b7bae303f483c3172dca583708a17a5f79155b4add1bd02a6ef0,
  0x33ab581d520b24d0de1a661bc18aadcbbb7d4d0dcdebe64fb0a7b08d57d63b7c,
  0x2320c36e757e3e97edaaee0aeae152102504ca30ebedb0ef16dd0c08dcd31b11,
  0x1a66e75c502bcb75acc6e1c43c735540dffdda66bca1ea5181aea3c77df48e44,
  0x6e4de6f75a43336ef8949b6aab41f9d29b475a7ff0aeddef10a3058363243a3b,
  0x048251ca086804847cc7f1d11fd5c610f7b10ecc64ddd4474d26a44b67024b15,
  0x5868061a145c93f39607e73db7b4db17476918fbedce1f9a2067417576fab2a2,
  0x0bcf6bff7536437cb59f278d703f0d3c514e55bdfe77475c126ac2464355f1ba,
  0x1f8d60e3789fe4eaf56be0ae272fba286a6badf9c761573fb5379d9c0d187091,
  0x6af85aa25559f7b24f7e28a7981416a32d4baf0992b771a97615af6f746d6256,
  0x4244a136434f0ce49145ca4ea3bb95fefc6a3b120ec083f4a2e7c0adb5d1f9c5,
  0x4f3eab4c600985ceaba976278180197d7e67199bad07d5b39d4a5381fe4c6a06,
  0x2cbe3b1e0181054fef504e8f769d03ebf06cdc6421ada452e5603a0a6b89d87c,
  0x656787fea9efb02e3502d96b86852b2fdf45077c828d01558e3cb98fa6d57041,
  0x4fd880f178567acb0b79f842741a92403e507ec74099020e2e869cf4a8c3c1ad,
  0x16921e4d504dc8c8f4ae78192b6944ee431d78437fc3a65bbf8c1ab137aebca2,
  0x1074e4eee1f3e77d53c6b7fa213aa403797cb89531d3ee8138c4eebe515fca16,
  0x2279eab56e7260140d899f95d8768bacdd87ab0ead0b2b886b1aa282f5c87a88,
  0x2b11fbd87c7ad224f55a23273c1e97fda768b7b71361ec7ad829a8f50c9f2728,
  0x25eabf55b01dca0fcd969e8dfb1c9fe30a00b900a9bc91c0e248fbeb9e91ddc0,
  0x2e42dceacc22bdca0d6e08b97a6568d1e70c8c4b8d96aed3237c246517f0af7b,
  0x3e79fb2c2a5390d6917578bc6ae22f569fe3420a81f1365a43202fd7b9fbf710,
  0x715317c142386fa93f7f22addf204a5648e477a1fb4fdd81ebdfde93f7a5f8f7,
  0x5f8679fcf577ad45d003d321400cbc115a54eb3467580d4c4dbf95bcdfa0032c,
  0x69b6df439d23e983a2ba7fd33c8cf294ca3d2f15f3f8e303acde961e8a67ce10,
  0x33b9368f65e4f0746be0624c906837570343989f55572a863e77821589ccd8ae,
  0x59f0e09b992699b568a02849b93a062c1e80feeb95de65a9573eeba3a85478d3,
  0x2ccaf78df3e5a9b27b8b69d740b844dc8cd2a2cc8f0ff3fa0b5fa2a1bf3cf86f,
  0x6b150fabcd5c86de295a46402a564f5dfa55e90854532ef31488e7c3694a8b84,
  0x29ae80e385789ae2f90c4df679d219c2e5caad5600859052d0c05c32aef3f525,
  0x72d63001f6ddac84119ac14565a2c624b86a36c2723c5718d8c84c4f697b9e02,
  0x6f42fcf41b2e877df69f4f9f6880f698b72b190f0fb00b61c4d04fd2a02f780e,
  0x130480403a5605a1a2d6e58d8df544cea994adc0bc5cd10eae02b7d08cf59add,
  0x07d5ad8ab4da97d1f084bd09f2600375f3666b0072889368816fdfb571e6d6c2,
  0x4846125e2322ac8343aa3de1635166b0a96ed5972dac032767c7b2dc5f43459b,
  0x5cc4a7be133c33750a3d5b0b20cd6740eda6600ddcc82981236699ae819b20f9,
  0x03c7ba4ec9b62beffc065e9119e39cdd7b1ff281c7117dab19a0330ac51ec9c4,
  0x25bde4e1a3ab1ef2d95392413bd0d86465c4001c365c54fd5e8291be3dfe7bf4,
  0x3c2ec1e7e99546c793dd868b5077779f55ea7686494f16a8991236ba35e897fb,
  0x0f22a43920e6bbaf268dcf96385cd3cf0fa67cba0dd2c249d1f211eb8792ed78,
  0x6067dd0b3bdb3a6d8ed873db7486f20a7ddf0648108e496d304fa28f37bab463,
  0x471533f6c88e605774a9ebdb3cb00390eb1008ed9dc74531567b3d294eaea351,
  0x1aeea71a8cc88a293738211fce8b918cbc67a65690ee92e3709c88512065096e,
  0x6866aefcf5c1f1165eac03c2851d62706927b248f75782567ac2d494f11d24ad,
  0x003b102711e99d4b885348461107cd06b97fc779560ec3e96b3120733feb0d97,
  0x0814bcd5bf9dffb81956b1382c101e09047f28b5d395144c70bc67d44a37f20a,
  0x73c121485cc49bb17d2dd1ab868b5570413945651c0e6e912fd869cdd3575af2,
  0x0477d3ed57aadd4f34d82a9efed371d686157e99520c1016dc404f7b03037dfe,
  0x1913c70e18cfbbf76a3e21f1ba63fb8049f2f2bda6dc8fb62718fb482e5a50f9,
  0x6eca77de2a6a380ac9120a7c0de84cbd7feff52258c3eb0da10af3d80231ba31,
  0x3990a9248e9c8c70bec60fe90e3755432541137bf2847eb7fcffe3e521af5bc4,
  0x5adb24f7a4a3cadb7d13ae75a3b413269aa39e8c5e30f463c29dc7c74f82dcd9,
  0x2a8012fb21e1f4002e0fb8dbfcfa4cf5faade5cfe86edf23c9f2a03d838427e2,
  0x10b0de911dcc447ee62574025f8a223f046f79ce71dd1484b56fb83d17fb067a,
  0x416d127f7a9986d41282ef993364a0b3164bcb0975686dae83e4881b1db2b406,
  0x6898205506b98be626d3cf9c8af0e308a65fb45045ab97240e562807aa4db280,
  0x1cfa4e4dc48f0deeaaa47e87d2b5f238d810af91992d7293277b0932f46d1fff,
  0x474c4a88674097558d96abac63ed1b2430180d5dfb67fe2664bd7de68d97690f,
  0x52bc8b307ead2d4f4544ebd04720f864a71e11cb25f17451a069445b3beaf167,
  0x1f289cab4effa03c4cb43cb30fcf37a40abcc64e8a7b33ba707434d6db756747,
  0x228662cf8530a981928a084df25ee23064f5297f3548e5182fc40bd1cef95368,
  0x390e8c280a180d8d7d7d5fa93c617af57391a337bf72df985994d1534e9b49c5,
  0x3b61ca0e5828803ac66827da78d77e1d4b4361b957c33eccf8a2cc09de55300f,
  0x6172fcb6b14615a349dd781f23e85f140e2218ee0745972c4988a49c68a21957,
  0x65f0e000d3701588f6c35a2819cbd65accae2c0e32aef12ddb2f53745cc8b2a9,
  0x47590142cbd3d5aa74c66a9357b5e448eb14fb861566114eaa9ac7414cdd4635,
  0x28adc7a58adee9f0c79c7f338f23ebf613566c269e250912015742a731e4b2ab,
  0x48e0615f283b20b5bb8eeb0f8efeeb9c07aee8334f0a311deb1289ff4e6a84d6,
  0x6d6d5fbfaa411348e06954195e4fe1d52e5f7f775d1d9517e17882b55893ef4d,
  0x4d0de5ecd80a61674a0de04d101a5453ea10530b770471a0938209c3921638a6,
  0x179d3b06d0beea59e02326f6a6c7dae04ac2cfb2a5e0ff959dda89675cc960f9,
  0x71915229289cc9297694fb92b0f781b13bdbbe288cfb619f31de44afcbf8a8a0,
  0x097559fc2c80431b60446db727700609dbe56edf229d04d4e3f756bcbc947659,
  0x304e25047684f74ded88192cad4fbdb97a9fea9b66369d71e62883d4721278d9,
  0x6e1c04bf5cb9c46a53c9e1eacee090db5bd0136bc537ccb308ac8f6e10c8d86c,
  0x56970d4fb3cfd1114b9b1bde1581927450c176ee41e46af4bd256ca2a46aad77,
  0x017cf2c1be101252a9132422c7b94149ebcc8a16b797b76bcee2b6b1c4c1e0ed,
  0x57454a6c5025f41a8385ad48b3482832f0e69fdf48e8dac7ce70c3cf480cc99d,
  0x085ed0bbfe597d84f05073f5d28fee6952539e5ff939f8380b662f2668660e4c,
  0x6e6809cd4bb9ace7142683fe828b9e7b72599dd5f4723819f641048f9713c500,
  0x330add5151c0b01d8549288e25b0d20d4a4ba7a6f72b0613183323bcf4399392,
  0x1c29de8bb756436c98aeb02833df2b3b116b9971f63b6bc75d24c5318a3a03cb,
  0x2e075108f8c0836032559c91cf6a29d4dbf2448e239d41c63f188a679f3fba38,
  0x27bb25e338d7cbc5a2d5ab1e96b6387d844c2fafe589559382a91d46312d992f,
  0x419cc68a736f426ac6e3d001569e0689bd325ab3d311dff8efffacc069468ea3,
  0x5977293010476da73948e0a22b0114a8b1438935b17ca547dc7056dd4d57e57b,
  0x15447de606f871d41439f382ecb45f93ffd36cf630dea94c88a956c8847e101d,
  0x07355bdd6d996e6f54a08f73924aec9561802bbb693e0044ff74faa72330ca36,
  0x5afe0f2eb21aaead16dd885ba3cd1f689740cba3f23e32196c3c7ecc614621cf,
  0x00ef021bff3549466343eb87cc3785985494d7cb65c90ae8f0c6f61a4647dd90,
  0x2ff9122ead3dc5c0e29cc28c4921d015aa4feeec27c1b2088ebcd87f0a154f33,
  0x50be48a7422ffef8a6aec55ff246f78cd00fa4bd59528bf168cd8c78217ca2fd,
  0x4b6da659f7d270f61ee62d027e4f7f57c6a95e1f0fe47de79acbe3967ff012b2,
  0x68a8a87465a7e0dc76407b343e6b9949d853e5ba06e7e38976d0210141bdf84e,
  0x179ab72146d6f92a0dc4345eab8925247b53d9f17f2385d51dcccc4ffc90b46b,
  0x32aefcb6d275a9a6180ff1a794c6079221e529895cbe8558870ba94b3f1c8444,
  0x4bdd947566ff61d3ea770b0a0d539e6d4f7574dede1508e961a825246712effc,
  0x365af8f9dabf72281fa90dfe1b16bce2460928b64ed4f81649c7cdac153c9e72,
  0x0f297814f4b602705ad5f3218458f946c1c9ceeb4f4fdd7b742f2a983cbd0b2e,
  0x05e8416a468af376a744f68781c6821e442c0e2ed9ef53c462682b019a3ba178,
  0x5393d230efebc1aff12152b4c44cdbfacc45ed42e13c22a18bed910afb1da9a0,
  0x28b8354cf2e749e25bdabf9d018f620a5439356f094df364d2b1589f671549d3,
  0x6cda6905e5d46961f970c890d8e7ac2a56d41bdfcec21d7db84934cb5aca646b,
  0x69bef55d9a715e73fbd6f4606e1ab527b6bbefd9756f7903745724e784f77f44,
  0x614ea687da62a0d5f3ef4c161b951dc6756ffdebb3f9d091db8187bf3b4776f8,
  0x0a5987fff4d992372f28139ebd65f92ede79858d19bea4ab6284ded464fda422,
  0x4e30aa223489e9ae8d0c98978a554c8ab668a2ee38e57301d22451b267455f23,
  0x21c2de5a011b32183262697f941bcafe2802e6e774386eb4800cedfefb7c3f3c,
  0x4eecd02dd648ce17de42b8bc8f86c5c4b2844d932b001dc6253fc02b08b90c24,
  0x41cabe807f91c02cb1ec85c73ce9cc428c9583f4854c65b4f9c7648daea33014,
  0x372209b015420ceb1abf6f3263f561a54d209f6d6c3e4ee2b113dc1845a14490,
  0x6a8be83cc3b3b48d84e1c34830281b11e2920a4e8bdc14f6773dfd888ebd0ce8,
  0x5f736cf3bb919b6f277bb265c84de178db8345bd3085e32c882ec3842f54dbba,
  0x03cd0aae6c216fabc47db923d6a865dba34801ea4a7cfb3e6bd987bcc4faf3c0,
  0x68314c50cb92d17cf7af272034708ea6b0c3757144e1b229e0550b493574eb8d,
  0x6267b1df68df27d97909674f48654574cfd015af66b8457138604b282acc9e57,
  0x04c8bcd2992012fafcaaf034ad13353c9f3a6cc762b30b1d3ade89d9eb966d52,
  0x5656bbed145f7f7abece240657cc595aac6efd91f627ceb226ed7b6438e7b35e,
  0x6954637879eb2ebfcfcc1b802e769a680a3819a360ad50c472be2d0e51acf1dc,
  0x149dc33baf50542789ef4ed178b77626d6844541c3a896a384731387dac5b90c,
  0x482f528c643de05c89e1e8a21c3d6db2543abb42ef3cf20c4d82ab77b31de9b8,
  0x0779ff218e9593f938dfc52682b749ef7b4053af86ab74519bbbc2ed56683a26,
  0x087675214e7cdb434954b9228a1696cae06185b83bb644dc6fe2d51987ece948,
  0x56a9cfde1f49c22c2ad907ba60efa23e31562814e89abb26b41eb481d81b486a,
  0x36fd0488739a6ea6b03ab72a0ace09f47f46853843dd315959b5fce38728bb92,
  0x5bfec7d9e705639898878681b529c09400f370ad00311aab8eb542492a7fa27c,
  0x531b8b07a70b6d11e9e541af2ae7cc90f0521a887c859dd9a64e8a9ff78177b6,
  0x6aa84898dbc8cd76d230d2d6fe97788afcd403167af49e6ba41b2223070f61b8,
  0x39962e824171a918f7f40f9a62f2a8709a0daa49161b9cc020defa8bb32cf2cb,
  0x31cc7855ac116f7479bce7287226c9db76243c9b65546a9ec79e758e3fabe561,
  0x6269663d075058a412e95f81f72a6213e63d8eaaf5f4c0a4ac4631a915cea8c7,
  0x4832904e976d2de03be523fefadb716dd7601282ac4a54a2da7aa30bdb1a12f9,
  0x64fe6a084aaadd464a1fa1c5dd2af0509851022c2632e773986ad1a4d8f379df,
  0x1e1eeeafb6dc11152c902a559abea8c28e3322d7f1bf93540ba358f908b4683b,
  0x1141f60866ce253ec48bb55068822729991eab53135546d5c207b0d24064efd2,
  0x575e5f6a07d76f383ba25fc449274979b13359b8e4da1df36d70a8a2f2b42333,
  0x2039fd001c8cddd7eb56d4285425bad71a35f7b97b4ea9cb7665d8215764d388,
  0x282cffd75076083b095e5ff3b90e63c5c138a958dc3e0d3f3a238fd24aa382d7,
  0x51d51f49f26fd9f6c001dfcb48cf83b589c385387cfa5866b80f298dfd429aa4,
  0x71bc1aa3cf794a9503d1adcab48dc560b70ae34b80804c3abe09ff1d3ba3792a,
  0x29cfc1706e5e10cffddf9b490129f1b5645f5fc2c40f09a0b37a98c13d32602f,
  0x13cc50f4d2c4e0eeadde4085965ca971db5d8413640eda6acd8fd8abaceaf5b5,
  0x70f951fd66c628f96a9545235583f59f27d279fd3fe66d0238f5db6257b970e0,
  0x6985021e1fb911adda80b9a072f8537401e52a4ad6b7b22123bf1ea9f800e547,
  0x014c8a4c62c5868676b9384eb1a62e82340424d32c8ba5e5b910b22157f3b6f0,
  0x3ce57222297a45d8be405706bb8706b58498e6fc99e53cc195e14d4497bf5107,
  0x561f932ac2a6e2acea2e8c585f7d27b19a1e2139c8135fce01e8fe22f5d397a0,
  0x2333767a4caad6979b67cc03cd76bda5839bed29f333d9784a88f97d7f6ce388,
  0x6f1f1f0136e54a17c01a6f11f7ba09193c059e40abaf3d96c7910a6a02f4a312,
  0x2890c7f78f20919e1341a66775a636bbf8d7edfea3f793750b2633e59d906643,
  0x6ad641b4182e508f40f751fc414d41f3d266ed51078da3b4c177d4e1edc083fb,
  0x0f2a7754f45197f740dbdf169366d11fff52f4fa69029434bc95fac0faa73b07,
  0x4ad253e5da75b6240a5c5f808f07eaf8a3eac290af13ebeb9f51bbdfaf06c882,
  0x656c1f19c750094c1a5a74372d8f7f07c236eca5e45d4a1d2a670dfc4f08745f,
  0x3170776c7f0922b03dcb60e2ffca5dfa67a9c5fd75aa788488a00ecfb76e4b81,
  0x0e1216473a260fc3667e83d176e96acc975ceeb454de72b2b6eb0e90e2d87612,
  0x6c5b01cd0b7de99ef5ace3e45122cdceb39e2acbd3a6f1e238e3998d1dbb548c,
  0x4291d9b1b52979b6bff62b794f0316927e5f16953ed10183386ace6296e70ac4,
  0x52b8fbae09cc3df21d56bbdeef0a7f7956b1684ef70e55ef855fa318fcb18de3,
  0x6fdc6af6df17707d2ccd9b2f26623634d9aae777f295dc2344424618609e090c,
  0x1e8076803a34428d9cbad34e61ba121518622ae8211436af1317ccb4c423b4d2,
  0x133f70b9d2482f6f36ca08fca7f346b1f40485ae90c261696ee1ede031557c3a,
  0x228fc759179792166e67be5657c92e103ad75e8eb7bff9fc68b50aa387e947d2,
  0x27ceb0109f8b17e459968923b5e21f324f628ff5935ef0e247893553e5467646,
  0x6a01464911561e4aab84ebc9c5e4c8b157e5d4840203300129b3f4f95228d029,
  0x6c023eb4eee6b2a4de186c82cf1ef39c6e1c57035d5588d32ee3ba3e436f8b73,
  0x3bc9d77a265307921a0ea6e56b516dd6a5b74855f4152941bbb35fb98e4f5408,
  0x044c4384e7109501a463e63fe5fadde2ef14d318a13245f3fda6d7ea23eb4ff4,
  0x10568b1f8ff1be42664caaacf3550b87d1bdd43f7eb3191a47a44efbc937f7df,
  0x1e87776f0ca594d72e7512c3eade072807ef31aa80a6240dba11881f57a806e1,
  0x2de4ffb989455d63ff38fab35f61d20b133467331f9c1acdc7de3c3f209e2b1e,
  0x4fa1dad756f09e14c4015caa6c354084c134055127fc32bce293289a268960bf,
  0x1b4e270a2b23c0784fdb5fc77943a0dc56ef653f06028b7fd6e39d31f97e0a36,
  0x2d4228c55a1a37911b8dff039c5fa7943bf3e92b2e36d9bc3481b1b86b2314d8,
  0x14f76fc0fa0a95d9e00bc4992cf1193819acb0a40665eff30511a0a318bd3c72,
  0x5858d02b57563fcc114820f2ccb7a4a2945681bd7667e9916b75d6ef47c342b1,
  0x72d075db0f4d1d22d3fe4f4a1a55396257d18066fa39bd68e51f434fc4c727e8,
  0x5baaec04b8d2e64c72b47ae308a4b95102dfe5e45ccd7c293a3dc06c23289f25,
  0x3651b502f2ad090925a015d5ff59a76d616030bd0a41d6b436086af54506ecc9,
  0x69ff1bdb405d69979ced3d670a40b939590a5a51f38c0410388eb009c3a860ae,
  0x5bab2510dfabde58aa7eecc41d467af198055055efc7b8deeae867a1727dee43,
  0x5ae9fd8b238e86e55619a1c099f291babf3d437a030f935c52462e56af5ab58c,
  0x17dcc3e1e3681b36c0f2adb4c6c4e45b47594116990891f334fa3e0bdd20f3e7,
  0x320f7b086f6ad4a97d7eb3c1f9b94e3673933d0de1fd5def88c191e0f3e92f87,
  0x131f98b5f97f793147a00da08ea006fd4d56622e3980f4ae40978f73c6e519f3,
  0x46bba98a418ddcaed061f6bf8c56672ff2de5ce790ec5fbac71d8eb007658a9e,
  0x56ff1b7fe6f00d8fed0a6a304a3bf68471e65c71b3cf3dbd8690a0d2439180c6,
  0x3f428a120c488bb1c28b4a30f8d776a10bbfd4d31c5f808c0ff885139a3fb96c,
  0x3dded234f0b0446680662b2cdb1052908bd5a1d4d9f8686619161908750f32fd,
  0x10c42f8187de6cf6facba2bdea948e4f5dd374fd0f1a3b209a173d818ea029b4,
  0x1d1e996757135f39befc21d478f7c207a1f88fc94ae14202b98ac0bb328ea4d8,
  0x57f264d221e8c1ce100bff4396fed21c16d1eb17925254aa23753ef800c7d643,
  0x6d092fe3e6bdf61c75e13445d975d73477d325028fc8ed3f663cc54e67b29cb6,
  0x2d76d2466ce5effc9fbccede4b0129b2af6a265e83bd5a141d3bbce6f147620b,
  0x6343b255613336b0bffafa320cd685e81f0ae93106c0824e514c436c5ec3cb55,
  0x25b3b14cafc4ea85331a5227388dafae33d7afe579cee19c08d65ab153428197,
  0x4a2f4857105a06e11853aae81cee62bda167258953fbc56e1f49ea240f2a1ac4,
  0x276ad2dcd150dca3731e9fb82a325ea051f1aacf080866bca5c9bf012adba0a2,
  0x17873e41a73bf1c3fc130232ccbd50a01c7ae92ac0493a8c59019ef524798700,
  0x16ebe0358dabcfca996315c8c5fa2c7553445a874e8c89a58622e7fa58e67d9a,
  0x6d13c40d90eadab4ced706084c7e50826e4fae5b98f14119ee7977ea965cb6fb,
  0x3197609800c8fc87b2b66c8b0694d5f99ca2ad55aead53d5e098a3950e535708,
  0x5df8078fd66368f64af788885b0cfe7e704189da358789dd57e67210038e3dfb,
  0x5daca40e32c133a5561a11b7bff19f03df7f47201311819c059d5b0ea1d6fc05,
  0x4c1927b94310d61375144171ac4f2532b7bcb6329d8dca13507faf26dd4ce3b2,
  0x2cb74ea997a55790d18316d3ae24d0937949a9aaab5314896cfb54ef8d3a4e0e,
  0x07d08ee18a917db6ccff92859d71f6e85b28940c1f0d74f5b429fc90d91dc2bc,
  0x4a7f54e6e30cd16a614686ee4853434124f15db88305cf14a0358b03341a8299,
  0x613555cc23efa6825a20b705e14cd967aeeadb3689075e582e8189aa2b231a9f,
  0x304460b05bb0695faa7e092b7d269060ba91a87f53a22fe6d31696554fe8a781,
  0x72dd465e095469bb7abce2352b725c94b5b61c383cf4ff612f553c79a49a0b2e,
  0x43cb1cab60904386301c13deed060df19196d343e4a5e2ba7452753f6bcfdf37,
  0x0e8ea5fc87f03c5fcb8852585454edb0f6168328371f98d6f0f236d23c159bb4,
  0x0ba304eb235fda516c46d473bee2fc87d9014c0b6c0e9b6d87667f10c06e0804,
  0x54a02c165dcd9c765c663a8e2a722d803389df585adccb55bdcfa57afab85d86,
  0x1a859cc93d98670ec38e371d3f65f4e55a4f1ec372b42e76d44458fbba500993,
  0x0ae9bb965dfd1ccad637b20a32d6f68f25c4a3d3d8aae72befa78888d0e083af,
  0x0199a470960b2c15a4ad4caa479536d3f50a85f9e257f81bbbb4d2cfb97f0cbc,
  0x56a467b38608951d7ca87b6d394de2e9efca22a69a6d8d92a95958e7c976a100,
  0x1479e08483fb3d1ca2a94452706d2ef2abe6cff4f60e7a5e081acb7d086ade99,
  0x1a127b3c280cfdfaf3080173de1678dd3dc41139a99899ecbb8d2ded893caca9,
  0x2a335ae40ded03e4ee261f0cdd29a16a6fda6322e44614fa33e5a897cc9d958c,
  0x2fcb4b9e9d9b4f25939103b38c545c679fc9e5239b71929070bf941c3cdefd8f,
  0x3439bce9851a1c03ca727a80face602014361d1641c8fc664492747005fba91a,
  0x0b14eb103c304c47f5e577e7422a93029dfb2f8ea84a5f9f95cf111ad27157dd,
  0x2944a043681938b42cfda911a9510e91728b9cebd911abb5e3807b2013d967a7,
  0x1a69c10e53f031286d75c82735c8d5dca27988a55fb932b5c1d4017c8951dbd2,
  0x12a0615d05d92d24917bd4b2fc9c9c28b9cdb8e01b56e1bb18aa5095d8705a36,
  0x260f3f1cf59d9f0f56a92166f252baa7c007306ed94fd18892d692f27544280f,
  0x2dec8475877276f252c57d53c306612c2063dd257ba8ec80d581a2b62ced6b6b,
  0x65f1da02615cfa9a5d929fb3db2c3ec1f2ad150c11158eb5674c51229d5c6b11,
  0x375e5cfe68b2cc71783a60c9141347fa46dd57e72860b4d5e402a2c3c14b0401,
  0x377a0cdbd62e04c5dd818eae49894dcc92751c2b52e55a0dc7a6ceac28ea7e9b,
  0x605186fe9bc430ee32dad1127027728aadbe9c4c938f35fda007a856b4457fc9,
  0x5329fb784fdde802167110d68a9b6266c254966a3afc44ab0cefffdb59518f95,
  0x46aa9f9d0387e2b113fc7d1d445d653c06147c9d1c1461d247d575537c7f290a,
  0x0ab9bb17f7c23789eb94e0304e5310104c6911574031bc80a6de385081153058,
  0x4e851c951e53ceb12101f2f836744ae4a8be860e965ba7d201df0f2a3a5f31fb,
  0x29c111ba8ed62b0b34600afd87a9d6f3fd6e90f03978cffd501991a10e3a7441,
  0x17414640f8f2d61120fc51bfb589bd38cf758869211b465162c6da13f2c4840d,
  0x6bd124ae9946a543d87ed6b75b72d0fd010aaa8bbf657b6f0288ecb8eae177a3,
  0x5b367a9093ae560aef5a6c0f74132b8960e5adbf16535cba20f7242eea45cbcb,
  0x49d6c0b706fd113850518480fd936aa8c17d57f827faa9c497d3f4765b257799,
  0x43152ebd142b1435ae2fc0113f9da645065e82a2fdeff98fdfc7c6632d0fdb92,
  0x23c85780462deda125f5eeb0ab76910908cb14efaed491662c3dbf543208ac87,
  0x4017a002bcdf8a526ac673fe30c7cc467ad7ad2774e46ddf11fdfc55c00bd138,
  0x110572c4e7cec2c5bf045dcf23ea46381306425349facf834ee1d3ad890dfee3,
  0x0bde607a7cb7aff25c8cad3c85f705e4a72368f409da71e7cb841b94e6d2a049,
  0x1fd07c9cebeaedfeb697466e1a91c96d8c04ed3da1d2e5a0db82f6121ee6b581,
  0x532f955f21c84ea0fc828279d2bc2d95c49962c552da28af9a5853993c8df92e,
  0x04b3115223ffc9618c4c2f59036eee3f39a3f2c17c967aae7cb940df339c67cb,
  0x0b90831ce07a92c0d39a74e3fc97b6e8329d306b5289b3adc501fd51319b1f7a,
  0x05bd1729b3a8bfe23637a595c847b7a9ff7827aa1441ce672fd403025662a10c,
  0x55ebda5c445462bc4b586ee161df1a2e467d4a2cf76ee2d44c5d4580f47495c7,
  0x4d1689db0bd2ee319576bd867e51a6de5e8272952915d10b7aa91eae49b11371,
  0x4e98d15d5d96e2dcb877be1b3f55c510c4c9e5d250b65e8725786f49830b0124,
  0x6b36a84e5c5b7c5cf9011ee534bfbc8d87b6178135d9f55223bd03b713f9377d,
  0x682680971c6c86d01178185a6831f6424e2f06abf0b53b2c70ea80793ca6cf91,
  0x298c75eb0c8767396286434ff4a3062f362961c60fa5159ec5ad0b9edef33414,
  0x314946a60f3406f696aa3bcb6ed625661d769b9f778d73ab2ff81017a920e139,
  0x50e2cc23977d98805a6dadd2415c9d2b23f1180c1e83d5a860372d9268a1945f,
  0x612d303df8228e07631429cd68b50b70cec4e896d5f2e6ba986c65a6a80eb85c,
  0x1d1341063cad1c88c612d7c01f6186a0431a6cde9aa99d4a26618043eaab589c,
  0x6648a716e946257d3bc0b56ffd7fc58793ac6e4c41844858ed88faa4ff23715d,
  0x035bc4fdde0dbab613e8f1d4b09b42980729386d780d50e2886291ba938ea1e8,
  0x3cca70505b9624b79fa22bbf5e36440aa33f619c238d748b5b3f7d1aa0e557d9,
  0x60eaec0d0f7840a5fe7db569250732c7cb9780613e648026eaa977bc2f803553,
  0x640834ed23408c62d81a8286388e08361d004bf45d5813bbd25ec0417c2565e2,
  0x3039e89bfffa6a25bfb2d10ba9b908642bd61e6033b4bd07b122f43b46248522,
  0x3115beeed162eb39094dbbbb881534b654dd1a4657d807dc119b2371ba44b35b,
  0x0e3953986c35713a32b6d7e40fe9d4bda80fb7a5794ec3aafcb2bf0e94960585,
  0x24a86ee00566a8383ea7975b889eea0e0f13716747f85fd8fb3f91944b2d08ee,
  0x0f92e8e9fd5534111694581063a40fa49b030598118a9b30d8345e577d89c80e,
  0x6d4c0a9ba1d4f18c60879c457d8aef05837ff2876689c0d6c8e63013f4a5ceca,
  0x3eab2335c4e9540a6c4139bded832d87c7027dc78096eac35d40b19737dd2062,
  0x34e974d8cb3be2818f7a6a121a5c6057ed5037226d29e56d20a5ff71a4bec6eb]

/-- `MDS_ENTRIES_W_9` (feature bls381), poseidon_constants.rs:579-679. -/
def mdsEntriesW9 : List (List ℕ) := [
  [0x19c308bd25b13848eef068e557794c72f62a247271c6bf1c38e38e38aaaaaaab,
   0x22c74bcc2615a595a8f7c0cf3616f401991f4acdb332b532e66666661999999a,
   0x6963af62e003892a5d1d50074e93217934daf23145cff68aba2e8ba200000001,
   0x6a44840c3b7b082cd99fb0b208d45b5a376dd6581553d4546aaaaaa9c0000001,
   0x6217dc5a0f85429f8dce7bb808267bb5bd02ed3d9d88753a3b13b13a3b13b13c,
   0x4a867dda0877876545809d29bd0c9d27fef9e96fa4913b23edb6db6d12492493,
   0x3dd414f92742ed7bd70dc88cd1efeaad81febddf77769776eeeeeeee66666667,
   0x6caeccddf703a573b0063a878907ba84fe81c9c2cffe763f0fffffff10000001,
   0x1b46fa31af7059b6a2a432d4b6f8e788c868db4bffff9d2cf0f0f0f0b4b4b4b5],
  [0x22c74bcc2615a595a8f7c0cf3616f401991f4acdb332b532e66666661999999a,
   0x6963af62e003892a5d1d50074e93217934daf23145cff68aba2e8ba200000001,
   0x6a44840c3b7b082cd99fb0b208d45b5a376dd6581553d4546aaaaaa9c0000001,
   0x6217dc5a0f85429f8dce7bb808267bb5bd02ed3d9d88753a3b13b13a3b13b13c,
   0x4a867dda0877876545809d29bd0c9d27fef9e96fa4913b23edb6db6d12492493,
   0x3dd414f92742ed7bd70dc88cd1efeaad81febddf77769776eeeeeeee66666667,
   0x6caeccddf703a573b0063a878907ba84fe81c9c2cffe763f0fffffff10000001,
   0x1b46fa31af7059b6a2a432d4b6f8e788c868db4bffff9d2cf0f0f0f0b4b4b4b5,
   0x46d8580827a75ac891152076b08d923c24f3e43ab8e28d8d9c71c71bd5555556],
  [0x6963af62e003892a5d1d50074e93217934daf23145cff68aba2e8ba200000001,
   0x6a44840c3b7b082cd99fb0b208d45b5a376dd6581553d4546aaaaaa9c0000001,
   0x6217dc5a0f85429f8dce7bb808267bb5bd02ed3d9d88753a3b13b13a3b13b13c,
   0x4a867dda0877876545809d29bd0c9d27fef9e96fa4913b23edb6db6d12492493,
   0x3dd414f92742ed7bd70dc88cd1efeaad81febddf77769776eeeeeeee66666667,
   0x6caeccddf703a573b0063a878907ba84fe81c9c2cffe763f0fffffff10000001,
   0x1b46fa31af7059b6a2a432d4b6f8e788c868db4bffff9d2cf0f0f0f0b4b4b4b5,
   0x46d8580827a75ac891152076b08d923c24f3e43ab8e28d8d9c71c71bd5555556,
   0x6dd3abfdf187ba0e815f38736770e79941dc14a486bb13c9286bca1a00000001],
  [0x6a44840c3b7b082cd99fb0b208d45b5a376dd6581553d4546aaaaaa9c0000001,
   0x6217dc5a0f85429f8dce7bb808267bb5bd02ed3d9d88753a3b13b13a3b13b13c,
   0x4a867dda0877876545809d29bd0c9d27fef9e96fa4913b23edb6db6d12492493,
   0x3dd414f92742ed7bd70dc88cd1efeaad81febddf77769776eeeeeeee66666667,
   0x6caeccddf703a573b0063a878907ba84fe81c9c2cffe763f0fffffff10000001,
   0x1b46fa31af7059b6a2a432d4b6f8e788c868db4bffff9d2cf0f0f0f0b4b4b4b5,
   0x46d8580827a75ac891152076b08d923c24f3e43ab8e28d8d9c71c71bd5555556,
   0x6dd3abfdf187ba0e815f38736770e79941dc14a486bb13c9286bca1a00000001,
   0x1163a5e6130ad2cad47be0679b0b7a00cc8fa566d9995a99733333330ccccccd],
  [0x6217dc5a0f85429f8dce7bb808267bb5bd02ed3d9d88753a3b13b13a3b13b13c,
   0x4a867dda0877876545809d29bd0c9d27fef9e96fa4913b23edb6db6d12492493,
   0x3dd414f92742ed7bd70dc88cd1efeaad81febddf77769776eeeeeeee66666667,
   0x6caeccddf703a573b0063a878907ba84fe81c9c2cffe763f0fffffff10000001,
   0x1b46fa31af7059b6a2a432d4b6f8e788c868db4bffff9d2cf0f0f0f0b4b4b4b5,
   0x46d8580827a75ac891152076b08d923c24f3e43ab8e28d8d9c71c71bd5555556,
   0x6dd3abfdf187ba0e815f38736770e79941dc14a486bb13c9286bca1a00000001,
   0x1163a5e6130ad2cad47be0679b0b7a00cc8fa566d9995a99733333330ccccccd,
   0x0b0a7175a27085d61d427619257d20c38e120f9ec30c08c2f3cf3cf3b6db6db7],
  [0x4a867dda0877876545809d29bd0c9d27fef9e96fa4913b23edb6db6d12492493,
   0x3dd414f92742ed7bd70dc88cd1efeaad81febddf77769776eeeeeeee66666667,
   0x6caeccddf703a573b0063a878907ba84fe81c9c2cffe763f0fffffff10000001,
   0x1b46fa31af7059b6a2a432d4b6f8e788c868db4bffff9d2cf0f0f0f0b4b4b4b5,
   0x46d8580827a75ac891152076b08d923c24f3e43ab8e28d8d9c71c71bd5555556,
   0x6dd3abfdf187ba0e815f38736770e79941dc14a486bb13c9286bca1a00000001,
   0x1163a5e6130ad2cad47be0679b0b7a00cc8fa566d9995a99733333330ccccccd,
   0x0b0a7175a27085d61d427619257d20c38e120f9ec30c08c2f3cf3cf3b6db6db7,
   0x6ea8ab5b04d08339482b9407ac1a7cbf444c4b1a22e72944dd1745d080000001],
  [0x3dd414f92742ed7bd70dc88cd1efeaad81febddf77769776eeeeeeee66666667,
   0x6caeccddf703a573b0063a878907ba84fe81c9c2cffe763f0fffffff10000001,
   0x1b46fa31af7059b6a2a432d4b6f8e788c868db4bffff9d2cf0f0f0f0b4b4b4b5,
   0x46d8580827a75ac891152076b08d923c24f3e43ab8e28d8d9c71c71bd5555556,
   0x6dd3abfdf187ba0e815f38736770e79941dc14a486bb13c9286bca1a00000001,
   0x1163a5e6130ad2cad47be0679b0b7a00cc8fa566d9995a99733333330ccccccd,
   0x0b0a7175a27085d61d427619257d20c38e120f9ec30c08c2f3cf3cf3b6db6db7,
   0x6ea8ab5b04d08339482b9407ac1a7cbf444c4b1a22e72944dd1745d080000001,
   0x64cea7c2c00361cf7a7514e599124c8a328ea4e137a587a61642c8582c8590b3],
  [0x6caeccddf703a573b0063a878907ba84fe81c9c2cffe763f0fffffff10000001,
   0x1b46fa31af7059b6a2a432d4b6f8e788c868db4bffff9d2cf0f0f0f0b4b4b4b5,
   0x46d8580827a75ac891152076b08d923c24f3e43ab8e28d8d9c71c71bd5555556,
   0x6dd3abfdf187ba0e815f38736770e79941dc14a486bb13c9286bca1a00000001,
   0x1163a5e6130ad2cad47be0679b0b7a00cc8fa566d9995a99733333330ccccccd,
   0x0b0a7175a27085d61d427619257d20c38e120f9ec30c08c2f3cf3cf3b6db6db7,
   0x6ea8ab5b04d08339482b9407ac1a7cbf444c4b1a22e72944dd1745d080000001,
   0x64cea7c2c00361cf7a7514e599124c8a328ea4e137a587a61642c8582c8590b3,
   0x6f1915afb28c42ba866cc45d093b19afc595bd2d8aa91829b555555460000001],
  [0x1b46fa31af7059b6a2a432d4b6f8e788c868db4bffff9d2cf0f0f0f0b4b4b4b5,
   0x46d8580827a75ac891152076b08d923c24f3e43ab8e28d8d9c71c71bd5555556,
   0x6dd3abfdf187ba0e815f38736770e79941dc14a486bb13c9286bca1a00000001,
   0x1163a5e6130ad2cad47be0679b0b7a00cc8fa566d9995a99733333330ccccccd,
   0x0b0a7175a27085d61d427619257d20c38e120f9ec30c08c2f3cf3cf3b6db6db7,
   0x6ea8ab5b04d08339482b9407ac1a7cbf444c4b1a22e72944dd1745d080000001,
   0x64cea7c2c00361cf7a7514e599124c8a328ea4e137a587a61642c8582c8590b3,
   0x6f1915afb28c42ba866cc45d093b19afc595bd2d8aa91829b555555460000001,
   0x6aa770fa96ed0cdc062af9f2ea24419e803dd454ae12f879f5c28f5b3d70a3d8]]

/-- `ROUND_CONSTS_W_9` (feature bls381), poseidon_constants.rs:681-1267. -/
def roundConstsW9 : List ℕ := [
  0x6ce90d12c4045fe08c3caddb776dd84ac52b4ae7e48cd49443984154f2f4c2f9,
  0x0ccd9b480c84022b25a75b52c8e89d80b4fa6378d32e58f3a175504940bcec39,
  0x513ad11016ab7bb8c7ce9ae51256040e062487edf7168d206ba1b86dfe963629,
  0x11f7cb649a0e7509a23d14173a5de7151173d08eacba753b99826b8b3779200a,
  0x0ecff643ba9ab089a22a970622247f9cf186beb72648d332fae08a43750c3229,
  0x6b25f52722eb0ce3ae300e4ac0e9fcb5d56878c60f075f75521ac2d7767755e3,
  0x0a0090685e43b923a2927373966665c1492f9726055b31324386279eb9203149,
  0x015fe1e3912b8f22f10c507e053fa5844fcd781197fa4571823aacdf59c8db24,
  0x5f2a741651a2e15ce1479c0409485bcc62fffb8f1c10d818f7e1ee309632904b,
  0x360b2608f1646cc80cbfcd36b07403013063c7ab25ce9b466296de838b37e488,
  0x306ce00b7771ec2fb8b3b42e64018736b05db3f1ab35bd3ea254588355e713f9,
  0x633dd5902068ae0c8a25d241ad588e500ad4da0a670ae37a40cf4307f750ba1f,
  0x70a315191f7cb54c81578ee3b62bc8212d460e5236ebc84dd1e9b599b25edc8e,
  0x26b565af6851d51e12e2e1b7b53931a5336760ae05a2f4b9ab7b7af57cdb6084,
  0x381dccbcdbafc1c7f2777e51b2e83f46b4bb875e2db765fa50b9646979d27bce,
  0x28997240df619eaa056bc48eb8bbd4b21b1720a9d7b0d4d3da67c111df432aa1,
  0x21e9334f39acfc4b2955c629d6666e553530ad5f1d8ec4b6dd4ea359f68de964,
  0x249267d6abafa416b4679a05ee910849660f6936f3c02c48551ea83bfb6573ca,
  0x4bff8aa480c7679b3bcf2d5342400be85d9e471e379a4d974d48b9ff995862c2,
  0x019f851fb6687a587a15052bac2f2e8e1a55998c0596013ba4c5bfc98547f202,
  0x1b3907d40fbf3078fe9bec61b06ccfd079fcf63fa57dd4015753c518299a52c9,
  0x5cc62d524dbc0d191786b6dc59c78d390e5c3c484eaef37a6c6bca52c460b03b,
  0x140bb6544aba956aa9ff5a3341cf83eabc03cd7e0f91f17062052b9ef1cad972,
  0x42f4796798634d0daaf53a26f4c5bc46f74987dfc1682d87cec2199c246c83cc,
  0x4f08b10080786309f33cdadec9bc0c473a093fb591d3f9b6f93adde79844f22b,
  0x3535028e2d52f60aa81ecce18881b89aae9e5f15771fc7ef904e13dad1adae4d,
  0x654359e174efd9a7640fdb0287f06640f13736f9f10d3e7c4c7ecdcfaec94cf1,
  0x5aee3625c7b82a46ba76fb4562b39a2bb04f5ffc3cdbf7522e0e47f9a8125cbb,
  0x4221c710d19c1666b8c93c2bf26010a340bc158e6545993a02f45d110a121c0b,
  0x6f35a00b79f0ca04f18e3afb05e83a4725b295525621a32c596a4c6eb1392c07,
  0x62fe9cf676edbf3426a4ee9eac080e5cf8516cb173cd1ec692d617a8bb867d41,
  0x313c9558cb5444d67e6720bc4a64511d5044bee012c89548385edab7f5cd6ef9,
  0x1b73b8319b2e075de264aed04b1dfd39d2c3bb505176802d38f82299e7359e79,
  0x2a6b645c60d174e627db22b0ee107d86fcfe063ee98e70474c5c98da4a538b75,
  0x419597e07152450cab99d080eb590da95afce1660f0e24b03eac8ba52ab6251f,
  0x5870fc0d502c9b817f541dafbc19386c8d9c16b58df8ab576b76ba4956d52518,
  0x5aa51d96f4f76e3ef6b4c2b895311636965d34873ff2b8e8bfc75ed833b92187,
  0x0f45688be721d81fd3e9cdef2d68490ce4775b211bf8ac88cba454df96b3f1f2,
  0x35baf162b9b68a9fa1646a063074974f2866e1e1d23b5fdd7d18388bec59671e,
  0x038fb201010d4d001ee53532fdfe2c2dcd4d81aa95f7572770c9a0176417abab,
  0x5b139678fa81a4a6532c2109157b4397267d7a14f53327f959eab99df6766c25,
  0x5f200202b153afde5dc54bb1e3894385ebe44e8deb55984ec4325c8cc5a44ce0,
  0x2151dfdbc62b3f786ea15b53ad3b749a3903fb64c83de56dd112098d1df12da5,
  0x48c9f2a82bac813643f9ec1904ad155520f300908771b9537d6c0ad4ccefa47b,
  0x19949affeec1740b149600014e150059e4f38da5b9dc91a74bbcf44596eb3a05,
  0x4bb02b00be2522f0e0070fa790a9fd71516faf1354bd662b92898207eb816252,
  0x3be9fdd349dee73f8922595bee6fb9435136b82c1a383ac110b1ec8526af5f62,
  0x4483129503169500919445c27b5333495e174ab61c62022f0c4c3cd57b12dea4,
  0x4912360ce7a9b2bdfceddb1f05ee90804e76ea481cc0a9aaf0551aa366040f89,
  0x1d64136ac33d95e02e434359024c31e2df6398b6bda168481da939e4f1caa89c,
  0x13352cc90f034215c871d949ab378c0f81a9d3e6ffaff97e050255f75df0476d,
  0x5bc3eb555adfca182b9644d9c120cc789afbbc79a6791ca14d44b2f6f1da57d1,
  0x3a8aa810b7e1037d6526651dca1fc5137cfc754433773401f17bda9da49ce168,
  0x1ee4668260d0a27762dae686b94531d4152adeea86fd55c34df37659757acc49,
  0x390ab69bf8eefc51c2c3ed44197679598f3b0b26b796b24e6bc2b31bb9e4dc1c,
  0x3b28a3c33973286c896de120c38af518a085507984c942d6bac12b0a8a42e3ba,
  0x02830ab9fe28fcb2d8b13ca35a6ebec00dd38d1399d1cc3f724125309286a207,
  0x601d4b7e8122a7a55c405eebb8184c22dccbcc7240efff3e6a31be9cae12763a,
  0x2cdc04c5ee0b342099e6ed9a893ba4fbef4fa96bff9c0627672b0dc92cf48887,
  0x68abf14f7578df4824a458a0004cd0c6fb5470f7b3c33364ce0198c93e4fea28,
  0x13d3b7066762f96fe3d512e56d5e3500aeeb033014445a2b19bd962b85ef686c,
  0x141be9a660dded29c4871fb85afa1627c76d04bd99894f5fadb71a162682207f,
  0x0ecf026e121c846e10c5182943bf6ecfd02acd67584dd92a64a95faf648510e3,
  0x6d88db44d4f3fbed97df0c27c78c53b6eb6bdbd1333720f451b1a3e92860f8d6,
  0x1460d76c72906b1693aeb3044922117ee3622c646609f372366b849281c85b29,
  0x5f24b1b7f2b9c13485a8e9393ae6e195d99ffad9c1f532ddbe3598ce360ba21e,
  0x29448d367649ba69ee4da388187ee1a08636e16f77284a4bba29da5061cab099,
  0x4cae3e8d09c1ed760a9da5d29fa429e568dea50331e4f475bd16a7a802a8c1db,
  0x407b6913445256863459838e6acfcf6d4f82114eab3234a152b9e7e4b221b6c2,
  0x3aa78201d03155046add0d2670b4919a3d3779b21005548f8c97c8133dc3f39d,
  0x59a5b5c03d9dac4845e3a126da1b755b0385aa6e6b9248d2d26cac70322f5d74,
  0x5d0ddfdbc20bed989051c2ee31ca913427c2d43ccaf16c53e3e01f6d97fd657e,
  0x6c58de8fc0d0f53accd6fa9a3928666c30241c1fd3287787062a56400637a25e,
  0x23107bd2f01e84bde2fc199eeadecf4e770eb8b50bb6a6973f1f513ad30a8c69,
  0x6f0f2e0e8fe0a2d0e95582891bdaed0a93179e8385ab48f192efe147305fabce,
  0x011b8038e7f395d6b3061e354f98aa704ea6521d4c56f73bc0964147c21ec8e9,
  0x60d41b555941b0a40e50a77d47cb9da6204c954a0a896ed1e01d186662ac303f,
  0x3047b9594e05a63f0f6dd1089faa2a9e2ecba22b11e7a272d754dd69fc1f6e30,
  0x4bcacd2ab956b68f5f7a85bdae77fe73db796461caa083c79cc710141d26f495,
  0x020a5dd054251a5a221c8206c9388906ed89915ab9335d27946d3743e04bbfd1,
  0x17f6a14810f13443a28415b3461f1395e8cde717d268fbf5de44ced85a7afbcc,
  0x000ea4931e2e4a143d8d4133c34dfe0289a38985467694d492933f3a65f107a1,
  0x514d38c7e8a86220c931878f95eafd8e2aaf65c9f6b654e3f067ac10823fe57f,
  0x4518d76bfcd763d68eabe6b6b33677f31d4dc95a3141c39f1b2e70f02041dd4a,
  0x2af51ff96470b825dad74a8c78f8e4e627a199ecb19f63cbeeb47e97512da930,
  0x07791f50039ed5889eb7473d3d54a2e90725eaba7d5cbb30fd89005129b9d2fb,
  0x6d4e115fa802187691c54c592186732281bcae83d7f9b149f0b07327544c0b50,
  0x4cd806ef83c6eeb51b907c021edd6b45f851f29c3fb3dfeb4f30ca3093347e92,
  0x344b7c222d6ecabca31add3e1111e894326bc4fe5279128d6e3d3f8cdf349fc4,
  0x22a558be85f827d050167b93ce01e2fdef67273a3685bc8d83b0015b318bcb7f,
  0x68b6924e041c84f65e6669516f4e8ecce5872bcb02e7d4eae88f05d03c998bcf,
  0x3693c6e7191f56e50c5b3c6557ef1d3e6142616cba57c20ec6f3011a729f9415,
  0x6f762b8e139734b0340b397003fc43d64262bd4e2571f790cb0318f70e573306,
  0x5d24292842fc67169d12661860abecb746d4c0309a21b126d4ff77ec8e70ebcb,
  0x6af7db0b2d65fd07a354e11aaddca03876a4aa65cd080b27e7a7698bb0b02ca9,
  0x697a8cd5109c5cdd7fd6ddcfd95d48bdc97f83ef5696579a9b768546e723e291,
  0x6becf1b0f7a3c87f5960c54f689250d3fe1229afec7c7574f805ae76c6a5b5da,
  0x1d8b65153a4ba3d8df2ae8cf25943a39f414b975ecb0b7acc9bb5ee82dfbb95d,
  0x14573197818f5c19192d5caabf4f0e5f967815625e4874654b38d0fef9c4afc7,
  0x09607e183758efcfd09e675d736eaa5ca65e3983e49405a10a5978335899d749,
  0x348152b9007b9559470b527d1a99c97a180231b2cb4c748394da2a9d9c9f88ed,
  0x58d6caeeeb64e07a290a986f828b6c07f537a2686ecf731684b31e0978da3e1c,
  0x157c98bf3d5021625cecd30aee9998e96ee03b9fae7fc838b87ac1a8e0ab4976,
  0x498337b25ea5480eddb4e7589feaaa278baff5268ed560ddde3c3f67719ab18d,
  0x32cb88dfd8e3207c991ca408121a918f71724dfb41049f303598ee1e7c8ce551,
  0x1b056c5e0337ab6547fc2afb13c624aa65633255c814e06cceac5c8fad699d48,
  0x54ea1dd7fcd60d39cd777b0fe7935a5a3d0894972d8dfa44c126ad4529b9207e,
  0x4dee4326db4bee735fa80f0d302ca367fb11c4015deaa6dea470fd40e71d2bdb,
  0x0fbf3285a32056632d4d3d10a59a829047801b4f0309da4446f7de3107fb48c2,
  0x3657fbb7d4fac059938a784e7cf11b014b350bae93fe00c6eba9a789b989e4ab,
  0x2514819d98b2e511f216d2f4750b84274cc00f35056d58266bfe5e8094ab15d5,
  0x3fc8cb8a9459e1841891ad22051fae1fc0c69f60b2ebffc264533d45c478406f,
  0x3bdcc392892c452aa1a0920ee0a61b9046459cecd553a6c63f93c00c17211039,
  0x0ce294304d6a6a298fb59a3ce821f9ff4cb167ca443de3e528c1301166122b12,
  0x2d08afc6466bcdd8dba7380450a81d926595e67f16e0485a23ec0e71e69c0064,
  0x6803a0840ddce433a01fad7a86055a07c52501c1eb39ecd018d815cb47172a31,
  0x61e37f6ac4d5caba7dc277d84d85330d17de6be11c28738c5b8fb1318070e389,
  0x70917860ba0969527ac8c54f2ed291eb9f874ce3d666e1820dc5da1454bf9004,
  0x0ae2a13e9dfe9db7752070b3ff3a4000c6a00294e3acd7e1ddafe31ad01e7dec,
  0x22745fc6a273864b6be5c828e141c8e7875dce3cdaecf8cab0011b98eb8b7201,
  0x5c030ce1af2c18b6b1597a9d40e432d4068ed839221e4e5250da44dbdd073996,
  0x0ffc727b61fba3547db10dfcc2b740e55066063e93ac230178871c40e1adb1e8,
  0x1b253e68622079ba341071945597005f3b078b0167b091d11a5f20f0a51e8457,
  0x45a89a38c2fa2d324d6e441f7349bfb66204b5a014fe97e42beec49ea3f877ae,
  0x6cb29ddffb6e8e04f3d3ca169b80a517a920a85960502274d5872b80918f1c14,
  0x4468f295c482d8429f1fd6350e2fc7d2d63ae825d7cfe532e72530bd0904f5a1,
  0x4626c7bad7aad923f2ab86aabb0a278890f3279bdf867b37d7980e13e72f5488,
  0x2f3d86a13162742ca3478393e9fec542acdd97e2d7c4319816a48408849117e5,
  0x05314e9eddba69229ea7057d2d7841ec31946901ed938f88d0e0fdcde64cb5da,
  0x22474a9098ade42f1b3dc6d6b2bc7694a85caf9c8f2ed107db2c0bd0e8fe2cb0,
  0x6e40f0c3c85bbfc86dae2cda8fa46ccc6be8fab30d3d39cd8bc4f11c2e093783,
  0x65daf15f4650c48868a67c395b9c2882707f12db1cb48001145eed00dd663b69,
  0x6a455192fbe0dd6726ac500e07ade8f67be93f1d444af132c6e085869e22d716,
  0x5f87e325c2bcbb03b038054f4daa50a2f2fc1285a6eb1cb782159a47f956f03b,
  0x70f7292ac5be5710e8cdcaf15b5c701235bf544598e009391739667f524fbc72,
  0x4e12e0ac89e819cce656967f65f6beb39965ef322048b93c8615c731797442f2,
  0x59ead728b1338ee0cdf9b451dfe5cfd077d237c2b410d4099f7c12eefc3de6d5,
  0x43e17d46b1bfb06d25d948bf54afc359ec7cf8a15159d1de9068493647152338,
  0x4748473dfb5c818f58223cc5874b53cb8f5563764827b6ae4763015060a0094b,
  0x3489d0773111f968c1204a873db047c3f7c5a1048a7450adb6977e537b91b393,
  0x6ec22a156fc6d49600619eeb09cc6af10381607573c9f9463d8bd59c5c06d2ac,
  0x0bfe9b8458fa76a8411e3ea88dd18a51ea73e2c405736029f2124e4ad3673780,
  0x2c49802151ae6479e6138479a20b34c43718b08b5e1a6c982652371242d744f7,
  0x56f503a8ad27b9fed87bc8c5d274d7e4e24aa941e4aedcc14eb621fd54481b1f,
  0x29dd15358a5f9b4feab0c339274354b4e23a8e364b253e3fc15e95b28f701dc0,
  0x6be6028fb17a4edaf1a5bf9765bea799ed1a28ad541a69cc484711d0135eeaa1,
  0x2b9765a0a816e427eaa424d920032ea51ad8ac04534d89054b3a4c222f770a51,
  0x373388b28b694943fad1405feae029601f79394a350e5ed8b7c4875edeb7ce4b,
  0x3580c47ea30515271f3c354edb8155601a21c749ac388dea2011973486933263,
  0x63066457f1a0a4c661b37d3ae563205b51b95f4743b26eda2ea026866778a3c5,
  0x4bee4ebc9d417a9d806e201e29468eee1f89f957517696f916a68d644b0e53dd,
  0x6f5f17d518c0b89da830d3a11a385a8f63d99f6f9061dd37f794c3cafb44751b,
  0x23f7a47adf7a32a87de2ff3e05d26ddd6bca5eff0ea673ecc0654b6b46313d79,
  0x1094dc757dfab53e5d0baaf26ffd87d4f8f83938ea6cb509786b0a4c05fdd3a5,
  0x6a9857d2000ac39701be3323d97fb9796592b397196da9020642c5331181ee4e,
  0x4097c085972ce7aee4582798ccd1a2bba14bbe7b743eb489002b9eced9766903,
  0x5090d9db73b61cbc5292215b0c7624da45c30b234a9d83dce65b86d8b419305f,
  0x499292e23b44ec8ecedb418a35224d4a570bc7799a6af95584546662effacdb3,
  0x23ad0d8f5b0977b6e7676ee91d1715cc5a661a991f9f51dd703f66fe68eca6d3,
  0x65e1236263a3ed630e75909cf5deb66ccd957b27551a3e93ac9766e70a0aa2df,
  0x5ac5a6fb3cb289baee97a518ba8f79b8c5e15be1cca6034c10591c5648d254e8,
  0x4ca20cd4f5b76a71c89fb812a552a5fcac205d3a4f1e251761dd566df55d9da6,
  0x51b5fad9f64a32158d904e77897bc1c9e074fa06b0bb724ddda86e70fd48713e,
  0x2b1df5daa8486782a233b2b264b49c2c55d5b0a9ab4e9339cc7fb459360c5f93,
  0x1d16a48ed0848949a5818f29e7ddf1025c1bffb0cc8da7455b291d9c9b761e5d,
  0x5823665ddc7e32b8c9f13a3b6bb4f22489f88b8eecc9a43ad4c28b14e747a25c,
  0x2704b81718b1dbc687049b9b59fac5918bc1689602c218e2df9b2ce001f5ddac,
  0x70f9827686b54f3e4322c39a1d8ab86ebcf5b86022be54dd941d1dfc58bcfd1a,
  0x4a40b33dc1021b97e161306c0674c01b3e5acdff64c28032544ad452de4d00bb,
  0x6dea4c4ffae297e14d59f29cafe9915a85d8452f05249fbdc6a4a90507ae393e,
  0x520a70952dc6f0d69ff6c759051b4da6ea0d101a73652ed958d39949ff945c6a,
  0x08aab61ffd997cb19dd69d67249c93e1860c6bf6f329ba28c4e8c229faf527b7,
  0x5aee647906ac5e62f1dd344fe8f41aaa2e30948dceade403790c1bc34b91afd1,
  0x41350dce3c203c51a69bbc4d2886b6e2c671aa0e2df21bda8180a7a768924ac3,
  0x4cec684833dcbbc717b5b3bb26340a0668e4221641fba65bd9b8939d08722264,
  0x208bf355544ce105fb2876868e3e0cd3791c4097f99cce142bcf8cc78f43fc96,
  0x10a9954e836f762f1ce7fd8c03e61895a07ff44d58f8ed497d04552690111403,
  0x436045f4764a26530b19cd8744089c5dbbd9e6956bfe98ca5b362e34dfc513dc,
  0x17f9547827301b4e2e0783f33e5ebdaf846013c06a26c0110d9b7d34b61edcd1,
  0x73ce042b0b4febe90ae7ee12c2404a925281b0dd7c8915d368cd2626fe1c6269,
  0x28516fae05059de837c3d5c5da978745f57fcbd937049897cc85b1dfb8f9b3aa,
  0x38a34481a2bb6cf7a36ff805b0857c238b9212879eeaae65320cbc90f79915c5,
  0x1e93d57e1d59eeec9e7fb3929ce5d4ac893f65a2e4488b1e1225bc84ebf1699f,
  0x4f6ad71a0e149f20ebd385b66e9314572c7e48ab9f36da32e6729c1231dd2295,
  0x49947d059d4d769ad0aaf8c532ab471bd720d60eff729ea7e2db93bc038c8fdc,
  0x4b0b66c40b9b2351eb2f671274a5254ddeaee8d889caf0f01211c9d9008f8472,
  0x0f7000393aef7abe774266fbf0dcaec7093260a2a989fb7958a4a3982d2a7112,
  0x1fd7572fc8741e148973ffab06ae3eec4a94a704a073eef9913cdfaa617cf17a,
  0x4f2b2f1c5874b19956f012866740f7b82a21ec43fdd51ff4217c5fa4b2d113b3,
  0x04c40671f27d4f70d30a70b208757651ead2bcba8fa711fc39a34683dcee1624,
  0x4b79bfd76008763c7ac65f9d20e84ab8791c6781dcd6de1882f26e04a44f014a,
  0x231d51548a07143aae57f1cb6e12cc75b2e3e7640aeb7bbaf5f2005382d38c0f,
  0x381909734e78a3772342bcc8c3b64290335205bc211b2922ac0d102faa7034ad,
  0x2b15b75a0c6ff2c498ffb7fca0b62c853ed4388a3c2d9578c622d9b2f0653f80,
  0x475ad1079054e40144fce557ba7f843f6c81d79d658e4b0163a1b6d17cc0b8dd,
  0x021fad194496897aa87bb088988f7bcc713d1c758f6817f28c1f3884926ead42,
  0x2c7d68e0a79bb77ec07c77ae635810d5b07da9fc53f1f36ee555a452ab66b1f9,
  0x3a09ce73574a03bfde35a3df25526f48560307fb8511141c2a0d5faaf4d55277,
  0x289fc399cd6ec82955c97db2c139f5c92f2b6289212ce8b271c316b530fd0864,
  0x72c2d9b44754fc5da47e3af426f11096a266c6a2a7f07e23cfe64768a10567a7,
  0x2ab7bfd3c69e3c8fc74e79c7390e1718035ef064f2787fcd4f72daaf2ea8e1b9,
  0x288497c770dd33fca7b0e808202fbd4004954a0f781bc92341f6807e1e6464ee,
  0x2c2d9aca66566e13d2278efb84a527234b7e7acd424afde249aa80b6ff8b35ba,
  0x5330a7895d2eae230445fe9815bdce0343068372666e6955e621112ea8bd8b39,
  0x048993839178f5fa14a977d6e686fd7e1d01b3190c33d420b97b9a9876105397,
  0x550e810a5d51ae1e1cd1eeeea0d93c5ed10b7f34769f148d18afc553294386ff,
  0x0811939d79ae269cafa7c10f01937bd66f837cd8081f1bea9643e57e3541d308,
  0x11f336fe312ba3b99a01192dc9ac48cdcb7d4ce576d778571e3ea10aac1340d8,
  0x43e6d421bf2f6ea9517d82e4b926944d193c6ff037f1335b07c40e56a9335fe9,
  0x311a99aba367cd15f8cfa25e822c9c9f3ceac2a67da7390c13d19761625d4bff,
  0x4f9cb54ca5253cd212541686d533e5dc4254c7866866fabf7f2846e3c7c8a768,
  0x1c101c597dbda8fcdb878eff33dbe11da2b2d9ab9c4821632437f114de21e6d7,
  0x01c1610f6b3d807a4a706ae88bd3037eaadc4bd33306fd62e59da3178a1ec620,
  0x4c4226cf077f329b72f65812f2e6b42536308b56bf3cc886bcaf28631e1520d3,
  0x418326926e0034323517393b683a36d15fb231254dce7c7644cf911a8085e366,
  0x2a3ab11a7cbaecc544e90e32c5a1a7f25d232d250d47c3cf6ea894a71b54ac3f,
  0x101b41b44754a0afa3c5890cfcf9e00a5ee66268ff8d2f35b457d7074dc0fa4b,
  0x6779fb8596d4a935b188d01afde6a59bb34d41f09685d11a88b7eb6ea2145b01,
  0x4342a74253a9b4dd51d4b3c9b0922f196db4346ff26c81ac486eca11998f1fb2,
  0x41e1c5033d268d3ed45348ab3faac0e9031f73940a5e31666156c3c384c6a78e,
  0x712eb351be24c307497b38b9e2465addad62ce9e8ec0e2d6ca789d9591cc1a2f,
  0x1bf8a3ef665330d36c166df81c76470f4eba0e1a05229dd916d4c48359960623,
  0x171edc805aec6dc075c256f800ad9ca8a269844ee159a9c8b8b6a65cdd4e5adb,
  0x00fe4b22adf59342bb2cd0facda7b5e2352f13139f9df45abcc978e0ba67a333,
  0x05883ec61612ad0ba9ea5fd3e9edc7dd1696bc78760adae492255e024bd60e48,
  0x390dad3c4041190627c2a155b26f6ffb1333bcb3f1d81b8c00ce61f25e3c329b,
  0x5a831319bd85d6c044b7b7b73d6a1bbe9ad9fb835e998568692868b5aee2914c,
  0x27de520f6432404ee6c959f0f88ba1eeb1e950312e792935469884f578b52939,
  0x16f91a4af709980e5b73bb1da881df03909ab7dd7600005ee26cd398284d319b,
  0x1237d6f0a149044f37af5dc6b11eca41861bffe0821e2e22d9e0b34f37cb0b01,
  0x25df3d64efbdce228ca3958fb47899d195140a0c2453f5c3dabd35c6c5c71373,
  0x03506b76814de7190e9b9c009aeddd5f4ea26c78956172e607afdaaeaa1f2509,
  0x5c56785bd5232d3635a5a0e1695f6a82ba885f19de5a3d735d114ee0cc45aeea,
  0x5b11b145743d41ff95c5b6cd95572236a388dadfbd13447b6f596eb6721aeab4,
  0x56a91b936ed35ff1842085c16b807d38ff91b1e69e62b238a421b217d2c34819,
  0x4b76ac8286f82d98ed5782a06232867c4e449a6c1261e2e939c9fe7d63b5af49,
  0x0589e02497a4d1d90f59bacad9d211d0922d1467fc46e20816d2f5e74a832a74,
  0x015f4f03ea4205a713b5dc94bdc5f54b98b41b2654d2e2f6cc239dbeef7800be,
  0x4a1e24e2492007c0f732050bca48c472d27c732e5f0450de71846186f68c40f7,
  0x4faf7a25846e3a068adc2732e5c78db38047748b96c2c026ee846f75fb7e52c3,
  0x0eaa3f50b73d1dadb228718c28495c7e1cf36aeea54b19fe08d2a0f4b655224c,
  0x44325ca14a9d47fb2e862ed4eb29a0b8dff68774d0b3731300b3581e4e792e17,
  0x168f8f1a8f0de6e7268b2fc773d6c7615ac789f4fd799c9b2fabf6416e2479f8,
  0x6305302c956a29b25036f98d0e0c96bf988179aa083763184ed033071b24a3df,
  0x3dc5695a7fafe5cdcf6747c81a873b1a120dfcd25934fc94d92425fee1eeebe5,
  0x158ac6746334d1aeef059cf74b1836ec5e66744a8999de2b53b25c709fbc628f,
  0x39ac6dd28f537242865a3a81e25214c82e9d3f5b834a4ed0a79f769781d9360e,
  0x1a19dc11bf9de9c56f54fe9db3af7b4b76456dda4bf3285f105ed8cd71208333,
  0x56e7ceaaf37b01d918008a022b37192800b7c82d0fd5e778a88ccbb15becc321,
  0x44ebd4cc9f51e47cec04ea7f6f9c1916d16e8748d2d88c1f3296aa0e1cce00fa,
  0x18f85249587f8c9804d0a2baeac4427aa06fd88d180455ed46839f1fc7e820cb,
  0x0470041dff0090c8161bc6ae75935aef4bcab717b0503e600c90a80d0ac73370,
  0x3b9656862cd25576df1acf44e3d4104b128ae68f624c0e70949bc3e97652aa5a,
  0x670d5e1a6678614bc362563754d87a830035f238f3cefe9ba037b0d7561c2386,
  0x1d806758ff4b66cdc5ce753670d265e76ae6bd1ccd7c8e21754abaf504d3c729,
  0x1d17893567ca2c7f42d3e0623c7b86f5defc29908f2cca6587d96c635a69695c,
  0x42ebf842ec0ffc799f78f1433f0a12dd416031ede3dde7adb01d2f0d7d52d7d5,
  0x442a82d21ac8eed7a66122b8ee02a1806733538ed3931e47ed75bdc191fdcf64,
  0x036dd4dfe411b74f6727563d1463f07faf849166af5ce8101003da6c092724c6,
  0x4456709120b6b024e20e82db1d89e830b8279c7527c84f866f35485889bcc29b,
  0x2c28c514ea84363253f2496d85c6c0d77684a3645d0c7bdf09dfa611f563afb5,
  0x1d362431c9ef7338ef5cbed9ff71aca197b59632d9aa2a4b342b4f188511ac07,
  0x34fd9920b541c2d13fa5f38f322ab86dc727d909416d25b2ee996689cae33fa9,
  0x37ca03c9b889aeb3ef0ec9db97969db1169e1b3d88f48ca956b95b9bcfae426b,
  0x0babf9bf2fde409cccc806a401b9dc73f823c9aa21cefce0a059350a206632e3,
  0x6f32fc2572614d538fe1aa78e784203b06825a439abef765a72776910bd8bb7e,
  0x1f9c0efc1b201ffe19339e4a6edf3edc88079d4200c82af54d5e6a3411f865c6,
  0x264f44eea230df606f82e3c9ad0d8d589d817a017956c2d341371e3971dcf26c,
  0x0d99bd35e61d53ec59c3dda288b9fb32e2ce12f59e534640bad97788e9255890,
  0x316c828e0f5b67e5b954ba2535502ac37dab3dda9e1ea44cc3e7335233b4f2e8,
  0x49dc12e5dd5dedb7d5a6f3ee8e45efd19b94334d28dd146356022b17a9a932af,
  0x059257de200705b14e17f4c3410f7e75542eeb6037389865e6ad8f49bfe62e88,
  0x263a3b5374becb2333bc62930b68febce1cbcaa16085cfcac185223daa7ea270,
  0x14856d39c28cb4910c65e4b07174930a922156b93621feb6719e208383eed14f,
  0x729a08f2add67c5b7311a90b1020acf9892a78760fedc3f16de5aaf3f43d2f52,
  0x02e02ea7559ea1eae7142689bbba95fe21126948f8d842a6b75318a7b9b0db72,
  0x5817d9c900ea53b2009373ffaa843c19394ee570b005d56c671e2056c804a265,
  0x541e3443afe9ffbe774b766000ec0a0b41d796453d8334b7803cc8047d239a57,
  0x1ab785f3f8dcebd9d654dc6199e1b4bd2ba7f43ecd1bde00096408d2713bff55,
  0x00618413cda910c207a6a78e325a2d1cc1837a133dd59a40d4b84c6cb835e9de,
  0x1e66f1dee1a88be2da859fa0f25538e87802be0f0f86f117f15707d7bbbd4d83,
  0x308ec597ee9a6b01c994ddcd228ae44d7a0ad71975535d50ba9c395bff508af4,
  0x2ade344b2bccfd24b79d051b0f0004b2c6929dd7e4502d4507ebe59175e8ae02,
  0x05e0ade6b8d0255de09c0dec09005c8c0d793f487bf2ab62b7c759d329635abc,
  0x70c493da7dd91e7b7c460defd98a7d1475644b4996840e322902739a8aec8139,
  0x49f08b456d3bd2826ae946625a9c9604d89298bb46c8172f185d567c02a14a54,
  0x6fc62e0b7718fe46306bebf87606220b74459629040c89d362f3b9fa1e039a04,
  0x736ac707fe175f9fb75bc0c4ed146cc3112fa813c6a365db0a47f981b8006e4d,
  0x1133e2b191a74735276ffa6347fd72856e19de64fa82e06014242159ef24bc0c,
  0x56884ad4d26b97f00600a996679f30852289019365420ab9aaa970a0bd6c7d0a,
  0x2cd3dd69fdbf6a97808a80e924835a1f5bba1ff38d9cae06f10d8030fbec8052,
  0x61af9e251a526d824ea40ac694ad8a0637f2883f337e2c094096a9180a97cd4e,
  0x04ba918fbedf5ca2ad82102908e0b4410560fd676193fd555c8982c2c97d3deb,
  0x46313c1301ad0837c0399e181da6c4971d0dcf8b1a3ec0d243f8bce7e072e959,
  0x117fa72877fdda557a65d185e7b14fdba717cf577bc7e37a43cefae29acdec0d,
  0x1af502267c839ac27105278f05d93654f8f021fd64f956a4e3b2441f448dbaea,
  0x67a0265c5fdb2b463402580a1927b34850bfe4fe71d4f08bf94a35a454392ace,
  0x0e6f63e14c4c69185fae9ffbf3d18df2a230c8537d3b7a4f2d4e2c56807056dd,
  0x3a75ce6319a88641b1044214737b7f4ebd0fbc1ce2b43116bb8a58763a748531,
  0x6de70eca98ee0cf606af8ce96cf9f7c61362fa83d7a8894aa9662345e3e2adaa,
  0x233d4a56502bc122851f26f1b971a2f5148aaea7215fcf137d92a0377e604bb6,
  0x7272e75348dc61995ae3d965cf8385d62c8e35fdeac175785f4874e1d1f2c82b,
  0x390df6bec78c73b509ad1698db383b6720d2e759accfa99a025bba90c1c6faa6,
  0x645f21a1b0aad4c1f491ae9e9648bf05481b1023cb484e8aad5567b0c72475b9,
  0x42f7d0c6778e3a0a80a498d68d93201a31a570a99c139225f9cf72d5ac7108f5,
  0x31340eaa24876800fc2d71864b56e1e50c3881f19153295b5e50636424190092,
  0x3de763fab24cdf14857c72a658b88c2bf5f18cbcb8d010ab0dff2332a13c9540,
  0x3fb64aab9c877efd7b0f419a9702fbb56aff46b21edecc71b4f11a7704c86745,
  0x03f7f13f4d3391614020960d57014546f26593b262fc3a4c86c3839ab493f0b1,
  0x13e19d8dd028485d712d9b772d764721bbbeeaf8b700b662f8620fa8a3b32548,
  0x254ad6040f7abd8e965295cc0ebc9dbf1e3a22b13132b9507b3bb49568f72e74,
  0x0cbeff2b170c17dca33a2abe25273a2e38d4906efa00d1bb6cc1207ee310faae,
  0x36dcf7402bfca4bc8476f4a4703e29b03799a2c987c04c25919ff30d439e644e,
  0x0496d6449fc63aeefada2d42ee0c3df58e1d7bbbbd0974aa45d972fa7c7856e0,
  0x0fb4ac542a4b1863f9be57b8c1387459a14076e0b7bea6cb46c0e27bdb4a51ea,
  0x587a5227d6f103e43d3c417038597f3accb101dcb561a4e7bfb8af39be6fc205,
  0x3b3e760963938420f1224986f118e2a0250bac184b86aea21edb7c1201634701,
  0x6c685d9c498e769d8ab81c022415031b1ceee73504fb8ec2d0a5f4caf48dba1c,
  0x67157c176bf69799342e067882d86661cd7d085859b53b982249f9458c8c8b5e,
  0x53a7f0f92225b3bf465c8a6c75fab69a0eaaa2ce2ad02ad6b5ee80819dac6aec,
  0x29269a1e4c4cc970dd8e90e1f74e86ae972c56bb981ddd0ba96a929af1714099,
  0x45b0a9c014344594d8e9051dedccd185d05618757f084e6b02f104346865d301,
  0x07fd2f16438ad586056fc14320b7f5362cb7a6600d6d475c7f6ace938fd51e90,
  0x315fb893e65cb323c4a2993cdd541f33eb96d8de57144fc0dba87536ea5c5c02,
  0x216e1f9f49142ca7aa3671d54a1139fd02d354989b0bee33586e3d9f99b4a2b8,
  0x6d6111961924473a6e7f8d57a4f0035aabe55a63d9bbff2df4e3ca236e7218d1,
  0x6c22e19d89cdb66d7eb4f17134410243df495b582a824452d858d5eb3e04c597,
  0x034305dd7d58d17469d0d0cb318625792d033752c8ba41eee95324789c7b2721,
  0x546f8f43eb917bc1d3273b1bd87a00846e9cd86ed23af5cf875252abfbd48ab1,
  0x11a167226e910698d1322dd1a422e47207f0a64e82ccccf496068deb852030f1,
  0x034ba420d884883c9af981f4ed94df1d05bdff7ff9edc40a96cd1546c41f3f99,
  0x065fee3603ae62c4ca2674318b17b66a6ef2948fb43667fbd2e2a876bda2c0a2,
  0x28b9163d09f0bed8431473ddea928528862846516076969784a3e92dd692201c,
  0x0aacc4553d5cd23854901be26a6e78275130c3223a2dce81b851615caacff76a,
  0x4a542f50b9ce77c0a956e0a72535162beb5d09faa9205e5437cd9f2eeb575921,
  0x36c232de07215a4683f9f973579227657cc401a8b017da0c482370a24811973f,
  0x402d0caf378bc2dc7aa894a62c0a639dab4b41d6bee4842c7d5502342a58707d,
  0x6d5ed3a2eda9f8b166d52d5da0b8fcc6bea8d81234635bf3518c0e1b935e7f50,
  0x28ab97181f476d769405485367ea3f6d410089e3200d30a7f3927fcde92ae396,
  0x689d3159e3bd38632d4821b017e5bd1abf572501328e6a52f63555f2a37b21e6,
  0x5fd729be171ae682462ea9988a9b70f3ce7c6d103a18b244d94116aeb17bcae9,
  0x626c88f9018d91042c2e1dba8b2b36b8905b6feeb76236f0991c1a5735842ccd,
  0x6b03c2a7b845cbf23a707fa7fdca7bff8ebce592d4243a0c78f4d22cdda5ed86,
  0x181bb599bb4ad237d433531ad6f5e174e9cbe9e90dce87d11e5e81ea34b5f0c5,
  0x16837942973b95c3aa8bcdcb30f5a86aa0578f774943ad20084249a98b512010,
  0x156fb58f08f37442e0cc8d448f715543f479147c52df5f60cec85b22001371e1,
  0x2c715dc6429ce41227bf7222cb92cb72f1ce7014121910b9e1802e01930c3d57,
  0x1b7c1560b0d1a1bdfea695f43589a645fc5b3f01f1727dcf7bb9f1372dbde53d,
  0x312dda802b8b7c67038f99a25ca7d44a7f26848983928840158361cc8e26c2e2,
  0x69adf19113cf0b6e687461800f8dae2c3244ada473cad94ae098a53fd5bef090,
  0x6489ef850a59cc4766aafe406cdf872a7d1dd56bf9c6d815db17a0965bdf4f36,
  0x4c8499c0527009e75a070b0b1adfa33ee03b4febfbe7eba5e512f9b82e1383bd,
  0x46ddcab08d3660283f2f3460413881783031eabeb8effd4f36b474c671b6b64a,
  0x225e38983c760f72885a9a2c90a98a11a71c6ca7188b4ee4ee3b02e0ba9538dc,
  0x1453a0e3dffbfd31d2428048e0ddea225d8ca70f505d9776388b3aa2048f6b9b,
  0x147e9e688b72517927a9bb72cfa9ae594df4d32b322b80d09b4580f2f6744283,
  0x032ca132470d2645239dac527290f91e8a38bca5f204bef917e5935c44ff1221,
  0x66b9f77831f8e55bedf05496a9a2a1f7e3c68af791d5534ae6d3be3fadec61c7,
  0x4804957bb1e205837aa838b53399eb2b50bcb86fb8f038766380ec6e3def97dc,
  0x095820e1fcf2dad8bc4f39cbdd2d6d168a1b35771585d0b20b2e5fb52e3cd3c9,
  0x0085be457527767ca2e97357a92ae8e0d0f56c5b8c6c690d54e889d37f75f7e3,
  0x4cc5b0ce05f2136f2a8921e019f085724856258ee831d5336db636f3a3a4fa2a,
  0x32f087e55903a6528dd9fd2af79fd9a2f8b621a8cc7d08ab2e29f1edfb2618ab,
  0x19f3bfc009f6c1e86cc3c8db31da9857eee2169103ddc7a771f275f6beff12dd,
  0x1744dd2b3b0b28a5632f55859183a26ac4007a36ac8a23f5a45eafcde92d339c,
  0x5a02c763cfb1b93471da66d86c4eb0b78ae71b36fd90f40d6b11b393e5c8e762,
  0x6c6c555f57489cbd77c28ebcf794d05248885e41d2ab3a9cc8522c679849e0aa,
  0x5ed41a6e109c4c1ffd3259286fc31243cfc91ac05409d37a4d794dcaacec06c2,
  0x663a5711eea44dd47df4bff2cbcb12868b3d32610aea8f674087c03239282f8d,
  0x2b1e65496c3a18b47d45b002fb771e87835ca3f553edf067fd1375c041ca5316,
  0x639e4e81e7470b0a59b78d3362e41816b81868609f29f41ac2497ec017ea5538,
  0x69caa4f600c22abb093028ada62a2eaedf8e3dc51ebc66b2d9d55ede76427c6b,
  0x480b38e7bbcad328907999485e8f166c31cc9f787e23c197bc58b3615e145880,
  0x32a1ba202f2b83649db2d0863c03066dfbd665f174852633339473ff6de3f781,
  0x52ab940751502d303cd00cbe24abef0d3471bd5450b27e0dcba84697f74088e8,
  0x716e0f05f758443621efac1117c32ec19a12bd6968368cc88bb09f9eff32ddfb,
  0x2a6981fde8b3533bdbb9fbdb56b3fb1b400610b171cec38c90b85a500077eb4e,
  0x5aac1b95daf5a27b5714753b1daa95de9bfbdc4fe0b007550aac184f3f5d06e5,
  0x5b4dea71ae25376616fadfc290ffc90c0703f630a628e7463a88e5847aa9cbcd,
  0x086691a081ad1d034bbdf9d0df60e043e50b20ecebed17a1d89d9e98d45366d7,
  0x560eb36d5f16b2b25c98c15a78df72607b0cbce9cff8c750ca712061077a49e8,
  0x736408a67f9a8d83ccd5285c9ba8f2f85f4e3417089c6191ee5c39ce443d84e5,
  0x17ae82b5ba9439e2231a7ade095cda41f9dee0becc09d6870dfae406892585cb,
  0x1ce847ab3369808c278d1d8385edde3cdaf9fcee40b44354f4da53e4d5317710,
  0x67b15d41dccd097123a3be147a8ec30ad9e11a962bc46f66b2e83749f7075188,
  0x49b98c778714b4a4a83e18ebc5e5d47258aea37fdeee28772c4a73ea2f228857,
  0x691c20c89518515afa5f4e8bd3d428689efbef865e7d0a8a992a0e8a5489821c,
  0x50497b13df590d7a21ebf89a8d8ccdaeaf2be720583904b4b016530059fd8ebb,
  0x50991b40cee6bdba5a8669fa2d35b3208478a38138ade48d3ecf950b87014f26,
  0x49dc300b3bdfec15eaeae3ab187e310ec820987f2aa95125f657ae274613db4c,
  0x05557e3298deaa02080a295f99bb42f17cbdbfdfaa3211a87a1945cc75ad7b95,
  0x4c2331befcb583e714edd8e85081dd46bcb239a7648bc4faaf433be36dac1177,
  0x636d44d7311873c720d24bcc7855ca9d942a35018aba4c15d70287f27bbbdde2,
  0x56d58a244f498749c033d5aa482838dddb098efd957b769095d1597f0a59d129,
  0x1fd27fd5546d320c6e6712137c90657a422c30c630ef72f574dfd3001709e30c,
  0x5da9ac6b0d5bb740dad3063f3a85e3d061a15ef3631c07bf6e249afedfb3c97f,
  0x0847879aa3804e4d53745aece3e1378def3882edcc2c2d036207cb3f6fcbcf59,
  0x68afbb9a3c2715f42c2cca0bb4fce9676fdb3ffbd7aa68d325c1cf5858259122,
  0x0d8e2c1f93d1384570d1332f50abba727ef03b44c66d5d01b6c0d1f82c639798,
  0x7037e612accde90c73bfcc39d9ffd84316a1f3c0e9e3d778a144060d5203895b,
  0x4f69cb7e69d1896122366c07f39dbbed12e427e97753e08e379cc300a5b52895,
  0x1a2cdd1be0871bbccbfac1919b6c47320959284e86e9d0fa65dd1a2329f5c83e,
  0x6fa34e64d034e871046d799c2b265d7973714a47596e0642645b1c018f3eacc6,
  0x587c5217ac17733db3bf561389c261dd7517b48343ea0ad16f28776cf6e86cd9,
  0x38c71ef198c46b41dedb1aed0b2d8df0ea5bc59307719b1ae8faeb9d66368044,
  0x07752fa7be7dd5a37af70c4d3e7a2a80e5da7cd0df42f6272a707c01e4ff0e9f,
  0x2e6f6f734959e128228d1bd864c98106b167774165aaa4a6c7c5b7c2ff74a395,
  0x24d4cda24718ab707d93f68033d02e91223cdd8d77c822b9b9745d2da803b606,
  0x3049ee1f9f881041be11445b0e78db13dc2c31132b0d698b7682e1d2b4cc0286,
  0x684ad28d666b2c085db23f64aba2f57d8d14b1cb6c3606e8190726851c38167c,
  0x053eeb176d43af54c3035b292fedd9e07f59edc65bc21163f1d218c4ab97fe0a,
  0x45a67e400e5dc166a2283ab0d89614970d0b52c251cdb27ccebd5a5feedcfb54,
  0x13b6dd0889c5fa25b9b5c66b4b828c720fa4f9fa7211e338cbfda29a2bd0fe20,
  0x3e49178da6f3b4380f9f86b7df817c8c2815d0b4123e69f37a1d517c2ec54895,
  0x1ec2543dd1a3ba179e960325bec6a6bec1afe9363a0ba7ffc04630815621f51a,
  0x550e3e2990f8590f2d7e952919696cf37a73681d66c61708da513677af29740d,
  0x1f387bcdfc9f00ef1ca1e1a9decf4cd1a0a7225a09d9d6d117825a6693d01d70,
  0x28056cb6e6133ae3ed62f238c764a53de03bd95fab2595cac4a09f5b8c7a8c10,
  0x4afa59ddf7d7d9515cd8bdc9dd4695ff39e0a8c2e2f65d4b27a237594bd5fd2e,
  0x612b2c78c41385bb55de9af2a07a4451c069c4a346e01a1685327e41ef9de1ac,
  0x63a9867f1b17e858c0afad4c36c56aec5167016664a44b92e08e04864e47b312,
  0x09aa344d8af8fae0b56525f0c637e69ca632fcd333bbfd3425c42e98878d3ee1,
  0x14182aac61726ef2f0b70faf8ac9f3838531bfea3ddb5278358a07a8c2cb30fa,
  0x5a77ab3d37d742f2fa99f0202fc2c81f858d72a697a8c8a9d53dd8d7dd441fa2,
  0x3644831390a59d12ef3e331c2e074741538e9c0b194f5f063e613e4c3e46006d,
  0x23d77026e5f20ca87324ad259e0d601f4c1c824628d63061485f67c3a1224e9f,
  0x58800411ebbaebd0a4ed30cc02943b6a49e4192ff14aa8af06e80b0c599dae72,
  0x1b42346eb77cd4f82ecfabbd9c566df3ed6c384af99dce21372591bd4cf307aa,
  0x5ea0f4f72b4f1931cf4b881f788671038bddffe6c940749b718c824de4619048,
  0x3a1ed12d91e8c4c268f6fa9ec9da606305134f43f71ca715c2679868d7487819,
  0x50d7471bcd25b0077b9e58cc53bcef5218f90f25a1b6f4dc48d0e22b9da11c8d,
  0x2fcc8dbd5342a0786b147dbdf060793750e4a9e636ad45becab60ddadbefc4d7,
  0x4045d39523de5044a902fb3f60ad87b2580d8beaf6c19f1c5e3adf86ab0deff1,
  0x23a7fed8f18500fec6ba4a84bad97e5216289baa0930873fe2055b8018900e9c,
  0x23a69e96abd328c12687ab2b1f74c2bf0971236d15d6b3f1b8794cbd6200451e,
  0x2f88a42142809fc6bbd1d4f1ffdd4b518023a023a8e0dc3a24a2abe942937d8a,
  0x52cdcc323ecc778980aeaae847a1dd108cd46a0eeec2060d2dbcf33b4326d6f6,
  0x315dd0b06328f08eec6f95da5c980fbc99fce9f94e476a86ac298501313be20b,
  0x0ada814272d74b4134ec7b38b0d6f0a6dbb61c2e1642815db24324e83c7a341b,
  0x27655d1e9f73e3509f05321b43c38ea06ec5052056d2365e5d4371e680dbaba1,
  0x25abc3c3983c030f8dbdb6102f12d631279ed1755211597cd6b88c96c522b2ea,
  0x0feea885c376fd8854c46270b88ea727bbb7f8f9c783ae0eb3b33bfeb4114fe8,
  0x3829adc5632955cc89ca116bada0befa4f33a72350d45f47087b4cc10de6f046,
  0x0de7bf87b2c431c11f884aff4af39ad9355f2efac4347d4f30f117d4339e3a03,
  0x37d2e60ba66a26fa22c0b66fbe63ee48abe1beb5efea6fe0d3641a7300cab351,
  0x6fbbe9ace16dd8c8de143f8d550277be2e076cf87d9ba4d3c66c8c0ad66faf1d,
  0x620a99e3416127224141b38dab8cb9a9abe5a424c0568b2177e54969adb18fc5,
  0x55419489d427134bc18664c95de67775e0848da900618025c6fdc97c4f768e26,
  0x0fc63b72decbca44e9f2704d3f3c4b96467851016294e25aa3ee77a4fefd6aec,
  0x66e6ba949fe2ef29b52265eade8cd0d01162094df5cf5ee7bbbad60afb86c695,
  0x693d12310c1e835cf9ca42892704d3cf04ab3d9efa4ceeead58853b75a7949c2,
  0x5b385265c287e3b0b9dd8a60be955dc341d3909642caaa44cbfd06f8e832cd1c,
  0x55731b032ad71d10f7a927cf6984766541f69ac293b2430aeb62b5f71e335446,
  0x54f983ecdf734ab4940625e632a0a21c3712456c44574a37a0c7e9ed284d87ce,
  0x06217ddaf0e415bee4b5642ca0e6f3e1a9864fb8e4c2d9df50469731397b7cf8,
  0x6a20995ee49c8ecf59071e9a58a0ab9a5f5e3a6e32131641ea522d7a2dfb8c33,
  0x12e2f1d2170af794e9e24ea00fe6a9790ff8e50607b74f22cc918afa6c10eb72,
  0x49de467f89856e386edf311a1d3580f073d447a0157b39527d183dd5e0475ecd,
  0x1b31e524e7c49b91b428f6aef42e3cdbab1aacf0de566ca91de1ffff5fce909c,
  0x238fbc78a00faf529a1593220fd443724942477272957c724bda566253d00e91,
  0x34e29201e4d70337e1a003557c33e682e17e61a3a704e758e45db16e040a9e78,
  0x0e52569e237db27b8dfe1bca28eab10768a8420f6bd1d27146b3428a3b9c9702,
  0x5b47285e3a14e5c18acbe1f7371667a2dd64c6eab9252e5c0c5df907b91ee320,
  0x564924d7168e01ec788ac4cc9a70aa29935e5067cb63376822db3b51a38c0ac1,
  0x3906a00f9d868267907a5d6e8312211770120fda16d205f6561ce512a76cfb99,
  0x4e21390b02c88810da7704d4b69c6f4a6442a410e9dd46485004627a855feb85,
  0x0a257447c59914c870a03b0f8156cedb82db49651dca5cb7672e3c3ccfec07c6,
  0x297f220b8a07795b56faa7802c83e876baf4e9c059222efaa1b954792101d0a9,
  0x2dc345cd9f4dd26e868d67022353597e3e1e74a1b427b3ad1a6f9d624ff3a0f8,
  0x3d92a8efaa2f9a9c5dec77f8bf574613c52d455cd46ecf986b895b9cb2bf4d3d,
  0x185b7463d904bdda727445c8af16c99d4f70a3c2714ba1621440b6b2bc4b1098,
  0x2075015c05d1f6c7e5e5860a84cec0a5a9ff4861232bed7a2e3c1634682ea544,
  0x618b39f2f1bb69d4a14d494fad485ba8c168a772b3c41326dfd08ab9a4b8a3a5,
  0x53afb907a0a06e998000fd0e9b7d225cc38e2dfbd8818a45521aecdfa1a1ee1b,
  0x2ae253de5369ec67b72775d0e25a77aab5c0fbe30a3e3ce512456190d2641c62,
  0x23a086e6f5e5be46c8e3f8cf578d9c3b785a2281d2eef5465704b7b633a91174,
  0x40a942e918f62ae4ce745bdf0b9f3d725b05fd2865e4b76c2d9946259e05d5fc,
  0x3f2fc6687a74dc41633cbaf32688ebff5507c9bc855d09d964ff804f5141fb47,
  0x4001b3d7171d0654940fd0530af671f54e4291ba9c5e5be7c0f6b4572b585e34,
  0x4b411277c874201864140e30aefbb58526f1866073ee3e97811a41c77b8c6eac,
  0x13b90cba17dd014587162cf426482cae6ceb6b5ee7ec6db0e5f85c52c122f761,
  0x30b8159d58dfac65fd84fb89552f875f87aeb6491db43c9400c7eea788670813,
  0x089104af7bb9f3931de1d0142c2bc4ecb45ac859fe22dcd17b1f578bec70829a,
  0x67d818d0841312ca9ef2a7bd58af4eb8d0bb2f46613f41d29e6110bdf4364ee0,
  0x44998135dbd5d36713df89c6bbb005129e4eb53aa3d6518acd61e79b8693b379,
  0x608501de465798e131459beae151d4e9b4746083e9946bab9a0c39565d1b8770,
  0x0f63d1dc1a6ecfd3f457a4813621e86a8658056bf932cb25c4f41cf639a1032e,
  0x2d41aeeb50dd2e106cd29b7ed0b62a20ca9544cd86468a37b3dec6b1f7416507,
  0x68c1e2e5ae7f80924ba7b6551315a3067326a1a43639ac980ac01f3334f1964a,
  0x14f6dd5cedc108bbe809cce82ece064a0505d6f31f055771635bb117bf61c555,
  0x3958d61e21616acb776623dbe5686d1d2dacec58bde4d1f6e5ebd7cc586b0c6c,
  0x6cc5f111eea6f18e0c95542691fedb1af6e1a659df419a45b7c253c031b9fde0,
  0x2710fdff3b6903a6c60aad73a47233da6d27087929a0f7f4d163d5c0d2c77ef0,
  0x373fd2106699cd7f4073df779f917d5a338f506f12bde7111f50a0f7d2e2105d,
  0x1e8a87aac6672bd0373797bf5d58d5883e23687b95ce28c431e53658129d2829,
  0x0d72961435967c15f826935fdf435f75b0f91d10b79853510f529514325d507b,
  0x34e39f7f8a892aa6c4a4b8ffdaf1cef3b36614074b6f15da5a2322985012a00b,
  0x2e6eb0a22721dccf754b8efe5b13c7d0d7ff30474652f1c471d40208c0cef47f,
  0x6674c1792e95ac2ea08bf641f1db81aa75c5d10d2b3486d9499e6c945dc27778,
  0x38d15767f599511a490b15cfa52ffa97a352d2347c88a40f5bfd4101506720f2,
  0x2c3b9bcdc8cc07a9f02ade309300e9ed1007c8b4bd41551cfe35a6b260790104,
  0x37d8b132e04171061cf536a0686fecdad187819823821045f12c43fec09c79b7,
  0x13a2bd41623fd1bc75be5f8031e59e0f426b27c6c07da76df30c438d645e21bb,
  0x2ad529a3d3328c957ffe2b75a70e8a73a476547d2c5de758bfae60bdb3f5be41,
  0x0a62ae6bb66060a74b4a8b2de2e23fa23cb01a8432fc3e142d1f3d503b245f56,
  0x6a3a707cb384e3c8985c973f681990072872295a0836e1b2336aa8f1e17b5cb5,
  0x6dd40b01cbd3de724163e68202d40cfb49b21909fbee4fc72a8ce9d21682df3c,
  0x19744ac0b38ee35410ac1b56d2b738f5b262d56309d4722abddedb34777fa57f,
  0x3a5e158ba259d94b71b988c191576fc3b3b26a0edf3669cb57c714abf1b7f635,
  0x1d6f8dc5ed23e7840b73783d947624bc619b96215001c5b97d02ac73303e12b6,
  0x17c89fd17f75b94c441b7a92e630bb2bbe7f6a53de8c11ac7e1f1799752f5925,
  0x13ab3c5c580c395fa3aeb98b3e80debc7180e9ec194f4350d15a3fae347f60ff,
  0x69d9bb8dc9d062800687d2a2fac2d8c5528ae4351d7a079ef8104034258c2ffa,
  0x0f53888fcbfa7b9840c832855dd49a7d18977fd1b503550339ecd10bc7683870,
  0x0294b1bd0ad3056a3797ca5620e6f0309d1c319a0c1671eccca3acdcb587b48a,
  0x2984dc974e1a8100287efc44f9d3d10c715f51789b8fe342768c0038149d70dc,
  0x0a08fab864c77636f0e756cb427e64b12146e46a4c989caa68864474a7da866c,
  0x0e80f9e1298d77eab3bca63aa0134c6e0ed93a3b055c5518b3b2495c91dc888d,
  0x2b961151984f9c1e996936313dd86d65562aebfd9da07abd99a82c424269848b,
  0x680ce682c7a8b739190b87b5a241c18a8753f91fb5e17e8d49d564179dc32705,
  0x336b60cea83a745976ef5e9b538e68e23f08ca36a82e7e86e11416248d7642ae,
  0x218f5bcba5aa3058698a3afc04b577352fb2f80f7b14e3a524f18ee8f47ddaad,
  0x248c9a46578de994253ea201307e1227bee56c442fe3bf8070b8a15b5edce721,
  0x24fe264fea8f630e58d76de6db73f498e26bc6448e11c57422c22941d87627cf,
  0x4288c843eda8322f191760fae8e58e4849ca4574dfa8f3b1033a92da6471d538,
  0x59f65e585c2a86adfebfae1efe157372d0b3d2a5390163682b5c772d508760d5,
  0x46e1abce331aaa0f666a38488a7cce0c641ab700ad284acc110f22027872b8a2,
  0x3dbb3e5bc03efab4b92577e9dd2033e5b4f0998a4859c7387887fe9a28d09e26,
  0x06c6022ee67296a660e3040822155530aecd0469f37a878386aad852d355dc60,
  0x43a54194aae3a232a1823f0de7965613b4f734e540771ae88997554b94ec1f4a,
  0x0a91910f8d107fb536381e3d9bfde5b04ed48c1277e7fc510095eba58e796724,
  0x0ebe7fd1fa0ed36f0c74eecd71f2a0d1e99b56f1bea51e215c4f2e6234b0b61d,
  0x36d9d9b688f23a945f9e79b3275948e33c2a852465fc269589af39b0bf56ec73,
  0x5b4c88dd6ce9f61c29c1ac0927dc58eb909f5cc2226140e66a9603768cfe12a3,
  0x3d31cf3221ca4c4cc423799882d8e26544f0462a7950c9dc97c510ad52378c96,
  0x5f161f4fb03fb9bfb968196df6bb7df8d8734dedc5a097fe116377a9688a56d8,
  0x47dfa1f449ac562fbe8bf60b21fe19654866d43087a5ac1ec623b5735794c2b9,
  0x1d779fdd49c3ff4d90e4b6272f948886256d5c666c623345596e4b41ce1cb927,
  0x3ab56f73ce85ed4e4b514916d2a7ca9b625da72cbe43f10fc6a8d00b2965ddd5,
  0x05336b7b60ee5b03b30894769ab57abdfec18c74075d55632481d00ae5d61e72,
  0x3dd041d6eb2701d69c4b0f5848356abe55734b662b0ea38d8801ec90640629b2,
  0x723c231e65b3c68a0988b2f1f44ab0fb7147b5f77e29691d4e741c87ea0938ac,
  0x19510427848d1dda9504fc7efe6fbe2cc4705ae82a678f5ba05cd29eb09c8726,
  0x1978b6b8be0960dc754bbf55b31f72f629f9e1aac685df7c66e067400c7b08fc,
  0x453696075c8af1069bd95131e08f5c554999688572dae9622ca6a0551d3f1ef7,
  0x6de334bcbfbb90c9e1d617a0a98ca0cf81153ffb7cae06fb6b1a2ad186cb95bc,
  0x237e11e2188ccf0a7ec620cdedf1cd7a16b7f8adc0cb3cfc7692e77cb9633df4,
  0x2670ecd18878ccbf1d761640a2fb0166de0f77122b24823e3e0c9b16ff158ac5,
  0x205c8467137bd386988167772bd6cb71d7acd8adfde961e1e53a1c459ebf6e0a,
  0x06a6de77b8a0010276ab782976e740f2ccd565d94f237ca823df1de7463b9025,
  0x34156a9a25ab1b2f1093fd91edc0a1763f99df36e0aca58af9e8f6231d780826,
  0x7376f2e0ebca72c5022bb7c0de18cae7c2ccdbbbae72b6e208fa683b823b10e4,
  0x40f03fe8763e0a1784c07dc370680ca8d04c87c62e9bbeec3ef3df69ecc995b5,
  0x41f44ca852bfea9d62e2dcaadb2c2119dcc607b4244c8d7ec4ad0c5b3ec8beaa,
  0x60b57dc1146977110f3d6fb57543322686e7ce29af191e55631bd264edbac885,
  0x6e63f4ff9a989e9c91d0ab6ba4c81edd24f3a16297056c78067df936fa0c93cc,
  0x18a41c17b212fd351f7fdb70cefd787cd40b1681a73e907e5277cb94b6cccd64,
  0x433917512074987d18357bed8edf006136cff999795e67d580c11eb85d9a0ab4,
  0x2a28262b86e884bd6be27cfe0a499c5f81c215455497f267ae1ceb9727391651,
  0x113f6c6de916f96445d250cf4e9efcc63a92c2ed7f88ac182da7a66f0f14bbe1,
  0x511c3b3bd1dee4874c8893985aad7bba0bc6792211c13062631b262ff17ac22f,
  0x1c7d11d6690b16ac84ef07d92ad7f9b508c9721364999d4504b7d8362ecda4e8,
  0x1e76f329ad7ac912543d275295925bef2d133d63b7b1839072b35d8d5d29becf,
  0x55832f50850cf669672d75d31e0e0a19124b601d00de8d550a883627fecbbb30,
  0x6a981e267c9c7d536bd9617166da2147edf5c94017e4f07be2ac130573998be1,
  0x14fc60a047e84d0c9a5a75c86d8dd87122075c4bd96b5175b5f904acfc363324,
  0x6efb2d850c81c1b7f992820578ee46f17c8c86da89f1f10453e512d6cf4e0ac1,
  0x3dd2f40b701d45d7cb26496288ebfcd4980e8d34cf9a61a3fd61a30cb88e4205,
  0x022bf22abd87300f14bcbd39600e35208c896583d0d96a67de1265fa1440a974,
  0x25da4e7c11418088891e25000c74622980a144a0854200e11d2eaae0626ee154,
  0x3db83245596bbe6afff73219c47b8255e48555f58141646da390a537f275464f,
  0x1336c26c3d091887698f76df287c51525eac6eec478b6b52fd337817ebf3a3b3,
  0x48b4a133b99ac84b910b103a4108833452124033d2c0648ffcc54430e62acd3a,
  0x6e1fca43a0835b1b9daacc3b14246bd507f711a33c11e63e921219776dd9dac8,
  0x45d193362986fb4c122fd0140314b5d8d7a6225ac7697c94ce343ddb6b28aee4,
  0x17010777781524deb4ed59746f492a420569bc55f9500ecae03daaa5ef1cc81b,
  0x0a65415ed874b6289213bca24bbab216e2d54b696e3d17fbef99077b4613f4bf,
  0x4901e70d15a496c00030f33ffe51a42a15f18d2390f6f8f811df05ec0ea95254,
  0x3be041d156410da4ea58a42c5218b57ca34ae956ae08c46118ef915fb6fe5582,
  0x374302f0b5ba6781847e8d15b331ef4e6253f15a521b78c41c9233d0ed3ee621,
  0x5b74f1154e3b5a8e4f3f12a0adea51f66e0913d885e0c4590991998e2cc4febc,
  0x5b9b8a6bf821c974f78649137c7a4df653f1f6204b6c0b4dbae7edbaceb23f83,
  0x5abb07d3913be306b2f6679332f6005bdda988586396e3a9fd063c288f2e274f,
  0x5861985c6ad8159e1a4f056d02df583d9c79c96bae8c3b9313812b4e0b3bda60,
  0x3b3a75eb91b0f723bcc4ab7e449e4a011b8960063efe74670c05e545519d9a8c]

/-- The table selected by `gen_round_keys`, poseidon.rs:51-56, as field elements (`FieldElement::from_hex`; all entries are below the group order). -/
def roundConstsBls (width : ℕ) : List Fr :=
  (if width = 3 then roundConstsW3 else if width = 5 then roundConstsW5 else roundConstsW9).map fun (n : ℕ) => (n : Fr)

/-- The table selected by `gen_MDS_matrix`, poseidon.rs:78-95. -/
def mdsEntriesBls (width : ℕ) : List (List Fr) :=
  (if width = 3 then mdsEntriesW3 else if width = 5 then mdsEntriesW5 else mdsEntriesW9).map fun row => row.map fun (n : ℕ) => (n : Fr)

/-- `PoseidonParams::new` with the shipped tables of the default curve, poseidon.rs:25-45. -/
def PoseidonParams.bls (width fullB fullE partialR : ℕ) : Res (PoseidonParams Fr) := PoseidonParams.new roundConstsBls mdsEntriesBls width fullB fullE partialR

end Bp
