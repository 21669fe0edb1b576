import Verif.Poseidon.Check
import Verif.Poseidon.Primes
import Verif.Poseidon.Bn128T11 -- only so that the large tables are not checked at the same time (memory)

/-!
# Poseidon over BLS12-381, 11 inputs (t = 12): the tables, copied verbatim, and their checks
-/
namespace Verif.Poseidon.Bls

set_option maxRecDepth 1000000

/-- starky/src/poseidon_bls12381_constants_opt.rs: C L1111-1265, M L2822-2991, P L4944-5113, S L13215-14527 -/
def opt12 : Table where
  cF := [
    [0x1f6c9576e648b5047399bfc5f38902e0d506f18e0f3ab77de6de096bd089bce4, 0x6deba7028df3debd71993e243a5a74768fdf04db7ede8b2258be924c8f08ca9, 0x590cd6c13291cdfa85d9c68dc29a5aa033c58fd1f901e450cc6c5e5dfb02ac09, 0x619e46fb29650ad545257a6652290a7d00398db2eb7b8cc2cfdbed41393f966b, 0x3ebc7655a91e0f98858d55d9bd69a18cef469b161ba1c214faa25f7b5b593c29, 0x4578649601736ca363bc92f8278356805b4caf5c564998a3586f16a549a903bd, 0x39fbc6b8ba491f191eccaf76382c1cfbc149dfa6888142236f831a4745fb2ed3, 0x40938cb396f4fe5cfabb211216bad7aeeabc8a06aaeb9461b475784c2c9cf575, 0x29f5ff568dda65c1914583c6033f082a427280e894a3358a887bd27d44c1035a, 0x726769e482a2004b3574e5672606240ab7df9964a31e939e8d3ee6554c313cf, 0x5362d6f5b11156e09807a07166ce7bd2f2a2a0b7281d7df805dde41569bb2ac4, 0x5791c207a19801c22aab947ef0d3aa6406778d9ded705381b767b36045f9a62d],
    [0x70c6ae20bd1d18d3dbb95f5a9694b328e69dd419e6279ae116ac934a94aa7906, 0x69a6ef6eb4106301624a353797ce79c80cd7b5883ee425decabf9f0f967eb3e5, 0x229cac937d6c44e1b52de86fed35cd42e701a17b5559d45b4123b649f9b9f4bb, 0x3abbc8cd68aba7f6dd13905eb0907096c68878db62330029b4feb0cad3c7009b, 0x4284f382c3510025c0c01e7a13f03797b9135a7f3d942b666785a00b369058e, 0xe34ed1ac201b9b31dabbc05d7af1c0f772abdf083b09cd3bdbe43e0daa4be1a, 0x3565bfeeb0fea8744d1651daf1afe87ff8dfecfdca128cc58e2a3155933c9ac8, 0x657a8c6b25f8bd80a1a2ebfc9338c03f7b7172e9468c86be362acef2585f23cd, 0x6d009dd685d932d2e671d9e751d93bfbeeb77206aab1c4fe751ded63ab27d073, 0xd19865202cb29e5b0316095601a72c8e04e062250f2d32ab5d0670b943fc415, 0x70bf5ea8e6558acbb1e4c2de8e01d247afabcbc00af2d4c2a4b248043d352371, 0x2573107d3ad608b5e6d95b7d1dc74ccef1d6208da68b9dcb8f1af5ab1acaab08],
    [0x6b17e69dce86b0f1fc5bf9e9825ec6c0c5a698b460d54548e91309e31de5b7b, 0x56d648aab0e03504acfec7f8db036dfeaf41a9fb1e6f07ab62b24a097151313, 0x50c97b671d2dae283a8952a6c86a54c08b168cde7636c8280c8b9f34fe8cf0ad, 0x270f4f6b3d37b1d562b2b6e4a0fa36e79ee7507693127fdafb94d8d4397ad34c, 0x1ec3a889241f44341decfda44003f4d16ffb50cb320ebc3438295e99b62db1d3, 0xf9d428b8e914911d00b61ff7e9e3e51a494689ed82b57a7df8cd39515762414, 0x430a83b10632e4a884557fc6c4b4845d6e42b7f834c6e5b62e42aa9d2ec0d18, 0x29fe32cc2246ea9a106df37c240b62fabf7f140585d797ccaf91738fbf9e5800, 0x1992990db1e471aea5f9b85fcc337cc99fae22d2313a356d5ae47063ab98bd11, 0x71aa05b6ff54e9b7b71b6c341f922553fa4b83a112f93b5dbfc47ebd372ff405, 0x72f5945860005d7e565d76cb412a668cd13568b80b33e5aca7834f8fac11955a, 0x3bf46a6431523be0d5b878550d686ab2331d8cee7002dad79e34e505e2c557eb],
    [0x59549d8e04e8c03e753d883f6ff49914f57489b56eb686c3bafe94855f3921b0, 0x55704951f26caa3813e76565f4a8355c7cc552a6df17dde7fdc5e27178064899, 0x38f1b982b7ae6e9362b0a305c10905918fd289b5d64745b127e2db9c546d3019, 0x426f774ae5977c6724df0d34515a3f70cb7e23400b6f4bc5a9078b5c6cd52833, 0x120e210c5b4f0adbaedb1888c2129ed29ae1e22e3c4c8d9c68dec53615b09bc8, 0x56f3d42ba02451ecdf6510b1fcb2bfd23b014bb855dc96134bebd20e1fc10bce, 0x295c6bd950df3d14b28be0d7343165ee2164434e03db8f6c2d232f3b4a5489d5, 0x4294678054829e7be92ca34ed7199ef67850c9f764787247cec5794b19e478fd, 0x4cddd577d46d182f02292279d24ae95c89d270073b73846653939e6cd598e468, 0x654046a5c6be1525b517d741d1a5043a523e0290b655df04685663744c4b6aab, 0x6e34ca4983c4a9c2bd7ba255f8d4bad4cd7d51313eed186945234bd0b2da8b2d, 0x2f6af2c279faa89484f140f6a223614a405e048c7c816d8a0ab79640663aad81],
    [0x32c8d512cdc6f3f1a112e39a69178a8bf273c012e3c2eddae68a52e73c46611a, 0x5124c0ce7959b940d5228406eb8c610a086bb9e130bc708980ba8fdb2d7cbd3f, 0x26a60033b39ffe10fb1baa1724271aec28bdb99595b8ec3967ff06e42507cdfe, 0x61baf2a8d0c1f763b81a57abfec6ed1f5c2de128de54ca6965efc879b9ed9f20, 0x448eedec6d27eded51dbaf9df571a29975f29cf94b755a8d2f5628cddbb34be7, 0x101ee8e21b8cb9781990f4cf896f72ca3cff8ff2a15c401fdf9faa9a14b45f49, 0x7ea9192287181933f6fb77aa137b06df2ec94a7384aef976d5c53b2649aa142, 0x1db5f1e25446237f56aa6e2a7d5211c71be698dbe0ab321de3e94538bdade06, 0x2c8172fc10ee3f872233620b6ef3dbfdd9d36e46237e48e972917e58cda64871, 0x3aa45a65073a137e1162ff5fe567974055280dd0276ab3e5732b4ac2212db312, 0xd28e0cfe7fe9fb62fbfeb7fec2640df337d85db10e05f45ec8e41b780f9b422, 0x56e2acc528228b43c0d46afe192038ad11f98faa20df78560e626c982a642147]]
  cP := [0x107f1b7ef11c2b7a4df5c44d58bb500b86627ac271acb642c4e1b1b30fe72d01, 0x701dd562cf6bbeb847b8b5d7381fc2e3070e6602cd3c18efcddd951429fe4e66, 0x6e12444730ccb58e6bf3c12937f0a37fcd6450486f5ed2046a10b2d3115b5ac9, 0x694fead7560e413cae0887ac64c2944188c54652162e09b9381656362f871eb4, 0x25d84459d37404965a709fc9f6074813a14bc82c58ca5b417ee961687edc6de2, 0x43570af38004731729cb5ad819faafb13a507d2697466a7bbc8d1c3ba4860126, 0x69782555d2be8e6a0f88d9476005a139e3b7d0347ee228bf8d447f910f1d4afa, 0x500b9e8de95e935fc50fcdf6a74d729374c60ee00d3238ce8dca7f0d1cca5a0e, 0x21753d8094a404d1f09128ea8718e1bb0a4e6247a8c1194081983ced5d90143c, 0x70fb4d5fe531fb00324df2b2251d84112d1e98886ef211c3a7c18c8c16fe1943, 0x719acf71b5398a8b6a0d63f561eb08049db28d9a4c66693cc256a47389311528, 0x4cdfcdba6b5537a4ead6c132f73b2c1ce3c62a89eec05c1b39c7eba2f03dd755, 0x107db567e2b2dba489ee499cbac66705fcd43641b08d59ce4ddb31192f531553, 0x3de311f366d52ecbc7be260717bf60c32c36b84349f0a63842f287250a041769, 0x55c1ef36e451c236655500bdc499f0bac9a8c8ad1ea63a997598761acf58bd73, 0x24b6d6a003bc393f39148c7b3a1cd44ed8a10ae6edf4110e538e598e0ab3db5d, 0x6550a148ed3a3eb8818434c92a87a4415dcc2f5df8b19b992c1934625620b44d, 0x1f459102a95aa3cdb26195349a7c2fd23ed24076f2f23f3429fc58d40a2908d1, 0x3fc803b16d9622893f35508ce22e129277028a708b085cdb43bb27e2d2525e73, 0x5e6cef02ce5d5772f4f01a88f5077281010a28e2df1ae08ce63840f70d5e9735, 0x2d305f317cb0de2cfa7b2ec3a8c01570f8e6d8faaf1d0fc9791ed9264049cc95, 0x4dc2172d58c2b6b74cdc17ef2e441bc31e840de17944346adb99c951d297ab0c, 0x3573ddfb5c2858db5e70f2de2a99871d288f407352ef9c862cce178fd01a168a, 0x30342c7342e206df56bcdeb1d08c5623a3158e60232645e7eee6a528bb33b2db, 0x372543d587f0ac5afe646e24274101df71355612b24a2c20a215cb145728957d, 0x1bc8c4b46119d0b925f9190037570fb488defa9a516acf409a0cb1bee9d86778, 0x178813c7ef46bda6f5c22584b918f39f1e359598771c05e74c9f54d02ed93216, 0x10f6c54e18ae3f7e49b5ae9e5db6742b28736e705fa10eb5f1e0178a0faaff2, 0x1bbc2c9c418303eb1796d05108cdc3341f39e320b7c9e0ca10ae10afc11b7169, 0x32948fd539dc2ef06debb7fd2915637fcc8ab24143ad05a83139f98a1690cb13, 0x5262179a0d534b79f9c0996c3c8ebebb831103b053399e51f0e4a6a3ada80d72, 0x68df9477fd722c2c870966cb6d6e4c08efacf6e7a7a0353c4ae1938e56866926, 0x136da212854d21de46996fed24485e973f4eb7efff95734a5821429ab3f4f408, 0x5507e607a7eb31e506c3f597285ce35b1f2502cc63bd4ad904ad39372f516629, 0x1f25f4a94521f7eb86915cdd01574d3f8ee2df976cab82fbc48e83701da74fa2, 0x64d3e71402b7dbd2588073527de199da9e1a7e536106555c2509d6899082eb94, 0x255918af0c0207387662b507e05adc93cc48321ba0d1a1708e94fea177f10061, 0x3cc05dff5cb04633a98e9d7fa610e1b2158fae22158a795af3b9bb43ec496fea, 0x409d05e117d4805b7deb31ea12d3f8810d0b083ed50c316758c4754b821d433e, 0x51d6dd79bacacfb09931d345286158cca220885f0764c851cb8d9a20e2e75254, 0x2a34eaae90483cb6eda9ff44ff843fcd708de23d6a8bfe503921058b0a5b6741, 0x21501d5af711f869d38c8e2b6cef80dddb2d718754e6d1b937f30d5b80b9908, 0x24595cb16ad9b40e92360cb13e3cb859b3e8b78eadc1f1032aad41a67bedf889, 0x5461831f5f8fabca81116fc20c17c536d6f97033f35ae0e704fea3b6d05ed8d0, 0xfa5cd67d96aebd8835cf2dc41f9051cfc09d50d49c7a013e72398c340764c1c, 0x2c187c97351d22f0bc2735250b17045ee4f0c483256c67794816e435af1c253f, 0x170d9fe66dd37add3ef383eb3361b58134eb6a0470ffd70304d7cb0a5d1241b8, 0x34201a35d455ec72267810a081272f41eb029d937e8915f378d48fa79feb600a, 0x3153c2fe63706be9f19cfadec3438043e0152c5ac61849d5eaf4a9705b894cc2, 0x18936b5a269bad17a02fe3242eca1292315c6ebcca8e897bf1cc7c94cdfffa6d, 0x702e9c1cbafc5f9cb8ccf102ae222a2bc0b66147966d91a33df6949afe227570, 0x4b5940f7a461d30bb1fee4470f3ff3af88cb262afb025d3e896aff9287937096, 0x354142af02ab81adaa34a5e2abdc30eaf58104b07ed45147e114e056e6bba3c1, 0x68179e814d37f8462631190dfc8f7da899d7369df7b578ebcdabb32cbd01fa73, 0x455f3fab4439a405bee3c5eb8117fedf676a402d5e46fc98d5248e7812a1ce5c, 0x5ca4bf8dc0e86df48e9694f61c39a9bd3abf8968bceed113191a54b85cbfc6ae, 0x7004259eb61e806c6f93162850e5d7c6d8494ea23a595decdf4bc2ce6c8ccf0f]
  cL := [
    [0x8e6c9cd2c13b05b937e021d51e8481675dafdcd9de6277adca2b82c3be4c149, 0x6aa6238c60d1c1ed9d8f8a1e401a755c5b844448a5188dcf60c84d87b5514171, 0x6d715437b852771f6fcb0dac037ad9d6a1ffc0c9443b8f7598f70b984481d136, 0x110fd506d7433e88421b307ebb66f45c984b003328f9ce4d6790ec8d721c00ef, 0x27bf1de1c121bf56dea25405c6d13269f309a49bfae5891b7e21bfecfcb1f780, 0x55316ebc894a19a67bdd9f176ef20a90dc1c0feee26d8ba4a4b7b840e83c15b6, 0x2e8de29a805a546184854b1de12042911af050b231a08c36ee59b55bdfd6c52e, 0x4f909521b91221cdd9ecb1c4a929d2466afd3e5b5fc8f6fa4168429beaf65a6b, 0x449b9e8476856f8b11b22ce87feb6d5898422bacde3cf1721e35700c8da27244, 0x12cceef0be320b59aa07d5aecd8a3550d4c97dc09e6d06ae649354ff84e4f295, 0x162f245a8aded00b7c87726979242d9880583530bcf2735896761f1a465be707, 0x6f39dbed34cbcdff831ca8e6091d255f8871e54b085fec8fe7a87dc8944a7007],
    [0x5aec5ccb9ccfe2b7ba270cf4eb94d0968315cf7eb89aad88af9d6b7ff18d4aab, 0x6994964d10bc7822a35ed32fe055ab1fdbbdd204c8e9fe05bf13a3b11241601d, 0x267d60dd1d5ce946c248b3f3453f47a6ceb46d083df92e778355bec4931ed6bb, 0x6f486bc11d09e4423a9ec079a9729fbb009c21e283787963b18d09ccfc56c151, 0x6fdcb533ee83714b64692276d62e47ca88d5834f5f92993eabf4939185466ef8, 0x9c39a9b36539c5df45f40f81af0b1755b8eff9eac882fb0762aecdc8b020301, 0x6d26e4ca439c67384c8af8944ff0ce548980823d651240b8cb098bb6d22438bc, 0x534ed5424e9d66511e35b137c9441593ef0b87728b2a0b59ae22c1b0c7474893, 0x5b7f98b46f66940a145d14ca8bbdec6da470a363f7f4567c3a9686c1c0ed2dec, 0x2a855523cb4e67cfbc03c437ffad4b08b9333d75b7133de4ffd35c379b1f3dd9, 0x14d5ec53db00782ae196c143fc2f0facfafb07af1fd4a21a07743d10ce452bf8, 0x302b306a808bf208657f014ccddc2c7f3e05ae23a437a05272c51ab709f93942],
    [0x397e5178e54f7e941db31d84e9cfa374526fec11481b5bced6dfe0ed019698e3, 0x2d45ff6efac471174bc611582537de3b3b353d555b8f932c635f0e2d583e6b53, 0x49899494cd2ab973b0f7f2d002d14003a2b5a01ff8a62b769b2c709a7e2ac159, 0xca3d6b7fe7205303c3211f8234502c72cf823a3e739446f4ece3495e25191a5, 0x5d11c5982e0af7bacb0282f5c34cb872485da51076f5c2e79b0874804c76242c, 0x5b3ac2890eb63031dfaa3f2dc8c056b856333d9ef50b3eeff3ffdf70a9faebd7, 0x41d0d62cf91ed399f24127047da599e99eb32faeec60ec758fdef8f9ba588d4d, 0x2d8e0943e26af57933b88f36a703c02dec78c40e021c572962ad5e9b0d48daaf, 0x181fdaf4d0e08299b55076b405466b6a7aca065f89d21c417babcb17f864056b, 0x3f4afbbb0d2f6dc6fc7cc2ec767f8c46757a929d04d599e32ae3b936c2b725f1, 0x4b5cb19cb74fc4e7b7a4998cca8c914bcad42aba48c31633a01e8571b774552c, 0x9bb1cbe3152cbfb7eaccdd4be6a977e2b4985915f147b902f7c73bf6b0e4ca1]]
  m := [
    [0x6a44840c3b7b082cd99fb0b208d45b5a376dd6581553d4546aaaaaa9c0000001, 0x6217dc5a0f85429f8dce7bb808267bb5bd02ed3d9d88753a3b13b13a3b13b13c, 0x4a867dda0877876545809d29bd0c9d27fef9e96fa4913b23edb6db6d12492493, 0x3dd414f92742ed7bd70dc88cd1efeaad81febddf77769776eeeeeeee66666667, 0x6caeccddf703a573b0063a878907ba84fe81c9c2cffe763f0fffffff10000001, 0x1b46fa31af7059b6a2a432d4b6f8e788c868db4bffff9d2cf0f0f0f0b4b4b4b5, 0x46d8580827a75ac891152076b08d923c24f3e43ab8e28d8d9c71c71bd5555556, 0x6dd3abfdf187ba0e815f38736770e79941dc14a486bb13c9286bca1a00000001, 0x1163a5e6130ad2cad47be0679b0b7a00cc8fa566d9995a99733333330ccccccd, 0xb0a7175a27085d61d427619257d20c38e120f9ec30c08c2f3cf3cf3b6db6db7, 0x6ea8ab5b04d08339482b9407ac1a7cbf444c4b1a22e72944dd1745d080000001, 0x64cea7c2c00361cf7a7514e599124c8a328ea4e137a587a61642c8582c8590b3],
    [0x6217dc5a0f85429f8dce7bb808267bb5bd02ed3d9d88753a3b13b13a3b13b13c, 0x4a867dda0877876545809d29bd0c9d27fef9e96fa4913b23edb6db6d12492493, 0x3dd414f92742ed7bd70dc88cd1efeaad81febddf77769776eeeeeeee66666667, 0x6caeccddf703a573b0063a878907ba84fe81c9c2cffe763f0fffffff10000001, 0x1b46fa31af7059b6a2a432d4b6f8e788c868db4bffff9d2cf0f0f0f0b4b4b4b5, 0x46d8580827a75ac891152076b08d923c24f3e43ab8e28d8d9c71c71bd5555556, 0x6dd3abfdf187ba0e815f38736770e79941dc14a486bb13c9286bca1a00000001, 0x1163a5e6130ad2cad47be0679b0b7a00cc8fa566d9995a99733333330ccccccd, 0xb0a7175a27085d61d427619257d20c38e120f9ec30c08c2f3cf3cf3b6db6db7, 0x6ea8ab5b04d08339482b9407ac1a7cbf444c4b1a22e72944dd1745d080000001, 0x64cea7c2c00361cf7a7514e599124c8a328ea4e137a587a61642c8582c8590b3, 0x6f1915afb28c42ba866cc45d093b19afc595bd2d8aa91829b555555460000001],
    [0x4a867dda0877876545809d29bd0c9d27fef9e96fa4913b23edb6db6d12492493, 0x3dd414f92742ed7bd70dc88cd1efeaad81febddf77769776eeeeeeee66666667, 0x6caeccddf703a573b0063a878907ba84fe81c9c2cffe763f0fffffff10000001, 0x1b46fa31af7059b6a2a432d4b6f8e788c868db4bffff9d2cf0f0f0f0b4b4b4b5, 0x46d8580827a75ac891152076b08d923c24f3e43ab8e28d8d9c71c71bd5555556, 0x6dd3abfdf187ba0e815f38736770e79941dc14a486bb13c9286bca1a00000001, 0x1163a5e6130ad2cad47be0679b0b7a00cc8fa566d9995a99733333330ccccccd, 0xb0a7175a27085d61d427619257d20c38e120f9ec30c08c2f3cf3cf3b6db6db7, 0x6ea8ab5b04d08339482b9407ac1a7cbf444c4b1a22e72944dd1745d080000001, 0x64cea7c2c00361cf7a7514e599124c8a328ea4e137a587a61642c8582c8590b3, 0x6f1915afb28c42ba866cc45d093b19afc595bd2d8aa91829b555555460000001, 0x6aa770fa96ed0cdc062af9f2ea24419e803dd454ae12f879f5c28f5b3d70a3d8],
    [0x3dd414f92742ed7bd70dc88cd1efeaad81febddf77769776eeeeeeee66666667, 0x6caeccddf703a573b0063a878907ba84fe81c9c2cffe763f0fffffff10000001, 0x1b46fa31af7059b6a2a432d4b6f8e788c868db4bffff9d2cf0f0f0f0b4b4b4b5, 0x46d8580827a75ac891152076b08d923c24f3e43ab8e28d8d9c71c71bd5555556, 0x6dd3abfdf187ba0e815f38736770e79941dc14a486bb13c9286bca1a00000001, 0x1163a5e6130ad2cad47be0679b0b7a00cc8fa566d9995a99733333330ccccccd, 0xb0a7175a27085d61d427619257d20c38e120f9ec30c08c2f3cf3cf3b6db6db7, 0x6ea8ab5b04d08339482b9407ac1a7cbf444c4b1a22e72944dd1745d080000001, 0x64cea7c2c00361cf7a7514e599124c8a328ea4e137a587a61642c8582c8590b3, 0x6f1915afb28c42ba866cc45d093b19afc595bd2d8aa91829b555555460000001, 0x6aa770fa96ed0cdc062af9f2ea24419e803dd454ae12f879f5c28f5b3d70a3d8, 0x310bee2d07c2a14fc6e73ddc04133ddade81769ecec43a9d1d89d89d1d89d89e],
    [0x6caeccddf703a573b0063a878907ba84fe81c9c2cffe763f0fffffff10000001, 0x1b46fa31af7059b6a2a432d4b6f8e788c868db4bffff9d2cf0f0f0f0b4b4b4b5, 0x46d8580827a75ac891152076b08d923c24f3e43ab8e28d8d9c71c71bd5555556, 0x6dd3abfdf187ba0e815f38736770e79941dc14a486bb13c9286bca1a00000001, 0x1163a5e6130ad2cad47be0679b0b7a00cc8fa566d9995a99733333330ccccccd, 0xb0a7175a27085d61d427619257d20c38e120f9ec30c08c2f3cf3cf3b6db6db7, 0x6ea8ab5b04d08339482b9407ac1a7cbf444c4b1a22e72944dd1745d080000001, 0x64cea7c2c00361cf7a7514e599124c8a328ea4e137a587a61642c8582c8590b3, 0x6f1915afb28c42ba866cc45d093b19afc595bd2d8aa91829b555555460000001, 0x6aa770fa96ed0cdc062af9f2ea24419e803dd454ae12f879f5c28f5b3d70a3d8, 0x310bee2d07c2a14fc6e73ddc04133ddade81769ecec43a9d1d89d89d1d89d89e, 0x896583f0c9068184fa5784c727dc426520e0c2625ecea5ebda12f6838e38e39],
    [0x1b46fa31af7059b6a2a432d4b6f8e788c868db4bffff9d2cf0f0f0f0b4b4b4b5, 0x46d8580827a75ac891152076b08d923c24f3e43ab8e28d8d9c71c71bd5555556, 0x6dd3abfdf187ba0e815f38736770e79941dc14a486bb13c9286bca1a00000001, 0x1163a5e6130ad2cad47be0679b0b7a00cc8fa566d9995a99733333330ccccccd, 0xb0a7175a27085d61d427619257d20c38e120f9ec30c08c2f3cf3cf3b6db6db7, 0x6ea8ab5b04d08339482b9407ac1a7cbf444c4b1a22e72944dd1745d080000001, 0x64cea7c2c00361cf7a7514e599124c8a328ea4e137a587a61642c8582c8590b3, 0x6f1915afb28c42ba866cc45d093b19afc595bd2d8aa91829b555555460000001, 0x6aa770fa96ed0cdc062af9f2ea24419e803dd454ae12f879f5c28f5b3d70a3d8, 0x310bee2d07c2a14fc6e73ddc04133ddade81769ecec43a9d1d89d89d1d89d89e, 0x896583f0c9068184fa5784c727dc426520e0c2625ecea5ebda12f6838e38e39, 0x5f3a1296990a8256bc5d3a98e3573a96a95bc6b95247cb9176db6db60924924a],
    [0x46d8580827a75ac891152076b08d923c24f3e43ab8e28d8d9c71c71bd5555556, 0x6dd3abfdf187ba0e815f38736770e79941dc14a486bb13c9286bca1a00000001, 0x1163a5e6130ad2cad47be0679b0b7a00cc8fa566d9995a99733333330ccccccd, 0xb0a7175a27085d61d427619257d20c38e120f9ec30c08c2f3cf3cf3b6db6db7, 0x6ea8ab5b04d08339482b9407ac1a7cbf444c4b1a22e72944dd1745d080000001, 0x64cea7c2c00361cf7a7514e599124c8a328ea4e137a587a61642c8582c8590b3, 0x6f1915afb28c42ba866cc45d093b19afc595bd2d8aa91829b555555460000001, 0x6aa770fa96ed0cdc062af9f2ea24419e803dd454ae12f879f5c28f5b3d70a3d8, 0x310bee2d07c2a14fc6e73ddc04133ddade81769ecec43a9d1d89d89d1d89d89e, 0x896583f0c9068184fa5784c727dc426520e0c2625ecea5ebda12f6838e38e39, 0x5f3a1296990a8256bc5d3a98e3573a96a95bc6b95247cb9176db6db60924924a, 0x6beeeb3bc5a44881038e2168963594284523521472c0aded69ee5845b08d3dcc],
    [0x6dd3abfdf187ba0e815f38736770e79941dc14a486bb13c9286bca1a00000001, 0x1163a5e6130ad2cad47be0679b0b7a00cc8fa566d9995a99733333330ccccccd, 0xb0a7175a27085d61d427619257d20c38e120f9ec30c08c2f3cf3cf3b6db6db7, 0x6ea8ab5b04d08339482b9407ac1a7cbf444c4b1a22e72944dd1745d080000001, 0x64cea7c2c00361cf7a7514e599124c8a328ea4e137a587a61642c8582c8590b3, 0x6f1915afb28c42ba866cc45d093b19afc595bd2d8aa91829b555555460000001, 0x6aa770fa96ed0cdc062af9f2ea24419e803dd454ae12f879f5c28f5b3d70a3d8, 0x310bee2d07c2a14fc6e73ddc04133ddade81769ecec43a9d1d89d89d1d89d89e, 0x896583f0c9068184fa5784c727dc426520e0c2625ecea5ebda12f6838e38e39, 0x5f3a1296990a8256bc5d3a98e3573a96a95bc6b95247cb9176db6db60924924a, 0x6beeeb3bc5a44881038e2168963594284523521472c0aded69ee5845b08d3dcc, 0x58e0de26287035620523d04a6dc8e1596ade30f13bba79baf7777776b3333334],
    [0x1163a5e6130ad2cad47be0679b0b7a00cc8fa566d9995a99733333330ccccccd, 0xb0a7175a27085d61d427619257d20c38e120f9ec30c08c2f3cf3cf3b6db6db7, 0x6ea8ab5b04d08339482b9407ac1a7cbf444c4b1a22e72944dd1745d080000001, 0x64cea7c2c00361cf7a7514e599124c8a328ea4e137a587a61642c8582c8590b3, 0x6f1915afb28c42ba866cc45d093b19afc595bd2d8aa91829b555555460000001, 0x6aa770fa96ed0cdc062af9f2ea24419e803dd454ae12f879f5c28f5b3d70a3d8, 0x310bee2d07c2a14fc6e73ddc04133ddade81769ecec43a9d1d89d89d1d89d89e, 0x896583f0c9068184fa5784c727dc426520e0c2625ecea5ebda12f6838e38e39, 0x5f3a1296990a8256bc5d3a98e3573a96a95bc6b95247cb9176db6db60924924a, 0x6beeeb3bc5a44881038e2168963594284523521472c0aded69ee5845b08d3dcc, 0x58e0de26287035620523d04a6dc8e1596ade30f13bba79baf7777776b3333334, 0x21a817cdd2467f35fe5b1dafc0bb5fbf7b689af89ce6bfdead6b5ad66b5ad6b6],
    [0xb0a7175a27085d61d427619257d20c38e120f9ec30c08c2f3cf3cf3b6db6db7, 0x6ea8ab5b04d08339482b9407ac1a7cbf444c4b1a22e72944dd1745d080000001, 0x64cea7c2c00361cf7a7514e599124c8a328ea4e137a587a61642c8582c8590b3, 0x6f1915afb28c42ba866cc45d093b19afc595bd2d8aa91829b555555460000001, 0x6aa770fa96ed0cdc062af9f2ea24419e803dd454ae12f879f5c28f5b3d70a3d8, 0x310bee2d07c2a14fc6e73ddc04133ddade81769ecec43a9d1d89d89d1d89d89e, 0x896583f0c9068184fa5784c727dc426520e0c2625ecea5ebda12f6838e38e39, 0x5f3a1296990a8256bc5d3a98e3573a96a95bc6b95247cb9176db6db60924924a, 0x6beeeb3bc5a44881038e2168963594284523521472c0aded69ee5845b08d3dcc, 0x58e0de26287035620523d04a6dc8e1596ade30f13bba79baf7777776b3333334, 0x21a817cdd2467f35fe5b1dafc0bb5fbf7b689af89ce6bfdead6b5ad66b5ad6b6, 0x704e3a189050915df1a00947c954c945291fb6e2e7fe691f07ffffff08000001],
    [0x6ea8ab5b04d08339482b9407ac1a7cbf444c4b1a22e72944dd1745d080000001, 0x64cea7c2c00361cf7a7514e599124c8a328ea4e137a587a61642c8582c8590b3, 0x6f1915afb28c42ba866cc45d093b19afc595bd2d8aa91829b555555460000001, 0x6aa770fa96ed0cdc062af9f2ea24419e803dd454ae12f879f5c28f5b3d70a3d8, 0x310bee2d07c2a14fc6e73ddc04133ddade81769ecec43a9d1d89d89d1d89d89e, 0x896583f0c9068184fa5784c727dc426520e0c2625ecea5ebda12f6838e38e39, 0x5f3a1296990a8256bc5d3a98e3573a96a95bc6b95247cb9176db6db60924924a, 0x6beeeb3bc5a44881038e2168963594284523521472c0aded69ee5845b08d3dcc, 0x58e0de26287035620523d04a6dc8e1596ade30f13bba79baf7777776b3333334, 0x21a817cdd2467f35fe5b1dafc0bb5fbf7b689af89ce6bfdead6b5ad66b5ad6b6, 0x704e3a189050915df1a00947c954c945291fb6e2e7fe691f07ffffff08000001, 0x706a54adbbbf813e4130555d209cf08149721367c1eee4d83e0f83e000000001],
    [0x64cea7c2c00361cf7a7514e599124c8a328ea4e137a587a61642c8582c8590b3, 0x6f1915afb28c42ba866cc45d093b19afc595bd2d8aa91829b555555460000001, 0x6aa770fa96ed0cdc062af9f2ea24419e803dd454ae12f879f5c28f5b3d70a3d8, 0x310bee2d07c2a14fc6e73ddc04133ddade81769ecec43a9d1d89d89d1d89d89e, 0x896583f0c9068184fa5784c727dc426520e0c2625ecea5ebda12f6838e38e39, 0x5f3a1296990a8256bc5d3a98e3573a96a95bc6b95247cb9176db6db60924924a, 0x6beeeb3bc5a44881038e2168963594284523521472c0aded69ee5845b08d3dcc, 0x58e0de26287035620523d04a6dc8e1596ade30f13bba79baf7777776b3333334, 0x21a817cdd2467f35fe5b1dafc0bb5fbf7b689af89ce6bfdead6b5ad66b5ad6b6, 0x704e3a189050915df1a00947c954c945291fb6e2e7fe691f07ffffff08000001, 0x706a54adbbbf813e4130555d209cf08149721367c1eee4d83e0f83e000000001, 0x479a50c26c86eb7f6aef056e604d5fc70e133fa77ffefc95f8787877da5a5a5b]]
  p := [
    [0x6a44840c3b7b082cd99fb0b208d45b5a376dd6581553d4546aaaaaa9c0000001, 0x26a7a7748ce6c36cde44f3f6921cf3e042791d68f0fe3e8448e097f3ea5702a7, 0x24395b1a06b7e61c0ed81bb288625e668ae3464bf5ae5bc344aa94de69c387f1, 0x70f3dfbc00c598e3281f3d22740dcda16ab0e2e0ac8a6356b1101fcb79c6a7cc, 0x25cc7bea38aae562fd814d8e69714cac58b78b17713b6decbe3c95d69887c125, 0x5918c99f709d84c921a520b024468df12ce4cbb44206e93ddc48488ba088095f, 0x4f998009abb1510029ff8cdb014f4d07fac9100b85d5e759d8cf9a9273837030, 0x57442f7521ab84dc035964e79bb71dd0f6dec995edd3209f66427603f3e2562c, 0x57fa31be3d99e6f68e034486815904f4c733ca1f0b0461357887e806e3d2be63, 0x35aa04e24b900a1c5dc055f319d5ea4d277cbbf55024d9cd3baf89233dc8165d, 0x21e313cb98a4101411c0079c5c81e3edd3f0ecf7b509808c24260a625cbc0e33, 0x530b930157556848df267c32e45739be43394da7e9d1043b26ddc2cfa35c5ef0],
    [0x6217dc5a0f85429f8dce7bb808267bb5bd02ed3d9d88753a3b13b13a3b13b13c, 0x6eea839aa1712aebf460d61354241c1b5402186feb4cbc6b3312e91936194729, 0x6dd3135bfa3e465f1f8a18d4c8fdfa9c61ee529de2d1babe5a811e3a6365fc9d, 0x51afe12656755adbaeff206ac0271050f6b773b1ae4d8f36136bc3a4199507e4, 0x6fdfc04f4b04c69db7be853160c4e5e595d28e5e20c33ce12e7a3e5cf5a39bb9, 0x71b6acc19e1c5d612e6825643c30a2a13fa3e21a1a00224830d2939b852e5aaf, 0x440253d2a85503af8f3f53fd4d9cce07547891860106d51f04b578a5e9a9bd37, 0x449b4deba572c6a30a2ff63b402666a2e8288f1fa81c8df8bf7d0d5213513bf2, 0x487b08fe81b67777f1e811653ad798893d49f06d33159b3c7ad33c97be0098f1, 0x567dc0dd48a0b387c291e9047600128e9d1e46aff5e13cdb27e45e42bf121c94, 0x70c5a7309d2961ba7a56cc43a0d1bad8190c0e97357fd5cadd31b6a8467d362b, 0x3d999a2b769e2ce3dff02a611c9a8a3136b898776a94ffdd66ca395fdbc227be],
    [0x4a867dda0877876545809d29bd0c9d27fef9e96fa4913b23edb6db6d12492493, 0x6dd3135bfa3e465f1f8a18d4c8fdfa9c61ee529de2d1babe5a811e3a6365fc9d, 0x6ed736ec92dbc3cd69deed1db1b382ebc095097ee207fb08bec9b788c50850a5, 0x325ed8102ca1aabb333092ea3a6e103f2abaeb395722e96e19ded215e3511683, 0x1c83c5f3e648ff3b7999eb83949b1a5e0dd11e1cb53086f180ac8b8647ec4dcd, 0x676c8457778ccf99b25705b15d1e5ea775f5dc723185819959c70a83bdd67291, 0x69c9da57fe1c8113770e6e132ecf4c736c8e1b1c4b78ce75f85ef3917aa72427, 0x109a3bcbd756822246ba5f1917b27c1edc9caee5569d88c7481da88dadf2b2cb, 0x190623f0b30a9bc0fc7cca3833bbe56bea059395d41a2282dd734b819378c34d, 0x5f3178692208cb6d291b17d139038feaa647a57e24cb0af5cdd76af6f1007895, 0x2920461626122d72b159fcf548ca7a80cc6763181c496b83990fc82694d3d7a2, 0x17124b186871d073209b4b06718780889a8ac67b864914f3068b79b3edea613d],
    [0x3dd414f92742ed7bd70dc88cd1efeaad81febddf77769776eeeeeeee66666667, 0x51afe12656755adbaeff206ac0271050f6b773b1ae4d8f36136bc3a4199507e4, 0x325ed8102ca1aabb333092ea3a6e103f2abaeb395722e96e19ded215e3511683, 0x536991305e74e106393107c01d79204662854dcf8e13b60d590e07c1a6c801f4, 0x3eabf9c51fa04217e54ab0873e29c7c182c1da2436ce7ccd283da4108125054a, 0x5f3f9470d2163fad5b232ec6c97c75c2e4e8a242ce775e12ba23fd863f6ad2b9, 0x66d00c54b428f032f21c8ef62a7bc1c89fcd7b7b498c48654ad5f8b638592196, 0x732174456aaf03ff5dcd5a595af9455aaf3371383e8d474f872954807ee435b2, 0xcfcc072d53a8bc4d1ed23c18a95ef553aa981a3767c2b66109304adeeb8f8a6, 0x5a19cbf61c03046d4edfe3c16f5c6f8a44a412ecb7a53e410cd270362df8c1ba, 0x288e91b7ae711a6c27c2d224310474bbe695503ab612784710e024b25c9bba70, 0x4eced9c80250fcea8b1d9094bcd94ec3f165052aa5d18b826433e613e9db0b9b],
    [0x6caeccddf703a573b0063a878907ba84fe81c9c2cffe763f0fffffff10000001, 0x6fdfc04f4b04c69db7be853160c4e5e595d28e5e20c33ce12e7a3e5cf5a39bb9, 0x1c83c5f3e648ff3b7999eb83949b1a5e0dd11e1cb53086f180ac8b8647ec4dcd, 0x3eabf9c51fa04217e54ab0873e29c7c182c1da2436ce7ccd283da4108125054a, 0x58f8689e1cc674ed71b384e28b1e07e8e9b4541e5917a42f8282879022a23a0e, 0x69717451380babb2dc9ded7d61a5e72a22188ee14dfbcadd2ab9886735841530, 0x6734d226f2ed52aca5c1a6216b2ee668521c497a166c1ce035d1812a15598e61, 0x128e3f2eac92c3cf26a80509916ae8f2ad0cfd014fd95b751598e619d0d05997, 0x31da666cb1401ff14807531ac260d4a3afe48e7169cf6d74fcac76ea389324c, 0x2498d29f3bcbc9fdeb8310275c7bf63da3f4fa186866ee114cb8bb143e5ed058, 0x425d80b86da5617f6fc0b40adf404a0d831e79a1f6aae6f687dc711587384101, 0x2a449f61e01f1b6e2a02c14d84f82ee620923e7e2f979869a6c5ab2f55c1b28e],
    [0x1b46fa31af7059b6a2a432d4b6f8e788c868db4bffff9d2cf0f0f0f0b4b4b4b5, 0x71b6acc19e1c5d612e6825643c30a2a13fa3e21a1a00224830d2939b852e5aaf, 0x676c8457778ccf99b25705b15d1e5ea775f5dc723185819959c70a83bdd67291, 0x5f3f9470d2163fad5b232ec6c97c75c2e4e8a242ce775e12ba23fd863f6ad2b9, 0x69717451380babb2dc9ded7d61a5e72a22188ee14dfbcadd2ab9886735841530, 0x395fa8f78814cded671242c62c56f57425d543d82e822945a890c05e7cff4e38, 0x7170d821fc7f19676659385c9b53ba34d9c76a1a257b9031efe416f5f5057b83, 0x3164205287d6c6c5ceee1350d3b7a124d22c08449128bb3e3d9e62ed25097f38, 0x6469a14e1f0885e61e5118949d1079f5ebbdf2a83775e062040ce7b012f702ca, 0x5ab6c724514f8fcec478ffbf0f7ce76d2bab1555357fde3296b266749668285e, 0xb73b2a7b748ca9f6f4352711c780bb5184fd9c405a74cf68df7e24f426eb93, 0x18c3dffb7dc53b1645d8bac09cdb5ee07f79f42f575d8ef49b50f3d083040f0b],
    [0x46d8580827a75ac891152076b08d923c24f3e43ab8e28d8d9c71c71bd5555556, 0x440253d2a85503af8f3f53fd4d9cce07547891860106d51f04b578a5e9a9bd37, 0x69c9da57fe1c8113770e6e132ecf4c736c8e1b1c4b78ce75f85ef3917aa72427, 0x66d00c54b428f032f21c8ef62a7bc1c89fcd7b7b498c48654ad5f8b638592196, 0x6734d226f2ed52aca5c1a6216b2ee668521c497a166c1ce035d1812a15598e61, 0x7170d821fc7f19676659385c9b53ba34d9c76a1a257b9031efe416f5f5057b83, 0x2ed8bf2d148e991814ce38cdedd6904e47b90a30f5adc2e29b6d30a7f5c64988, 0x66a9c5879a15d02089f2e576dc893491c457289bf8b81e884ab538769c259490, 0x4c1ea18fd5a21b6db095b649e5e99a70c2f8149dfdeeb01ce14725a99a546cca, 0x10eaa2561d3b8ace2515442cb29e325adbc7edb457815514ba72dc0f1a74f6eb, 0x56d3725389d47b09dfe35798e37cd06db38c634495ffb7d72af37cde8ab7eaf7, 0x3be58d1df63f22168133a1ec97bf216745d866e7fbd597c2d89138523eb055fe],
    [0x6dd3abfdf187ba0e815f38736770e79941dc14a486bb13c9286bca1a00000001, 0x449b4deba572c6a30a2ff63b402666a2e8288f1fa81c8df8bf7d0d5213513bf2, 0x109a3bcbd756822246ba5f1917b27c1edc9caee5569d88c7481da88dadf2b2cb, 0x732174456aaf03ff5dcd5a595af9455aaf3371383e8d474f872954807ee435b2, 0x128e3f2eac92c3cf26a80509916ae8f2ad0cfd014fd95b751598e619d0d05997, 0x3164205287d6c6c5ceee1350d3b7a124d22c08449128bb3e3d9e62ed25097f38, 0x66a9c5879a15d02089f2e576dc893491c457289bf8b81e884ab538769c259490, 0x102f08047680a72981ae7662c6f3a47f0c5878d946ac0aa345be499b4afeaf79, 0x6de2a48f31e51f44dc94c3c7c6da0995c862a13b23a4c60dac4a61ed7d5cb58a, 0x78ce2253154580374337792d0f1c9f474f5ad68de086941059ab0d5c53cc076, 0x4bd6914cb8c80a18a8f5cce221f78ae0f72f59220f17537cb4026ea5a9518299, 0x3851dac3f0920b13e4bad73b99f669e4450afe776574039754326f4719bcc460],
    [0x1163a5e6130ad2cad47be0679b0b7a00cc8fa566d9995a99733333330ccccccd, 0x487b08fe81b67777f1e811653ad798893d49f06d33159b3c7ad33c97be0098f1, 0x190623f0b30a9bc0fc7cca3833bbe56bea059395d41a2282dd734b819378c34d, 0xcfcc072d53a8bc4d1ed23c18a95ef553aa981a3767c2b66109304adeeb8f8a6, 0x31da666cb1401ff14807531ac260d4a3afe48e7169cf6d74fcac76ea389324c, 0x6469a14e1f0885e61e5118949d1079f5ebbdf2a83775e062040ce7b012f702ca, 0x4c1ea18fd5a21b6db095b649e5e99a70c2f8149dfdeeb01ce14725a99a546cca, 0x6de2a48f31e51f44dc94c3c7c6da0995c862a13b23a4c60dac4a61ed7d5cb58a, 0xa4f8994e6ffdad3199cb4d68308635591840edef846b8621572e6a05afdb82a, 0x2adff5be24924c7cd8833d28653dcc64f1ae58da91ed1e05775b1efd191d99b5, 0x42b5b9eec281d66424ebc0a373bc278f3ba975a5f319d12fe995d3d13b408124, 0x4f5fe5e4272d7c1505d31b32b1991f836b46d989e10e0768d5c249a254ec808a],
    [0xb0a7175a27085d61d427619257d20c38e120f9ec30c08c2f3cf3cf3b6db6db7, 0x567dc0dd48a0b387c291e9047600128e9d1e46aff5e13cdb27e45e42bf121c94, 0x5f3178692208cb6d291b17d139038feaa647a57e24cb0af5cdd76af6f1007895, 0x5a19cbf61c03046d4edfe3c16f5c6f8a44a412ecb7a53e410cd270362df8c1ba, 0x2498d29f3bcbc9fdeb8310275c7bf63da3f4fa186866ee114cb8bb143e5ed058, 0x5ab6c724514f8fcec478ffbf0f7ce76d2bab1555357fde3296b266749668285e, 0x10eaa2561d3b8ace2515442cb29e325adbc7edb457815514ba72dc0f1a74f6eb, 0x78ce2253154580374337792d0f1c9f474f5ad68de086941059ab0d5c53cc076, 0x2adff5be24924c7cd8833d28653dcc64f1ae58da91ed1e05775b1efd191d99b5, 0x238168afa5f8f03c3485756df9695bef0476dfde2fe759c86ff418a6c362be98, 0x1979d558ad5e16d2df06b6883c0c076ffc555e54026846097f68d94d5ee70e9b, 0x2096065acfdec9b7659e3f7f423421280101186a40397b92301caa2046408d91],
    [0x6ea8ab5b04d08339482b9407ac1a7cbf444c4b1a22e72944dd1745d080000001, 0x70c5a7309d2961ba7a56cc43a0d1bad8190c0e97357fd5cadd31b6a8467d362b, 0x2920461626122d72b159fcf548ca7a80cc6763181c496b83990fc82694d3d7a2, 0x288e91b7ae711a6c27c2d224310474bbe695503ab612784710e024b25c9bba70, 0x425d80b86da5617f6fc0b40adf404a0d831e79a1f6aae6f687dc711587384101, 0xb73b2a7b748ca9f6f4352711c780bb5184fd9c405a74cf68df7e24f426eb93, 0x56d3725389d47b09dfe35798e37cd06db38c634495ffb7d72af37cde8ab7eaf7, 0x4bd6914cb8c80a18a8f5cce221f78ae0f72f59220f17537cb4026ea5a9518299, 0x42b5b9eec281d66424ebc0a373bc278f3ba975a5f319d12fe995d3d13b408124, 0x1979d558ad5e16d2df06b6883c0c076ffc555e54026846097f68d94d5ee70e9b, 0x139137f8f8961b51d283384aa1306d8b30b7fe670bf0ed0bbff37fdd703d34d, 0x528a7b9a0d857b932a7b7c9a8498cffdfbf1290bcfea342141dea7ac8171a0af],
    [0x64cea7c2c00361cf7a7514e599124c8a328ea4e137a587a61642c8582c8590b3, 0x3d999a2b769e2ce3dff02a611c9a8a3136b898776a94ffdd66ca395fdbc227be, 0x17124b186871d073209b4b06718780889a8ac67b864914f3068b79b3edea613d, 0x4eced9c80250fcea8b1d9094bcd94ec3f165052aa5d18b826433e613e9db0b9b, 0x2a449f61e01f1b6e2a02c14d84f82ee620923e7e2f979869a6c5ab2f55c1b28e, 0x18c3dffb7dc53b1645d8bac09cdb5ee07f79f42f575d8ef49b50f3d083040f0b, 0x3be58d1df63f22168133a1ec97bf216745d866e7fbd597c2d89138523eb055fe, 0x3851dac3f0920b13e4bad73b99f669e4450afe776574039754326f4719bcc460, 0x4f5fe5e4272d7c1505d31b32b1991f836b46d989e10e0768d5c249a254ec808a, 0x2096065acfdec9b7659e3f7f423421280101186a40397b92301caa2046408d91, 0x528a7b9a0d857b932a7b7c9a8498cffdfbf1290bcfea342141dea7ac8171a0af, 0x3e91d10be54251b8268d746ebd57a46886a45a94606c4c3b55c6e2bba1a90210]]
  s := [
    [0x6a44840c3b7b082cd99fb0b208d45b5a376dd6581553d4546aaaaaa9c0000001, 0x1fa69f776fa73b654f02951a71458cbdceadfa6add02fa453178e0f407bc1ce2, 0x4a28f4b858d5d7ccab87ac20a83447795e3376a1e9552a1b5f5fe693cd96cb32, 0x4cafec1814e84d1beea03ba945083da007c088a8f390d36c549b670b6799d03a, 0x132639f6e31c37db0960c91bad66031a6cbb048bffe52e1905d179bc19651a95, 0xe4c5c4efb7635c6d288c4608b6652490be3d460e2bbfe2be19c96805588e73f, 0x22a28ab0180dee53d36db1e9db8d4eef51ebfc35aa41e2ac6d25eea53ffa91f0, 0x64e6635482c3b252b23298abcaf820ee7b7d03be3a04ed34a4b88502bfad4e71, 0x6fdd5b9c131df261ef40e37dd3f514afa35cc25f9be3aefdf0b7732215f0cefb, 0x66b9d576966b487572caee5a9327194c2afc686446637ce9f449361ba0819c6f, 0x1e5fadcf8fb3cca0100ca49c95e409f28a4faee7d0b0476a606e6e86a42d8994, 0x5fafd1c3874744aebb0b863ea99ab661ee46529887dd1d2cac0a11c9d7080035, 0x2d66ebdddf6943eea7268563112a36020c851b733bab88158cfb571104e49868, 0x45443056c4a89be44a73f6669613dea061e244010f2e51bd61faba43e07c616f, 0x4649d0d068a606a7001afe9d56a90df8162797c4a1586228506c9fe306115270, 0x3b0078cb3bde13172d448524f26fad3d819df3b1cb4fb3a2240825797752f1a9, 0x5a42b7396fce775b2bef06d47cbf6bfb39e06518fec8062d550205063b751ad, 0x1c701c5eb7be81b6aa193dfd17b2cc59e773e3ed1179e0b762930b7d440a7202, 0xc4253c4c0b99e010a0910658a800393b9c69d738611f4900f18d9f9604c6817, 0x432202ceae78dd8231f4189717b4d2ba9a2eda01e1b5a1f9eb409d13200530c5, 0x1263f23443a23b1f3a48eb324913728d04ecb2c80be664654b03e11ca7dc8d9c, 0x30145b97a3a6b875ed7fffdad6e181a42d043140bccfa4537a79de2c32debb52, 0x604e21a0988a1962a9e75df58d5193692e83813a0dc7a9499932786ffdae408c],
    [0x6a44840c3b7b082cd99fb0b208d45b5a376dd6581553d4546aaaaaa9c0000001, 0x15121eb664a87dd93232e33188f7cbbae0744d8e6cb28bf462821d091fa3cc78, 0x1185c4ddb4ff3462f0c1dd2622cd95509acf79e9f9e81b86bb56ef9fb04a350, 0x4fd0d88834051956ef528317e9f69fd80305c0dc89e7a424e2293e3bc8393426, 0x48e01188ec462c8b08b06dbce2d9e523d6d9ba1710c20d3d92c7eeaaca2fcc12, 0x3ea8493b09e876c7e9071420383a513ad86037da85d90d03e4765f867fbacfab, 0x2f2825e5442f73dd0d836e5389e5c94aa682657be569e326a411734354f6371c, 0x35f58bb5418694e0e5894fe91754d1edaaab82bdc10316560e8d424b52f47b5a, 0x4d06f944b8ca139791054cabe372096b7adcaa737b9b3d4e2448c44d1153eb1b, 0x25bbf90890e7b47350ca2174bfcd8715f9883b1d1e37805a8ce08429326f68d2, 0xdef3bfb0b7d8b799a2fd9eb56a66ac61d334dab9a95f00821b3599bc8c7f8b0, 0x6f3ec4b9baaab70578bdffbbf3ebbbaf7d8572f5f2b9a86a268ff322c240e149, 0x1375f1770b6105d45294f1b73ac09e13c8e0ddb09486df9704902f62b8e74cb9, 0x3f00cfa9abfcb9b0251c548112e403b28a5e6fef5fd515cef11119433baaa9fc, 0x3d7505dad13f504ad23ddcb0dca6c045ab199d52e982c614de75262225c413b0, 0x792d3bdc3cc3d2f99ec35196c487761cc2107b8ca171692c2bde53bc0e91664, 0x71bc8c19a25b4ab02bbf45e5fbcf0ba4f333e15c1e98b2c10b90c7a4ea5850a6, 0x3a1b7559fb26483923376348c680cb8dcdb49d3655a06a0238a4d677bb37531e, 0x47a2a6d51ccf4a79b95ca81f4048be51f854a2a3f35f15354d8a4856ab0bf001, 0x708e9f17a4ad072528359705054a70d451736bc72ea133ec9e4e40453177f1a7, 0x12ebd708bc22b7aba6409017a58cdf562538be8be17a646f73538d8221a3d637, 0x2adb158955b9b24a9b69c3d769a52e6d66e7334c862e53498137c5a31e8b771b, 0x73291ab48e3a173035c36ba784271effb7b2525f56a7524e3fd20a5a76efcd64],
    [0x6a44840c3b7b082cd99fb0b208d45b5a376dd6581553d4546aaaaaa9c0000001, 0x34d2b4b0f5129f194f4f5a0630221adfcf44e5e67b9f059c37c5b82937532b7e, 0x9d10ca3ce6f8d36be081e5132264b48655869667d8192c4540117eb44a3131e, 0x1fe57ad7610b7cc8acf20a904ff9611f380365d7a9f86747dd7f5e2b5858d73e, 0x5d65ac374eabc011c0a3cebd1d9cc2475c7832dbfe6fa4580b6a09dd6b144b9d, 0x3e8be72324d21c557df33fddbe0c86a20aa0cb9513c96bffff4dab4761294c03, 0x36accd47251c32ac3049b7180545d62830a16c21846b0f6cb2d1b226744be944, 0x5ba9e0fdd89088b086c78248630d803d667f87eaac7928802c35447cc7399070, 0x219257ba6424745fa2bce473b89b50a0955fe759b840794553bc04d864c00d74, 0x6d917ba2852c7ca59daba2a796e821ed4a9539c8ac7153fa4e439f1ec652786a, 0x54c196524d08ab9f5abe2930bd471c1206beaf63f79fd71cea82965a464c738d, 0x900af795ed2af27bec910421c843fc9ad51d746e30abd0d63bec43d652b895e, 0x3b57c7a3f5abb0abf81577418b9ca2b3cfe04175774a18e45a26a1914908902d, 0x7363ee5f0a37fcc64e4fea3f5b85f60bc0d661861cc64307108d3bfae61f1032, 0x233c9a80112f883dee91ecb54f141c1a960658b215b447be5d3eacb981020e59, 0xefe2ee14973fc0287d418f1a29a926381358174506fdfabd9ddd646c1c3194c, 0x728451d1c1729972084eb763703cc615a7ec4cb6f6c46aac76b7e97538209368, 0x47664092dce9e2a53a64a4818d4f08deef3fda74e74ec154d3bc15e6601ce7f3, 0x1e3340d6940e79ba8aa7d698eee2417eb677a5e67161203799a204706973c39c, 0x5eec85d0aebd0fc4be485617170e3e4b83407b824144e56da85434a8a60626c8, 0x34481cd786cc70ea01f1f61b24daabeababff0f5450db3a7c46d5af44d03c48c, 0x618db7edbde791e2769332e8d19819c84b812b2eaec8ed5c31fe7dee13c2a9b3, 0x67360fbdfe9385b451a63404d23d023dcd4ca053a991b6f2417baa029b5ca197],
    [0x6a44840c3b7b082cd99fb0b208d45b5a376dd6581553d4546aaaaaa9c0000001, 0xfb64ca0db490311b6d6b0668a2e8b629d9ddc628b0dada31a0a6f8129ac5ced, 0x4ad1e85bd482b3e12e55092d28554f99180d62965774b4cb68827ae9b23a5a6d, 0x1ecb7b558a21d9d61be88a843771edd75f5839da77dd0114e1e270bf13bd58b4, 0x4600327ddcf9539302ec967cc4de1c18dcd7da9d677ecfb57ccdb7628d55f837, 0x639ea027447e1019eaece33dabc067067fa5a54b58226aa64f71241d7ad0e4df, 0x64265edc0dff98813a46848d9fd3dda47de27147b93fb6957fe2d7405398b672, 0x41b9e3a5c5f88d0b12fab16218e1e73ebde5f6236b1dbaea94d934d0d99c0e86, 0x219465a6e44ce53d4cb4d0be25093e961dc95eb9866bb19cd4247da4c924bbf0, 0x63a160966eba6a2c252b30f4e13649b1577ddeb24c2138dca13fd543075dd78d, 0x3ff68a849c232e13e060ceabe399156ed5d5531fc3ca76bee2a8f6633e86604f, 0xdf1f84234c77ddd55187e84f19b4d8838af135b8c02f9c061ea52626e1d0743, 0x4c24efe500d8ba9e2d9c6e54c8ec61a68f4029ad6ba0d1225d5039bace889901, 0x631e7e6a8c4582835a12726733795716e7036ad6b50d8de70f198c1f377bf23, 0x519eaee54f533c18cc4732dac8b785265947cf9095fd64eb614fc6f2e08981d2, 0x5e6e24f5d52c61f497814354b1741ce135ff3a9709514b0a8e734a470575486, 0x19ff2a58aec50dc4e7355253c18840a27ff61ee3255bdfacc082fa28fcfb6079, 0x54d0e1169e7b243bf8a0166d1a54af98889bcf4c6f5a5e170432a62e074303e8, 0x703741c874afa301b6554e7a72727870d1c7205d5ef33284d3868dde455a5428, 0x61dfcb8958f279b7510c888cb8bfe55ea027011e6744bfb08ac9caf24aef99e9, 0x49dc01e7ac8ab5a3e876e7cb7fce6e2652ba840c4137b3234ae06a6f23d09fb6, 0x1f65207ea8ac15c0940dd778fec9fca716759beb8ba5a7bb38524d2b82bdcf11, 0x22ed7161a58f5ce221c4b3c80aa7a1e05af884987811e1ddffbd627dd55012ba],
    [0x6a44840c3b7b082cd99fb0b208d45b5a376dd6581553d4546aaaaaa9c0000001, 0x6ca49401f0279fdbf4350b1b11eccd0bc8a1b324c449f94a338d7fb725ea087, 0x376b269b4b8bfbc1d8123f4be8d00b745c0a591aea4a94bd86b95b9b3b168e9, 0x1e9ba136e1674e14eadbefd8a3c1619f7fbb968393c2d2a430fa858469bd16b2, 0x1c5a0809f729c26d38d1d53f97bafac77e0296964546ac54aca2af601f6f9852, 0x55ba575bd5f2f7c4c7da2d2bf6aac7b8179f09090108970c930415f67309485b, 0x3fcd4b55743e9edc2c0310cfddcaaea3fb7da728ce2812f9ff2f11808f5ccf7f, 0x1c4e77461adfeb2a869cb158d1b13fcaa4acc5162512344f1f6208a4dc056888, 0x698be27eb7de113ccb3b0672049745db5245cf73eb71f79a3866e87666b4c45, 0x5fc062c27ceafc0ac3c274387f5cd0d1dd3239e058f0a85e9ad6267a6e209a00, 0x5fe35e72d6448bafab22971481b8914921e2ca8ac678f1763efd5ddae9478f75, 0x655d95c11f63254c30194d510c0d8dca5450cee8112ae3da816f04cc75947957, 0x61d3b6e645b5d56f556f54354b57f0a462aea86449a9fa341daec9e80588da3e, 0x384ce4d1893155fd88fc4eae532342408822d4edc9bdb6c61b0da677100a6eb0, 0x41d013a04f97b36d89ce1c5e82bd3604761f55ce5b12aaf76b57b25d53deec3d, 0x42a9efd96fd0a95f1f51ea191563a2cc3ba8f3b48953fcfa931d9477c89435fb, 0x2c50743e733f23a2463d96caa85338530d73d6d7ece6701e33ac6bf46dd4ee47, 0x71ebdac59090e3b85b2a150effa8a1f8f02fe80677fdae789640471574f69d5, 0x500224eaa0a04405fae1f7af3a44fb636c8c4d9af4fdf29b170fc8f6786b5b3d, 0x3bb511f46102dc91a821d0c1d1046a91f183b230ae9bb05aa86c06f11ad6dfcd, 0x471633884ca0cafeb53ffd26536e20f11eed47bcb85c3a1a56bd9cd2dbc095a7, 0x569bc9b6750dd41790adef44217de49a0f6d005f1cdffcea9d7a619ad4556d0b, 0x63350d10efb9d67d680ee5ab8a01c24416ee18c36073da22ee7c112cd9d5aae4],
    [0x6a44840c3b7b082cd99fb0b208d45b5a376dd6581553d4546aaaaaa9c0000001, 0x346a6ce6c0047e31964d2b8dafb0ff7e45bca6bfc7934a0ad18dc71947ac4f78, 0x4d3381b6c6b8e18ece1984800d9ee4bf4f3f9d98624ec2d9aedb0a288ac08459, 0x135e5a7a925e83b815185fdba986076c486b426efcaf90e3f894a640ef4f87b8, 0x35a42a8ffbad4f464f44721a6cd2dceb72983d56936c377004b6da78bc238043, 0x3aeb72a49cff002631fb801d2f6b756c186eecb67d926d9d0ca6d48b03bf44a8, 0x5f91a034e9b1185d8fc088b10630c34ddd93e3ba7e125bea96f5385aa06faed7, 0x2c618a49bb83c1cc8324195c69c02d6e3798b64061d9b5fc36ecad1537e3062f, 0x62faf9abfa7460106e090e0835895457dbeb9c74b61ea2d3857131184d68e6a8, 0x1ccb0cbdbdf245edbfc7f893791c9a4bdc139fc55c08ba8357e3c3bc04a5778d, 0x3c6a00816a906ccfce33dfcb147d35909408240d5ed7f7a6c74d6cadb7f2f8d6, 0x52b3d3b5c7f0cbb370102970f3cb1722eb73a4f7bd14d049f32dbc3c775a5cef, 0x29621de6543452c9ae09e81c9771fa8f0e172fbfc8ffff11c950d16c208f8423, 0x31b214f4f4465d897af76c513c59a72b90e2f992ad5315a2445f1bfa3605205c, 0x1f8bccb69482b5888dbaadaa25b7890fe470d5c9f12a1fdef898829c5f97a2b, 0x570a85d61babfb0636f539da29eb9653ddf7c4419841756c85b6bb675d196b68, 0x108d2569595e9d64d7c5aa6babc155ea5a2924f811f5bf0b46c470e42a94e636, 0x3e083c8ab42ef4c17866fc75363e0012b9f604c4e56e215a88dbbae41c41e08e, 0x264e8ac552cb9ac5ca84fc4e63a3ad6e409a562dd0d8b57da25b28cc78f1819b, 0x4898dbdb76e339a0e944b43cc631fdd47255b90ac9764d3426860839d0aad6d3, 0x1c129adba637700836364cc2e84d47193ed40bd25f27d8d0f99eae78a8508dcf, 0xf21dae16f70e74e8b4c7d25767bf87183e38b7374f719a5991f93eb5982cb3f, 0x4414e964f15a6dba73e9201eaa32168e6a5ef07e7cfbca38f93a26f63af7d1a6],
    [0x6a44840c3b7b082cd99fb0b208d45b5a376dd6581553d4546aaaaaa9c0000001, 0x28fdbe1c6f9b4305cdd6b980d3e4138aadf3dd35f80ab24e3160848f18698fe8, 0x26f7e206bf27bb6dca1545548033156290ce3fda5b293943753135c7ce326af0, 0x4bc0791008aa0c67ed00b9f8fb681ba27288603b244f6dc9123b3a94302ed7a4, 0x5abdb89223235f826d30acc572811b359267fcc25d3ab1bb1df0f61f57005288, 0x18870db35bac42e95902f3419529939d969890315347bd5f42f738980f00ab42, 0x29100539791aa5a30f804bd78bece80be08a03d18f731b98a5e18aee53ec5346, 0xe8303cd03fa8f2044314ac733db87fbd851f71df3e8f261ae433478e2ca8329, 0x3383c10ea677fd4c591e570deb539d00cf3368b13fedb5c44c08ef55aef49f91, 0x54c5950989e75e13f22dba0b9557432940bd5e507aaa1eaabd64361ceea7be08, 0x346188486f6d8089d4028728d4d0e54d353758f133c836130d32d0e053032974, 0x40f850a6c1d924ae46a55272b66963375a401ab4e3cca4830de676d51e9164d8, 0x1da2a2cc23e5593b90a0d1775226c05278036acc2f956852f756f08541e93522, 0xd794f4eb1cb96f22df7675c2ca9f5c774df8244a768ae6ca8816e899b5fd461, 0x24ace8e50dfd0bcfe1b71c390c9100c6def09671cc07edf5a241b8cfb9245935, 0xae96f4e010300549455c86796e0be316598b39cd2c028c513c3c838c7ffc3f5, 0x992d4c871a2ed1aad101e3ebafccc13a3630ffd81ce90641aae6e087e18a24a, 0x5a788c7823a68fd102e803a990509c2e090027f49ebe721531ed3c8c4e1bdee5, 0x40c0cf35da8942b6d6c4c17052644115e5ac0627ee02b1eed01b641a69946b10, 0x53cb517e77a05bc8802002544f12ff6ad4aa0deddedccc69e53ae53dd35aed84, 0x1cb558ed047f2eb67aa2afed9c60ff3ea9ab12d40face325d911d1ca0e1e855b, 0x26ad9ea03cc6b9c059a7a018687dd738f49a509389980edd0f9c6c6aeb77f749, 0x52631605ecfe9804820e94acec0e2ae7b6e467a9c5eccab7f8dd43dcde56473d],
    [0x6a44840c3b7b082cd99fb0b208d45b5a376dd6581553d4546aaaaaa9c0000001, 0x38d699334dc6acfe37f21340dd2d2ff2272f517886effc6fa620e407fd1cc75b, 0x4326f9c61c0a001e042dce24dcab7db0ec92d69fc83d6cb8182ef4bfe5b7bf4e, 0x5f15499585fe3b5db1f0dd417307bffb8bf0c14b91281193cf371c556a281f4e, 0x6d158f64a9189336d5f553743181f54f31be1b53f95f01b2ee65752193134455, 0x44622f1770951645ff7e53e872aa526bcda5819cabbb48d9c1625163b3772eec, 0x3c09040f055f0719a28271f5160f3704fdf366c99d09c1eda7db43936eda21ae, 0x4dc021048130d4442b044a14bbf31a530b73b29b268b7a9bc189625103763446, 0x5c55ec1e1c2d989e0b8b65e19caffebdcf25bf81582f30bcfa2952c7b149d4d0, 0x4d4c105aec7823a0c212ed8d6edc0716afccff3f16ad9885fbe4a83a89b9af55, 0x2de33e208c6841bf5343c8a1019829eb446e117a0da5ef625c9d22eca914182b, 0x1ee4d8e1fbcee4b17c059265139f889dbf7d09525a35462d698a93e9b6960cbc, 0x6a761bd6b24ae023b511463b658aca3628daf3a5cc2497934de84e51d0475623, 0x40c890b70a473bdaef49f00159c3c90162ca8f385959b2e36f0daa962cb0ff63, 0x6dfcff71ca4462a92c10d72fd72d1f180f7ed4bcc043c6f13fa36f2dde7e5da, 0xaf31bb7bc8eba429a95b4ca24ac7864cc96fd902a82a10251b9babdc3c4c7f6, 0x53e9693dbdf445c953d768ec23fdb2ee393538a934744953965956b3f6939960, 0x222737152947330286ad5efbe4af9bb92e78c7f8b3df01304f2966c484de93e5, 0x2d5aaeaf6320f354df43861712c024ad7a4643a7781744c08207582e0d34aff2, 0x31f29ef6f80136027a9a67453d5af8e0f93b39b2f346c71c18cd2c0d8d755df0, 0x54474ccfc0a544b9e63700611993a94ee6739adf533162bb0b3a780f6c59655e, 0x42322e37f2f7040e51a949dc80af73c28b2ae7c2457a574d2c24573d9e44c012, 0x34137ea9eda358666d203ca44aa7b91766071ea3e916288e61bf25b289f197b],
    [0x6a44840c3b7b082cd99fb0b208d45b5a376dd6581553d4546aaaaaa9c0000001, 0x2d1d70ca1c5a4ea6dff65337c3847b976d8e2a99e433973e546ce471656f5011, 0x5c6e784ff2830a33e5b263aa91addfd91f1c7b770dc0a3f7235ba09b3c8600e9, 0x5b0944c9567552d31627d5d1b1d51775d501a49baac46f6a5cda543792d37cb0, 0x1701521890ccb13da8e95bffca86b9d05d55005a87f3bf8d1091be1fab5ecc10, 0x5d384e6447d7c7d9168b2be6d02a8ef990e6575f16c63237d841e4bc7a5782ab, 0x3763cc6d6c876bbd989fe8ea49d9b7f8bdc84555371c1f76511025c2d07981ae, 0xd5884f60918044015cdbb1381172631f5387d8a75845337e86495c28b50b73c, 0x62e94e4f6d2cc6ebf2a4044f267a31fbc5f2290816803fd930432d884529153e, 0x200ff642f2baa46c88cb762545f26f7bca336f200f07910db34287d0ef638f45, 0x12971b73797179da26d67dabedf2cdb4f5aa6639d53967920347a3c369ab83f7, 0x322762881afdb92ac46dabecb055aa3cc86e5f6e336255922f99195d0a3023c6, 0xc40349b2e4a51cc1c4bdefc1550cce976dde9b62ceedc29ec6c7b394d230f5c, 0x4f7823ce8ec3008e1d0a8a3128e0e48b5591d82db38015ea0b98a4fd9df5f498, 0x4a6b1a655d06604ded82aec66ab5d048d1195ae7d9194dd45475399a6580df2a, 0x10bee4c1c4a937f1441ab219d707a04cc01a8e6363d7de314be4730b9ae5f24f, 0x4dff3f137eb7f2b13cd2b65ad5c77fea2c1320748ec3ec3067c19f461da399c5, 0x26cbbd93f3295791cf0717389570c83dcd935a8f4b922babf0f1369249ca0333, 0x3fa2316b15042d31b0dcc50be2d7be2541b03ad64ef18bcdb4573f1ffb740fff, 0x3c40a8159fb712ebfb3aab196b138a0958155cb8ea493514e16bf0e78be1cef7, 0x27fdc16832aa8164129f6ef7eb52e449a4b5b64a3f98dffd827573e6192aa607, 0x2114c7ba10752da18013e3b606ed199ae16194b05d72ebab619edbba8dd54b90, 0x1ae90e5b0b46786edaa8615ebc6a37e0d5a6f484e003f23e070f68fea0a43677],
    [0x6a44840c3b7b082cd99fb0b208d45b5a376dd6581553d4546aaaaaa9c0000001, 0x2f439af948edb8b223a22827c50e52d334503f3e063e755d2274bf22fc2ba71d, 0x5d43f06537c6acdc9091c19829181374c29b57b84336c39661ed3ff9310f1d90, 0x5f404fa7ea419dec1064264b2a0f61a7889463b7d36806b5b1f2ca8057acc38c, 0x2766921ccb2739470e31c229599a6ec735bdf1fdc64f40eb82665ffef39724ab, 0x68f28c411d2fa2e7be9a3567a8349f23e597d7acb007d2912223c819fda1c972, 0x72922412bc0808914ad96f4309a5776fe73a1dcf486cdd239c696c862215ed91, 0x260dfad055851ba7fb01353acaf6db62adb812f37873468d349827e5bd8c60ed, 0x5b6d0c212da56e9385c1d87e434e2398c866043a9e282d0e7886a0ad1457b6b5, 0x728101aae079a015e046a1f820cf3f457558d2d8f79ef78dce6b3762577f6f44, 0x4ee10fa4f7cdf8b634556cf5999ae9b4cd295065b59577d4c987e3b006e7cdc1, 0x50a36dd9ec6ce6d44d7db594118015be21473b6786cf91cb952cd68e70db3394, 0x221202591e9d1f5858230e01f7ae0907997993d3e2e501a489ff9eeffea38414, 0x16926ae12354d4f08592112f408830b665e984d256200dfde098b24f154381b4, 0x475f3fa39a9e4b7ce0a37c677e4cae25f7af4ec11edba09094c49ebb97df9a6b, 0x107ab54b5dd93a44cae995007fc185e93e60fb3585994291dd2c6de278aafa46, 0x737ce4993c7ed1b978fc8eff6a7430a2466a3396a73b214c25e5ee3bd278a14a, 0xb814380ec1e72efef9ded2cd9d5c1d25e4a6f0aec4217e96b1435bfdee76aeb, 0x14359f01412561bb77f299b71bb626285d717a0d0fd05a9c872ca0082d067975, 0x5d87de353a607636368ac604f4d7da68d576b2894373a1d4c48277aeaf10de0e, 0x1314093b1c443b1d6ad7a9cad2a9b3625c1720d696930fff599b07d951c64d67, 0x6dba9183c0914ac1369fe44b7083572ce5952305e46a762d43ddf0a7b6c7a8cf, 0x627d0f43f835d410a52ff78752f398b2861bf5a8c31505642577410e5ba28404],
    [0x6a44840c3b7b082cd99fb0b208d45b5a376dd6581553d4546aaaaaa9c0000001, 0x583152dc6984b03cc67d629d614dcb1e73e475883cbceb79c8359f8fc9e32933, 0x35bf8ede8a8d7e08ff3f66cfa2178ef43a1375510afba92396f91c09c4ce61ae, 0x52a7c9acd117c210f1bd4cf29d6dfd8bec2d7847e41f24213fbcdc983aaa7f69, 0x72d539b80ae00de562bd877a5564f6f968218f2e11ddac7291d57a7410ab7c11, 0x8a753fd9ab52b387a12b54d911255fd4d877bca1062854f8bdbde2f6ef9cfa7, 0x4e8cb3a64bcf0b0ec97c23eb295c916aec3974641fcdd91bdd663d5531268978, 0x5179124fa4389d900a03eef99727971f21abd59439f48ba8e82f71249f835a60, 0x6148f99d58d207f781c137f96699895ba47c6a12040bc170161722cc5977485e, 0x6921ba5a5a6e4f7a9bd9404739f7de637d878215238d30e3589b3dc47bb28d74, 0x4b594e3cf9d8dbf40d726c9602516126dac134823c7de4d62dc413e51725d7fc, 0x2f714acaabcab65500984106c44598a7aa20c40f217fe0e82893e99cb47e8f9, 0x2b9c2d1c406de417ade32cbc0af416cccbf2666a4b3e8aa174800a5258c3ba11, 0x272904595bf2bcf29c1c1c55aed2d1ad845a651ac3a023c79e455663bd552f4c, 0x69e8c307c628d9685b939995af9bb5bf7b6e0d4c7c07af0d2769012ce155f209, 0x484db63490c635817c2ac687f0c2ac3cbe50a299cd67937465fe86acdabafa39, 0x2975344f41f75769ab8eb2d34482fe067f35cdf3c92f8c640b01e3cf066bd310, 0x34a0ce50cef0bdd7661517be74052fafd08a313c67f735983f8f9f9c5e25dbb5, 0x279fe9d67d0c6573de9d4b74423ec3b964eb677e82483f70d7635ae9c8f161ec, 0x2875a3c2922e43b464f48675e62d4efd2823af1d4c5202190aa4d2de89d707f5, 0x3d9740d5a80cb09e0e4ddef85d4337d554bffa4d3bd28e8035f70945c3531f9f, 0x26161eb04176af75c8973c59b048cda3463aad0e1da9d3c0dfc1c57d21a588e9, 0xdc7738afe21858704494384c89790bd84a9a0ba7418fa111e44c92cadfa6e5a],
    [0x6a44840c3b7b082cd99fb0b208d45b5a376dd6581553d4546aaaaaa9c0000001, 0x1fd2a19863879209d5837b7fbad052b8fa7e0c26b34ce4796152d0118aba79b8, 0x35cec2c87bfd9bf7d477f061e31359e08d261a9c5a5d9ae868644a262d40ebd0, 0x13c5e2bfa353b60a6b3582fe550d3f186eab862ed147cb1b53f5db214f787424, 0x241281bcb3b66692a4284bc967bc0df0cce3e1a5f93e02f0556441eaae1cf536, 0x1ee7c626b52ff981064582d5addbd009d3f217eb600f5c2dfdb64002b6f1e9d, 0x6707dacea30d76fd10c3714ef38d4aa7d3cd9337e3bda6b737c052e1da4f3266, 0x4f8bbbf194871a47dca1a0f84380d4692ca1ee4d4d12c947e7a534fa00744cde, 0x6752ad90467b44fc5daddd61be33336964d5e13ad86e9cc8c69b3ee57ff892b0, 0x26b99be652af88d45584594552ac052f386dcc93b95bbed49f6ca6c8f02066a3, 0x9ab921b728a53fefb89fd89729a89cd46bc1ae8d398718e7aac8e575cd472aa, 0x3e75e35df5f314ed33ffad27a67c058d0e9cbb2d3316e2f88d2f3a8d0acb5292, 0x6b30eff9fe552365b486733fb0cddde3dc46396fcefad9d983be762a0bef386, 0x1300abf2bdd259e9cf7a4959df8b5e488c40e8ddb635123fe09742e083569a7b, 0x6ada60512e1c578b5f45251d86f87f65e12da8179c0a878e31ad6f44a4dbe6dc, 0x51136a54b3c1f19b5dc3dcc190c777c34adbeac09721160d79cede632333ed64, 0x4e52788178d1d8646161b6a82d5f764d3c3abd7c35e4215a4ba9693c51881ea9, 0x4d2703b04715366c8a3e24c48fc8e11a2720e1c604e0a0e6c6dbbba5ea0fc7fa, 0x541cf992da21cce856708b105c0a79311cbb50cb2328d2bfd44f443ec4ae461c, 0x5224950fb6ca1e6a567aa2552e700a39b2f4c2f32780d252e5729ad59a86d680, 0x6ff182d0954d4e23abbfc4f6f18da2da4c96b7fc79609cbf0d2c5ba3a1180c9c, 0x5dd7fc42a532e78c6601d5018bdef936d57d7bc2ab3b6a6e9465be0e739d8c50, 0x18c594803e6510cc61abd6047f602497bbda301697a42e5a40d5c1fdf70ee0bb],
    [0x6a44840c3b7b082cd99fb0b208d45b5a376dd6581553d4546aaaaaa9c0000001, 0x2aeda4b99ab96bc32ec554e51bfc61ec9ab5d4c378646b44f19d4e6748bcf3e2, 0xe7535a856fe8da9c60a73122620fc2d30051c5aeba18dcca5dbc1e7244d52f, 0x69938fbaf823adab63110edc74a4ead2ce42cf3f9635174105cf5a0cd0fa89d6, 0x4a65a7b763754f88c6a01aa5826f5b1f75b1805f6206e5680ea3a5627ed9c0e3, 0x12151f7927077c13f903c212d52541a07dc70ed8a0e78e5b9065eaf4bcee5578, 0x2a4a95d255bc2b83490f74d10d8f0c72451b3f3117656fb6dc92cdcce551c625, 0x54173dfe9b070ac3aa7c92067a9627d3dd8d33918cdba0638c94b6899697901c, 0x4737c6529d52392c1c9b39b40c9c3ce4dddea4f3faf88d9e0cfe74797fe8bc8d, 0x1b8ed6eb8ae7811fe6aab8aa04300728632e00a093d1c012fee02278f9905d61, 0x11e540765a87a5ed9139bd9ff87a28b9d05a416242c2ee04c041b9ec2f66c914, 0x1ccbeeb2a4fae3675dc11875eafd8f14af1749f353c0421cdee35e793d016ac3, 0x426b98cec2eb4f698555507ee5933e82c12292b4325d2c556da00118468d747, 0xdb2326130ab13d3a75d4667b914e50c2255869536518585820d2b728627efbd, 0x721f8230211bbbab680ca97b67bb4f3935e34a2eafae632e788373064b053e9c, 0x5a427b675c5012da0dc3d4e503751e5a310a019aaef1d6e291ad3ccc452efb5c, 0x1e9b3d4e737985ad6bf03add629d383a3af3ddfca2417db9eb9a9d1cb0c1d046, 0x6bbd947444d60f95792fa73137fb48166f932729bf9257e425a95c5d7e6b024c, 0xdf4a2f2bc5615430c2e2ede312fab94c8de16c080670ff7213bf661e57803c0, 0x6b0d253a7fcef8a03292f5d86c8e76391595f3a43e8482ee464cce523d1a55b, 0x3b8ac0142c2a5cdf494c0763cb469c1a207465b174242e6d7e984a3da655fd97, 0x6c0a959c06feeeee754c6937de5f41f3baebd473c63227d67a941251467caee5, 0x50aeca54835e55bfbf8674de1079384432670bbcf492ad966c070c2d189040a],
    [0x6a44840c3b7b082cd99fb0b208d45b5a376dd6581553d4546aaaaaa9c0000001, 0x54710c05519c7f4335dcae92cca2c1d910c418c3ebd4f18cc46cf475ec30a39f, 0x21f2da6f3a5ce6b5f6e8369047b32b6b457ffe5044b1c448d6ab8719f1ce6cd, 0x2aaa76fe39e0eb134df11c328019ff2949696bda144a44e2dc54b7c1fb9fa4e, 0x61bb7377531d9d3c4409a300b71e1efeb409e2602873dd834ab5d93541c9a8ed, 0x1a731fd8b3cf5c397dac82c99ecd3029581d23fcb51d8d6ff9121c60adcca8ca, 0x87b03c6b123cf30c5b8fd7d3133a20b18d0eb6dbf9bddbe9b668958782be0a9, 0x522f729d4097788a95c7aa866f422fa5d5ab6d0a63ad2d79c333c1adee7c61b9, 0x723a1e32a31ee81eb5806562e920de1635b8c09d9a62f68158930242d02e2975, 0x14993ad7660d74c9c2d63a388aecc1ad6d6a62688044761fd36c76a768d380a1, 0x14171ac3f65f46710e5556f51b072563275ef0dc69aac0db77121688b54ca2e6, 0x1a51bebdebe89709850dd3dee1dd2421927b4fe7b397580e4a29365668c276e3, 0x59ae18255f264289dd23de38a558222f838cfa988cbda304606bf4b0d27db69e, 0x433f0b6bf2f102302e36a9c8e47f952e551ecb03ed33e97668f65fc5d1beaf6c, 0x401a2ea6161b8df6e411e33eb911a26a6cd426b5d94422b1b8e996fa232b7e1c, 0x6713c5ccf0ff6025a2b7a1764386c81ef83e64fe3efa785c958e5ce448728c32, 0x24f0c1ec0d77ba76e20572072d79b8442b94591e19628a598dc48454d73c6737, 0x5f837371eb428c28805d756b02e5a52eed7de0ad38c91796e8a5cd4fdae327f4, 0x6a76030cb808c7f6978648896c32953a0ecedcc24c4a2dced142f8fdbee66653, 0x72f9cf3f07539b9de5e60a0dbe0c641fa29b38d95750ed691fe563a49d8bd6ce, 0x50152daedac6d4069cd45d92d34c8e2a11d47c7f6be49ffa92c6a2bd3d205816, 0x402bc7a6ce96547b8568fb3f4acb9342914ce45beea6d0987434c1061ce68efa, 0x146740cc7ec9a2f1a9c6e3e51c5d76d717abb3cc80cec9971b032006211c93ee],
    [0x6a44840c3b7b082cd99fb0b208d45b5a376dd6581553d4546aaaaaa9c0000001, 0x62d6d62148bcd4f4412387a18b3426af1d7f0daece6965c25e6b099175b17642, 0xd7be2b3f399895cf2ae191e19d866a94b4f1dff80ee58b93067f06e62f7ef76, 0x6e3fadfc81ecb855e2c4e67b29c4a8633a53246dab9a2e3f05e90873beee4fc6, 0x48a2f6efc588a23a543a505b11e9ca44a2b1cb9c84666f4cbe95094bc366ae6b, 0x18886a935739a11a0bf8207f85c6103edca5567c62b07f7bad1e60a0552dac9, 0x59aa0d769d7310e3f547d359c5072c5af59681fa1e9c820c6e08124918631bed, 0x5f15a1581856d5c0b86b3d8b38d6e649ebacaf37dac69f90b19881fb49c5747d, 0x4b236ac33527f88e30a1c9f8e68907142498929e1d5aec92114d33eb2621399a, 0x144f7f06a86b748bb895afa62225a7587163112309bcd4ed8cdd4be56f7d18ec, 0x6f712593acf4b44d798a31a69731186f93ef0ca108b80edd53519ee649762a02, 0xd1a7f0939381312a203505074cb7ec4a2f7e0bc8ce1ed60ac248add7c61471c, 0x40a5ffd0befe854ee4e695a0c057cfcce79d0a3a68b661d2346ee2d643b96429, 0x1826a3457666ad1d631a39d4b164853d066bc21e72d77dbd591c937e721676a9, 0x1008ab204efa8f2cdb38bb4d81410f1fe42ebfd0e9c4f4e1eb39457d7265f0a7, 0x19465f1c4f32a2e223a281a0b45949837d5c4ac7d368e594227f934390799613, 0x684777c0a593a9745a13fd72b85d3e51cf3070025266768bece8e03b872ad55a, 0x570107e7bee51f9b2ffd7375ea81c888673112e15a37fd90cc2e53456937f6b, 0x24de2cf7ce11ac6a3c34cc80399237a8655b12777fc7a7224450f08d36c6c699, 0x2d3a891e73ff8a432e84ba839aae51d2e3920737c604e177ebaa1f56198e8180, 0x4848311a5062f1c6997cf0c586777f0c67574ef76486bafb7591e3cac5984929, 0x29e9bc44d6555bfc6a23f84be987b4ee23fd7f5e522ffd79ea1ea3f0dcb4cb45, 0x3971de1f52567f82a5c8ff08334c3d80a19f073b309f0080bbfeb9aab4678997],
    [0x6a44840c3b7b082cd99fb0b208d45b5a376dd6581553d4546aaaaaa9c0000001, 0x42f100cf2bdfcc9ae15099c31cdf75d780fa26fc5a361474136c7182700300dd, 0x67b9a1a0936bf5710ee6e485b149d34daa4bd1ac748d96148a05f1c81fcd1242, 0x868935d976ed06a4f731dc3cb8f8a3f0a2bce933666756021eab3f28ae027a, 0x44e09132bcae0d5e1b44159a276a12263916355997442e31b9ff2dbe32ac580d, 0x7381fb27299bd3e9686dc8789880d7608680ddac269e10cf59fd075a5cb395bd, 0x6862ae428869d290f3f27a7ba383770f04f7d76f00f8f5331d5b021c0236e3c, 0x11b36a46858b2299bf25b1eda77885dfdd1c13f30c9204ceb842b4a46e504c5, 0x1fafc61e9995bf136f28b17e4f70bf116d262ae36aea0787a73fa5c727555b27, 0x511d8772aca49c9c7dc7726e446ac3a462149577f7f0ffced71fa0d916fc9d40, 0x329c4fd46d244d3bac92cbaafe583533fcc0d84d0db1b82c12c05b2d8b13e50e, 0x4633a06f63eeb03acfe521173da6e1b803e8c269b5467dc6ae7037532f5974c9, 0x3b4b690d2dbb89a1628664471f639e097100e2e20de83b55aa13938e4628bb3, 0x38ace0af827f44fb52784e937bb0e369a7dc72faea833c048c4a1c8bfaa218a1, 0x388ee8b1f9228c2e1f5296814a17d1776983a0d21825d97a01fced88d6ae19c1, 0x5f1bac362bdd2a6d284ccee28b578744a070276752b0c7e02cc4cfcf06d48ed, 0x12095a85a5f00636b8e22cf5e03df32645593892700dd7c27996cc4e4c6431b0, 0xf6ebcbbca09b0a466eb8fc62fe840deb4dcda118ffdff864802c552e9f9d36d, 0x1a00b5ed18c3febc29dc42da6ac193425928b8f13714c05d423c150976becd2a, 0x4423a630ff2db67f3d2df6c165217b75e679311860e184f7ac41ed066c332f4e, 0x36219b169b009914ad57460edd7a9bbf61a6854d41634431120b0e2e8d13e90c, 0x4695c70b651c0c225fc03fa34e059c2f469c67c56dc5a0c2aa6501f14fa29c59, 0x7298cef472a0a1b8bc55d3e27eb435ad82f2373a39c9437e2d825de834d5e305],
    [0x6a44840c3b7b082cd99fb0b208d45b5a376dd6581553d4546aaaaaa9c0000001, 0x7bd6bbac8e95c5eab144dc1a28c10cd08e8eca327fc55f2d44ce08762e1ed78, 0x3bf8c0740f353722bdf48004840557cfef3d3dc5abc03391f9ee1210204bf1d, 0x1c752a3de115d269680f91a4009e3d92ad328afa508c521ae774d9461bd83d15, 0xe25115b2b1b32eb30d30e715fe8a533144f997e3b51ac21409f53da77f86cbb, 0x49d9df4f5f2d56760a58a9abf0261c2821cd81d32a081a7e7c87d10793008286, 0x57cbc62d1e42eee8ec45bc0ef9ad676c5a23c8e8cc990eb7c4f89c5b206805d7, 0x16dd9b4ddd26eff68621ee247679150a6a94cf45fcf2d380d96289ef16e7806e, 0x468eda5d6ddca818dac1b406d3359d12ae3f860381fe858976aa7c54c8e9f14f, 0x2c0456585574eb9aec2a3f9596bb91e5496568479e773d2df56000258617a786, 0x33305720d6c3e1dd0b6f30af163c34d2bcec8ec5addcc42287ef13ef60b50691, 0x3b9fe4630b7708c5d35f64a47fcffc2bd74615d20a4c8593535b3e7cdd685ba7, 0x275608631323214aaf5ae92e2552917cc02110e492aa9c2d2d550c3d723bd5cc, 0x56566351633e49b604816eb7cc412bfaa61bdc5a4e317dbedd686d44b779fabf, 0x3c766c42f44e3d1b399e4cf0e4fa159dd203b1f712aad69542f16d3af3d0f175, 0x17c5113b853ce404939b962aad0786d4b7efbd18f1fcee536ad29d914013096f, 0x5ab305bd79ee28a2a77e2bf1d62c0b21d78ea24a76a1639ff3a209525c66c1aa, 0x4b8e90144b8d037ee83a823cebc5d982b8a47aebd153d72132e1d40aaac01ecc, 0x6530205010b31803bc1be05175800da61d6c33d356b929bd007d1bea38b855dc, 0xaf875fc6e7588b7b1b10b649bb2af1aa4f3bac26464867068505a652aafbdc4, 0x2f2a7416f823f9cadeed6097abfc1b0165c9579dca1f8f9ac7a3dd128f4267e6, 0x2bfe4dfd3f78ef3b2720b694228c26b2b5d8763fdbec3e0ba170be320db6480c, 0x30d7bf61c0b873544224a13f22b5e53a5e3fd66ffc972afaf90b8c9c5035097d],
    [0x6a44840c3b7b082cd99fb0b208d45b5a376dd6581553d4546aaaaaa9c0000001, 0x71ccf296e084b0ed163056e773d4f2757475c598273d32beeb4ecd526d5b2430, 0x4d790b5aecc43e715c84879fa05f55995a9e3ff7cdea6e4db5e874110a53db2a, 0x363b7cfe7964a8666c61d4aac2442c4732630f364de7baf7858cf1330b62c958, 0x4146bb297a5272a9980e059d2f2496b2db5da354a333c85b09bdc1f46c9d0bf9, 0x712294dae3eb3200ab3a5e932d6ffc8f493e3c8813f4b14eac3f38368d451b37, 0x60633c9f4e510400e772370700a414eb1b69bce4486652e6c353901bf4c6124c, 0x3fe65910ff7cf466f62b70c7e9adccc99182dcd0c1a9131387ebe3c07eead6b2, 0x641b9d5c5de757f1c8f9f371663a8717da479a4bf11ba30a82fc64f9f7fd0e43, 0x3fdec2df1f45ae50eea572a81f591201f159617c42c25166ff8e04921de0b176, 0x1d135d8345ee956a11e259cb4cf9c4344f8ddb96d7654448324bdeb79db259d7, 0x2a980b271fe0205afba887c19588b2887e369f7f2793cd601adacb324027ce23, 0x15bdd4b642b3bb6a56f87557b7fd6e0814e3545321316c4bc7197eab275eb1f2, 0x2556b0cbe672d1cff4a283a6308af805899cd7cc4f1c8d944cb5cbf27c8719ef, 0x18b8f4f1b2073278a49a1461f23fd154b207270c4f7a7446225bcba26731afe4, 0x5da73240b16f88f0647394c4482c12caafef169caeb85f9f839457641649bfac, 0x240bc06867a913242721b45500b4662887d2a56d3f7626ecf763f01b2f81ea5c, 0x14a7bcf680b7f6a6307216d543fc0f4e656cee6e3150962bb0a41dc441b1ac6e, 0x2a910d0c395b8ea38133e02503339e1f9784a9635bc6cb75568324da58ac3cf9, 0x695640ee30fb29809962f9b167fc3c6c1f7513a7e324e275fa3e3b2c44654056, 0x676b5cf590f12bbedaf1e146064054d86e34b9af80f7381c7b17e3f6af2eafe7, 0x622b047e4fc8f785749ec2fecc4d61eb80426e089331bd1ee2191e1b1fa8427b, 0x1af299f73fcdafbbcdedaaf52436a45b75869b2d7407b06a6702275acd39fdc],
    [0x6a44840c3b7b082cd99fb0b208d45b5a376dd6581553d4546aaaaaa9c0000001, 0x4647b51a295e613571906ff36f62ca7e6d288afd8c2b322cb0ddc6bef8e19f49, 0x1ba3fd3dc367f5ec17f40574efd57b3c183ecf1473e16099fc3be22eec140ce7, 0xe68aaa4ce8bd745c2b8ed708aad87f5c8707f54fbfb37fbb7b41fd74e6743b0, 0x24ad36cb70dcb002ee9b98c95a96e363e0c01b46adae3ed0be66c1e5dc496a5, 0x4bfbd1d8e505673092ff392c95f3f2afefe619a2f6e4d428646122833e8e0ce7, 0x5a9712770581157088b7e395e828ee8d3d10bed75d03eef7ee51e18346176b84, 0x5264b416d773dd0276d8e03c27eee0d41c1369f0e0cc4b916fc32fa1ace0b73d, 0x19fc5342905c41750ff27c273988e7273ba0b71fa1a1f0b2cd73f262ba933992, 0x3b7f99ea3de154e885f7c631c714514a0653d2db84d663153676d20518549e76, 0x4e2fdfeee5fc8c170851bb84b0f4667a95832a2173ffc7c022c9a530e05b6170, 0x4c8f3fa3ea9d55b6121fd36a3d96a1c5db5ff539fac24f0361f7f480a0b9ea69, 0x510259183e13fa7c0950231ed2586dd1f6c4db799d99d5f09ead3fa21aa7ab22, 0x140def84728791e53a75fd8a14243e6c8d56cffb09078b8111e01541eb8088e2, 0x217b325164e3e7fd28d19f19ec5d91246654102eba3c45101e61694c7cc15dbf, 0x16cd82d2a8730d093cd9854ec46d9c9e5356793d191b25a27e768c8a6880b3b6, 0x3f7dd285518d9165ada3368d1079577bdf153e959fbb9ae429e74d9d8097f017, 0x25b11ca827c7634ee3f38e42f6eb19e36053d707047a7e1d811a3961b6d8dc6c, 0x671691fb3e88ae22483efcdcc6ab7b84a17d3ceb2c180684841fec024ba17754, 0xba6ba9090f9f50401a64e126903944fe7b00351a3477d4f1cb79eec73938e54, 0x14f68f718ecbd9ceddf1d4ba333484be04eec1d59167e61b895de2762c61c47d, 0x16e394a1492fd1981380584382bb9faa2c5821d1184b29ad86bb1fca56bc81bd, 0x5ff6403e26d8bf0e08a7bbc093e5d33fc65c487c968c8211a029d48ab917d066],
    [0x6a44840c3b7b082cd99fb0b208d45b5a376dd6581553d4546aaaaaa9c0000001, 0x65b46229d7ca8a0f9c724701d5b1d7fb3353d49b618badf24d226e969d04bc0b, 0x8f3ca0ba453162704825f508d5e37ad85d1c3cbc65582be59e9852302f962dc, 0x2e179d6cb72e5b2c9beb6ea94e98a3acf16b78e97af274a170ea17c47dd1a644, 0x487d94fe6b9f3a7f72dffa389a0439780935b5f4cbb91cd2a56fc78d20340a58, 0x1ce083a6e8f92d4adee0682fc23cbb21a062d11819cc3147d21b6dbb2c50cf07, 0x677945e3ec613b9e99a62fc25a5fbc53c2b4f33ec5ffe8343900dc3130948ced, 0x47459a5f08e7865a3d677c73fd1070de14411dcaecb860b048de41129c3c9605, 0x3062783faaf4b28f59338146664edddf4f31b317fc7262488089bc315279b443, 0x44343e040c615c5b535ccfea91899e873676c80ea179fdb68cbc57256f505ae8, 0x70e00a2d8aa20bfd0d21edb53ec82b5e557f5f82423372b488dc01aee6a3b080, 0x20b91e17aab9fe0de243ab4c8d423edb084efba9539aa115a8c28648f34015f0, 0x41237324a45656fc8986d0ff5684611a5107a2b90e58deb2e09a113a024cbd31, 0x5babb1e1808b54ae4ffcfcc390d52165608da250173e3bbe3cac15e5adc0d25, 0x4481ba4185d91e579f92824810a99567be448aa0a4718ceb76a8d0bf03f89faa, 0x72cee0b563d16da7953a471fbea85f962c52fe6beadfaece5bca43e5fabd7f99, 0x5f550ad89cbbd7a080e0a25dba39839b1ead8a3582231b74039c0ce137f40b3, 0x6f74fb462d61a79cbedfefec885f0959e7881df337ae323648dc026d2cd6aa4, 0x32e379fd3068cd2d4b83ecfb3655228cd944d32c78e7757361bc779bc7bba218, 0x16c03b4f95d73f850e8fc57ada780826c0bf4489384a28437b68d57f01d1044e, 0x433d543038b56a53317b00b34c226093f6952a9ca763c2b790ef8074a62b980b, 0x5fcf184ce51d4db21031cb1c8ea04f2e58ddcb53e8626d826f85f48ccc5c855c, 0x17e73eced85d810533e37fcb776efe85d4b24128058fceeda7f6f72d8c7c9b57],
    [0x6a44840c3b7b082cd99fb0b208d45b5a376dd6581553d4546aaaaaa9c0000001, 0x3ec4dfc28a692be135380dab17b3f0b396ea0e8a7bf32efdcc183c132d2201e, 0x87df1875ae441beea671144d9852758be1c29e84d1bfb3208899e324a028eaf, 0x5fc5fe088b663fdeee0ef72dcad1a49486e16c77b99e55371966a2a4af1537be, 0x2057a4c51161bd2a7bff8867e4a7fc1026a5c271f91b8f540dac7f9d086e218a, 0x16c954038de58dcbeadab85f6b6e0bf41291df0132466f623f56ac42d10bfa72, 0x3c11dcdb8819448c90b2206871bca4bab17afe0082f241fb67f6a18bd5fbf478, 0x3e53b6c3317d8d49b067995483b17d319596ada00c64db0c786f0c08aa2ff496, 0x95499312f1d9264b78e679202f6672f03b9f5a65b754130c2db2aeb99108ba2, 0x3a9ef4c6a7876a9bd4f459f25532fe29341e2f094036fc67e38ede9c61ac1f, 0x2dafc94391cca1e46924a9fe3ed25511376ddc4a2b3d7249593ddd080ac357b3, 0x7115341c23dc5a8fc793cc600f7a4c80ee897fc0581c8285da52471205626fb1, 0x43310181842f74d2d01ac259fa5b3c2248cefa5bf8f12849944ffce532f6b8f6, 0x1ab2f8ce243d332945b56382667cc694603c9ae61109e92722306ec36c85cb53, 0x41f580b38da19f88e5d3788eb367561dcc48bffb0807095e0ea9c66d01813bea, 0x7249df2dc01f2292dcaed6f5ca7631b0141cfb2c1a2d7164b06d72c940da19f, 0x3877110f51381a24afec2cf87faabf952876f53fd668ec6a72455b9ef5f972c3, 0x10df7024cb919f2d4a2d4413b86857b593960c425c0b579e43946b1947407c79, 0x51acd89138fbbc4590ea8bf5c19990fab54a6dc36b97a9240e0ba52452a7feab, 0x32a05b1770c5260bce24a77927ed3b1764b1c8b03edb4a3be0f4fb51112e3337, 0x149e81594783bd43e7e62d5d01f0f6acfd1d5abc40062bd708395e892f704234, 0x266549270ea154c59c7b60840282ff610e30ca5435f729724319650a3a618903, 0x339c4b788e408cca44cfb12c39d58959d2fb2c58a51d5c81555148e2670bd249],
    [0x6a44840c3b7b082cd99fb0b208d45b5a376dd6581553d4546aaaaaa9c0000001, 0x4d31231a44a7d88d402683ab153674bf2b15de7f4ef4c1f8c39427de9b22b1e1, 0x30f82202dd0ab201bade1e41d004f7f5f5aee46fef1eb34ab48f0c2ad87a96b4, 0x551b405ab5dc30489a3b73d38ff9845892fa0a2bf1666f6c87c4dc6c5cd38b25, 0x18b5ff483aa1d170ea5a5e6a142fb11025bb63a7fb3ec2d6492185f01d993f4c, 0x4b3dc8d21208bf818394dbd4dfe98a5e87fa5b2ac77b75d222c6a5884c132b57, 0xd48b05dbcd7c3560bcda0f89cbafe6cfae53c315bdf2be7d83474ad94265595, 0x101ce7b70264f3f35f35cedf959413dcae1666c5855bf97def7a208fafd59aad, 0xc182474e7623db996f9bae99b366012d1732ecadfc69a09d40206b608e36123, 0x1aba0e4181ed97831c1d9742ccfe375c1ebd6b030103d7490d0b1c73616868ff, 0xdcd79a8601a3cb5f0a62429340516e11b2a42dce95a8226b1a636daf8aec87e, 0x38e85f20d4e9863c260a28b4eba4a8df7a69af5af58e95dc44029fc5bdaeff96, 0x8934d76628416c7ea45c921bfb04ae8d005c14dfe455f843bd068221ba16b25, 0x2a01a4df3a59b17d6447a2fda08f8852fe742840c19989e8842e1050fcac5077, 0x19c51152f137a8e170158c89fc31fa0d5b54cb5c0554cc327cc7ed1d7629c8a4, 0x1e7a41ad03eebab71874c56d62597d4ece8e8c4ff71638be06bb1df1300689fa, 0x66b2182e38094f5ce848857f0ad7437d7c7133ed699ef0fa29a1d96bf4c39e35, 0xf60afac63e0ef180e031d63e2a7f5b78d887e6efada90324205eae750a5b1d7, 0x3645009393a55516d1503467605050931238ea802f8946c0ccb9460ab46c41e0, 0x10cbab9c638ada7bb70a1034e7b2f070aa28fdf4f54343608d49adfcb8670d54, 0x5c1ac34278b8a8c678be3d860778bc229044759323900f6985cbbcdb7f9db3b8, 0x34e3712de70381724d6886ec149a86edc7c73a21be9a6660337cadeec2a24398, 0x2c6bafaf78c1bc4d04380c9cac44bcc07b5118bc28b7d0c6b63c4cec07624be5],
    [0x6a44840c3b7b082cd99fb0b208d45b5a376dd6581553d4546aaaaaa9c0000001, 0xed963834822d76823db318a0d97e9956af9fc8c2429215397baf81034d99900, 0x17559600354aa182edecc4f55edf0a399fd29595a1a5450cbd198015d5aca70d, 0x60d00bf12389a9ba9db3bd2934898179d1b7ee97edadbdea2b05937c86c63189, 0x2ea51dfde543a2a679dd37d2d09ffbda02bdb1d8148edeb8658d142a8894d80a, 0x577193690fdbb0ee46d34f504c243f250b7195f45fd2ee8fcc2753c83ea836c5, 0x5b3db1aa54b661813769fdffcdefa8eb696fa16f2b3d5c23b2efb3a70062cfff, 0x43f3f6cf669a04e824668c8033d7e43337983717c0fb7a5d72e299671c1d3530, 0x10a0630bfb3f147a51e581cacad8ab5625ac99a97637c80126c0f44c5f6bc85c, 0x5f018b835e4487ddb3a5a55875340c9b69a11ff732452c08add1b000154de932, 0x165974c5c7952e34b5b7871c460235d2a7f98be89da41a5b1470058c4947f559, 0xdd6e1f84992ee73e6d68195ea9aaa34725f68fc089dce1e83659f6a6c92ac5e, 0x1bef8280e8562f721a3d8af3fffc01daec9a87e855083b231ed279b03fea9c41, 0x392a4b38153c706f1c7659bc7d87d05ea0b88e50f3dae26c8f1858d09ccedb3f, 0x391eecb0fa528e82d5da11acda4337f954df72781d74321fe6a43e9b01426692, 0x70cf62ef2affbd7ca991d3539d17c202177373c664842fd83321c05408f7c4b3, 0x3855d1693e59d93a951cfd10702f9252cdde20c7dac31d207985623ef2f8b6b3, 0x6d5a15ef2f43e18f205780f14b3399c62d8e0b88804f1d6bcb935245b39e24a1, 0x4e53e3c3d94dad9d2e9d596646cae7828087fd77f9b102e733db3b5d5b1ba39b, 0x3842ac340dc02dd113225f8b955dc0a042929a61b56b423306bb02ab28aba0a0, 0x3c54eb41e2a1e833db96dcae656e178f1631646b61341f16662c0f4bf0c5a133, 0x1ddc4830a7afad93c0a5b99b999fa5041c22867bc55507cbac4b273a26e1b51c, 0x6880498d97d100573bffac88e0693ab15f6c757b6744a6210966182edc0c6985],
    [0x6a44840c3b7b082cd99fb0b208d45b5a376dd6581553d4546aaaaaa9c0000001, 0x2fac4215c8bdbf9927e732e00f3c88246c9ac9836633d5039099b093b8e6a677, 0x1b2b5f0a3511c3e473b7ebe851a41faa88a55f43fc780664a63173dca81c13a2, 0x29987e9cc34eb969adc6dd9af2392d874b345bc0d2ee7d96d901198d93444703, 0x3e73ffb6a2e5fc00fd216ac0a508fa98abfa4e281b506c23ca0856a6b3d68026, 0x1d47623b579138cda7fc7289bf35f60887771d746fa8a9ca89b7a3f298f54314, 0x17f3fa62634849b120f13519fe8ed7974da5d6dba1f7962e698c298995459ab, 0x2e9ea52da2b75d8ed38a9b1232a7c8ed2ebd4e2bf49a71335274b7fb333a4b0e, 0x4196af7ab29d23ae40663f02822bd7fee8762920401966ec6d94145d1727dd7e, 0x33359c3dcb7531095c865183d5c2c2258fd82d8639e26b5f1c70bc32262c4dbf, 0x438bd165fc26f15cd1fad3da95d89bb693aa83cf665712d22eefefa4d7966b39, 0x40405a0eb4d0f09256958d63abf41d34026b124d432126d98a35c3fc72e48ed, 0x2493c607e2f025202c4c61161c48d1a74b69c52962acca7cca768763b2b1cb8, 0x41ea1dddadaaa1337e86220f8d72aa2a5c976279d693136da5407f7482934c1c, 0x490c5cd339e73a49122cc8e02bae8d900b6f15d98c1877d6a87633f7830c738f, 0x5a16878ac579447e4355ae1095a441c679732ded7f5a047b2bb6571e472743bd, 0x333a494ef9ed12ddb9cc98682953087e9af1a400459f99e0edbb38826de9526b, 0x4510a7da70ea0d87c27efe64b7c1ed0a7973ff1044f4b82859b2899761925239, 0x35abf41bc981d6ddc1faaa395b4a4cb5767396922e88c6b6cbfa0c0e471e2c00, 0x4e98bb829fc451384520af00fb9b8655176d8f47bcebe710063aba7dc6b711d9, 0x243791cf00a90d50051762c6b097a933084a11d712f6b988406c4ca6049f63e0, 0x5ca045eafb3c95f39a81e6fe2cba9dba9aea31be956c627eb2c025f5e2b38d31, 0xf31f633d92da05d1712bf56bf577fe7ad74fac91b29a3bb8e74eadb133857b8],
    [0x6a44840c3b7b082cd99fb0b208d45b5a376dd6581553d4546aaaaaa9c0000001, 0x1dbde36d9e1075e03117f82c6d8e201bc02c7d101e25b8bca6dfcf95110b6f10, 0x155a378854271dced015f687156a65d3a77d6e0cc95fd695ae57380108f70e1c, 0x9050bc083b99bbf6dbaa117c50d22d9ed7917d953de6bbc202446a027766b4e, 0xc5eeff69705228ac2052bbf44f2aa4706849bacafadd133b96f6375687c89fd, 0x4fcbec7cfce232113ab1766fb7406e8f0216f981f3deec22eb6d173f11843076, 0x685ad78150db1af829fd927eb3c8ccea2ef75e1a31662652dd0ae0ad99f1cf5b, 0x63c5d31be2160b62bc7897d8a90b0071ae16f3e0ed080a5dba5f1ffb977177cb, 0x6b036f6ba6d84af6a47ede256134e5989c5f0578701e28dd0bc1915067c43767, 0x26e7e572770fb7afea1eee69e42825757c89f764434eca709ff6e78a91c94254, 0x100af50a36767e238211b47b091b442e6911cc039e672433d8473ff646b5ded0, 0x4c7f8e7dbacf46032811a6179ebad0e045f1818b859bd08c083fb9edb711f336, 0x4b8b65ba5a05118854bdc18fed9af96cdbc45ae1d483c11cd0e2a086f6384bf4, 0x20d8c00fe1bfc58b5b997cbf5e939c898d08e7632a3ac952d6dc0b78d68dd, 0x33d062da3d313aed8ad02d17c773efc8a67e230f1a28112f5bec77d6bedb8cb6, 0x62f8d7f8da5d6b0056ff96ac1674db227e69fe1e30e3e21052713e40a91d6c54, 0xa67c3866949238c3593de1c20849de4612226294099ec39507a9a601d0a1b78, 0x4e5266d71c9d00fabf9d5e0379e68efe84f46aa3f1a569e259a1b31be5887a3c, 0x4b33eac98180c274fe753d6730f137eb443f61c1d6ff3ed46e428808fdd24bf0, 0xd2f5936425d3d18f25533c3bc33de35c9ebd9be78d46abb8ff36ca5d08ed8ec, 0x1c3e7976d961cf924c51ed4de93b6f7be8a8ecc68e2a10a22ebc7d5ec7f08b54, 0x8112bfaa1ecd4ef8abe0107a584f99d4770017bf611178f6859fe6954508721, 0x3d12b86fd5706508618c3a77253dc7dbd99f306c5451c877d314c0e5c1ffcb1],
    [0x6a44840c3b7b082cd99fb0b208d45b5a376dd6581553d4546aaaaaa9c0000001, 0x1ae6656d09349ec0089581bc60ecee99daf3352b28e5c0c7341c293aef177f54, 0x1390b3d0c9b174873ff60b2fe8ab79b67d89410c0e8636ac7f556bf8ed00489, 0x2072f34150be1a5c8223245439ed612d25ab19fbdcb28d3100a0485e08644fd4, 0x3c8489b4d9a3695b08794884574ed95883ec93b7ad8b497cd65d318444b16b03, 0x2a61234f9ec0454dcc81e2c0c503d06970c80389bff19ae2c9cce1a8818b91e, 0x53fed5dfa74016212ebf668ccdc1759af8a7a6380ff1b71e03859da44d2d47bb, 0x36003465c6bac143ca6ab741a998488ba528750e07216f456619be8eaf63fa76, 0x49def39d29d7afd89c92ace8bfaacbe67e5139f8ff9f8f65dbc297432aacb6e4, 0x4989facc2aad6cfc27fb4cf6368e319633bee72f95881df4bb8d1147cdf1cb78, 0x36ccbb67c2b2db61b84208a078e68a8faa6ad85f6fc9d0049f173e53022a1ee0, 0x192d57fe6f9f83c4505394d144488cbe22611b909a9e7b96ab7be006703fede3, 0x1b72a41d7f3e64f67b3178caf74f0967d941b91769b863bd0dd92e42ba610d4f, 0x52dffc88d2fc1234e97507b002fabe07d9417c8078056d13bd69fc3d742be2a5, 0x4c98292b2681e4be77e14b0fafb9f07ca774233a2321bf79f3173ee55a2f2033, 0x8d6874f26a9cb2d531a19c9f18982f56108a34c1c1ed5b5143287bb29bd8a30, 0x65cc3cc3cdd32d682b166e0ece2139a8c7b8ababb174dbab2fed0648e031cbb0, 0x4d15714ec2abfcfcd23636788ae040aaabd348c18ee2958f29005198d8d8de4f, 0x66f7c9d75fcd103186d3390d48f33618578641f134f70b3eaf63634ba48092b3, 0x6072eaacb435bc48d7c7c293e3bca5b9ddd055b813214072ba87a101976c39cf, 0x424bf1f9150e1b094904264a9366f793999373d43f178fdfa5b5fdbc55f50715, 0x16918b44e7a40a1779ed7f6e774216d11a40a24f6f7b0ae45774593bb1f1ab41, 0x2bae91f3c2f1f33b0297deb741a0db919f6309ec861b9d9f404ffdde6d12f43e],
    [0x6a44840c3b7b082cd99fb0b208d45b5a376dd6581553d4546aaaaaa9c0000001, 0x685b5680290b8724c3e4644327957c7b64baa55e8cd872b4322bcd7449203663, 0x2d49211ea9d521d62f847c5fbe59cc602d5cfe8301756987a3eba678da573842, 0x2f233ab49f4aeca66a82f718a7c9e180fae0ec36be716703fe18d35591b85139, 0x1253fc6593dd12c9b20341b6838ebfad465794fd180752ddc5615eb4915e218f, 0x72f3bc65e1c6506c926c4d37f9fe2b03ba53e1d6b588e3843f017310002b5efa, 0x6aa9e5baf31a542589cecd2833e71f51ac6d3c494d22658e82557026dff03944, 0x47f666a1b51f71595de019a7089f42bee97a33807984d0959a2b55f2f3dd47f3, 0x38bcf2a4a8e400bfe682de28cf07f5d95263672e728418b78c2783e099079037, 0x733a85de7bb5e2cf28ac3f22a56d0ee8609340b7140a5b4cbc6c166e6d23119b, 0x693fdabe9d2a03318e5048da5fb7a822938ed19ce6cad8f6e210396841d9a5e3, 0x1126d070c4f0f7d59b2804a2594a99db42aa1b4b41cdd451d34ea3d4cd1cc02a, 0x6773211c7308036e172554925cd743e6717d52a4b313e841f57861b2c9f6acf0, 0x2e5626dd282957de5a97cdebc51510c3e8b826f986737764277b1ac944b93e1b, 0xc070fdd068501784d9d15eafc997e462ac86834089c06e5f6b67d90b6150c93, 0x3b53b04f8b72bc123dda23e8c0b4831555380f9d004f1707438deac8075ebe78, 0x4e8b8d020eabe77d8716b478568acc0dad7cf5022b1fb44d672716340242c2b8, 0x5be3f4f217f67dc137f1d60c5712a4fd4fd591ce6b63cfe327e65e8d2261b48b, 0x5f3577424b0f914933bce6dbb92d180689bf153a5982beccab6c04fa89cc08eb, 0x6e5b52008f14aaf6181766176bd67467b847e85c3fb267f6cec5aaca5950b243, 0x2ed3af32e85952efe4a20d2db428a6050fcdb6d33393844436fed17c7fb3be1d, 0x712f7a6f807d4ca5d97341602d27e2c198aa7c633994d6a4596134ccf9b9371, 0x67fb02d421fb9f41f03413c66badea0b78c5a7e657fb1b8da722c016dcd2b120],
    [0x6a44840c3b7b082cd99fb0b208d45b5a376dd6581553d4546aaaaaa9c0000001, 0x16ce220f189582c453cdc3b1b412edadefeee8264582b46c059a2dc59529ab91, 0x54259a8e6828d5402b748fbaaba7f3bad18509351cb966b3575363ef6ee12ff1, 0x6ce051c472965cb5531efccf9a85cc85657255cb2e0d2f8e86eb88dab07e6dbd, 0x734244ff83d65dcbcd89b2c54e8003c5834ef9ef65591d1373ce50cfdf16af0d, 0x3af009230436b87b1ae9d88bdf4edc388f37cb6fd4d724e126ed8e882a2a0f5b, 0xa6e65738e714d2208fca87224eb4ad57abdd3f76cfe46bff23fdc4bffdb497f, 0x2f518168d2dea51aeb27f72fc53333fbef7522e28dd864d51d1798e9852cb3b1, 0x4c0492334f66fc5f25adfceb4c16d5637ec3c49ba0e6bc7e1f69a5cb8f93f612, 0x6eb61551e57b3b9249be282ddf1f7d20e6266f48cf8ce2186bec4429f2b21852, 0x221327cc039abececf669b73884cb9c40654b4952c1dbcf91be5cded64f6552d, 0x5cecc9dbfe326c10df7a4f41d895cf2f988a3d8cc90edd73a35be149c11e5d2e, 0x5d9bb34a6902e47c89e317914eca0de76cd526dc23ac586444648faa4ad0433c, 0x1f56826e7b2af9f2560bc4f50707f3bf5e9dfa60bbb90f0469457ab8ca068b8c, 0x667b141c863ccf34adf737af60b6a642c2929b2d27bdf2aeafdd5d3fe5bee43a, 0x57c1fee5bef6ae68c1694d34ed42db02b8b90c2602dc8ba395e8dcddf52972a5, 0x1e6cf5072397ddf90e3ee5fa5f5733b729542a3ad9cae31b4fb7f5734bf655bb, 0x54f270e93b576d0165fdd866bc31998e9788b52c6dbbef6066ae4afdfb8f299f, 0x12845eb68efdab2d95306ff2b2c96e7d2dd98f6c3bb6ea798db3267e5e36ec5d, 0x3450bcc53f6cfbc698d00e711e2fdccd48314a34b4ba4f2330cd581cfbaf2d97, 0x4a68f0e3e2301b51bfc7105648f296f729b672f323e499ebf866ceaff4d94547, 0x6f679552b22aa3b20512663409814b8a1d4b2ab40adb6da6cf6a5b8975d48ca6, 0x1edd9278cba3b3e258442d39595800b7fe01c0100ef363b05e4cffe9c69596e1],
    [0x6a44840c3b7b082cd99fb0b208d45b5a376dd6581553d4546aaaaaa9c0000001, 0x51d249de5133036c2cbb71a6143cadbec739f77bc1cd7685d688d0fb5cc6e0ff, 0x6aaeaa0222cd5871488267fe3d60522b87f480e3aeb940777d3390738b91ceee, 0x4cf201a07f2b29d1af0b6e8f4d7098979e0f8136493f3227eac85b5ab097bbd6, 0x8f070dcbf7bce9583cd0e98985e04026bb53f635e6a244ca2277d48ee7e4da7, 0x2e958575936ad61c704246ae7323331e887f20df361cec3153723978e1c33b9c, 0x6cb39d75f0c1610b1feb2ae02fecf912a4b73b9b026687acbf19a077507f27b6, 0x3384de8c1d84abfda3b855eafdfc1dd2ac31c2ff6f7d7292e771695450d33810, 0x5220693b0af1028cf481163c37aeb5a77bec647e42584e04c5dba22ea8f0d636, 0x68817554e91b8ddef125d6372010734181a4e4b0b57e2305337b228eed6fed0d, 0x54960851c0b7dbee3dd9b8adb52e64c6b86f3aa400cbe23ae46852413d83f34c, 0x324cfca580a1cd50f5a904e9f1160dd2e7a072a00fb03798cd060b95c7f6e81e, 0x2131079da1f7fa94f5013602fae2779617374a4144d5ea1f6a15874ef167731b, 0x3aba774dafacce43217a7eddf494a84b15818a0b556e2045d8e44cdce36f246e, 0xf190674ca676d6960936ac65f16a7100c7a0b38ae3c482b9566071a613d8f75, 0x2478d5e0b6f4f7bdcfeb8b5579a87fd15150b88445eb7ab555d962981ab7bf1b, 0xc24b0ed69bc3e3ace5f0c6f424c8d7e733210ded58941ba6f4653a016c70f35, 0x4520fcb624d14544955e6b54df2240bb42ee2226d900567206c9e4dfe649ca09, 0x50c344d6d08eba822f004292c62a1e28e4fe76ae6e3c79e0cfcc70274f17e39f, 0x3cd9340e4e81292d306967d861fcdf78d7712a12e7a56b55c08879582e4fb2a2, 0x3cd11fe89f9161cd767fb53d43361995ad8e6632180402ed7a91129ce292bedf, 0x2d2a49fb6101af9f2eac0455a0c7e8989710c17a9711f8cd23f7006e3836b480, 0x4b06d15419bc95c369ac101ae5244da39b3d89840fb48fdb4309cc6d6c1bff7],
    [0x6a44840c3b7b082cd99fb0b208d45b5a376dd6581553d4546aaaaaa9c0000001, 0x61f2be683f66c9568ed0ecfa454e03229dc5a64420c25b4d43e5159fa6a3b765, 0x157279eeea3a8b90f4c7e34ea6993fb04978e37f9d43c07d602706a3d11d308e, 0x5e3a29dcc77882d6b795e2df3b8a053a9590d09f22d0ed79d117b5d92e2ba629, 0x6c9cb82d71cb08dcd134d3041567ac27fff5233a4d1a7727f7b97e2a8ae07f50, 0x575ea426d215c929c0950ba9d8247a81f25b102ed8594ee50380a74c41cc9240, 0x418e802acfd0ee73de5e7b35eb2c1e1904af3495607f7efba7583daaf6810dda, 0x2dc1f011a7423f58117379a207558ffc024caf790d4320c126f37a89b51a4405, 0xdd8d40138a777492dc2d98beb2be9709c0bf439bdf2d234c30c88bea5245834, 0x58f814cca8759b95889c28c8b56e4f124f1ed4210ecd69f93a090e01fb34d596, 0x6e543b1f8db4152d8e8a957b239c718ffa4acdd92444454f8f9966d3b6c59cd, 0x12a330b445fdd12eed62ac39142e3c98b1ed315edf9f107f6812eef8a8cb30fa, 0x6a634108f249f6070079011b15784ae0672058c2f9e4eb26ed69122b67eb3c03, 0x45890ea2d6d9220ed100da5a262fcfca14356076bfc9502e3178ee10d6cbe0d9, 0x645f8c41b75ff7e7f052ac5492dff440f96f053bc1d5a992ac55ec6b6d477d48, 0x662c43348555ef167798f91fdc942759ae71e86870dd78601126ef534e23c619, 0x33c95b4b06536a731d7a6683835e562394bfbc3c456bee80f26e7db542e35e45, 0x3855866b294084cc92cfc4eceaee0e01a5d7d5218bb6d35bfdf85898141f9f7d, 0x43fbbbe146f667ddbae078b9d28dd39b027dc1d6d6a3a09d9567e27c7eefa0e3, 0x27015a9040cd97d9a7a447d673da03357ebf49544cf384b426fb7e6719bb88b, 0x25ee3cdafea24801fb3844a60284b864c7b9cf083e7568143e152183d55a0d08, 0x65196e57dbb30fee7d68283f87876344c5edca91cf802ba151a4f0d7a4fe2f37, 0xa3a613be4da84561872d0aaf12e978af872b504507d26cf8544cf2f3b44266f],
    [0x6a44840c3b7b082cd99fb0b208d45b5a376dd6581553d4546aaaaaa9c0000001, 0x14e95955d70219e89f1bc14b12cd5a3ad3ba7c611033ae2e8b28fe8fef57b6e0, 0x3b0a9085b466d2f5d5f8a1fee527fe71f195f0c8d3301ad0d621b01e758582cc, 0x5665d11b178a09e60380af4162cbbc31b32ea0c32f8fcd551dc43bb59e194e4c, 0x26fd1900ecc8e8d3349601a7347accc3ad5ff9aad295bbfb2b9450b58db2a9de, 0x3717f25381c37c9cf04bfc5f7c0302650407c005ed4406b50f048cd030b32911, 0x616523d34cc77e0da9fd3b8c35041f7fc6a3489a7981a2259b291b9ca9905da9, 0x128a015973953bb0cb178588318c752864cfa0188790e1be557c3423ae7c705a, 0x5282bf6ba9144a96bd0ab7e955ecb6bec92a5e2b698c6474cc29bea7b068195d, 0x2b973607b3c0ee6bde84893963770b8a09d71495a1952cf015f12d9d84b48dfd, 0x2e19a37f299cf51207aaee432b877ed49322bdab7f60713588999ce09afd60d2, 0x5ee04d6dcfd2404f903af323c6a45c69d59522a9b821fdaf210a2d7a38ca56b2, 0x54270cae6f7dbb333eb1332874b4f2c854604679c58ad3b775465ccd1ff66231, 0x11e3d0e7a54cd631a41f4ea34b53526866058b6f2b8e4ac0c3ea3b5f70755df6, 0x641525be77a338f1ad4fc3820a731ab1b800fd00c81d7ac3dcf9cd9dc58a2369, 0x12a1b093ca2d3f504130258845450a18e86908c1109cb052f5525dcf33830fd6, 0x227623a665e2f82abd144920348fbf110bfeef94b82737803d7bc6b96589c776, 0x4067f3ff53948bc10a053886984de053bd976314a2237c6866dbd15f700ab61, 0x585d280b5e88606cff9669d6c0fcca2e27273fb01ab9586a6202ff04bc0cced7, 0x1977da44dee3f3f6eda6ccd3aba752c30b9fe5d58afde52d06306d4fcd460425, 0x7118cb152f977bac76c71a62e8dfab11d3bfa566e1f005bd6a88900ad3fb6e94, 0x5275a2a12ce54a9887aaf91650e4f0342aae1c49f39623284af38f245c8c2cfb, 0x56d2bbe8fbbdabc918d803f2e5967f06df6948c902d3b149641766a6e49b5b35],
    [0x6a44840c3b7b082cd99fb0b208d45b5a376dd6581553d4546aaaaaa9c0000001, 0x36b99fd9fc74996d3e84283699fe4fc68d91284ded027283f99d5db233c2abd2, 0x50a0d825c898210cffd9a2773aea63e1c038413eded4e48a75041eed3a515b38, 0x1b460053f1339ece6d444e98c95651f59934bfbfb2675681f9e854243f515992, 0x36a933ba94baf7ea9a2bb751c11c3348afb5919fd63dd6f989e46f1b534ff408, 0x685e8fc8f3d27668be59c3d6f96bb0920d94f2c4a6e488eefa1e4c92c07d4f88, 0x6ee86238bdd81160b43c58e923402372fa7c7882ec94b4c7e39c4e2239ddf7be, 0x6bbf1c1ea343c0f4bd5b225369c33a58c0f01a61859e3130cc8e99367acde22d, 0x1201c350f17042db6b84d7ff5d8581685db24986adae1869ce414cc4b3a58e3d, 0x379116f0ec5f93f2c270c67f3324b904b65abc6e86c018f12ef83e58b320bcf1, 0xaaef8386f8123d02725b53c7d48d2f3bef27936f3731111e1f971216c5365d, 0xeb5102c5adbe86501aa2ec2f88723cfb227749e04503faa75485d658b091cfa, 0x13887c74b82b5302f5924434345233c1b608ba7788ae42bc089c96be3894d7bd, 0x6e16f2efa6b6d5dce70b1bda0178c1409c36ca03a280e3557d6eb09be104b059, 0x6882c133ed6d9f3ef4eb45e233ea60725f2b601810589d8566427f36b9935e88, 0x38f0e77954c0481e4a276febebef2f9d6e2c4d128087dee9637d94730ee970f7, 0x2a481f786c005c1e2552dbc9f7c51732426ecb8ceb64e39efe1fd3b56193fcbe, 0x787d845b129ba9f0a761783a64183e96cbbc9a2f5e495f25b83a7e9d0c4197f, 0x563e62f0056fd888e77337394790bbc7d03f46b5b6fbbba11b021e8e94d70bb6, 0x193df6df3f3c48824d580fe67ee519bce6798d9fb1dcb3ea6d7953cbf28f26f2, 0x1c603f09e6417ff922876744166c7b7061a704930f034319bca88bae88edfba4, 0x5063d6b5281c1cb643c8d9f067dc702a613362a3d07e3434dafeddd9cea38930, 0x6d4785c907bb90e3a7589ac897bdad94498733e0ff51b13b1d2c8186a54047f5],
    [0x6a44840c3b7b082cd99fb0b208d45b5a376dd6581553d4546aaaaaa9c0000001, 0x5f4fed2992135eff030ae0ccd8ffbaa333d5c4a3334e1ffa8e2cc67f6eb6d613, 0x6ec701b5b5b0a9566243e1a1935bcd0f218430ae3b9d6a9490c9db7e28dcbe63, 0x4e3c57ff430b4d5a0d4a1214dc07ec1096eebb7a1bfda0e06049175ca518167, 0x2ef85fe90b67fd39b25134814241b2f42a332407b764f95627098d75aa3dba50, 0x3b17ba2d34843a98342a53666a0848f12f0f125d0004e6ac5d120ee41e679d02, 0x314c434fea28cc3fba0bae7fee28e8364c4640e308a3b3c3cba21e5f2f42eeb, 0x6953a88b577495b758057bf89187c3a430a13fb1a1ba5a80bbdd0943f7500863, 0x73c2b7a7e8ff7377162e6c864f8c06d560f3aa2c71f0c94720d3a829cc21e203, 0x5be1f4ce5308709362ddc0904839fbb2d622b778c0ed80c22b6849ebb2c3a090, 0x65edc2abdb93b9461d7a5a7cbadd3c2d14fe9c8b6084bb0984b51cd60820bae1, 0x44cd0f0b081c374f3cffd8741b5fa6dbd54aef2fbab82e21ed02cd568072c6b6, 0x4cb0bc029380fa5f33bcf1412e0fa7dfdcc930c595f35bddf828b0c5d552c383, 0x7307fe1f02036ba554e015e937197c893a7194242ca7d78a0b5de7303be3454c, 0x13298ecf2f074778f25c60e3105c442a0fcf18573065b15cea2ce46530bfe2e4, 0x206f0e8114bcf0ce0e5b0939d5d0a02af6bf1c89060707c3b84ba28c8a7c6da2, 0x4a8bb0b182ebb04ac94055ba927c7fbf7adc33fbe0e5d304228feb8b2b89fa93, 0x2065cb226af1174a43596e567397277ffeb96e67b291fdb16693d550a27f7344, 0x38625c0934f0256eb11b218d0647ab8d7017053dcf75e04382178363ed43fd0e, 0x4043ddaba378de307de21a7f97f3e9915347017342832dd3a901a65e2e465871, 0x1ff7583731ae1e7e0e73323dd23beca5d3482a134effe8891b1614908b519a46, 0x9359598fec2d71d32856e3b1027449a80bf1166279c09a209bfdaf76a552032, 0x57138ac1bda991d08935c401b9b7011123d17ec99aa16411d1945a2c8236c66e],
    [0x6a44840c3b7b082cd99fb0b208d45b5a376dd6581553d4546aaaaaa9c0000001, 0xe37b026eac49040d08bc8ccb1d8f2eae3bc34ebb3d9459d2292942a101bb9c1, 0x26e89213de5e5add1f5e3b0091433d03eecebd203fe15fd5db83da09666a5eeb, 0x2d82c17404df0e4af8a88a997a1877ee136999ff9d7f97c8c540e30675674c8f, 0x1e27642dd8030f09ebd3eb83f8d4c9adf5df1d0353f3b6013adf23957fefce90, 0x10db98cc483ff1ceecd61f0c159e6948c9a790768df1883d231882582ba78a0, 0x3cf4f495df7f9d49ee4a41b9e483f27148fd493dc6f236fdff4523008777b192, 0x64e91242fdf73fd56a293ad7c67c66799168fd4357c5523917bfb53d0931881, 0x5220d8f8da7077df7b9ed1a71b10d731a18e819f98c724b87c56ded58d0b675a, 0x68fba07f53e4758f65fbb8f947bdaef9c4956e93d220f05849d0b03ff9d64d4a, 0x63d8ba09e0be3871122ef7e9a47682d1c25a7ef0f6a918fae51a9bd5188680ec, 0x31b75f5529de1c9f7efe7b93319e355681fc79e1e3c87b1920ef38d241474f72, 0x36eca293f8f2835a817c83e3d489c87d72ec526f0600c2605968533a1b0f99ba, 0x38d3debc9e602b334d440e8f13ff2181d40c634d5ba2a04b60c6c4b51dc3a84e, 0x4d8594f7c758f9a3c2f19ebe84ae35bb7276219732af07b0b9a3305bf1a13070, 0xe40db2d8be86f7836eb788003985bcb3d6e662a3943c245abe414cb44b3781, 0x39e454c3912f28781efea057ac31031a92781d7410432f7ced858711f187aa6f, 0x19ff0df4957b8a009bcc0b411940d02581ac505c11685fb1b0982dfde166a659, 0x96ae1c80c69b008248672a23965fe2a515baae7f4a6fef01862dc1a77dc14b0, 0x269069cd4c6bcd44d4704a25e84da9ae15114d59f8903c8cb17c3f06dcd4726d, 0x10d64b75b64861400e21d343e438155989830955313dca7d116a06705e124348, 0x49cc6ae1405c062f73502bb5182354906340c7ca583c7246a314b77bef83028e, 0x69b4a1e4cbafaed1f1583b0d007523e24d5fa280dd4129e4a81d93ae669aeb3b],
    [0x6a44840c3b7b082cd99fb0b208d45b5a376dd6581553d4546aaaaaa9c0000001, 0x648d664c1c8f2c54e2a9fd369474f00d762b84f0ae20fda0c698a241d0ba2bdf, 0x3073ed5107bad6166bdce1ba3ce9a31f8f5e0f059cebc9c71461250f30bd539b, 0x330a86c4c8462b283ac577b9145cd958dafc213868182b18b182c1ed6e0dcb8a, 0x171d7735ad80e9bda8187ce246ff418f52e510f0fc596316c9bd8dddfd17bbd0, 0x29e0acd863e20f757d2f915ff82b71fba8b3dba8edce427ad220a1a4194eaf8a, 0x2cbaef39d2bfe37d994439c6839be5342c968f1fe314a262fbdfb26341380021, 0x2e6021d5cbbfe19a7434cd9c4650605be92d92b0714e241ca6d5fad8462f5c67, 0xff436f8b35895487938612f02fe7d0d26857182da5309181ca5c778e548c48e, 0x1a6c4831593b9c06e1e1a7cf4de40645fcf9c663d071eeff0b85016e311c1f23, 0x37b425a12e32c5cd6b40b1ce038c63282e4d365544c765103f5c90655ea53dc4, 0x62cf87efa9b4e5d37c589695314312b5a7faadc8ef039c0cfb963f68de786481, 0x710adbfac1d780bd215d3f5af889b15d6b2e551e14dc43ad238ea797a1f317e, 0x151ec64d963313ee5542a754b311229fc5f93df5bda5851598324fdc3ac1b67, 0xbbb51f8a04596fe81512bf07b2f79a64472a70f0f61f2b394494e5afa817c28, 0x3d7b4be7a0d8658e896d288e07e61791b140389312534826b455d23b5303f4fd, 0x2da6c1adebacbaaa823e769e82df9153b4da3fd21be913ad8dc18e5121ce2014, 0x47cc7bd5c1f31bce0f59d406998eea282b34aaa5d2696734ab21b9cda43c0888, 0x57e0721fbb98d68799a420f0d9717faffdf59a861542ca919b9b2c14f82a096f, 0x4f6af86231758fa9ea1ee98e2e069a3936d1972e936e582aed3b7f28ec9a8996, 0x63adf6ffd993c380a7e9484212542c4ba0c91346b31fd3842f55090b9b6c451a, 0xaf64e70f10fed6bfad3e6f79b89f017da4ff1791b1f6a66989933d1ad002fa1, 0x5cfd5d9741713f67013636384b69a6fc10c3311a822f3c1dd60de2d2cf5d5e4d],
    [0x6a44840c3b7b082cd99fb0b208d45b5a376dd6581553d4546aaaaaa9c0000001, 0x669b4b9e34da9e0da8e1e1920888a716db96c09909d635b5eae57312dae7b182, 0x196a50af4e573cc61d5b10ba190c361fab11648985e594363c63541fd3c2e408, 0x2940704f20bdece4b7414282719449557a8b6d8620fbd7014082a3f141fdfe41, 0x38088be78c1bdc905429ea643233efa205e40ff727aa2ed63b319f53e962cf8d, 0x713e9f7a03308402ec1867230d4fc6adf181a28851a2256b2972e1c0df835db, 0x647ab25bc89b1675cb3086b516eb16c13278c368a5a1c27c9702b569dcdf0d0e, 0x35b8cd24cb51f8b30b0c5d79c7b666f07d2b6217fd11dc9a6f435a9360182663, 0x5be8bec8f8bc622e38d4574b2cd4a95d559a7ee82b945891a20b4424f3008d90, 0x4c64275dd3eee83cc86e26d9dc90079d0c9fd293fde4a3e3753b1fa4266411a9, 0x348cb5edb4396e5c86caae6fcd6e304fb7f422c0b10cee726ebec5ef8c7dd54a, 0x686609841a966ea88fe782448ecaafb7c19a1a76c2e719c1781f2e7a3b8a02b6, 0x232ab2e800057aaaa2aab3b32b9ad5b189f710d6f113b3111eb4d75d0412f149, 0x5ca0fbb3c1dfa1de090e126ce19f2bbaea29a45cd0c168db2861add3ff5c13d3, 0x583ff714481dac38a3d2e13e6ede3d3bca4019f90c5a7dfbd00f3914b70b7a41, 0x10e2b236721e34fd317ecc776b0ef45e911eca7c33f291d47186cd50107521bd, 0xd8ec29753fa0e8148e1226ef5a3229d8ccc2c9e92af489001094f7e800b3ae6, 0x59bc02f78f2fe5851798df08c3768e19a6a6fcc5da727c00c194ca19a3e33151, 0x7176bcde42be019f765de91737f5740aeb712b5e07832fe492e24f64d7b59512, 0x6efbfbd42778e285e7914bb6cc604b30e0bf15b37ff7bcd362eeb61bd17f07ab, 0x179d5df6e96c460cc12be8f48716a7be5f00e5736f0e7d302a25dbc224007334, 0x3c195af42230311922eca69c15ad40965a23fd32b51d18be83627e5e75195de8, 0x3993478e39a3ed16f2732364175f45e4e8edca4b6057ce2aa5ccae00e3f0beda],
    [0x6a44840c3b7b082cd99fb0b208d45b5a376dd6581553d4546aaaaaa9c0000001, 0x41a130892d539a9b66591cfcec9f5b1f62562ea30887dd20360c1bc59e5375d9, 0x40e687652da5825a1ccd8a13dd4b192f0686b84c61cc64e89c916bb3fd956473, 0x6a2b1c7dbd90b2d5c29bbd944d42a2bf42504016b1a769524677787fbdb66368, 0x1d7cce0d58aa6c93f15240a21181351a071961d067fe2dd67c8d15735fed35da, 0x6342be42207b0ab4b715a0a6ba71e89e9b7b4ab16b61b360872d6daa02dca57b, 0x19c8039ddaf515a6bac5e8790c822c8cd4338118493973383289b8ac40a17227, 0x3f0b6454365f8ff378c6427dd300e056ea6583990b09464f303d703f59ffaaff, 0x68a39129a4dde1a2406c5d10ea1231a33222318a1b743b4019e3446d54a9aead, 0x24d1ab4ed3010fc57320f6165b02821f7623b8fda36bffccd3f3bfbd3468d9cc, 0xfc0c436e531a0729bb790608ef56ce380d871ad72a598844bb8e8ed23725073, 0x5858c8c434f3f7a7c25654988d28fd49bb26d4829326d1aa6da557a0e6a3848, 0x646c42fe0cef8af7380828a490e28579c752e32962e8a4f1f15ff46bceb28901, 0x6a483e66d31bc6b03baab206ee8523b83f0e3a0a5184ed142bb2e28fa6ff4876, 0x5c9f17f23598abcf2942bdfbfb6ea430b6102c6582fbcf1bcb2ddb00d8a8f996, 0x352c6b5c13fbbd7c380d31f18b7c5be604a2a423bed9b0b609f354c5428006aa, 0x501846a27c2da1631a69c6c3c4aea34f4ce6c88785392763e694349d0664de84, 0x653ce4c7766200dfd8c5d7fc56e7e43d3710a52dae2581f08653c79661450fbe, 0xf9465cce5ac7c496acaa895060ff24ab0515332c2884fe38c6e1aec7294b20, 0x3d629a1818877030a2e803961b23d333530ab2f8416eabda2231a14ec379e658, 0x56db6d7a464f0e825f8fdd239765895228e5b0347dcda253c7288e89973bb3d2, 0x17ca5246495ae0e6af3982457d841e08e92b409a5184513440e6af0b94c353a9, 0x3e141c237183160d5a8b03134f312280f3f0cf7b5ed6521a5ff3b51d6acf154a],
    [0x6a44840c3b7b082cd99fb0b208d45b5a376dd6581553d4546aaaaaa9c0000001, 0x14cc8bd0b613592090355bca6016801c3c536e001152d387a25e1ef40c50c7a3, 0xeded777e0f0a9cec84944b22349c17bf470da7a14c2f24ca058372bd2ede8a4, 0x61faad6fe0d583ca405fba56d435f8410f329dce4733376f12622b4f8c39864b, 0x35ae9ec677727c895ec4a19a66c86d05d5fd9289d986214505109c60d2aab1ce, 0x68ea4a40fc6258a845e759f7632558a220d56a33f535cbd2beb0230548dc026d, 0x4ae4d6956eb23ed2664a9cf5338b9e2fee8125f24b6b660a544f5178f94cb5c0, 0x267c02498bd715ab53ab8812b297588e5eea351e8e13e1428760574c8fa0d350, 0x4da77a3b6e4c343703dbc24709d329b5f09e2bb1f7f6b0fb25c742a321a5ad53, 0x2a3ee7947c1ce0636b17c50ae3a77c244ffe4875940a8dd294c16525e20a5246, 0x36b336ed25c793051a9ebe5b20c4943dd70ba1f0208e7cd993cc2165d91ddf29, 0x2cc597a9d2791b667501384051d46b55db35bfd24aa8263cdf892f5f69ee627d, 0x326230a9311b37fccc36b48421b09c3516de6830201fc2c70c6716460d7c3e2a, 0x235f7213e3f693357500441f6ae0452ba1cc9c24d15ffc4ad07dfcc48b8db9dd, 0x1aabcd70a4af3dbfca52091a30850c431aacc75b7403dfc11ceac679000ee1f6, 0x2b005558a3eb6345d2df5294c0fc509c8b002d6545c1a68f51f947ed186db4e1, 0x121d66ed107dfa57cc27f8254d7dcfb77596d76a76bb63cc6ac49b611339fd3f, 0x67aa77a76824ff2811f43147e6f2682f441475547b07916b838df9b07c3cb9f1, 0x67f447b5662580f0abdab75cb2dd82a5099a645d5a9ffa8adeaac856c83e3bcb, 0x4799a992a122132f39e7f8dd4ff90add4a393664778cdc466be4f68a91383d9c, 0x3c2b3c5389797085d52844d3d4c9414f7ac2c7bd61659537a97d43d7858bb104, 0x370dbf337cefd7711d6878f26abfac2bd834dfbf0d889e3e0d96f9627f83c7a, 0x73cbd97f2982a56443e69eedb9bed2665865b5e57b5be1b2462b25640d060af3],
    [0x6a44840c3b7b082cd99fb0b208d45b5a376dd6581553d4546aaaaaa9c0000001, 0x2d2a9cab554eb9deedf091311c0d6beb3ab5731230615322c0ef8fb4f6f0cb2a, 0x6dd942a89cb6bc94dcb0a7117e184901efda2261264bd2b21328e8177d4a9794, 0x13c398cf22217f04c6d0f0c099ebc6e2e6819f648ec2f9956188e1d38624520f, 0x107e3f2267dc13c9fe8e37dd905754ff8975ae2b76195546d98eb7349a6eac89, 0x1aabc40d9c0aabab48faa69d4552f4fdbe81e6d8131b1ff2fb7ac437bc697345, 0x4c75ef5696608988ba59dbc4fc05fd5aa1e64faa1d016e27df22344a5916b163, 0x26a30677c3460d04bd8a9c86b89ad307912762db6f405eb63cb7e87439eab5f5, 0x24f18520d90cc94ecf305ebe50dd70efc7791d375aad4dd01715950ad99f76fb, 0x279b8877887888f19c1f091bbbc8f59b82365af8d302c3f2dc442f3b157b22d6, 0x59d57d43a0113808f7e00d4e68d828688d668bf8696bc5fefc3cc0c61a707abd, 0xe639a09d9654a5d76163369f44cc0d7b0adc98586216960fb830193c493f28a, 0x1511aa4223a32dbaff371e1e126e6cca926ba7853242001d3de4cbe54296325a, 0x63c90e91b943c54f6155774924d1dce25247e819851175f74bd7167a30a330bf, 0x16c4a6b46ca168954b9730bdd7b02735bc0723fb02daa0945888cab5b95db2d0, 0x37f0c7041b8ab23405cf665fa77a886af047164ce526d27e51a089c9395833f5, 0x17263ad451614b4488f7e30dff477e1301c393e7e34a3d628d628489d443621, 0x4742f02ff70f9b67281542e936d67ab8ab12adefed21212602adb63297d79b0, 0x2a16ad4fe7f08adc446492d7fffce72aa4e3e2085e1273791c9f4cd92fbad132, 0x16a4edcd2d07ec063704fcce8699376ae31d2bc7a7ef75da46cfaf37be69aff, 0x4700be6896b2a2ab50fa32092255bb6af55d0a19dc05cd2ce047c96f53c37cc7, 0x5b8e1082d0b30e58610718b2108963773e5c93a2ae8356abb1ba700baf6d90a4, 0x4bd328554ec3100c21aeb5fd0c51385344f4ad7ef47eca2d92925d549fa5e209],
    [0x6a44840c3b7b082cd99fb0b208d45b5a376dd6581553d4546aaaaaa9c0000001, 0x6c24e4fe6d0c48d25493ba551d34e58fa8c293ddf36c6c5c522d3c76114648ac, 0x730cc95258bc574a5833e5ea965728a5d85527f3b050524041a434ae34493c9b, 0x4edf73d62aa7e6619d351d0c155dc80b6e85ec01c9f9dee8e66e72ada50d105, 0x2231237ace2738bfe5ad844a1412acbe94e276f514772abb2540d513193e81c5, 0x3137ca84e4e05bce47c8fb60b14422e99324a1bf421b713482cb5e14ab2e9694, 0x5c8a49d5ab768661693dcd230382c187a8482ef495b4b8323ddfefd21c4a537b, 0x4a13883295dc98b75b90ecbecb396b57b76ed0fa94d69a4cc23a0d5ad35ca1d6, 0x58efcd23d9437eaf13bd02087bd399accaa58ea4ad2d8e20dfcd9fe86093b954, 0x12b44d8bb0c2f98a7b4209427b51a1fc747261b26265ecc4bfd8fff83c409334, 0x5484483054e9db48cffbda2f9be7111575ae1cf7d77d124bebe51ee44ce386ef, 0x6b76ef05091891225527e612c741f0fee19c2b369806b06f637e1775e5bfc1f4, 0x3cf452b7681607226e462a915a35ce4bf8081d8502db0f635e78285a6e699734, 0x1f28de6ff2e18ea8e76dfd22fe78f725b72db7f5d16bb591ee5466f94f603964, 0x58de19ce8f1a62db3ec1b7a387bcc2154d5aacaebebd779497db48fcf1bfb7c6, 0xe7603fdf9f0541ef6419396f33d9e31e5c43207fb236e12e2e5908eac24bebc, 0x32e296a3422aad80b23e4afeef9eb4241424048427c892ddbb842448fb258a26, 0x3d8752840ef685a7cbf9aaa809661052404d0f37db4471e628cee1ec9bafa81, 0x20a654c0d23a85d905616dba0c18359ebb5ab90de5d77b78c6fc6a0d97bbeef8, 0x24409f91cfec0189b9dc39dbedfe05faf1472cf7140bc4c1e3b828878c09bf9a, 0x68009e3559e88a2d000b88e8a28d7628bbfac70b08b18911840ef5e548f5d1e0, 0x663f166ebe62b71349b29ca258c5a51943ba70c7a6a5c5450a890e6e0bc8ff4c, 0x50f32d578016fe4f8390f6be8ff7c31302d44f535e985d37ca1ee39d08d91742],
    [0x6a44840c3b7b082cd99fb0b208d45b5a376dd6581553d4546aaaaaa9c0000001, 0x14dc5a0c4f5b2d7bfa17e67b5f29b82927f0c646bad4684f236291fced63d429, 0x2d22260dc4672e008dbe22c8296b69f828fec55be50d06fa36f9e0537dab5291, 0x3be41cee97b56b4fe27a23c5eb362a72bc786da3524dda458690312a296fe83e, 0x3d1c32b10275a3aa11d41b535637eddb796fadb49d031acf08d488fbe6a6da15, 0x35869247be7abbfe5a3e5cfc97f203bfbd5fbd3e32d9822c9bf50afb59f53350, 0x4acb94dcf978c84b4d21536dbb71dbee477203f41033c331e47af010f25d0fa4, 0x47e3ccc045d8da8598f00612c36f4ba7f73161f685c4baffc19e11ea09dfa29b, 0x4e0415e9d21468b4cfa4a28229606b59f3776986f17cd842500ca799d8decab3, 0x44211dde46f69f098cfcb1bfc87c7edeb73031405ed21c5bb1dfe9ab51df9f5e, 0x73baccdb16c1710b84d131fa54499a1a9a1b937f9f0e80784dc8427570b9c389, 0x365d9ab52473e6831269da14fd84c602426401ecb01bb6b00acbedbfd8309b3e, 0xc54010dfe2167f7732c907342ba670f5cd47d53066fa6f9d4f2c741047ae16d, 0xfc307a3e077681bf8ae9ae543d03f14c661cd1d0d3225b058897df077c90e1e, 0x4197626b26244bcc18d94013ee115bb59cc5dafee45e15fa9931e1f5a33be93, 0x4742f33fcdfa2287dd1f979eee1f04730342ea8d684b049ca57059b3d0a28210, 0x53ae6a420f1181c322de7128658094603e2d61b9a58f5b96b1c409423bcb3894, 0x3d3873d53e26199322062eede955c0da734b524951984aba705bd76973300502, 0x69d4761cec4a70a3bf03173f5298e23eabce8b510ddfb625d455ecebe41673f9, 0x5ec08e895af786128816580d1a0aabe740ff266e8e7d9e1da6cbc2f940148ad0, 0x2910a086ead40bfd8d5374f926223af118e0674d73eb886467384ebf4a881b2, 0x20f8ab053360509ba5653e17d0ab31bffa7f66e294acedda377f66f47386f23a, 0x69474b87b0d5b987aacaff3a0b28ce082c1556afcd5386bead3c62b8f15f360f],
    [0x6a44840c3b7b082cd99fb0b208d45b5a376dd6581553d4546aaaaaa9c0000001, 0x10a7d6ba1ed9ee9a1df1ad664fd200d608966fc29051a361936e6092d0eb451a, 0x2137375d42cbba6e86403ecbc5097c2c760ea4c640f715cd75febb9c151f84f2, 0x9c0ee7bcd90dacc82c89ad6af3d080350d628bde9c488b64c53983c779433f2, 0x119e89d8bead6d71c3dc44afcd02248c855ec689cb3059fa88b2b9ebaef51035, 0x64c2171ff201212b86deb7ddfc6a0b077d2beb412b7a74c11a3c650ef54b889f, 0x4967065163b1fd481b7a580c51c19de8beb4c04104f365309469c8e993e1f47f, 0x3aa8da28eec891bb925baa3e3d1a2bf4bd8e540cc6b37c71e7f469148831681a, 0x59bf905283f8c93d324c9e9007e0074f5c812583957a9654ad12bf271141308, 0x2913737059ebaa0fad2ff619d5026a91ce43359d74a1d2bd43742ced55b7467f, 0x52cb2644d5f122fa744da26db5eb48df1c4f823957c9a5245f6a9b62846d9b03, 0x36e1592344133daef9048c90e6a754c3258377e58e623acb4b1cdb5dd9f73727, 0x1fd6a7c4f92769cefac6c06ac4e24e2c5c0a347b9100f6c962689f1e87fd9b9e, 0x332d6a5e24fcb6dc2a2992e6c19c138d6ce2a6b7399bb9479c6b29e0700a0ab1, 0x32bab994b1a94d82828ee74f7c5e61f625b18dae82753bcd1d5768199ca1587b, 0x567c71c5382a676e463b386d8fd2559b74a2f8099234bdb0c659948c65198d4d, 0x5219393c12efc57a54c3bb4d28b4e491067b2b6b5e44f3cfc07f882a742ad9d3, 0x3d07199f56f653309567ce9efe404525b5e98b2f14f602849dc1a6de0694b91f, 0x5e1b4bfb537d302ef7d426a4e05810954664bb8599581d853a2c5a9849785702, 0x1ade6352dc37be918f619ab1bdb913a6f514ba81226c240f1d8de5f3dfb2d537, 0x2ce2b8130a2963bbad4304126c3e6ca4fc6fc0459b02854758073c8eb6713af, 0x13566be525084f434485230531b7dca7074564418f243df042456970f2c0e313, 0x196bccdf0cb5df13e39aaddf92c54f1fd900f1d6eb21fe6c07ac7b8f8639327d],
    [0x6a44840c3b7b082cd99fb0b208d45b5a376dd6581553d4546aaaaaa9c0000001, 0x42b259dfe9286065a8dbe1a966df6a02c1c2d8dbad78e2171c78b0a0d200ec20, 0x1501344f4195c47c77c079df549f4a56fe1b7cf10dd71e8361c90d3eed1a5105, 0x2880453984b0b8f4d80f2352b3995ce9fe7ddc45fd5c1a15b9213315f7d0bc29, 0x1c11586e475baba88a5a4e7cb87872436da19623da643660d727cea4b3cec684, 0x33a8d8d56bd2f2b81edc24e8d14f30970e0ffeb7e2d812fddfb6b197ec6c9226, 0x46aa9e70a7ea67c715c2037107903f76ab9cc7f7ee5ef77c829183ab9f59196b, 0x467862a33e56b505fcc0bfe4f33fecea7ba1485c06b75eae780471592a1d8a95, 0x1b592c51cfb9995e40dc3abc85d0167afe5cb1fa2e9a251b1cf2748f4ed2f195, 0x36a0b72ea7a1c286b842ba98d103a7c2fcd74b4291b1ddb0fa1f1a8f71755b75, 0x19579213af1960acedfd7a6db938680b432e27352cc0b978c664ab1f8b61bb87, 0x10533baa2036e6e79e0f2c28b25e65159cc1235342e44bb915d4f3093e3c883, 0x17652c2b5c05e6d6b860c4e8878c1a53609d69320d3e7e824c137690317dcc20, 0x4023015df900f244c4d0ffed8239520c31d08a75eb3016004a32bbaedb9af7a0, 0x33a77dc2f9116920fee5c789f202d0d94859f72fc425861d2e16560bdf7fec56, 0x232ec99956a78af59fe38e8e111566dbbe1614024b5d78967087d2eb56dcf1f1, 0x607a43090ee2d8e3162a5d015aedcd2d6032830026aebecfa9db07f5e58cef33, 0x43a4f405a0c256c3b2b4514c3bcf168d40cc1ab59adace4c73cd93402a1487cf, 0x6acfa128b7d615fa6329886e950788004ef7924e25e4d72b00c680449d5369e0, 0x52f338881bb0e06509f243da776cab553b95d37a88c3a9961fcb8a3568821795, 0x1240c4d5fe6df2868ed96b697a9929b8e0c09c36d26f3222e309283bc146e537, 0x22676479bf27be081189d6ba94a1ff8e7f6f86425b0d9daeaf8bdba08a496c21, 0x659af7bf187c85939868da9eb62ccd5270f05c3f02a7d8a7597eea8f5972ed79],
    [0x6a44840c3b7b082cd99fb0b208d45b5a376dd6581553d4546aaaaaa9c0000001, 0x1c6b0a223e8a9062ae95048ef82d09ebbc12e73bed17c85ecdf3093e1ed89453, 0x59e23981e0ffd581182860175ec31457578b0177664740249c44755959218e10, 0x5ece89c1fd443ea2fb95547b847ea33977aa3bfa4b7b03cf99ab6bfdcabdb37d, 0x2c039707774ab5de726caedb30dbe70861fbde4d62fd981426b27ded3fb11d7, 0x3a738495a830f19ab1f691d64a4afae64f0452f340077cebe691e6a9c011201a, 0x389af55eb63330c7d946a2855dc69b0b10aeb2dd0d1a7f17590647832df39154, 0x649adca675961214f56961a0daebe9899c61c421667a7cdd3b5ca079450fc1f5, 0x21107c6b9a7376eacbcc8435a34aae20389cb366a160f0128780883cabe6665a, 0x6dac07fd395536f27df130202a6b412f511f065de7ba86ba03446e29975edde5, 0x1e91643328f3f49e58b6a3908e8a2babdf58c343f786a09623086a2df5e1b5da, 0x45b40b6c75ac0d063fcd73bac4731de69bdfaafd15e69ddb9b142eb890189c36, 0x1f1dcee8a659eef65fd833163de394f108dc4e38a50089c93ae95448e377a587, 0x3167295366424485d4da7ff569c265831d1402a88c42b7effb86439908aef99c, 0x498c0dbc2e69ab5ba5bfb66ad19f416a0c7289919883ea1af7a91f930ec66bd8, 0x39a2d4d0029a0e7eacd7541433914a6006263eef2ace01c331d35970cf240ea0, 0x1f36c5a2d7c960a89fc3492af4174771e73054d0056d35931d4bcfa0a467304, 0xf4ab68ddf1edf16989a5a7a9ccbf94811f0f62de76e50ca3ea1281b639ea3e3, 0x3fe50846a0b901a19ec6bcc36bd604ae4dd3e3e73740f48db9d60ce984cb4071, 0x3840e7de1c278d1b2e1f13efead79cafe433bbdd33f3810e0ca4cc28e3b17590, 0x43647bbeb95d1be551ec621aa116897ace453e8f9cd9c6ac06a42760bcff326, 0x5451ee7491341dddeab2da477eb799cdb0ab8c4054ced6bbf7d99782476172d7, 0x55a31c4922f8a7a2635d64725b89f2b39bcf83decab1c46f9e484af33b68828c],
    [0x6a44840c3b7b082cd99fb0b208d45b5a376dd6581553d4546aaaaaa9c0000001, 0x43198651343dba9cf9acbd2e2f9cd02f037ecc56b92c13de9573e6e93e680e48, 0x544acc6dc31beef02df9b58e1b6536d0e2554f4a85dd2665250f4512f66c91e6, 0x73227e62a67d4200a12b08cde11f6cfacc1c6f5c13af156c76e2aed048fc7eae, 0x9ea99de914c79b4bd32a20e4c40fefec595a178f965da238f48f7317b94c2df, 0x5324ad1c165deb1c0d92d96983c2ea1302920880ef517df16796ef1a460a8c32, 0x4b2e364ed99d8b84bf29da0bec559621171e5a33cbd8cd0d3aa3789755c6c2e6, 0x3edf8c90b264487149da6ec0ac17f98c250e45235c4cbdfc7c852dc67cf717ac, 0x15e9359112635fe48cb6c2e6447643d6b9313e8cda0e78a97c13bd08eed89050, 0x632d6bdd476f3bf7d0d0fc3b29c596c7feabf664912e8aea2396dcd14969df9c, 0x689d09297686793804f42d02db49b2a13440ffb433cae09f285bea2b8a33d881, 0x399f9a2650b50c4a69cb4d3e363eb8b70ace286ca68cedbd36d51655c52a402a, 0x2562ef5d4abd7a2c5860721ddb68d969b49fde29cdde1bf706b33d40e4f71d6, 0x2d62b1e6ccd7114b8a69491e2b5f16c3c708740ab44519f8a89da8735671a64f, 0x70404cf590128852b3746921fcd223c49ada637994c584025aee949eda52973a, 0x559ed318bd80f9390bc6953afe49b3d21b87f54b736eb73dbd67a53d761abe43, 0x183bc6f43248b3a418f160763eecb153e2498d1dfc9e403a9ef73d55e75f82d1, 0xc0dca74677425ec92fb38f9a622e4dec5e42b5e4d14e67555145a5eed20b967, 0xac68db4478418f668c10eec1b1423050d2518561cb15d3aec7b6eb4e18f12c9, 0x68957a6e58d83007e95a904ffb5fad4d8d7f2b78e546b422906f9fb1e3721026, 0x2ef347b6fa6d56f26d47a861a26deac084387a3ff811615831910a4b1a043ec3, 0x4929207703df09559e9783be7444b61d0f6d23b8f64cf9cc5991a823607ddf34, 0x170dd6d91ca9aab748de9c2a19530340fa3a6cec843ed1379ef983289c396860],
    [0x6a44840c3b7b082cd99fb0b208d45b5a376dd6581553d4546aaaaaa9c0000001, 0xf49aeedab6dc20ce8923748d58bba1ec18a7ea8872c47d635319bfb21f971be, 0x6b3622a3c25de81f450715536d5b2289f15788fd8a901c20cc73d24f779b07ca, 0x4353f6a8a2faa008153fad0219ca924b5ca81959b0d791bc8b83a7d595ed1c55, 0x7c2a972f0d0f3c327910a0c4c577ecabd77b6f35c373f270a30ef988a7a384b, 0x49d049def8f61f3df4c06c24795514339f1552a260e0917dc4164c2c0777161e, 0x3acdf5d9e4f20e567b49b9ee08a213f3d171b820e8fd5ea723df7437c60f6e93, 0x69c55370f40b349caf3518b19d502718122193ff6dab21a9141e95396399e06b, 0x5c82f4e32cde5dce3d7534362b8bf18b069e1ba97c51d0fbf673dab261010e2b, 0x46e09cb12a0bf4fefb392adc3fe5d91ffea14c255fc1def18766a0b9764b382c, 0x32a43ad69a5086885abeef0e4e0b95c6478e54276a2ecfb5a0900c5ab26affd1, 0xd49f2fb03ee7dc220e744ba23fd1eb38bbea80b6881f2b24f155a8a357aa0a7, 0x176d4051850d4c1e4b1783b487aa1f8c68a65f78dbebbc7bb2de8ece45decd39, 0x4559ea1eefee07f77f1e4761152d54c72ae50022a75cab954babb6c5132b0611, 0x604f343abedea90ef97dbacdd564ca6ae0f544717a28f5988c8fdafc101c2ff0, 0x66f16313c52cc46344ca9e6164870c5b1cb3ad94b6a9a338fff23649ad347001, 0x7137c6e6844e406f27b69f2982cfaf21c92f28e2504e708e8f88834e7a61d00e, 0x113b3750433a0587dc662ac5b03bdb44251ce3058a9ae979afe534ee7530f730, 0x6d377709ee0041402bfc7fbbc2b55eb576a7ac63eb0016198fd223c03525bdb6, 0x157a9e2def78cbf1c1acd7cd04620453065a4e37661d53b0655edca41098dd76, 0x19e5f3f292f8b94f0bd241e4720bbb62758f59e2cd7b0245b77f10fbf0b0f33, 0x1529ec95be14b88ce269b5c39d1a0ae25915e8b971368bbb29715292fa1a77c, 0xa0d98211bfcc3224de5b88a049f56d63af5be8a933999c337269d37f160d4b],
    [0x6a44840c3b7b082cd99fb0b208d45b5a376dd6581553d4546aaaaaa9c0000001, 0x6650b0b692643c87a9b85e4f8c3c3fe7d10ad24bf378de90a00c6c7d5cd4a89d, 0x1d6ac118cc9c7c0b66c6c06df6d1e09fda9c913579ae1d6d0811587f833578dd, 0x1f59bd5001ac7da4bf74d2b38c9cb2a0ff2dff15f18a781dcbfbcd8cfd66d1, 0x40bfb9a392eb2ca8c367f47562185b1f02abd762a1da2bb5b26e0369bf108aaa, 0xb4edafcb9b869ceb437afb9f2bd189442caeaea4653976555cab6ceab856ef3, 0x11b3e48312c5643fbd76cbac5710a6d0cd35f70aa91d1c6427024f973955fbee, 0x215b9398e83a26a80c3f899d47950b974e7d536f2c9c3d62793dbd04e443e24f, 0x52cee8cc564715738e2531fd0a9da956ce78b0937ba532807e72695cc38576c, 0x20b756f21a5aada83bc3c288af231a70547fadc644476ce89022287b823cf757, 0x18709d02d9967b771e80d3ca3fbce244053058525935ec4fab241cd8a13b2d3, 0x13d7552ff345ec13b351d2746acfc7f0adfd612c35d23d95bd17e7981b375bff, 0x53ed9eabeec48186651412b5c5f047d135d0590fe9695d0125bd247e2f286fbf, 0xa4d26b6645427d74090fc3893bd8cc8e8bf0a3c02597c8d5ce386a3312e88d4, 0x44b97e20fe019851ece2a9a140c92d8b76e720d605cfaa05a39a1af5e58c5664, 0x7818e32c6fea09b94b6edf014612afa5b92eb5b76e6fa9e231841d0e22ed731, 0x45c8482440750f39096ca6634539b6d0cd4064168aa655ca743cc01089247d08, 0x53f7017b0089024b9a51df6ad24e989b0b2b7e791605d0ea5feee8e24a00898c, 0x69142b22b67b48bc2527e8bb24cad15bf1afc8e6a38df8e451b7224d513f3833, 0x6860cf2dc06409f86abca41d693ca2f93d31a24f3ff11f7b495fad5e12a17969, 0x3046dfc2ab87bd845f97f67e9f4c8ac95418c05122ce500573f18f3538ba367d, 0x4f04260939438f5b4e53c1881fcb1ab4b4766842864def7b1848ec8b4fed1dc0, 0x668abf003fc94155d7de06394030dbe852d889285d8520f8a693de8afd879dd7],
    [0x6a44840c3b7b082cd99fb0b208d45b5a376dd6581553d4546aaaaaa9c0000001, 0x70c9edc9134dddde7a2baf1fb0b410892b2e30efac4c05b894a7ef1341baaa4d, 0x2c61a6cfaf6841554d1e711a6d3396afea546ce806a417b8e19dd088aef6155a, 0x4e2a6385a1aca664ffe54ee3825b9e8a12bef78a04cad8fdd6a36d8ed087e036, 0x4aac4a5932c2b54826d5b07adcddcf8d5054ab2441b6a0e74807d19c37f31d7d, 0xaceaf2a7f919ccda6fa7010ba057f36d5ed5689bf85a0066970589df7e45ebc, 0x71c734cb3a51930d4987f6865d79a7af3f6a9e830310cee0b14f93c0592fb482, 0x6908f4712e4a06b9caa07101a7a1cf0f058d20be0778335bc0bb0f2a233cabdd, 0x6e771529dc7325a490e130e5ddfdcb31dfb269abcf4b179f1186676b1dc5fd38, 0x6ff59f42855dd39fa1cf5a6d1d22dac3e53d6346be81ffa390c7bb11c1827a46, 0x510c635c154f295f6d02347ee95d9402c34c85696916a1766bb2ad7f363c1d94, 0x4db269c2cb661d97a56661232fec978e23a3b6ba2423a4c6d74bcfb0f55c4158, 0x482708a3d13851223897532caf171876f43b2ec84fb9629449010d271c2a2cf1, 0x674d2c0ba3e55a90c25a1fe8ca3a043e00639f10277b80557e9c2e2af657cd3d, 0x373a3fdfb6fcc7783be06b4a97dd29f799f8161425deb2ab589d5a5ac2a8f678, 0x6bd9bea8bc726ae0a0f9e5d66f6c8a26ea40243e1c3cb5bb2011eed8ebcdf376, 0x37cb5123a13cc045b070dc58799b5b41c7f15cebe35b42ff08d222e165eeac38, 0x57425c401de00ce943281a00a70ff6a36007adae3a5baad0c7cf3bc8a9861fd2, 0x4dde4ee278bb4d5ef4883895f8299cb80e6b1010ca2217dd6e0613d75bb07e25, 0x38db3bb91b1617639dcd7cf3765d26eaf1e89b011f93edf5406ea9b0bf3e6c33, 0x634271aa8d9d43469003a3d672b78047b4b356e600a6218739cd2eb0eace2be7, 0xc52afcf189afda499ce23cf6ce7c6dc8d6a76be8a9b9f1faa00fb67d62da489, 0x9b222a2732f64eca0687daf1916fd9d4fc959645f20bffaec61ddfe0c64193f],
    [0x6a44840c3b7b082cd99fb0b208d45b5a376dd6581553d4546aaaaaa9c0000001, 0x3ef15bdb17a4827afe6c8804788556ad3de73e423e690827d9dbb6aac17a0dd8, 0x4b4f0a87705198db4b6813d8abaa0a9faf0af1695b892c53bda54b5bbe6d9b61, 0x4e0cf9b81a950404520f5562aeee7577961fafd0809cd4a089a87ff8ad9ea522, 0x1a04951851a2d2c04e1890098548e3030c23ec4be359e21868bdee0d0511fd40, 0x668e369fc557fa055643f2f6ef30f697798cb5c067a40dd4af82e09505d28893, 0x67d17db1b9900543d7ffb1fd5ae931dde90887938ac4cc2aad7dc122aaf04c27, 0x22b5d59a55277f485e363ca2c12a5535e23d34771084bfc0079505660d98be0f, 0x1ab4c5e74fe00242edba843688e3f1b6e79ecb9024293221eacaae6b4f740c7a, 0x38d614eb5b89f591528a1eb0b3534246581cb79efe90e5af5789df37516f2adb, 0x12721290751404180ce8103a01768e6ae33e3a04c2a3f743100c0314697be7c3, 0x341ed6840472b8faa18196e9fb796023235564e79759fa4376fec26e7632920a, 0x2e964a79c49e98754bbb818fbfc3f6017362eee15cca8ef92fafc9603612809, 0x23588d3a9b1244a014e4e85e6418f4eb5c170eff187bd42d13f341caa052221d, 0x8e079747cd3fdeed6c7e74652976a17ab212bc821cf8ec310833a090981a41b, 0x4e777fd537f248ddf9d9c6b212a8c2bc1de1ef8ab1975230372c2c8c5eb10e98, 0x1234187bf053370630b87697afaa7774a2e35bf8e0e5c9d22fac454b918a8dd5, 0x66ba838c4f6514898e6f8522effe107651a64cbe73e918d28a0c1b8a4a33eb7f, 0x3a7ec098b7137576bb77bf93fd3376f991d36bd65f23da6f3b1143cfe71f897d, 0x498f1896e5e5a3c67363c6c213beae687707f8b9dbec617f7bbe7bd8bee38f2d, 0x12fb6585245cf0b4527a403ab080dce402de79e9e57c9f0c304f914888cadbbc, 0x7247eb4b488d3f665ca2ad933168fd411b3e1e56a59b781eadb5bbfa6aea4681, 0x6cea475b80c297f77d5a194eab44a52944b104df047331f8924adb2ccb05b5c4],
    [0x6a44840c3b7b082cd99fb0b208d45b5a376dd6581553d4546aaaaaa9c0000001, 0x4238b5bcfaafbcbdb26e2739d820fcaead6a0a8ae4a04ccf3a65206a488da4a2, 0x2072463254fea7fb2b1f800019c321b54ecfaaf680c70fc088ed22d5b9cc3094, 0x52ba7942daeb6f1912f50a57cd34922b4115bc0d766c5dff36555b2ad0b6909b, 0x70f06949a100e5d9eff61be54eac5e7c602281fa4ac4ccd2e255e3d91cb10b29, 0x1989c024090f0abc14e359515ea0778b0a0072be376c6ac60fd6ec1a2e7d20b5, 0x338b1b6466c6cf0b7af91e9cb50e39858f2b6b7886b9911fbc1450ac440dfe40, 0x5ad1f8d91313bb2cab0d6681634be6aa91329ffda5888783a2345c53c32eb181, 0x5b13966ef79e841b5d5395c99e790c467a1dcada45356dc700f40fec836f4117, 0x46799cf4779f5ff70efbb80f516fe42bcb23f21502c3db48f8fd5af4f804c2a8, 0x25f4af29c3d9dbb57bc7b091b7e452e94ef8a20bd143591658c7060f551be615, 0x13e02d945c2e0de48c01fb2f68b2f85ebe106d362e02629fecf649f9fcf8dcb7, 0x5daaebe97ae5dc54eff9f26f8a9961fcfb399ff44fcc2d7505a6b4a190211967, 0x2e84d98cb5fe2edd32e99489077ab2fa27f3b63396cad1321a9d23bcb32350a5, 0x3c35c6afc9e7257c806b6caaf69d636d2020a5bb99fa4f7aa34a19542e2826f4, 0x732701acb7478b23b3fc84a493ce4caf6ea90f7c3ca8cb702c58fe12e7204745, 0x5ce9c1cbd3614a096b379976682ef1ee865042749d15c8cc0cbb5605eb309c85, 0x483142aecbb357828de4a96fa820cf408beb74042b69b078e4f21dba18af6a0, 0x13ccc98ea6f858bf798adff1a3caa3dd2d66c135d798010f1eaec792e07e9820, 0x293b89008378e61ee35665a260acf893fc76e5b2c6d0bdcb32795d6028478326, 0xd1b8330c5238e6244500d5fb3cdc401b76839fb72d0a44af857938e14a806dc, 0x302ecbf80d64d65b58ac263c1a26976726de23d00f2dc3d043a66f7f07543559, 0x201ebd26a94e6e03eda937655828d8517c9c3b38f1be9b5da634c8d66c608b99],
    [0x6a44840c3b7b082cd99fb0b208d45b5a376dd6581553d4546aaaaaa9c0000001, 0x18517f8b2d173397abcf1b833572e183782c0f666321e33203a06b881cf02bf0, 0x383b35e4604e8bdee2ffe8c17152e57f28bfad3290d5410ecc1a4c8f014c619d, 0x4b47d0feb3913f63a59d0bfd8519ed5919a1895c2b69c13708f8834ce59880e8, 0xf5e85a7fe4eae1a85cdb068f03fb16d146a677e1eb619bbb21f0f868b011619, 0x6c8416b9a92059e17fe46c87bfcfe881af73746169fe0c0b98933027cd426c8c, 0x1c703936e033d0386f019baa635ad3f9c55e830e0886ddd4809ad357a11e1ef3, 0x21048e31240e0c3f159ecab9dca9a692e1d4b36c4a112955cc2027450dc70bf4, 0x2c1174d906d845a8fac4f092cb18d711929225635235c396abe5a1f101b0192e, 0x4d282e57266c1cf814cd23df14c8512132b2ddf749ccaa50a573edf000892b55, 0x41fd3e7704c56677c5906c6fc9d18966c75590c15e6d1a5cab76347f32486c89, 0x6cf4c5b3d96f5466119d64cc24d8ee968a3a81f38150ce86c87ee75664e73c4d, 0x4947550e2003f8f7e06eabb9b7a3ce535319265c3ce2e01479a77ed6314863b5, 0x3c0b6e18308cd5790f143e535578ae097b54df6270f1d1163ae263a04a7cb1f9, 0xa002532498af0414eb2d19e6c255abbfae97da537e76101a0487131ce3595d5, 0x1c764a6d41d169d50b0b8a952ba2b8514fb191e28a434a9af1ec3ed92df66dcd, 0x221cbdd4b93ca10b7fa0020b1e1b2c0f05dd0a16c8ef451b66721e1466b5ec8b, 0x3e4fde663883fea51a6e4f7591e40cf50de469433466f23fcb0beff23c55f1c, 0x47ba8b2ddb2f0647292869669bb2371f2f063262c8b670eeae525c538185222a, 0x1910ca29719dd42cbf6f12a26fb3b24ba46aa26ae101142ade4d2967454caf00, 0x30721b12d1614b05ad70d284daf07602e9d93c369c8479d42c934307e47f5595, 0x5901cb78056c9afefde21509bd9def53cf864602e5bad5ce234c1ea81065f045, 0x4e9971d215189eba16806ae523372e966eb987531d09ad62e75cf9baf054599d],
    [0x6a44840c3b7b082cd99fb0b208d45b5a376dd6581553d4546aaaaaa9c0000001, 0x5b254f0f23bf76829a2f69231879cff47efafb2d90438cb6770e3ddaee4c4cc9, 0x6c5493d88e9f3b8ff3168a711f4cda621b543c8a7e9787b7acb86f88a8469743, 0x27f2e97a7215112be339188bdc66667709fa20556a92a75af3e92cb0ba3c572d, 0x2ba95aacb63a6f0503dcdced36d0a57d3030af3008590e971a064a5c8eaa055d, 0x2f7fef8a9fc25a2ade3870ce06a246f80a44bb7e39a5995154bea1db7db3982d, 0x25aa24f632a5b63947d816d243de9b1e5c09b7e6c9c9caced94aced51f828b44, 0x14a6a63cefced8d9e618f80a8c7318bf0347ef2cb30ef73b65c88dfbe3844698, 0x4aed4fa8fad94d78169c06a66e6f802920a9e3547d3679d77b592562408fe5cf, 0x332cbfd556df9dfdd5823af554c9dfd1a6ab439e73bd29f04138fd93e2ad2503, 0x3801675fe023244201b72ad52d7d9ef358649df399a30c2800f63189c7ebc283, 0x5177d7cc57fc52a8ab01cde36124ec618251eaa4fc0133807d655810621ebe22, 0x663f75965b2caeabe03754fd7f1c11179a48ef5e9e780ad492766e43cf542a24, 0x295dd22511d58f12756cf6913c52438e38914d0db4f5d8b102211a764addc35a, 0x1f733a51ea63271982addabf4fbefbe51d0dc5872da95f8bfb06223820f6017d, 0x15d830587728d6f1cdb076559d18b615d95c4d7e2ef61f6efd11c68d592be47e, 0x64e58b08c004c5613e35e5cfa7c6d81060761adbae9cf5e33fef2d13bfdbcb6b, 0x1509232b785789b10c84ccc0669d6241b4a67910031292dd1bc5da6d0e625a1b, 0x35851b4e7215f5235f01114105b8fb3dcaf6252aafc170e2da0d89df09682308, 0x203e5288a2b664762aa1799f052c7e65ac0be41462223b28c2b613ee60af1835, 0x21cb2312ee67afb23fd26e4008c9a19a469bf62ff94319ada7c5892c92e94765, 0x110cada16e2526456272e41b2f40328ba72a0e91b6368516599f9dee5e3f5d86, 0x69c9134c283b39ec9aa498be35090757a4d63c59bdef53291ffe6de9ca0cd113],
    [0x6a44840c3b7b082cd99fb0b208d45b5a376dd6581553d4546aaaaaa9c0000001, 0x1e007c06c26fed39f6291d2db4139f945bf3ba7c41a63f3b74b61737def035b6, 0x626a9101016c35649f04c71457b48269a39783de0a3ad4082bafc51575c2a24b, 0x84323f188980e1b1df287ddcb2f1e87c54562dcd0557ca60282f9f57566eece, 0x23544382a6e05e7fa10aca2828cdea86605225f5d018f7e3ebab960305c77708, 0x73352878cf76c1f9c0e44fd71eaf459c420277c41cd109ed427ab18ddeba23fe, 0x39089caab5a41a6116dfad9afbcf9c62e8252cb25d8aeb4e5a39ade311ecb4cb, 0x64ee0da5b7378e945014a25bea2d744ce44f2783198ed4cac92522f19e837603, 0x29820171238e037b51a232fefefcc8a10ef6549cb88cc824a0cb0af8848473a0, 0x617eed74dd55341b4bbd718aa6996b4b37f23929081eb80ffdf1a8197560bca5, 0x28aabfd6adc813d63d09ab722ad84b612bca875cb6ba0e8eb72c9ce72d756d6c, 0x425ef626afb13256158eaca00adf07f59cc4a2aa0b1e30fc6d22250e6f60fbcd, 0x66391e30be21f5c48553f27a3c1c1e83e82189ed6e7c44bcca5c6844d75c7da9, 0x3d0236620236232d488da27abd714be2f0cc149e92b14af4a4f193a8aed7656a, 0x38d1dd2816f80e2d0bedbf7925544fc06ca93d51e56674c59be253aa9dfc0683, 0x1f01580de0129d5cc8252af00aa4a4ceb4d4416e83a1fd72c66ef97b6e2494d8, 0x6c071dbf4538e85670c95820a04addd5c4fe8d867e8c6b596843022a16b739c2, 0x121138079626a95c22b0ffbd6c8cb93fb34f4c798b00045d80e64c7840a6c1ed, 0x2dc3941dc28161bda9c7898e13f04eacd67d3bc4daf1437b650b04b1a2f38bea, 0x51df511e269e48a61241629713c8f9c5601ee25d8f29f8d84bd9c6f87b94efe7, 0x3a7a03c8096354d105f3b3058dc8fc76cf49cbc38efc77109898f0f616d0cba4, 0x4b8ed377c60989a913312eecc4f47a5a81fbc212853a1f7ec26d40a9457e999d, 0x5447f5c7d2a811632b2d3c924f86113025e461b4364fb500e1180f2a3bd082cb],
    [0x6a44840c3b7b082cd99fb0b208d45b5a376dd6581553d4546aaaaaa9c0000001, 0x11d5caf91a473278557d7e36be0ff018069812c16625a9c7015cfaccb4f80d8a, 0x46110b1bbed2b6da1187d0541e22653ac9d9814e47366e08bc76a6802fa5ee55, 0x211f5460fe8ca0c0816e8d6f19a7c68cd7582af74f7f8e745b9f7c52336a2b6e, 0x73eda752c59f38c1586506b7552468abba3edfd85a59fa0499e3d1310da61901, 0x1b46fa32c3a60731493d8d406e33b456eb69d501824cd24965b27a724c1a73c4, 0x14753ba342ece7efc0f7f36628cb8300fca46b8d27c090a83ccb0de123d60ad3, 0x59028ebf9cad91308b8bc6362eb8a41c1460a0e878117380c3c606987337dfa8, 0x2f04729d96050f5b31faed6d966f9ce9bda45b7569469bcc658caa130ed5f3c1, 0x5b92da3a46f64dc1f5b256c7404012117212377551b94e2a2784b81da5e4a812, 0x762210d17488c9f85b8853b773976c25a46f037fc7fe50fc8d008227eb0465, 0x3bb041a5e4c3f6ad94d8c2ffc83c86022c4f640af4c8b24ac95a179fd9e64dfd, 0x6ed5d6ba34d37a94a64917a80753d8f93ad71be8038e2de00f3aa4b5249bccd5, 0x71d73807cee8ebd03a6d80933d3d4f787f85271345c50b92afe7398406facdb8, 0x141ffd51c3d226ae5f785e254d0b41166441d3cc7bbb03713739955cd1136093, 0x3e76207f6e147b907ded9f13b34c34cf963d98a21b116030d9da96c2ea02ac28, 0x2313865f51161dcaeb87c0a3f37f6ef9a725fa3612426bd800a3350a1c8115c7, 0x6ff20ef131cbb278d83cb60ccd70e053ce5d9ea81a66226309e0587e1e5f8d93, 0x2f4400d3b79b3a5cf2f39d442567e28e920a85435a326315bfb2583b4eabd41d, 0x44be5dee97341445bda260604dfd2b9fba942ef6a2e8d9e420aaca811481c0b9, 0x3d732c243182f996e13247f8e6a2144929ca92ecef6cea88ed9d7025019aaf04, 0x35c373a24cc61c2b2fb67cba19ac315af91ed11ee3e27bad230c19ba2dc5f4f0, 0x2c02aa0b2bd33cac27e8c0d186f57d16b99ec1c122399ee00b8c4d11bb97f1bc],
    [0x6a44840c3b7b082cd99fb0b208d45b5a376dd6581553d4546aaaaaa9c0000001, 0x2c967b6ec13c92a59d8c66c803b4e7fc83ce0a8259c7ed040678c10f4e786bd9, 0x1ac0b075a72457fcf8210a78023075156c0d5d5944bb62b6ba91296f82ff014f, 0x423ea8c1cea32304af8ec496e12eacf1bfd27370faba2fd99274ae49cc383cdc, 0x211f5460e751918257c7624b6f644d7db80e6aed0e9dd4c4a68ae937ac76522e, 0xda37d18d7b82cdb5152196a5e744de8bae4e274a8bffd25112a4b15ce63ace2, 0x73eda753299d7d483339d808041f890952a371b385c4a71f90424a2a3f7aea81, 0x562381e044f7005bb0c32741d9bfcb25bf3978a702c218509af78509bca8445, 0x4aa74e6d0891cd1c43dc5538ab73edcc19cefecd09387d7526388de298eab450, 0x60302ee519cf8d33300d1f090f3b14e203d1fc9c3b2b1cf240e5dde5fffc0804, 0x9896ab8d46f75fb85db178bcf472fc638c800613d5ba26de778ee30440b34d2, 0x5ab049bc944b6a5fe5caeadc06ae77cb6ad8ae2511cfd8c8aa786524f73d4083, 0x60e6e5e2eb3975f9fb945f6b4160456b2549a6f4308674147c55bf4d5fdfec4b, 0x36bf5e5e6c605bc25a264f1a4ed6c15791935aae827406435c22f9a4d369093f, 0x70e0107e4c7f134c32d4b4bbc17570cf20295a53655ccee4b3d7c63fc4abb387, 0x5980631d2214d6947aecb8442cbb5f55532c89d76fd8ed37895a4f372262a7ab, 0x4d6bfebb3b62b508bbf013fc795d799facb0847220a816665f03c4c5374a2f90, 0x6e94654f4bbb5d20091560dbd6d45aeb2e78b577c823592343100ca3c9d97f68, 0x165de20b5e278210184fc45c2d38a312b88e7f113e73a4bfedbb13eb8a6fc331, 0x69bfdf90fb915348bb32b469940de90a58a0c69082978eb846356c1f19e23f2e, 0x62be9a3063360bb82ce51083c98b92b4023248dfe62f7077c12241cd32594f1e, 0x952d34662ce91b1bafb3b7acba0d763f9f5659bab3f13efd72051b16a1a5910, 0x70ce222380fb6db581a464ae7c80c7e9939d4a371559b7db1a34478d2389fbf7],
    [0x6a44840c3b7b082cd99fb0b208d45b5a376dd6581553d4546aaaaaa9c0000001, 0x164055c9d842b4e07c0, 0x489d4cad0ed05c8a0f351c6a4f2d1c689c8a7a6cc7bb5d0ec83296a202ca559b, 0xaffab75581845666db40, 0x635dfd22b5f4b487075626e2516626dffea28c94db695995287e9634db4a035e, 0x2218b8be1b4c70244b4d3f89e4b7216afa83121f0007afbea8df257cbe021cb5, 0x1b46fa31af7059b6a2a432d4b6f8e788c868db4bfff07497f711b9a5c850bf84, 0x2df0cdccf194ccfdb39b4822e3525d880e29dd21af3af20f4bc57a3b17934680, 0x7335e41bf5d72a143c6b6ae77e148e8f3384fc8e793162ef8ef7fa0a1471761b, 0x6977f877ee0a77c0b930c676f397174c10841bf354b89944e34ef36cb1f91fe5, 0x288e95aeed455cf7f88f15aeccaeb6921c80f537bc9e3618fa8f6de11f10907b, 0x51dbc7bedd5d366708f90f0b4854270e0e1b4a37d87f21542e8789ec039ad450, 0x66ec6dfd86967d2d3a9b8f63088d3a0b4b2ad41312ddb90f85be5be4db13b13c, 0x5d5c911810df3a7f56958550f28bb6cd0ed2469884ad2bdc3ed953fad7f618fc, 0x42806da96b14eb0e3f1b31c63ba6b37995b5f17b3b5991861a5d3f6cfd983feb, 0x2deb05920085204f7a9e1fe16ff70e318675fb82d707f91ce85da3b7b3f94c62, 0x73e31f098c9675f2ec5491938b9aa78f81925088685d079bd24f36d118b110cb, 0x206d5855c6047c0798400d23f3e949f83cbddecbe2a952f26257ead2700a3c95, 0x1ec98db17d5058b16fad1a24ab96d294c07ddf7f3ab5cad1c9008bf0466f2c9d, 0x6fda0b3cb4f4f60402e6f13d18a75d8e51613fdf5af429ce2899757d11cf85cd, 0xae2f5ec6aad308b737fe0b9fd49ccde549d9c67a21487ca21d852c3ea5f1158, 0x37fe5c20f7f62acd16bcf3bba8f61cd06d22ba56b52aa5d9fb29dde192ef2936, 0x207af76bf8b73228f57ee63f9d02c29fb465663c4107a9f65b66ff848d0be496],
    [0x6a44840c3b7b082cd99fb0b208d45b5a376dd6581553d4546aaaaaa9c0000001, 0x2c967b6ec13c92a59d8c66c803b466c6f8d2c8ed7626c0ebec4ec4ebec4ec501, 0x18346ee45a45742e0511b4236fb9b422ded8d37997e926e678f78f78c21c210d, 0x52ce52f2424bebc5db7275bc992a75baa9877526b6da41b624924923db6dba8b, 0x52ce52f2424bebc5db7275bc992a75baa9877526b6da41b624924923db6daa6e, 0x4431717c3698e048969a7f13c96e42d5f506243dffff08f05a5a5a59c3c3e06e, 0x6d1be8c6bdc166da8a90cb52dbe39e2321a36d2ffffe74b3c3c3c3c2d2d2a4a6, 0xb7c33733c65333f6ce6d208b8d49762038a77486bc9f1564a806572d2d6142, 0x2804c34586709e90ff7443d66404bf79845677a05793a4e8ab97617c16966e3a, 0x15ff028944cf87dce647c6d2fd696fa3b6c80b4e20b8787d43415493e8562169, 0x4a8d0df76ee32ef0452c8ec65451a8ec36fbef6aa9611c401f06003953e6292e, 0x1e51666c9dd6abda4f2cd62a1ac9d5936d855ddbcb714d5e38bd77ec52aef56, 0x6217dc5a0f85429f8dce7bb808267bb5bd02ed3d9d88753a3b13b13a3b13b13c, 0x4a867dda0877876545809d29bd0c9d27fef9e96fa4913b23edb6db6d12492493, 0x3dd414f92742ed7bd70dc88cd1efeaad81febddf77769776eeeeeeee66666667, 0x6caeccddf703a573b0063a878907ba84fe81c9c2cffe763f0fffffff10000001, 0x1b46fa31af7059b6a2a432d4b6f8e788c868db4bffff9d2cf0f0f0f0b4b4b4b5, 0x46d8580827a75ac891152076b08d923c24f3e43ab8e28d8d9c71c71bd5555556, 0x6dd3abfdf187ba0e815f38736770e79941dc14a486bb13c9286bca1a00000001, 0x1163a5e6130ad2cad47be0679b0b7a00cc8fa566d9995a99733333330ccccccd, 0xb0a7175a27085d61d427619257d20c38e120f9ec30c08c2f3cf3cf3b6db6db7, 0x6ea8ab5b04d08339482b9407ac1a7cbf444c4b1a22e72944dd1745d080000001, 0x64cea7c2c00361cf7a7514e599124c8a328ea4e137a587a61642c8582c8590b3]]

/-- the inverse of the matrix (not in the code) -/
def mInv12 : List (List Nat) := [
    [0x13f3b1af0130, 0x73eda753299d7d483339d80809a1d80553bda402fffe5bfefffe6ad18531c081, 0xe21a85ac3c940, 0x73eda753299d7d483339d80809a1d80553bda402fffe5bfeffb6842d2805e981, 0xf801e438ec0bf0, 0x73eda753299d7d483339d80809a1d80553bda402fffe5bfefdc41fc694d6ab41, 0x3995b0590345de0, 0x73eda753299d7d483339d80809a1d80553bda402fffe5bfefbf0e08edc669fc1, 0x32551f6e863aa98, 0x73eda753299d7d483339d80809a1d80553bda402fffe5bfefe66f2cecafa1301, 0x7ab7280fe82d80, 0x73eda753299d7d483339d80809a1d80553bda402fffe5bfeffef823247ba5901],
    [0x73eda753299d7d483339d80809a1d80553bda402fffe5bfefffe6ad18531c081, 0x2055335f07a380, 0x73eda753299d7d483339d80809a1d80553bda402fffe5bfefeddd56d0da13101, 0x5eb99c806861010, 0x73eda753299d7d483339d80809a1d80553bda402fffe5bfeebf0c9c5b0ac3601, 0x2e6a4f3eeb773640, 0x73eda753299d7d483339d80809a1d80553bda402fffe5bfeb4fd02b3785e4081, 0x54d5aaa7b4d25ba0, 0x73eda753299d7d483339d80809a1d80553bda402fffe5bfebe169ffa74cb8fc1, 0x218e14f4597c7100, 0x73eda753299d7d483339d80809a1d80553bda402fffe5bfef5e9a3d558381601, 0x15bb19c2d11d640],
    [0xe21a85ac3c940, 0x73eda753299d7d483339d80809a1d80553bda402fffe5bfefeddd56d0da13101, 0xa37ae83a036a510, 0x73eda753299d7d483339d80809a1d80553bda402fffe5bfeca6c280e684adf01, 0xb629de3203ce3d00, 0x73eda753299d7d483339d80809a1d80553bda402fffe5bfd5930568ae9b17a81, 0x2ad33ec36dbde1f20, 0x73eda753299d7d483339d80809a1d80553bda402fffe5bfbf72044de683da181, 0x25cf543a1a5f24de0, 0x73eda753299d7d483339d80809a1d80553bda402fffe5bfdcb623afd6ac96601, 0x5cf3c90cf8d3cc40, 0x73eda753299d7d483339d80809a1d80553bda402fffe5bfef37684d3875b5a01],
    [0x73eda753299d7d483339d80809a1d80553bda402fffe5bfeffb6842d2805e981, 0x5eb99c806861010, 0x73eda753299d7d483339d80809a1d80553bda402fffe5bfeca6c280e684adf01, 0x119eb7659982ce480, 0x73eda753299d7d483339d80809a1d80553bda402fffe5bfb3e81541b954bf201, 0x8bde11159a1f3b7a0, 0x73eda753299d7d483339d80809a1d80553bda402fffe5bf0cc3adbeb95ed3b81, 0x10238e91b8f889b0c0, 0x73eda753299d7d483339d80809a1d80553bda402fffe5bf2680fdf20c01c7741, 0x66fca6071981ef640, 0x73eda753299d7d483339d80809a1d80553bda402fffe5bfd0ed68ad569a7aa01, 0x4329a61fbd28e700],
    [0xf801e438ec0bf0, 0x73eda753299d7d483339d80809a1d80553bda402fffe5bfeebf0c9c5b0ac3601, 0xb629de3203ce3d00, 0x73eda753299d7d483339d80809a1d80553bda402fffe5bfb3e81541b954bf201, 0xcd84fefb2b9b9b500, 0x73eda753299d7d483339d80809a1d80553bda402fffe5be107457b5df94eaf01, 0x30cdd3fe4c061b4180, 0x73eda753299d7d483339d80809a1d80553bda402fffe5bc76d12d700f1a04d01, 0x2b72960afec2d0fe30, 0x73eda753299d7d483339d80809a1d80553bda402fffe5be8c13c64dcd1808401, 0x6b8f1f8061c1e1600, 0x73eda753299d7d483339d80809a1d80553bda402fffe5bfe172b59b31ae9ac01],
    [0x73eda753299d7d483339d80809a1d80553bda402fffe5bfefdc41fc694d6ab41, 0x2e6a4f3eeb773640, 0x73eda753299d7d483339d80809a1d80553bda402fffe5bfd5930568ae9b17a81, 0x8bde11159a1f3b7a0, 0x73eda753299d7d483339d80809a1d80553bda402fffe5be107457b5df94eaf01, 0x4617b8da3e6657b260, 0x73eda753299d7d483339d80809a1d80553bda402fffe5b8ca0fc46c50c671541, 0x827ba33b725e8c6d58, 0x73eda753299d7d483339d80809a1d80553bda402fffe5b98cfad6f59fa665e61, 0x34678ccd7572762b80, 0x73eda753299d7d483339d80809a1d80553bda402fffe5bef23d81880b42e9701, 0x2260ffc134d37f340],
    [0x3995b0590345de0, 0x73eda753299d7d483339d80809a1d80553bda402fffe5bfeb4fd02b3785e4081, 0x2ad33ec36dbde1f20, 0x73eda753299d7d483339d80809a1d80553bda402fffe5bf0cc3adbeb95ed3b81, 0x30cdd3fe4c061b4180, 0x73eda753299d7d483339d80809a1d80553bda402fffe5b8ca0fc46c50c671541, 0xbaf972a2e321af5298, 0x73eda753299d7d483339d80809a1d80553bda402fffe5b2950a18efb6bc9eac1, 0xa79e08021b6c39f850, 0x73eda753299d7d483339d80809a1d80553bda402fffe5ba8ea416b00b7fb8301, 0x1a16c92b9634a67440, 0x73eda753299d7d483339d80809a1d80553bda402fffe5bfb7603ca398fe01501],
    [0x73eda753299d7d483339d80809a1d80553bda402fffe5bfefbf0e08edc669fc1, 0x54d5aaa7b4d25ba0, 0x73eda753299d7d483339d80809a1d80553bda402fffe5bfbf72044de683da181, 0x10238e91b8f889b0c0, 0x73eda753299d7d483339d80809a1d80553bda402fffe5bc76d12d700f1a04d01, 0x827ba33b725e8c6d58, 0x73eda753299d7d483339d80809a1d80553bda402fffe5b2950a18efb6bc9eac1, 0xf49a534199aa1fe6a0, 0x73eda753299d7d483339d80809a1d80553bda402fffe5b3ed89b2a476863b221, 0x62d26e5f4879db5b40, 0x73eda753299d7d483339d80809a1d80553bda402fffe5be1033c14845f6fc101, 0x4129a1d5f259a9280],
    [0x32551f6e863aa98, 0x73eda753299d7d483339d80809a1d80553bda402fffe5bfebe169ffa74cb8fc1, 0x25cf543a1a5f24de0, 0x73eda753299d7d483339d80809a1d80553bda402fffe5bf2680fdf20c01c7741, 0x2b72960afec2d0fe30, 0x73eda753299d7d483339d80809a1d80553bda402fffe5b98cfad6f59fa665e61, 0xa79e08021b6c39f850, 0x73eda753299d7d483339d80809a1d80553bda402fffe5b3ed89b2a476863b221, 0x97289d095311f8cabc, 0x73eda753299d7d483339d80809a1d80553bda402fffe5bb12977d0d275463681, 0x17a5dec4b39108a840, 0x73eda753299d7d483339d80809a1d80553bda402fffe5bfbc8e4a57083ff3b81],
    [0x73eda753299d7d483339d80809a1d80553bda402fffe5bfefe66f2cecafa1301, 0x218e14f4597c7100, 0x73eda753299d7d483339d80809a1d80553bda402fffe5bfdcb623afd6ac96601, 0x66fca6071981ef640, 0x73eda753299d7d483339d80809a1d80553bda402fffe5be8c13c64dcd1808401, 0x34678ccd7572762b80, 0x73eda753299d7d483339d80809a1d80553bda402fffe5ba8ea416b00b7fb8301, 0x62d26e5f4879db5b40, 0x73eda753299d7d483339d80809a1d80553bda402fffe5bb12977d0d275463681, 0x28213bf87689830e00, 0x73eda753299d7d483339d80809a1d80553bda402fffe5bf2cb6bfd91cdeb0401, 0x1a94599744899ff20],
    [0x7ab7280fe82d80, 0x73eda753299d7d483339d80809a1d80553bda402fffe5bfef5e9a3d558381601, 0x5cf3c90cf8d3cc40, 0x73eda753299d7d483339d80809a1d80553bda402fffe5bfd0ed68ad569a7aa01, 0x6b8f1f8061c1e1600, 0x73eda753299d7d483339d80809a1d80553bda402fffe5bef23d81880b42e9701, 0x1a16c92b9634a67440, 0x73eda753299d7d483339d80809a1d80553bda402fffe5be1033c14845f6fc101, 0x17a5dec4b39108a840, 0x73eda753299d7d483339d80809a1d80553bda402fffe5bf2cb6bfd91cdeb0401, 0x3b7528c9fdfef1320, 0x73eda753299d7d483339d80809a1d80553bda402fffe5bfe7e64b188aa7bbc01],
    [0x73eda753299d7d483339d80809a1d80553bda402fffe5bfeffef823247ba5901, 0x15bb19c2d11d640, 0x73eda753299d7d483339d80809a1d80553bda402fffe5bfef37684d3875b5a01, 0x4329a61fbd28e700, 0x73eda753299d7d483339d80809a1d80553bda402fffe5bfe172b59b31ae9ac01, 0x2260ffc134d37f340, 0x73eda753299d7d483339d80809a1d80553bda402fffe5bfb7603ca398fe01501, 0x4129a1d5f259a9280, 0x73eda753299d7d483339d80809a1d80553bda402fffe5bfbc8e4a57083ff3b81, 0x1a94599744899ff20, 0x73eda753299d7d483339d80809a1d80553bda402fffe5bfe7e64b188aa7bbc01, 0x11ac736d3a34f200]]

/-- the tables have the sizes that the code reads and load without a panic -/
theorem sized12 : (opt12.sized 11 4 57 && opt12.below blsMod) = true := by decide +kernel

theorem ok12 : opt12.check blsMod 11 4 57 (opt12.plainC blsMod 11 (opt12.plainM 11)) (opt12.plainM 11) = true := by decide +kernel

theorem inv12 : invOk blsMod mInv12 11 opt12.m = true := by decide +kernel

end Verif.Poseidon.Bls
