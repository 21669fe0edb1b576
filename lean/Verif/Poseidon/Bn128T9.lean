import Verif.Poseidon.Check
import Verif.Poseidon.Primes

/-!
# Poseidon over BN254, 8 inputs (t = 9): the tables, copied verbatim, and their checks
-/
namespace Verif.Poseidon.Bn128

set_option maxRecDepth 1000000

/-- starky/src/poseidon_bn128_constants_opt.rs: C L719-855, M L2538-2638, P L4660-4760, S L10333-11405 -/
def opt9 : Table where
  cF := [
    [0x2088ce9534577bf38be7bc457f2756d558d66e0c07b9cc001a580bd42cda0e77, 0x1b86e63908c4b12af43cec6810356c94d21c9e37d73dfff9742a58e0ec356be1, 0x9ca022ba1142d170f755212e2edc9d0a4ace33e16825f540d5d50d5a021a169, 0x277e69d47a133804241f6aebe9449be6e22c849c6d8ad8c938eaf613bc1aecd4, 0x17b57ea03754e24ae0ef425aa2ad931aac9ba5457a18cec594545a235db6b269, 0x11c740983395e0f4a026e2c7c939236375c9077755eb1a37a77d5a1fd74abac6, 0x1cd85529010dd7e2fb7ea403515bab5727556a479c59b822efc5a81eb37bc5bd, 0x2cb9354002cec4bcbfa985de34f43d702ced83d197aa374b5a1f96f87b12f292, 0x1f7af98e08f6877923f27a3dad40c525ac52f56fbbd878506544f9acd61aa32d],
    [0x1a0b807de55ef1263cb74d73f1c8bf3403bb3f1e03cc502a9e2b8d423688ec18, 0x1fd59a493af01f538eaee9b1cbcb2cd1b799d6093f0159107344047c2158d90d, 0x1d3fa4c04d54e5263e743a2fa010370098773853777b73c7c92af64eea079612, 0x1dc892a8d006e9b99d597f449d0553ebb51b259319ab9d8b2d02ed9c6582c232, 0x2a0537379dcab76d9308d2699e0e900109318a740c75b8ee1ba71120edbfe071, 0x149d2cc892e7cbc1f4102493bb96b4a36928dcf62f7dba6d9e0d446f5ffd4fa1, 0x1e49f2771b7510aea77ee000e757ac105699c62a33a418ebda572969037b5bc8, 0x5649ffbf48a15d39385cb62912bf049e9706155ff3dd43f7ce0e4cb35c86c3d, 0x2698b359bbb3686b626831d596fc5b5039f4af516bc683a289876271ed62897b],
    [0xcd8c08efc5d2bc627ee727dac325af99b4f72ac70f61c890b0593eb03c8cd2, 0x36a9a9ad327aa70232cfe6c78884ec23aea703814c701a1862789367b45b3f5, 0x2b5899d038a234824746d697d38ff423459f7bd4015782f528a3705a6f2feb9f, 0x2524bd7a1969744168f11aa03fa82da034edcd1c31141420b2309344d2741aef, 0x89189570593679da35b668bd5b3542489bab1022dd790ca6a99c09ed0a79aca, 0x6608970a49c0ea65f21a544c215ebd89b4023c387e8339ec7c9cb80b6b87ae4, 0x283a6336d81e02e8dcfbd4be67fcd7f8b73cff4ce3f8a7f3451b26e81679309d, 0x14536ea1bd43af4d7927054ecdc962563f6f396e372f35cae0e5218d62bff454, 0x3036ae3f4cef8a4a0a324f409f290c172e5ec23a34f75d57233a04a055648e00],
    [0x22262d9a1cb0b5941b3f193c381403425b83e6fd9e1b4d930183148e414db99d, 0x1555e4726cf5d78d11b66f4969724e64be8dc3047d0953aa84be42c4a3ab4098, 0x2a3e9e52ac1fa4915e262406c27cecf24b0411fa674ea5046ac44897629e8544, 0x14d8abc9700624bfc54939ff64f75e0ad187662ddd0215e3cfff56a350371231, 0x1e0eb685b561bdcc6cb793504a4c1b5056af33ddf6f5e93c72396f6e53eeaaa5, 0x2e7e146d9111c11d9348ec2230270bf211b4325c2e878d09faedef98bcd10dbd, 0x18c036ef9e573369755af33142bb856437f6498fb1162b8f8af4523c390b09b2, 0x195ce383cf5b4e65acdb300d6e359320ea6bac8fa881456c72526b4513ee1d71, 0xc12860b292d22e5520d416427e1ff80eeeeee47799b322e0580c2d45d60e6ac],
    [0x2ff73b859f68c9b8eaa94078545f54dd1e9dfd74fdd762dd65f522af19ec3ffe, 0x1205dc46155d9cc22a89e838ff1a462738d3ef1972a01864c72af0f342e524ff, 0xfecb680ff19b124ce745b6f70fba1b91716e12f664fe93562d93700adf0bc45, 0x234391b786f9498db2680c6e7aabf4b0ace0f0368e21eff94528d051128cbc6a, 0x2937dad89e2bf12f95cce70dbe3ba4c2ee0184226387421bd18038894ceaedc9, 0x22c7ab9a912c2aa92e2afd4749e70968322f7e5750ce6c697dcb34446102b85a, 0x1bdd8241cc91cf091780328ea6a0ca6dae8c10c50796006d462455b90e7f600e, 0x49e3eb4d3bdb8ea3fb6ec3dc065556eace18a719864184b36da835bf3e8de11, 0x20a8611ee3a91a1513e11ae962ec82884ba24f32171939892a34ec6d4622a88b]]
  cP := [0x27d281f482154b5c001ca383a1087bb1481782f2bb457fb32505ff63315ec376, 0x530c5ee45b6b16abc8306ebbf102a1c0774f8618699278d5d3a99f42495a3f0, 0x256f402ec1732288a2ae27f56a2fee2199bde67ca2917984e2a6c7f3952a8e32, 0xed544bd301d33d4b9ef359de3bf01e61397f2f29911944c5d091ddbc518e146, 0x1370ffbb023d66ee62ec3895f61de73212207ab83194bf6cb1d49d37bdd4f34d, 0x2a46d5538a5a9bdaf47e44594f3092112e755cdde1a6c128568994a040e9a04e, 0x1f3396d7db31c19111069135ef2d095c1aafbe2c76d7cc387944b2f137edba64, 0x225f3203fed96b846724c146b3d3b351d6615ee5cb1df8390a02a715ee206f18, 0xb405da3510e7abe759298137d4853f651e35b7660028d9ce680ef29db4c22b, 0x162df9d9cf874a89630d906160abd114b09274c010636c440c3773b5f012374c, 0x26349d07dbfe862f47393d354491dffd8ed56bcc1424d45dc3292669be8ce0d3, 0x1a75a0ebd02bd60bf851e0cc564a07ca5145d4ecb970625acc7f225480e29903, 0x22dc35316d34324dc4fc4812b24468a33b94bd1187fde4092670d789f8372ba0, 0x1f260c2068ddd344bf8fd0d985ad999e0a2a0b345b5d4e15647c60a0019ddeb9, 0x43098906f60ba8b964c3d33854bea3bfc728ebd374b871eb716e1bee8f6fa81, 0x17fc06025f7d0132912f6cd189b75845e8a8ebe264a3561610ec2db4cb22f800, 0x1853501b6a22237cf790f64d592e46b76bd78d7a6e11a86a5e964bfdf98b35f8, 0x13f85a860c328d7fe96970fbb13dac19233067b186ddca81f7b805dc7e8d4de0, 0x2553858a2dfdee2556d24923c609eb3bd92e58f1cab1c406317019df0bddfbc7, 0x18db95df1ef5cac1f4d5e21dd81e4e7d4fbf98deef329bac3e4744b2f72cc2d, 0x218cfa400a003da69ff396f9a2fb282d544a43697b68fc6baccccd9cf9933939, 0x15b192afdaf7ccc461209127b95647cd661c37044642f0207cc9cc699ee8a3fa, 0xfa2a193cc8addadf7766d712c7af10074bc8149460ee35b5c78d15cf527034e, 0x6f3dd41dd4a94658628fa7cfc17eb024a59ceacd9ef0fc0617f275cd9dc0fc5, 0x7a9cbf46611387ced1b18c4f371d582cd7b05a50caf7e230a3b5fc9e028bae2, 0x135f98871577c5e638e56325377721fbcbd590d85e93ed310fc1c0c802dd06a0, 0xe8f8ada4fffe0a6b9faff17f6a926f28ffc38d958ddf259ddf4090083bd66e, 0x225df6aa9bc49e9b2f5c8dc81e15c91ec1064db201be633f1e5fce6bc5b9b6a0, 0x171c3bf7f45ba571930991e63dc8f4d823ea1d885357a37f7825274e9b9e0d40, 0x171207761f4d71c5d5fa62352b306da902f0259f4c0470bc82409144feb9acf3, 0x26a8805900a6087f4d916c5f8b752ab3211023d730a1c5f745d9122fd9c19973, 0x129433d6ab5a8f5443489c357b69bc0c27cac6ae3c24997e5728ffc76439d5b9, 0x1c0c02bd9a4f7a36fc2ad938f9a742c0af5d7745f1f0ac5b664aa3e4057a6f18, 0x165ff7309c19adfcc8ee6ddf752f94fa5c24bd0e3ebdbac72c1fb06aef56dfb0, 0x26b387d2dcda5acfe48872f1c9077083043981a4d22ec361830489ccb49d384c, 0x136f73b20066bf9bb629e14dc8524e6026c159059fdbf51160066ef7c416be4c, 0x2ab4b86e7cde3982d2e88235c312d1413d85e69d3f5d51bff97f8521bd7c35b0, 0x15ab3bf7cdd8944501d4f6e1fbf9bcc650c5b7a96860f75ce08f5299a560e3ca, 0x63757b1ee01190b18aaa9078ce6c59b4ff979a43897f7ac41f667ac1300c522, 0x7235d5c897327b9b2dea43a9c924d63adf0962c8024e9486b31c7f7dc93f93d, 0xc793e095f24f97300294b90f9c734241509ae31ac0e13f9f1df46e0fe537f8c, 0x16c461135e143c6fb08d9c33fe385b0c7a012bc208fa6671e4619534b3e73139, 0x3695a3fcb6f3778dd4884dad62e4e86c750e28d14fb31cd59567e3aefd0fb71, 0x17501f012f54c4f196aa31cbd91bb126c254f553e55d4ab844f4d4c689d1a1fb, 0x20ff8c2701723ebe114d932d485fb4af9af641e52cab0d5390db4dc624295cd8, 0x605d48243e21cfef1ed9130f5844a0c14c790624b93ec98930d250c1b410bbf, 0xffa032ab9b633d34909bb748a498d1d76f82057973eccae9fcfac45f50ea6e6, 0x202d96f16f6276129f835fccc83f52e4cc1a7d5f2ac32ae4363e9421f6704beb, 0x97e3fd4d35bd1394cd482c2fe4bc3c02881e452adbf58858a24106a1cbf0ad6, 0x277c2847ae8ca64446c9d04e2be45b786a4ffdc7dd1d27d6bc978db85ac85ac8, 0x3410aa7a2038d75d33082a5fd6bd77d018578ad7fba9f7712e4f41e7d397e6f, 0xff02f1d79d410c828dd44c6338c31048ced79c8aadbc45afe4559dabec02981, 0x49e781f466e2561b92d45a40fb76025afb1732b39a48dbae1c5542272b1e126, 0xa88c49a585914a1ad99805da9dec850fffb2bbda64f7b509516a6713b884286, 0x45e7bc4beec7107b2edf2649f982863c6e106589588189eb0c9de4b0e039017, 0x828aea263b9f5db239f9c49e36a2e8cdc8e348f58904138e089cfcb8470ae5b, 0x253955f1058a3387b40981cdfb33b74623817a3894b51087d3f9a4b39d716a10, 0x177c69bc3df7a463c4d26b065562461ef1caff9c92d3bb143ce2b29be13b2336, 0x14d6068c39b97b9a103cb0d40e9a8bf3ef7a6c7bd1d622d7da57b7a22cb1dfab, 0x25dd2b57b4799f6110366e0baea665aa42325019581b8901fcaf78864b51f107, 0x305ec758fa6ebbe5ce50bb2f16ec00d0430133a0dfd4cd79c12d69f8cc0e8ec3, 0x11ac0a8009ce27d3e2183e31dd0175f81284b37c9f6e714e82de746969c98865, 0x1d109b8b68f442a09a062c5a663a0935a96a91219587efcf3e95f0aa293578e5]
  cL := [
    [0xc7b0a104e403dadc80eef55d68fd56d56aeffc40bedad4f44b2ebe780d08ae1, 0x1807654841ffb72e7b046942c0080d97f43191c6d2e78b70e69ff867015cfa78, 0x1b63da1a99ed90f40b0292180dba78b6e09454b75bde64ac9e5ccaf2b2b64043, 0xd7e5c4d321bc6d180104e6a134450b8a62034e98d72c9318c61176453c96d4, 0x2e252a397bdf1b53547239e3c6e9bb5260c1905930644e22985f41eb6a226f4d, 0xbe3e9b1a8abdb889375ae6082e14e37bdd21b8e2a675ea56626e9f4b9d57c81, 0x161b52904a998f03ea62ae67b561f1d74804ce154f928c1e086731d68efb5213, 0x852f56672fc06cbe726036617efd210b8025c85b96766e95925e17f08564aff, 0x21c4e873d8d03af989f22dbe4fa0a6af2a8719d289707ae506b39518349b6cbf],
    [0x1ac41a44314ee18b9f9d4fdca582a052c9b69c09309ae447404b3ba58104581e, 0xee333ba934442e498cede6609a1828ffce94cf07fa7b14c1c991889ad1448d9, 0x2996c68d007ea8d16c014fdb33190fa58ee5de793f07fe4413ee3a4fca43466f, 0x23f678b22fec25ba357cc068eb259f114754a65477022abe24cd07507825fc17, 0x1f6c82714288549da4646534547189349ec908aa2fa02729e979df6a5882855b, 0x1f818e74b9c3a490b612926bfe89e7947168d343c78084a3bedf771216014354, 0x206833435ec4988772ee1f0ebb9313319cb243705c1313de603fdf61a323ef04, 0x171785b03104df15a632aaf4dc7cb7acf47934c72c96310f1342500805120d11, 0x20b7363891cd3589efe83abb91d9f2e6c59b575b8d3ada6c6cc84faf06763db0],
    [0x2d60609bc685d0925cdec6f78d731df0a040638a754da555b8bfe26536a325d, 0x1a91979ab3ad3401872d210b3b41347d44312e5d58df0c1217881d544ba301ab, 0x166546d364e42050f2c39d196dd4189ae824a570d39c02ae6a85d82b00419bfc, 0x1ac2089f74aa7d61b7c44c57ebbb6751be4c8a22b2f82f13b513959bc2f200c9, 0x908ca864a04bcf677dba3cd272c6a1770e7a9c6381eedbf9f0491b02800ff0e, 0x24bc8a866d9b7bed9242ed6a482252db77e9d83ace606293193994aaa126e72f, 0x17a33b4d4a0821176c406b479e38da80d26522fec0931f218c8e54e269b0ffac, 0x12d6d179f18bf6c6c13661026c0fdcfee596af082545f3299e05a8a78bff2e28, 0x15c7fb9fcf8f1a92cf0c677fe58b79065a5a502d778ac6967c022f6f31132405]]
  m := [
    [0x190f922d97c8a7dcf0a142a3be27749d1c64bc22f1c556aaa24925d158cac56, 0x607cd8ff9b889773c9eb68b8a4366469d470cd7c6004106caae95c10c424419, 0x1da524cff60b64856dc1f5dde0ff62da7b182da26908f6ba6e590adebf91b40c, 0x22f33eaee3c481e65801b761a72832908f066fe21dab5fa5ec1d4c6e99dd6dfc, 0x75f84e9c719bb8de8e61083290daff19aaa4337454e5ba804257787470f2f54, 0x2084be9a57e9adb80303a8dcaffd4bb77adb6815168b36a1d363b38425437135, 0xb303449f1bf4b92d2cbc26ab34b4215b6dd7af010747a705b2a6e3398882922, 0xc099bc68243537203f97254f08dfb7efc09de8f96d72f3b3e0aaded45e18b4a, 0x1c5fd9060d4e0d999264429a5004c165570bd1675b09f977708b1ca48e616388],
    [0x1f8d3a9d2d31ab32d9bdb6375170dbba89f6f8f74d16e4fd02f3675d5fe2baad, 0x2591580b73e7b5d5f34d9fdc0cf7fe3de7f6a18a255e4376fde3eb31dfa51d79, 0x2bb4565893b6ffc5799139cdc151158749c2c65db48672abaf24c5b3813c0e2b, 0x1c5ce77776893d48147444b9f6d66a4da29c95707de832756c739eab8e87658f, 0x175505391c619b75530fa83e513184381e603d8449d1e070017ee8ec0a4d25f9, 0x6ed1d14dedf763a3065f27e7a46d7fbf20d2b4e86a0db86692a269767d577e3, 0x140cdda33bb7a79b2baa851df5ad459e7df569b9f2c3da542d3b8d5b76b356ce, 0x35e9ecc464cb431cc92c3356e8a98547e843ed1324c1e971179fd1ad9fd51a0, 0x129f06c930edd36fc2fb7044a6332751a2e3bcdbe756d883716cead6bc7063cb],
    [0x230c694139416f40422d713e13c056c45c3c631b346854523970eaea58a37df4, 0x93cff12150aecb3465c4c99f044be85dcc1eba21d429132c2260dd3d12ea441, 0x25081a00fc20ae366b1fe7ea6b09e62a51f6fd377f608368c12ba4e3bf89935f, 0x2ab8edd22fbe2a1cd3ce9a4212d0efb282ccac28af4d876fc946203070c920bd, 0x29c5ce97710c1578a0990d862cf881badf10e4f6bde629199e803cd1c426be4e, 0x1324544a54174cf7b3cd8ffc4b86320f2319d9b88c1779b89b1916018f3fb9b7, 0x1d18b25aac98b282e10b5a3a74ce5caa169a5c30bae52bba280ed517f3f82fef, 0x2f35e921dae87f1284c0c8ae737dbdc4936cbbb03a03a5918552fe565270a8d, 0x14a5ce1603228d6e6fade57c1da536659ba46d1b25566f12c28debcbedc5b4f4],
    [0x2063a461ad06315ae5992a53a14bb598367624afc2833ccbb83af92ca0f6a334, 0x59116da88a081267dd888204fc6fb79046c3297ccb65f9e0fe0d50b4db44ec6, 0x1b43719cd10b60c5647c097d1fa84b8f3c12c9c475ade13b388c7ec47240be11, 0x26e49154acca24424d5f8d29f650f9824de82eb7887329cbc83a56ae01dee4a2, 0x2caf86cff60521ccc5ec6e2e2c83b4707bb90f948644bfaa8f80b0afcd4cde10, 0x2e923ea46d492247e12e0a7dccf6620f5eea6629b7532b3af246809398859633, 0x1ec6c32f513b8f30c7aab42e7d91aecbe54aeb188a84f8ca46bd7e9741b9a389, 0x23a72c27f4f5e6ea5325d5b368f98b40693b2db1e8ca3d096739753dc5678303, 0x143617efcdbbc0d27a091f28039eba8abb39392e2a462850b1f9cd8532f5075f],
    [0xc574e628f84b6ba9d17b9d2bfd4747e06dd68cda2383d64ce365927098c046f, 0x2c948497373514e7d9846dea9ddf5755337ddb661043d6c628cecb8f55173bd8, 0x22dd201ecbab94a2ee393796fefcca63aa54d9a19ab9c7f20a0bedcfb9d191f2, 0xbadd77f516d4fa321d1099bc1e51909001591ad9919f08ce9718aeeb2bca4d6, 0x24f92793d67638b4abfdf48ce3b62ab5d0e1b250dc274d746f2f7d0544185b62, 0xbbbbb87eccc91d5fb07b6c55088ca514d68ddd93cf31c8ed2d2cc7f23b22b, 0x89beeb21c346cb9bc182aa2b70f853f1a2258d56893ce5a948d9c645ecbc9bb, 0xe07b1d22eed54fdf966ffdfbcebb653b5dac3b2a91f50272876efb17158be2c, 0x2885f2d44be0ecff57d92a4384edb5bebfb585bb23eae2a2ea50806bab8b7bd7],
    [0x276428d88040a3e0f442424d2ffcb8d19becf3fb6ca02c1b5c61b5ddc53ceb90, 0x2c2729812be9ed432e75709133119cb0a14e1b6ea31c1279b7c3e495deaf108e, 0xb8e79838cd30707999c621621e77e69c0f433d543b79c668cf379b6623bac84, 0x23671c5d1fb556063a64b5f664340936dc5ffedd4bdbaa2e96205704da5864f5, 0x2809dfe24c7fd7cd49b97b27150f4d38a340b60f0733fd4530cd4269b4811e4, 0x26010a3f5295bb4481310cbca5384a47af0f9905e4c76bf54b870ef0ffefa1c8, 0x2790643a66038cce4a6488847d8d2da2eea84961f8134b1be36947f803527e67, 0x5fa56d431d4bd09625a86d3623464dc90bd541ea41748f2026f65025ea9d2f2, 0x4715db6d86b513d002589f1f9522f7de3b1a8bd702c167559ede97da2c0076d],
    [0x24bdf6101b2f223174e869d6aecbe8ea5b04a14c38fdf1494393cc6fdb3e42a5, 0x2280d6d4718f9f06b551a988408f0515070e455ed63377e910be087fb79bd191, 0x2082d5647658eae648936cefbedfad2cd0538572aa6122ca68ccced68f432f4, 0x20d7202ccde24901d6ce2d107e79e1fd78d6c9398ba7a4996f116adef14def3, 0x26709688150ed035f959687edf7747ee8ee946b770173dbe50390ab8c08c5f9c, 0x751a4a4af246255ce412c4bb47fa34a51b8628f3cd902077775c8fa488e7519, 0x159e25e00326a76f25c1143a5be6f53fa51ccf368d9974cc6d93cce8eb81d37c, 0x2d6f3e0e98413d5d6a1101b245c9e711bb2e956e27a5870784fd5403b39867cc, 0x88887966c079d2e689a8d6d7bd913e92d326959bada59b99a653feaadf6c467],
    [0x180fca184150c0e354b4b3a4a075824d4b68e8274943f4dd8b0c64eca25dc68e, 0x1b1bba125505ae9675bcec7c9af579c5cc83533c9d555be398afa09cbf95d6a7, 0x277bae2fc597a536adbe9c24bc8ee81731eddb574c6a5142c1c5a48c51f82e81, 0x1d86496995f14264e7a054cc8224900368775c3e5ac6b5f54285f4a73c2171ae, 0x1e5ae4c295ad5a17e00f973f136f1230a6fb85637631b306d3705f80effac24a, 0x28d2351619ccc6fb31ad4206e2c064bf4d9b2292b28463e53e4771f10670ddbf, 0x2486b884370d49a003fd041e800f0a898ab61b5e947997461ee3284241f3baaa, 0x213176bc1a04939fe7d6bc30691aabd6152ed24f309bff3939a0d91d54c67a66, 0x12ded41f8047da3e6c22bfed3ec5bb52d027e560048db4c0f96ca9fa85e17bc3],
    [0x10726dcff87299c8532159976607633f1bc2ad24453c1bab26b726b82d756ebb, 0x17013257716d3cbae28e1c272cb6aaa2844136049ffbca05ca201523032c64d4, 0x30354c9f29c920c05e99d7cc747510e76f7fa69a71594a290eae7293c5a48441, 0x136961746d34fd196025173c4d79bf8b3d1d05291c584928d97258fd5fb4fb4e, 0x2310e2337e4d53c1635da18a2722178d55af583591bcc317eba842df247deaa9, 0x1815e4f7b40a7027878640a6cdc4b2854300cf6fd4953c2ac2c77625ef44ae04, 0x111efc136a9dfe0ebcffae8943e679cc0fbf62fd0ce03b409fecd932a8281b10, 0xa5a1148dad4562eab18162b3914b64d5753e9617a5154e93f7e43e6860687ea, 0x1f47c67a4325672f17b8bd1ddbd80e4e9e6c62419a9c204cc7e8821892431aae]]
  p := [
    [0x190f922d97c8a7dcf0a142a3be27749d1c64bc22f1c556aaa24925d158cac56, 0x7341fdd8b6d7c94a710e78e47ae71d8a2d2c45bf48dcd6fe346d2f9263adce, 0x1c4350bba48cff51ab2e0c56301b9d3b289a6fc4744b61fb90dd5bec31107ebf, 0xc6c426215bd132ce2efae38e5bcd7cbda5cbbff829320f99be9dbda88fa8a3d, 0x2810b0317abd6345a234fbe4661070c9bbd1712c64d04bc8430847e6a5435a22, 0x16ccf6000486cf0ee9eb858de4de15afda028275ae86398b37a27f1586257f4d, 0x1756383b6b2b1db75e494e291804c5ad7d947d6c79dfbc5e72009f11b69c3503, 0x55fe8568018f82fd47de970828d3b5f30fa7f671670bf1b615f8ab4b5df6c4b, 0x21b8cb5fcab5ac1e4a8e968e95a134731f85c9fb488d200998c1152f49d3c599],
    [0x1f8d3a9d2d31ab32d9bdb6375170dbba89f6f8f74d16e4fd02f3675d5fe2baad, 0x3d8602794854484bae8cefc996d566594d166c98e8dbb73e70c0ee829da35d6, 0x1c6b76e0d60e628fd7ca0d7d60de7382c8c7ffdabefcce98d45a1042b4330121, 0x2deecde3659cb16fae536b2a1d81ddc50da450c1e96c100a58157b0b2707ae8c, 0x1ecce2c394a577ba99982bf4035574776ae9fbf51aa4b218a363eb0bd1b743b3, 0xb754798119ccd26f34de2ad1caefa4fc586ec4d6bcad8788a831331802bebe4, 0xf246352b2864232a8afd890b5a5c1114127ff9e80e539b5d922b3d53b4c2cb6, 0x1d6fb6b7c89bb84d5f7fa77fcc40ae0bdb914388f6578747f62f388344139ce6, 0x1aab4fcdeeec99f73a94f5e8503b377394eeea13c9c345d177c7b97923b1014d],
    [0x230c694139416f40422d713e13c056c45c3c631b346854523970eaea58a37df4, 0x20151c663660a16fc26c7452d683b1ae0a4bfe25e01e2d2ff682d6f8c5ad91fd, 0x22d746e18a8eb6059d6913f3d2219fe1d1abfcb21936bf4462f3deabb86ca232, 0x12bf39e8f879b7dfefaa4be7d615736957975d6b386c0cc89bb81a1b381f05dc, 0xd639e4276aa71f97d6d061929e08d78b690054d7933907c91989891d7e04496, 0x22d621427b2b65407fda26214625aa8cdaab5e27bf99cb8f8aef492030fd40e6, 0x1f9ed3d81ff1494a3e555e532cec14085a7d2897ca721cfb41627fd387d4c6ee, 0x1202c35b5378961b68f410413270c6c5eb4861f5f016891a9d3101da67f24c24, 0x1fc69a3e806ab5007fb930b1c0e8837529f3c18357d74533f14c2152147b6a88],
    [0x2063a461ad06315ae5992a53a14bb598367624afc2833ccbb83af92ca0f6a334, 0x14be2c9eea6708b8055784ff7a6eaef5f2423ecd3c987507edb4d57f42263c8a, 0x1c94e3008e7fb1ccf9b36a3b272b4ebf56872e9d3ad09fc7fec8b73f3edc8dbd, 0x19c33a1bef2695e72cd132a78c4893d762540fa2eb33c56a7e4b6f88a15ffdf1, 0x129cda4d6b758aae7d636a11364f08165187bfb7cffdf51c90e7f6feeaa44d7, 0x14fd9137c30861213d9081982e9c1e3627180371bf7bdde642ce8212b70a5ad1, 0x1835c38dfb0f16b1ec8a341397cfb66317dd543c48852d8ea875827e2d5f68ad, 0x70a63f4db1f63477a7245d0577d38f8ecbbd9fd8a253adf5e36c86f285598bc, 0x1c4546e0f6a7ec769233d0ec55edb3cfbe528b846ed015e41d063b9dd42bf1ff],
    [0xc574e628f84b6ba9d17b9d2bfd4747e06dd68cda2383d64ce365927098c046f, 0x21e114b50d11303e7d5e39d69abc346d8c062b3bc70b5a88e0d04c104c89e576, 0x15c4bb533ce05422d3201cd04a12d976dd8d4b41ffb77dbc5f58904d9fee034f, 0x14f45f4497c4a67c90f50bef58ae132c54459facfda9a6afd38dd06113bd09cd, 0x154093b24b8ae3e4c7ecb11ce7f6d10326366c410153cec3543b8f8c696f5fe5, 0x80ef3bf4cf0ee1d45e6e64fb415c76bb901b1ae802c7ddc2f8fcf9a7c4a8f91, 0x1228c23f9d6c7b75373a17d421f64b589d7f486511f846b19d5b5a7a4ae888dd, 0x7d4d3ae7019c26ac7038b866eb5f0b9913b54315d879065236c20ed87c3f2fc, 0x1df9042167db948e9c137df365881a2137baa8afdcc75f9985d2e2a54ff2808],
    [0x276428d88040a3e0f442424d2ffcb8d19becf3fb6ca02c1b5c61b5ddc53ceb90, 0x2d764f3f9ddefa066b449acde74eb4270b819cee10a4125abeb091cdca204756, 0x106913bc4e38bb6868247a3ddb23f7ac12b78d688df4cb4cce0e2a0027317fcb, 0x2968de39216f3f05107f5715ca891c8cc9a238893d7c75e8684813f9b8f489f7, 0x20f194b853c3b9aef7a751d3922d17428d595a02f6e9562f568e2cf07c928ae0, 0x30593e502ac9b6856131ba8d187dfe8d53ad20d4ce7a3b8d89ed228c91045401, 0x2dadaf44fe7fca4988d5777f9324ab2aa8606dd3c4ab4cec318e0dfa9d02d76, 0x2b30b0b25fc57a37cb46759047e4c1906a2d64b1da6bc8048d683a3aae105814, 0x2af620d499b90b1b8bdfbfed437d5c71ffe5112b22d538a33c9511cfe434cfbe],
    [0x24bdf6101b2f223174e869d6aecbe8ea5b04a14c38fdf1494393cc6fdb3e42a5, 0x1a8803986af5a84f9aeab49f048c67ee6ffb4689ef31cb51eff59977d250c4c9, 0x2c95ea22f6df6c0975156b08f16516ca905a828aaa2fae35c5465bc99ebd0b07, 0x17aa91194ea3c39030e17603d9b8bb80fdfd271fc603180bf0ec0b49206a76b, 0xf6884885a376b75b81ed233294372cf65cadae30ff9a657ab93592ceb935c95, 0x16a7398598ffc414f79d6d0dcc11eb3830bc6b97917ae1d9c0486fc6a162546d, 0x259a2acc8e87e4a08a384199ee3bdc03df7a3a1b07c83f49fff07b4da49e4ee0, 0x19cfa837f30749fbd33925eabe3b222452dc4f4569c826e602f2397007c0a858, 0x22be9a5ad9f369512913ab2213536ef1ea927d91f42c69c35be9071d3208dd5a],
    [0x180fca184150c0e354b4b3a4a075824d4b68e8274943f4dd8b0c64eca25dc68e, 0x1540dc30a1b9aedaf029e5ee97b63a63fa1a47a7c59304e2bd1fe7947ce6774b, 0x302fbf64fe705ee3a34e33211937a3cb487838f3a697e0f77c173999486876b4, 0x202f3f28f786f3047f7030428878b673a3152c0500874263b99f2a3f3652eefa, 0x24145768e616bdf16b3099e09e9e56f114c3ee6fa6e49513c2c4f2b3d0002b54, 0x80ecb13362f44510286df98f696ad51beb124014f31fc8cbd9d2dadfede5e55, 0x10a2dd7c6bdcffcaf5b00340731e2da029f81dea7271c8c19825060cbe5db6db, 0x17bb125cabad9ea535325629cbca4d37e5f30a3bc3c7f12d1aa1b63326974fe6, 0x1f5576505ab6cf76adb88b8a85e1bff7d1ccb35691118d4180034fef90d2a873],
    [0x10726dcff87299c8532159976607633f1bc2ad24453c1bab26b726b82d756ebb, 0xf08d47f49171fd7d603461458053fb30596012a345aca5e6c8d307c5ef68130, 0x1e1e54bb56826529a37fb6b7bfd6af40dc9da70e6f6bdf7fc89787a7a2ed0785, 0x275c0ac30445ca28c7836765c9877e439f0b1308e5b8b5bc30be95808c9b7c03, 0x1d3ecd8624f2fbc7aee4dbeb91ff442a018b9a60b23d7e607ea9eb2f6ab6c239, 0x237522466e8ad65c715717c5273d65815a10185498c9e71b48fb441d90b5e3e6, 0x1f23b760586a694ffd7cba2757f935ade52b1b3593968ada9e0268cd71f6ed64, 0x36083127b4a9a1671954c4ec341dab8d8419322c722061075861b41df631a9, 0x236a813f6235546014ac3a47d20bd75b4b6357e043e1fba18a05ac59a9aded9b]]
  s := [
    [0x190f922d97c8a7dcf0a142a3be27749d1c64bc22f1c556aaa24925d158cac56, 0x152fa675f337216339a9274b97b08d74eba0f31110688589baac5df73d06ba99, 0xa60560c145b77121171f32dc6d2fa22fb894749d2686475001e0b4563ddf68e, 0x2402bc21cbfc23a80116e7535240403b3e7ada326d3f5f28e7071680d1b57df1, 0x26770c5cda1a14d4003cb55ac927d68a843b0a81acbdf4d1871a66201e3378e8, 0x4ef6e3423ecb4bd4137b2b7fe78100b84a1ff459cd0a1f7212668bb96ddf0fd, 0x16c6d4fe10c08c64f2bb14fc6d8d650b05c56fc689a93d0c4c0a79abfcf96887, 0x1069cff9be3245f60606f94c1f214a3ac43d2249e725dc57d45716d06d905ff2, 0xaca974e63942bfe230694165a4f72d184d4b7fb8a1674a70cb19cfd61329f13, 0x15ea665435c28d287bdfd4978bd127392ccd486c9afa99454e9561fa992040b7, 0x2545f2cb24c7a7c7af6beac75e34deeea9d532c0308187f7bd3b47b133a744fb, 0x29b34fa5653b3ac5f3eedd790c7b94be1abf24beeb24ee50a34ee12159e94b15, 0x3d5d55635085b4d05b57f78094a130400e4b60548da9cf59b90baab8e664235, 0x2b4768592e18dee0d620b4bb3ec1f0892390a9177108346f9fc611e1cf592dc6, 0x198e90e2b6f066f99bdbb201258054e8758dafdd397a4044af7fe73ebd0b05bc, 0x209c25806fd4006da67b80c5f7a3fb03990dcfe087375143a7a09cc99aef143d, 0x125cff70ce16a10ff53be8b26683420c895d366fa9d3763f14d376cbad453b79],
    [0x190f922d97c8a7dcf0a142a3be27749d1c64bc22f1c556aaa24925d158cac56, 0x2fcc1e873c2460c19aa8ea31876a63c06b6b16c56bf45ea23b2979351661c066, 0x265596228bc6c434d211a6340c4a331df2be3b1e433aee26875876ab83840e3b, 0x13cd5d84d4458fdf99666b4f567ee9bc2663223fea98383d29668084a67efa07, 0xe4546898234e2c9981d06fbe84630d92d6854979472695a2aed5aa1c2fc018d, 0x15ead9f1be93476ca2a93c83125918403b835eb9547d3ce31856d119ae8df0fb, 0x2209a03017696e3a73afcb978c53731ae3186f4ba315ed5dc8ed6578b3d9e428, 0x5b358d46bbf09ffb07f06af770b4c3f695e35af5f32f449a912310c69165652, 0xd4ec14ac84189f1e114ad899c7dff8da5000fb3726ba88b6ed828451e9a4027, 0x212a27391f1accc7e7e01e05868e41a62a2076efdc6ee94f26c30e5eb5c63359, 0x1cf3fedf016306b0bbe65fda50235bc16cbcb1559c3f34ea6ee752f4b70b4848, 0x52d3e0d566bd58d8097a8d1389d1caf33a2f2662de98f06518670773f74215e, 0x2852bb73795f54c6adc9c635d5e70b03dcd03cc1229046fe2173c31b10efec53, 0x23b69fe902f42c3489061de846512d346ad54cbde1d54984e26b551b29cfdd89, 0x8a501e4d110e059ea6a0621d18bd4346af275aaebef1f402449c9f675feaab6, 0x17f6697583d43520562d008293a70980e2c6564131faab56fd71c285392f5bc4, 0x1b7e8e80739ab54fb01d2637963a91622ba49401fd5b961e892f00107781788c],
    [0x190f922d97c8a7dcf0a142a3be27749d1c64bc22f1c556aaa24925d158cac56, 0x1cad07b82878b8c153b0278fbb2e90973327826a09fe720d37166bba7c53acea, 0x988724d5f424785949062a55133a433e27d8c89a7ec78016db5f064cf786948, 0x2d81921df5457361416733155b8135b53f6410a41170670e3fc8204a0bec2d59, 0x131cf6530e31b3541b8312eae98495b9b5435a8d32d35e5247c53f3170a58110, 0x26ca4df270856d7d89521b850e376f46c84685eb832ff0abc83be2e46d008692, 0x148832d14674b5bd61f45b882d08ce10b65eeda4a8d90caeda39210526a2930e, 0x19395b170131e4b969e01d8bcd1a6fd6311b3375c0dbd1e31b879fa6835b9dcc, 0x2617b1f4ad2fdf615bbf88b4efad44b6a7cd5ec6e2c469a94471d5a3add577bc, 0xe0507aca633caa740518c6ed6ff9ca084bb59a7d0d97decf2530fb6ae3cf24c, 0x176ed52c8a9f3f7bef3e084c2e5235496a2177f3418364c3eda28fea7f2a6624, 0x1b1ddd3ed3c82536d4e2cc47820f37b772335bf4530356e590c69938c1ad9eb5, 0x13c8300e2bc52c8d4c12f2cd9442cdbad38235a1e34541b42a274be0146455ce, 0x2f5239bdf0e8f441fc01fe081832618bf1b9628cc80ef508dcd4273420cad1f2, 0x21a41e1e2c6e4922de2cb723d64cbb9496216429a3a5a3c0c6c0019bbbdda93, 0x3825cc9ed4f752a3a61be70f3f2bae0a22416870a8f692206aecf4570b4d751, 0x16e3f668cb7ed8c2bd6cb4687d11dfbd02a8265f671cb58a7bb33a03a5238a1],
    [0x190f922d97c8a7dcf0a142a3be27749d1c64bc22f1c556aaa24925d158cac56, 0xd94596be2cb2587e41dd5ac38707f4a718dda9076b74a2567949a627bcca82e, 0xda56e7fef653a7528ebcb12a7a01082f7e23054bbf948da64bf2ec2452d098b, 0x22ed449e9752660719b8d34f4962772d7c7b08e4882442044c73a8aadab72c4a, 0xca9d3e4986304f7ff2894c105218dab722390273c42c427c4dae8f29d66ca5f, 0x10b01235bf874a5b2e184a8410ab01107cbf0648040ed6633d179509f5041191, 0x126206165d8d964565d3220cbc84cdec26a7643c68f7cc42ac60d1f8618a6200, 0x4878d524f362da3e3aa6dd357f0bb7d5615f26cb758747cdb30490707218854, 0x21127103c61b8936aa157eb73855ef46d5b01587aa8a199478424f3c84d9adcd, 0x15d5439ab67e845a1f55af2ced4e06ce2d577a29fe250f1e8116500d11681999, 0x16a7318212f1751abe1b5c422ff830f1892dfd76737c7b49433e7877358e2db9, 0x245579de75e5089b4f5f0de11d5b88bc5e395ff9a0747a2d33b8cb3e3394aa91, 0x2ee3d749e038889f77c0ddc80bb7cd55df093664716a75f0274b1955a8712a06, 0x277b64ed9137d7914f9445969c33db2f0db95938df3cdad46e6c8d4ac996796d, 0x28c9181f359dfa1ecfe51ec8331b999c4be610300576e07d8461d468672e9571, 0x18a1ec6f905a49044a4920d0a4a1f74a907db755d1f06d2d75551c6e9b5bb520, 0x269587fc49db8b933a31bc6678b4087a12ff762c1a19c3699e0703a39f822906],
    [0x190f922d97c8a7dcf0a142a3be27749d1c64bc22f1c556aaa24925d158cac56, 0x1c423fef62d7ed3b20636135bed12f56c33b6ed3866b4deef95935b4fdb3fcc7, 0x2c39e9c9ffd3f1acdc23821afad680c199de68c72500ba9affa091fc35d8b230, 0x200be427ad5d644255178ffba022a54e5ba811aa0a0cdba615991897d312933d, 0x5bc3aef5509b9df5380dc3ff1806ab689428626a44293af5a2bc33dfd98541d, 0x19d3a7be7f42755c49327c0865f7df015df793d73c5a036f3beadf16022d1bc7, 0x1fce5fb51256a4df3e994252d479c8006547bfa2649b9fcbac1e77699f31e917, 0x24d5b2801c808c74305280fec1d16f0a2185f4f7ea2709627454797e1d694aa9, 0x1b4a744a7602f165651e06044235910295d5be42f5e5cb902cf1bd0a449f44cb, 0x221aa0d3a117f313e2a2a20c6927618baff0fc77188801b96188ad8518b419ee, 0x2cff615d12e087e7d90119fc9c184c7903abe446e206a02d1ade996431e0f282, 0xcbc5ef09419a755b598b1517a196b2ba15521c55e4b940b410e647a57713310, 0x243e638c46a410bef0335b65a5e2dfaef63e3030d9c20894d43dd580fb36aeb6, 0x11ae740f93b3cbb1262d1a6232a4d8c32a9b4e2fcce71620dfcb541a6bf3083e, 0x14ee58652277e60cf9d5c2690dc83b833c66db0f8a3524d9d73b4b78846b145, 0x1bda443673db00ba4dbbe09d15420b772ee22d921a43d236368285d42bced6d7, 0x2de86a4384d67c5e44837bf469091304ab5e77d2eea4421edf64ba3321a12718],
    [0x190f922d97c8a7dcf0a142a3be27749d1c64bc22f1c556aaa24925d158cac56, 0x1b917b840ef31eb7e0a628bc85f7c2c200daa2c53ed4ba7f6a9e1b24b1ddea35, 0xc54f4f9747bf23552798112aec65d4e9ea425c25e4ffbbfbbc3de49009f8858, 0x2ebdec8a92cdfa3d690a4419d1928b4b4d93d5f911521cf06140340913462731, 0x1b74699cc5eb637115960b5f70998323c9c3db826844682cfb8ea43c375673ae, 0xe09a75d4dbde40d4e18b88f63acf3ab1ce50c80252a3012152ac38fbbdaa61a, 0xf7c0e52c6acfe356ef5c75f08788edd3e75cbfb209436f7a5d0c3ac9b250c5b, 0x250fab500f159fe411838e3ac03d2587f7e358cb6c5847df2b427a6c074df62a, 0xdcc8241d56d88000a8b7aa90f6af3a4fdffa80db18bf815ff7a0b02032b2aea, 0x1a34b7894985f4d6b216af15dedc398d4ba39351bd325651972de2a64fd810f4, 0x277bdbfc7a614412262af936a8be70b47e7e5d31537d85ecf155ac3ee482b920, 0xd3a2e73d19987bba8d72256028ea7052faa7e99aca09d9a08bf0035e402c03f, 0x1c00718f76c7b7bb506c09b6e1596c137117668022fcab596984aff97c858155, 0xdbd5f1c327ae5b775eecb71009a20720365c0e482fde75e1bc1371e5c11fcb3, 0x867c2b4fea85a4cab294824e2276bda8a7406fbcd5da41b6e0fdd8b69a2f1d7, 0x1d393af52503c0a9aff9fc1da41662cf9a76ad7d3240890bd456a47731a35b4d, 0xc4efef6ca45633d4ece8715dbdf4b9abe4121a608606d971845e47c70aa5db4],
    [0x190f922d97c8a7dcf0a142a3be27749d1c64bc22f1c556aaa24925d158cac56, 0x280e2e4d9836fd6f43a90fa68a9220a0e5679ad45fb21c8e396dd7c267e5d3a9, 0x50dcf95a7b3b535a88ef70504cc8a444e78f8b5ef48a3486112408d1aab3b87, 0x1ded90abdac843e977abebc17ed03d58eacc961cc82dff032df1e60371acbd1b, 0xc83114862faa4b053ecd3df00bc7bb610d8f777319da6695211696cacc7c2da, 0x2f38535fca1d0fcb6656a7bc9f8d6fb0951cac281e7204191d124ee1f9597056, 0x15a8a27ccdf7f31e9c9bdeb0aa12189a62420b3fc3af4c0ccd527bccdfb31261, 0x8538ca91007b4af17747450f2d048adfbba6ada49300d46163a6141d0d60a23, 0x219358a11f299fe602b8336d6c74c8ed45e0af3437ee3dbd73c7415dd954f229, 0x1a7ae67fd2b95fa482e68cfb6adf7a5f703170ef536e0c07c8f45e212331891e, 0x2d8a33dc859b421d03eb431ef70e9955863e4bfa9a7650cb11f8cfe45521929a, 0x23e68686a4e6ab0a2e24b04c5f89c2db9b6890816e7305ca2c92a912636772ba, 0xc27986848ef557c8645754b95ed9edc215e526d52dd369c0777d4f378465d03, 0x6e2cceaa215aaabf58f2e6ccb3aa062e24e506f3819645131a1f846cfc24749, 0x4ca455e242a91ca2143ae13d31d0ad024552abe39636c4215d7772512868b97, 0x20107d5efa2baafdc19cdb78750be25074d5052d77309209d83feaf764ef4493, 0x284a8c5b8405a825d8acdd215c16bc5170fb4c5460d6e775207047b109fc3e63],
    [0x190f922d97c8a7dcf0a142a3be27749d1c64bc22f1c556aaa24925d158cac56, 0x2617b4b39592cb7eb00834dfb430ac37e799da74e8ea6c2cbac3bff74f3282c3, 0x260555fed187679e25946324ff117f1f487d75d8811aaeb6afb29e02bf9e9b77, 0x29d66baa1db480fa0976c227b8be2b1dff6206980b543319ab8e6e46bf1af27b, 0xcd6ba2405ef9e333036c7567e0e368109489be5791633c12042106eb0dd43b4, 0xbb6ef374a10b4538ef1ce3c0cf6ef6c885dbc2f449892bfd17e82e7fe9890f5, 0x294e76b2d0fc3b732ec3ed8f73b8e1c616ee0012b69d61417a4cd5f18f893c00, 0x2a2d473497afdb60a7008c7dc7ced5a33fed7c5424bb6a1299c24f373e7f16ae, 0x60533676e96c73a3e183dd8f585c78427c0cbe99e97f8acdb098889df1439ee, 0x4d3ad331506308539d84de77d62f6cb661c870bc064fd3359cc711a06baf4e5, 0x23444c530e318b22418fbca527fbf9fff0c2c92d623f365277d65ac7ab90058b, 0x84a073506da63fae8ee908965d634da2a789160f1ff73faf58b676e5c914b52, 0x6c1018af2ab1b629440d513a4971e62b2dda42233dadeed10e4629fb1e15c48, 0xfeae12c9ea34bbf39373aa3c159e553dcf7412caf17269a6c9b7e9dc594adb, 0x21f5f23b0e3f44f8768aa1ca35edcf5e919eefc9d9dd47e44efcc99694e51b54, 0x6209e20306d5ff2ae4443bffed0948b2bab65487650f1e1f956c9e5413b168d, 0xe981747daf6de6e6be60f7ecc28e84be0e4b7e8c07ad2128fbcc12e0c7096b9],
    [0x190f922d97c8a7dcf0a142a3be27749d1c64bc22f1c556aaa24925d158cac56, 0x20802f8ba4a922457a1aefdccc804a9c34b885a1e9f0fd94473479c74e6ae02f, 0x19cac2ada760fa14ad038d2482dc86661772ae15de0ebe6a1a767082432bfdb, 0x2c484464a823c43053113755869610b16e5116f2bb1f3e024d65d9206c3c63f3, 0x20aefc9cd863f976e7e5f601102158b578357e3072ad22e68028640e5513b471, 0x1310a6b902d3736b0a50a32048c81feb98e02943bdb12700c714bf6b255f3f6c, 0x28a2e47b087e9828ea526825aef8a8b4d5a36020f87b4672c36a0b3bea12d308, 0x2edacc0aa69661a65100e4686e467aba4f2c430f61c77707e0ad3c2fac66c096, 0x23b811e8af4e671b9bfd2c2d83a00883108e704dfdcd7944fa40c20e72e359ad, 0x36cf4860115229cc61870796bfb55ab6da45a3dd204e1e66af397018f34187b, 0x1ed097ff6526283590ece731b725b9f734a7f516d6a8b1eabd4120c8d0fce65d, 0x2242d9a8c934bd0f2b097e37feea098bb500091a496bf689a59b795c8d7469b6, 0x2e1dbf3119ea622492c1f15dce5addcdecb3ec045028e9ad6a8bccc85a456ef5, 0x2d034fb552635fa6bd63f5e91ee8d7bfb8a2f1ba395190a177b2bf1aa76642b9, 0x12c8e6f621ed980c07cca4bef17af232d32c2fd7cb3fcbfc971947e66ecff2f, 0x548b4a31bab4692a858acd30fe523c42e8f2dce046f2f121b0c82cf5bd306b6, 0x4985d3b7fc1a4b5fbc70fd37205abe31e33c4beb6f13777967ac5fc07a3df18],
    [0x190f922d97c8a7dcf0a142a3be27749d1c64bc22f1c556aaa24925d158cac56, 0x176ad5e77dbf9eff47130906d9f295bf1139d3cf00fa5ab42bd3e10d357bcda1, 0x37fc3c302395fca97bfbdbdf5ff14d1f71300057e7d994fedd19f2d779e41b4, 0x67b7fa5f5b640eea5c1173aa40084c2893f0b66c4d8eedf9e48444de48cbd81, 0x1ef50a9851144552374b8b175f1a069b99271337c29a94945140eb7e1a9560d0, 0x4a8f411eae9b96fceee318a3d82e839354b0999e8354ca66bf7f11281c865ba, 0x17c90c447cd83ef7d547209c4644ac95cc1017bd65360faf58a8cfb5210bc891, 0x2b324c5a69146a0b1d502937c9f1764757d43065f7c3c7d0a7979552354b3f98, 0xcd0a626b860fcc13465134f015336740cef85aa91bb7c919d4f1285dbe4953c, 0x1f2baade720437f5af71bd826e87e155552a95da11c06402c76c8c574707de8b, 0x1ce2ccd7a415304ac0e6f1b265590359f970553a10bf8df85a55eeebf5cdabe5, 0x1498ca31f8887cce647ee52fb4b3a177a3d8256354cfbc83ef0349fe3685d1db, 0xe6e210f18faca167bf3d82bf9f9e58d6e094c03b56dcbd243fa737e0ef93bb3, 0x12cf450b5228e1b7823665a58c105ab37fb064d287b28f115ccd128cae7e440b, 0x1fde1a9a7f3a95883481d25eda60225f3dd6f67b127fd2db690aac68bb53fcf2, 0x16b2c4b1a4276fd90d0803113fda96bd017491d592118ed721b2660a5576b192, 0x301ae24bfd116b2a5a8ab9c08fe26cbb20d111ec34b7f7b62ad4a95c95531436],
    [0x190f922d97c8a7dcf0a142a3be27749d1c64bc22f1c556aaa24925d158cac56, 0x887f2970f378099bd8129636f847065b81b3cc57e229d2d00a15f314f1b705b, 0x19b3b01cb6aabb13901f8fb5dc1490ca360284f262672e7f0d39dbbfe0cf5e, 0x1b3a6e328bf97c4a2bb7b62451d8d21da221d9f79dde1d20961a5730191499e0, 0x170932e63d8ed05d6b66499f32e6261b8001bddc0ca176081b7fd35f9c2a019c, 0x1899457555eb5581fddb51340488569c2b4adb0e7e6e1b59a36293b3aef835e0, 0x164f7a46d01b3ed26cf79280d675584af03ef532ffca9b0aa1fa4c046ab9729, 0xea2ffdcabe9727588526bbfd56012495f1d56b06a5737726073eb9aa7052aaa, 0x7ecb58097193ca637d89cd708a6610e9bff056d5d477f0f0baff2fc922d0334, 0xf47e601e82ed174b715554cd3d5529682511ac8dfe48cf7f2ccc1093a892d5f, 0x174f79e424542b0e34f0fba0d6451539aa56c56f72fc1b006156f46a7cb7c2ec, 0x1609850116dfde24d7cb5510912ec1f4bc416f9a5e57cbba8de63a2556af662d, 0x10ab565bb9cf436914f214352b48bdb7457ecada07f09215c9522fc79701ebed, 0x25903539c56c72c86dff0d320e4b89921f177b9be69aecca9e52da81175eb5c2, 0x24be2bc0726dec8e7e12fa3a18808211b32d0725f4d6414911c250223fde21bc, 0x5522494472ece35e80ca3ef35636e8e5265563cbe43e50a14d77ed0d9f894d7, 0x2a9d37d9b9bec22eefffec1acf6a2dbdaf5054fd455c300a6763169d4c4c2505],
    [0x190f922d97c8a7dcf0a142a3be27749d1c64bc22f1c556aaa24925d158cac56, 0xfb784243c37202b1648a784010d674f2ccc662e3e72dc97c1e76f0f815948a1, 0x993e6aad24c4d252ac53905907ca3610ef2a5e6e48eb3da752bcca5dca973a4, 0x15fab250b63506ef0b6fbe565b15ca337504a59617751f3e91e75891e8f2fa0a, 0x22b851ba2d74cc07a36f73cec3f54f2e24f7a5ea54bb5356e5570a4e55ed1f8, 0xcc28d557fcbe39f2da5a831f97ab31d4c9748a30c1c027286f47660fca9fc27, 0x392cb28a2f6f3e8bd6f869dee34d83fd84625f658d2c6b02a6acec49940d369, 0x223232ed91851f7027a7413f23b889f73f18f20ea91b308360b074250eb5b133, 0x247502139fe5a4fcceafc47ab0835fab3778866a0387f67c0c11730b7086b423, 0x574e7796304031aa15766be5b419486db72f2cc43798e8a8ee6ade15ea64cb3, 0x1d18392864858785d134b2848d7fc32cf91da60461efc01731ad49bbb99ce7f0, 0x2b927f1d1eacf0ee5d3246fec97f13ddb9ba2e34419a7f0fe151f8d366df48a6, 0x29ca195348764c2600076d9a475508b7fae52d6a9c92196241ac3f08d090459, 0x291930cdffd0acc873be352600a12a6aa056da7621cf3324e7636f25ef4d905, 0x13e6e58779312fd8a2ed9368587b5e4c207cb8cb99621f4254a1704c41477656, 0x74c6fc957511e7287e7b6065c03d55ab19881e2cabab988bcaf997d96b90802, 0x1da0150f5a7104c25413c83f1edcd3dbcc49a91881af8b3809d40221bbe8cf09],
    [0x190f922d97c8a7dcf0a142a3be27749d1c64bc22f1c556aaa24925d158cac56, 0x17b4a6a22f90ec5575a31b71aa505b70cc19abc0fabedce5dfc7108bd5472ed4, 0xfb75a413209d1ea511b520b3ad4e96dd0a548ec6d5ce2de9b0edfaf667bf213, 0x7229fa12e5e9aec5a258249b3667fa5a1a7e9bf69245efdc66a11d4cf9d16eb, 0x29344527ccc73bd6ae01d4ab76d7d8205643e8c39628e5975b0e68ac647e7dd7, 0x2e06815f466128d5b0fa1325a96d6f63e513c3c3590f612d01f0ef02fdf74ef5, 0x2381219c79d22ca23e9bb37cf7f3da8125510c1a9d7e9e26d028ad61f3ba94ab, 0xf724878c378b234a5bc4fe6f51c000682ce95721afa4c802498ff5f4e3599d, 0x2961aca4c9ed99dcc5db33902857ae905af926ba044b93d1b8cbfdd82de72c6c, 0x1a661c53d875032769a8a89ff224b3703864fd77adba88076f9507884ea8dc0e, 0x20d8c84a77dbf187d873feb492185f9341bd7d20d4c82d4c588009102389aa1, 0x273944a60bd81f3c014cff9a5e1b1d99079a7db63860abdc5b850138c3ed89bf, 0x2c3483ea9e8733bc2df8605d84cc2903a10a4f675f803e33090bf1b96d7b6f5, 0x2c1570fa771ac87f6c1c7dcb0f5efe2ae8bceb26280adb11f1565bdb3234193a, 0xf8f2bcada2b15807d4e400663abb7ad2a6c653bd3e27352d2aa03cfacebaa3d, 0x13b356322af7bf7ed892859c3512f21831d23d6ed46bf4c3514762c2a468cddf, 0xe8ffc445422b035202aeb459085298e5c3d52ad57a4e0c982e4bf6bc430879a],
    [0x190f922d97c8a7dcf0a142a3be27749d1c64bc22f1c556aaa24925d158cac56, 0x266878c7dbb3ebf725baf09bad62441c2a05a8cac838d637371bcb71f7e637ec, 0x69ca7aea6fe25ee984031f308b491f2a550e4134769d30dd374c0c97ee16568, 0x190c3bdc4ae56b9371806f99c5247c7f6071ccf725631c6f3435075889f34956, 0x1d325902dda87290a07b115f3673203fbb2039cf470f229881c786e115ee6abb, 0x1b2936a6bb1b221aa267ce939f99c211b758c2128f8d544c4d0b5cbc660fcd54, 0xf9fff4eb7e28845be6a783736f297193297a7cc12caf5dea6f07b5eceaf6323, 0x20e98cfcb657b1f49c92a069ca501f89e96d73ce0791edd336a7f5e129e5ea11, 0x15ddf382f5b945869af8a3bd1a030c98d8350e73600aa0e8e1d4ed5e9a89b5a, 0x93aa5d4e7c2e0b87bf1135f3f0d94b40d59bb293a582031adabfc2a8ab17bed, 0x83ea048a2fab7aed31a80902174faa9f1960bc2531d18de673fa873fe688207, 0x4849567874ad0253387252406f2d8860b26b6b605e98c874a585bc157c57a39, 0x10315d0548c6fde9fd87ab4a523f74d3a5c791e455f90c34b399503fd9662149, 0x29b768d0c1c037e2c20b133eeeee017166d2797ba47a2e647595e5f0bb433c7c, 0x2072b5dd1028087414d36c4fcb845d4e4e719885af8f4abfab39fa404fc68e6f, 0x1434175409254eea7c9b9fc3dd93314403e8cdd56f9cd48348198334c700fe6d, 0x2da9b2eb148cca6790f4b12286fe560880d75e66bd4c64ef8ee58d7551ca56d0],
    [0x190f922d97c8a7dcf0a142a3be27749d1c64bc22f1c556aaa24925d158cac56, 0x16bfb5fdd4ef9b81e92336ef013f8430727960333b76b5eb81dad8ef220bd284, 0xf746438c3f4e612f088a4113940619b5d96eec18099f5b912b816fcacd03ac3, 0x25f8d85e6102bc16cfcb5dfe2a0a6850c4f7d045a3614908d332702320cd2445, 0x19a23070f8afa08c4a0a2e8a1067db44e95847e5ef5337057437eb68b023ddbe, 0x19e74aea657fd4206322de101be54c0a70ed001eb5a3b897aadb178cee98303b, 0x2a32e9f7f76615c5bc2cea017e1e937997d33d011ca2c543dcbf08664f247607, 0x2eb2f9782b5103cce27210e54c6d760ad28af00a23b0252a608ee0536525990f, 0x324cbb7ff16c463fd8860a5c6719122702f8f055f721f7c2ad5121d03ccb6a0, 0x4fb92743eed5177e7a4eec1917d48ba4bf2df9864f477edd9984b5a1b37d95c, 0x232e90742d5251ee73e1e55ede489421aa4d9b7f731d9209e18ae772b1dbf163, 0x2888b0287bd050425c3241bd7d5336708c1d2410434d0bb8a094320552499791, 0x5e878a6e2dcb5fb6176345fb830caf6edf06061a452e94d1d49a862b1563411, 0x603e7150eb9b06c9c0b94832d53bfacc98e26386e2de0047d289e44483331cd, 0x40392b8780bb071d2acf492bc6c49d03ab66a7d7d1689f16a47160923d6303e, 0x27005786e8d1cba94d005f8821f564a42500562da999b4c40163fd15d20a7188, 0x2f6ee6456256df4b7b4534f97dc725df7d9e359a8af4f84035db5ead72d85594],
    [0x190f922d97c8a7dcf0a142a3be27749d1c64bc22f1c556aaa24925d158cac56, 0x249d2e3a72d67b9ff1c12f00d2e2d15213b2c3d534ee1fa7e0726235d5f8a76e, 0x66af81c271fdb20f0f7947ba7689567fa0acec8e8760311b200713a3cbf2915, 0x2d07f33cec08d772afc8a847245583d60fba733b2874e3f14d59770a6eecc1d9, 0x2b5752992e1969c88ef2bd4cee7cb74d7af5c73b2c43c148d47c0094163b7a03, 0x17eed7f1d2c6c6d5a9ead4a939871196848682bc2aeb713409769599c6fb99d9, 0x2b0443e7dd8fa52629acb60c4d9f489a3b485f9bdaa3049cce07b90494140c99, 0x52e92369cc40d1c0cfa00124ea29c928b85c7b64c1b5a9111c07a33d28cdb7c, 0x2d590ad359f3f6d0aaf8317cc35b62d92b05b0f5c685cc8c3a369de6d1d1ca99, 0x2983673217a3388ea6ec1746e62fd0c1d2b2d774e63564ae271d77dba331817d, 0xd5ce1123b37edc685e8c234f618c830e87b1b95c108a83cd9d5065ce002130f, 0xf9b69256d0d0e083ba08fdf1bcc73a95b7b378ede36d8066cb024b8820bb003, 0x290490f51237cd7ab3824f2057a7a2eb725f946442c7987f7392e4c85e8dbd77, 0x2bd1c921b2655ffb99e5a5de025d08c692fce4e57a3c401fd655e2d05d92a653, 0x3fec0bf41ee1a2c0a7a0b7ce73053431a26d2b7db92d42a41911e6129e3fa9a, 0x2d6233e08181a3c9db09017c0160c2ef359139513990884baeee525b2597eb81, 0xfbc98b8d3b0b6f2b8eb1e780db16d98ef5d4bf4e65ca518e62dc72f693544ac],
    [0x190f922d97c8a7dcf0a142a3be27749d1c64bc22f1c556aaa24925d158cac56, 0x1f04cf1ca4f6db30e843ddcaabd4cc71fcda39b55533db1a8b61488aafaaba74, 0x1a6f6a78583cddaa58898327f4ca8e00ed729dd41c464fc9ab0c5e0d1b2e9bfc, 0x3e70e81573bda5c6ab953bcf41581cfe4c65e2d3c04cf1ecf43a2c8ad250d06, 0x13fb5b6c8df4a5257dd67b782727d8a7d90ca92c5d9a755847a1d3b6b71cdb90, 0x4d54595c25b41536d1f203e1a367acda8feed3369537ca2557f5da49f290e84, 0x13671d8ca7ecb93d29c9123bca96103e22f68fc5a16968fe903c0f30e8bd0b44, 0x1486a9a8302df3771d974c562e1b03b96daff1e1fc6bebe86595d32608a85bd8, 0x7cd279d7d44931e437f59bef5027f14e49400b0847f4117c762ce21ea66775, 0x2358686de458647dcf3873e187eaa940fca529dd9398d2eb002a1e6f0878ac8b, 0x196d60cd8de82119c9360e9ab96b1bc31029ea6bc5a9c891584febe494ad5d53, 0x1e18e5d708702aec708672582aebcf2e4dad6be0100a7d84f4822e156f2370b2, 0x18d0a6119479f34c41acce9a1086c6b1a340a3d4eca4bfa561e4205eeeb8438f, 0x41e39755ed3b12972463551f41d5f1739433b966b759014bdb9d214ad9a6fc0, 0x1becd98d1916cbaabea2082b8e7f1765f838f2337121baa896e437be5d4278bc, 0x2d11307d21979b68119899fc08b91e02822cfb7c49ce878ac58584913d6c8a29, 0x24b7d69ead7cf1c4c204d6d3e23368fd40db0f2df00a4a8388557b6110917538],
    [0x190f922d97c8a7dcf0a142a3be27749d1c64bc22f1c556aaa24925d158cac56, 0x1c414080171ef43535efed9c5babd2275b89e5b175f3b71314f6c59040c97808, 0x397889b8011160475bb4d6d3379351bf5ecf90800b9cdf57bd3aedb21053cce, 0x24ca54f1fda634f9bfc0e39b0d4d6a738f7a012898e9c2bfa4a42ed533e52845, 0x171598e7caa20c990e43306d06b2fbd5879619ac63904e4395a53ad5d60e60cb, 0x305dda5b8003c236ca1d724beb0335d07aa3b2ade1ba21c59dd763f3019b5ec7, 0x1ab2ed07578120b399df57c5f109a40e47eaa956e66a6629e1796bde7174bd21, 0x2a47862d2f0d0629863c878ad7fe7df592ba7f8f3f94e5e5a85aca3958229f76, 0x1bbc9591c66436dc5cf4bb562468584632cc91a200b1f08e1a28ae61e5c30abe, 0x265e971c9adce13dd324bc968020828cca064ecf477268ab534265d7e5e2ea21, 0x1df96d7436aa2918ea082546a9e3e149130fbae6776590846e0632f3570657e1, 0x10a8c8aaeaea0414d87c0c1553784b744ff2e8965942d3828e14c484f84d2535, 0x63e4901d2d6197831f94a5ead9b058847ad67bcd8514eda44ca69a0b0ba9c19, 0x1af00487deaaba2511ec6bba34b8f248a5106b11d69cebe26fb5f35d2745feec, 0xceb1792ea63e2bace5b317ceff4597ccf3071a67199612396650e8defea646a, 0x7fc963b8ac37064379d5a652f999038ee4a250e0e3948cba3b899840a119387, 0x17aa663de33227a947a00ebad16999a905bb2976d0c997a9a5a9fda6690754e2],
    [0x190f922d97c8a7dcf0a142a3be27749d1c64bc22f1c556aaa24925d158cac56, 0x27e7f01f7e5850decff3c8f5c3ee53951fbe076ca41a7e1807cbfc4b8eedda63, 0x13e9c09190f744dc7563c578dcf432de2522b7c7f995b2880957c5d2c54b27eb, 0x291cdae728ab7b72e119248c0646d1a7c305afcf50c9dc1c1eaacdc9660d21a5, 0x2df268da059255b2d959f934bc217781108e61710f0e3c460419d11f1366f45e, 0x959f13f2c04b17e795093b408f590b85f707e54795f5df80bb57b35c994dbe, 0x2d83db369e2b48848a27b55553a8bdb77e067a93f1f28db9de6c65b14818558e, 0x2cac7303cf0462f21c4c154984fef173c428c47215feb2c0355c15de4dc64ae9, 0x1f16c3b17497d87c65b61123d1954717fff18f21ccf4c86b4ae27444b535222, 0x211a857b06dfe2df621d3a89a4bc05dd0247add6ce13502fe7fa37e63888f7db, 0x1bebd0b81ea6cf89919ea765ea6d04d035d73cf7745eaa757cedfe625d10573b, 0x2cb676f0cac23cd80bc40f3269d2610fbdeb7f20f5a74d72224525c6e3ff69e9, 0x1e478ad6535f1ecc579056c6ac6ac8744f8e35209b7a081f47a5b0c33bf144d6, 0x1669c72208abd4ae25158c9c73156e966504dfbb6a4bf9b6fe37a1e1053b049c, 0x18a94771fbadbe268f58cc38e48ee81e3cb5a94b8b2cffa8cadaf75a171de693, 0x203411c7e08bbc6a10164451062b19e131ea52d02dc1588d3591c8abdfe1fde6, 0x6cff9d23d331be245ca3ea0e37355132a367f5ceedfd64c842dc9aef97651ef],
    [0x190f922d97c8a7dcf0a142a3be27749d1c64bc22f1c556aaa24925d158cac56, 0x167961cb9db6a7f1e253bf7c7d0711beed69fc736276820f1f7df8cfd1305bf5, 0x251b413e3039cec0af54ae9d0dc7ac5ccf5feeb9ccc482a4a4e93df5dff6eaa1, 0x22461b5ae9c4937eff6dd0c2ad5475f20abd4c5d13aa3894f20ce1ceef0511d4, 0xd3c8cb0ca400d52f3eb96f6e403aee53c9e2283a19826f9b770d5270d3f2316, 0x14fe9ead6519febc01088fab56bdd7826c35952169e8c60782ea746036fcef1, 0x9e8b9302c470b946bb4e24b13b1692266be83cbb0f833527e1971abc11676e5, 0xaa736ba6817640b3613ce5c87cac8f64ba74ec23f8f5c75f0cb1dd2ee552f00, 0x195c4f3bfe08a064f19d6fbb6690f5f723ccf6851db01e64dce49b82640d624e, 0x10bf96df637b9926a92efe91a6095501db10b10b9b8207e73eecc3147dfbe14a, 0x6f9ea58e02e97445f704f68bc535b1d9d6ecbcd4d151bf2bf9f6bace985c14c, 0xdb1da59cb0bc70afbd95e428861a2b708b9894749a2a88e62520a767c4e6d48, 0x41dc2cccf102bb7168276813ff0dd2a3ae59f4f35de8aa1404160be701d566a, 0x33b21d96a57d2c1d44c1482289bc607254a0395fbefa3bea25983d6e1d70893, 0x27b5df4b4bde32d934353e58dc214d02a835318804ddb812a81effded6706985, 0x16c436812dc3bb29c680d81bbda2fc964fc0cedea2cfbe4f9f0bca7451e2c26a, 0x1075ab0069e8017ef2b84b9034c0e4e981de009440f57ffc72ac633624caab5b],
    [0x190f922d97c8a7dcf0a142a3be27749d1c64bc22f1c556aaa24925d158cac56, 0x1f158c6c1065f78b5f780520f03c584465ffce26ad183a50e11efb956a8ee412, 0xbe6ce6cad51b6bc14791f01fbc62bf26f20be46ad5839ddc356afaf24dbb219, 0x226643746553477c60b99089eaaeac4ae64b308a3c56ab343e55a6174922306b, 0x2e82b3412adb8919fea66a8e2c0d8c5fb6376944728224b79ee3edbe56334e2d, 0x25af6deaf2918fe03edb3989dc037a834610d69bcc3409e13e7fd657b6c404f2, 0x10168c4b7ba5c85008a4f87c0325d238562951366b754259c06402e69422398f, 0x20441555acd94f03732b606acbb25afa0e3cc39c7f0602214eefb497b4a340de, 0x200658fc08ceb25b3e1ecece3989b682546d415f3eab6596fd7f63a9ebcaf3a5, 0x8dbbd95a7fee39cb863987f4a9dd8c40ec8c1b94f21735819fa9d6fc524547a, 0x1679802a70dd63806557cd2d8dbb8788a91dfc982c672d9c2df04efdb12c6980, 0x18b5ee46c9ef30ba46b5c242bddd68c8a1f891122ec62eb0a1ce4e0efd408297, 0x1760042648d3c88f3800bbac32caf5e5fd6b808f50af91cc5d834f3aa9bd2128, 0x2bc24aa17ef22eb5273e6812a0e597bde1cb74b65fc35ae06f09358d966b243f, 0x1871a1352a74bfb73dc35b7245903c1906a12dc3d9448667225b1d61a83e8cc5, 0x15ffecc09ae5dab7e235644f38c84af5aa6ca42f2d23b64bdf7ec536f9e7d5f4, 0x2c9c4d817a1351cc3f659d10453598cddcb7369f9f5978f44025b9d847935a55],
    [0x190f922d97c8a7dcf0a142a3be27749d1c64bc22f1c556aaa24925d158cac56, 0x258f6b7174e2619e3c94d65ab10273d210ddb46eca06a22f81117fe5f02bc38c, 0x7b65580ab28befad1640084a12ab11bde32586ed38470937985e2ea07eebdde, 0x2251fd1d0a5bd91d3f958b9377996bfb6f7e777f3b2a3bec54befd9a19b429a0, 0x226bb0f7370463f705b99cade44a76fcd63a762a9685f7a254d9bf67d9711d19, 0x125b1f6876e2cd4548eff5a6ea0598ebe43aa0748cfdc53c83987489c871d0c, 0xd6400436f874ac40bc4e3e392043675a8f8bd071e38ac56d630f810a6c382b2, 0x152557b0f424f9188e7c816e36f83ff9be71abffa7caea38fe42b0b7d2731395, 0x2419922a2d394b1837d8687453eed9aac005a6128ae835110a204cd57663f4e5, 0x28de832e55c53a37639618510388ac059fac106d2833311efd450dea8b112d6d, 0x19e9bcba7b55e568c983d797460754fad7f04c39a4d078a0faa9868557f34ae1, 0x283908c8bb48fee64ac955e7fcb47040fee47edd7810e5ea26e1d9bea337e1a7, 0x25c8ea766fae5e6a1a1a20af4b178812c0e3e38eb4c5c2340b1fbf4468c9bcae, 0x18cf37ce25ef86d2f7c9aeef0e79f0abb007fee6222e9952c9f734480bf974ab, 0xd41106aab9ca69696aaea2184622f814fe087b12f716e2dae58069776e1cc02, 0x25a1462f1d5a2353e1af93865e7ebaa573bcdd2271b268415b05fe113c8851d8, 0x2d96abf52f1de16d6ed6d4d9279035f5bf5b825754dc21d11feb94e3b1700cb8],
    [0x190f922d97c8a7dcf0a142a3be27749d1c64bc22f1c556aaa24925d158cac56, 0x18e5610502d2a1bdca2d2cd38baabc9fd641ca4e9ab4be237ad32c72dc880c85, 0x2bc2a1228621dc365cacd7d5607b93181b585843070c12a7abe98c2ddf0b8ce2, 0x3e57b7e7ba3e4e3caccb663416bf20ba7df9fd5fa25d95ad29970a6098b5d47, 0x95beee076b8de68c794636c1a75a0f1f79e694e9470af6557dd0a756ecec4b, 0x2063d0dce7c0e4dcb6eda83c1d2e9d2f8fb7d2754b2a116c80a5fce17ecbdfb8, 0x2793560a50cb73953010b7881649cf034817d3803411649c83fe7de6c7dddd22, 0x927b8161885b12371bed6743e7f3cff4e26596f26ca6e10ef9b62824c6d9408, 0x21e570ce0b93102f53c6621c813a62dfef04444d67147e86bdcf6d89982174c2, 0x4da2abb8299af33e497e76256a8829bf2e90fdd6e170ae91514dd25fef2450, 0xaed6f83384c5c1b36797223e5b98e0dc7e322b205d9946ad59be72a56401995, 0x1043df1375a10cac3d79397e2572c2de5910c9b0cf9c8a36a8597362e2cad2d7, 0x102b5227284acad6650de094677a51bce725c6da6fc1043a7668e939829a5593, 0x71b883401c25bfdce86be56ab497a10814bb19804c57834b4eefb6990b0ca4a, 0xee706d85983efe15078748f8f19a299283737b33a3c7a74f3c10d2e8d938fa, 0x1e3ea0d9146581209b7018ac5660e20c5033641c101f09823d5f305220da9b2c, 0x1135f9d772fcefd07385bb7c8b5fc0bfd38c1c41ab6de2da8c8b3bb3dc6ba093],
    [0x190f922d97c8a7dcf0a142a3be27749d1c64bc22f1c556aaa24925d158cac56, 0x5580932f510469f70096c820d9601ad87ef2f66990c8e6eb98d6a6dfde27a7, 0xc072aa3c1344e5535661baaf0855759b2489b40320116ec0b304f81402a9a73, 0x2c5e60d6d9cee50f3880234e54b391aab138c81550ffb9cf7ffc83e118fb1612, 0xea984db0b29d0ceeef9eb065131137d696b4dcbe9b29e12d0bdb74736fa3cb9, 0x1461bb4b296851abe76ef1ea0df56b555c76879960935307fce97eba31a58550, 0x217814f2d889b58d9728a46eebe679760022e1d564c5024f6b77667d3a31838b, 0x2e34b63991a98aeef1161f9c02adde896d1be685e9887af5ec9bfe845d2fbd25, 0xbb51a53298cbb5297405c865b6ed23804c9926319ae9c5c7c1ce2478d90c59c, 0xf0f1ad048e7b93df29617d62561ac209b488f58234f3461286e592f64a1dc90, 0x24856651f6c6c72ccdb29fdf1fe0a24388247c5dbb8973c1c87f3a933fb1a341, 0x13161ed9d7133008bfb93eedf4c667744c0df4cee0e0ad9038fd0968f726087, 0x1ff88f2a80b4078a90df72d706725ed9e450488f975fd006196208e399d8dec1, 0x2c300ce9260279a67bded94acaf125b7c98cc2208455fdcbff7fe98165c1d4f0, 0x180152334a015c3e7d433b92f0ed2365345ba1b3dd06e556eb6a39b45b924ba5, 0x1469185941b34b5a4f529c1b5a724dfac28aa98c8f830f8b1045ecc65b787f4d, 0x7be7c3b4de9f53e54e3f4f871cf62f4c7720d3a2e7baccb74924faeb3bedf89],
    [0x190f922d97c8a7dcf0a142a3be27749d1c64bc22f1c556aaa24925d158cac56, 0xdbd81cdf5b54b534485c26ecf29628e9e8070fec90c34b780acd5bbd4e7f0c3, 0x1735ed9f6fd2ea72803084da6d7e20c4735bf3de68156bdabb3888dd500476b5, 0x302871833d038dc61a984da78e5037234c7b2f114e495451bd388879b8ee1532, 0x5bf32698276e20768a54f9bed48935b674ac85bb3d9251e1075207c1edc0060, 0xae9a1e0aeffd431594e5745e8f4d3e5800361e8028ea0b4ba98419fb0fb578, 0x2b98b2ea75766211d9a125db8e6e7fb4a913812216365b1f6d2663deb1f0c19d, 0x15c0f1926bd600c94b15ee1c00e0ff93c7de8b4a935023bb59c664fe01f30bf8, 0x18f86036c6136aa605da0ad3d4251e64ff31cd436d72b90ee5d3157af6d79e40, 0x28542871e40749022211b244fce0bd160867865206c873f6668ec51a429f9a39, 0x2432259e7f4740024bfb2b71fc694fa8460971ff8869fa46f539faf994d23d42, 0x2cdbbb1f729d6ba0040b0fe63e0ab2e24a1ed05f4c2947f2a4dc78d49bf68617, 0x1f7d6c170f7a83d6241fbec95436b20478184b02ff7f4cef3deccc92da64b3a8, 0x18e6f168622d4679b6579a5bbe6419d8c868d67294944f8246a81415b30e6119, 0x9a3e52a4ddb98644cf4a701766c1ca5ae4a35ef1c11a017dd6aa11945fa53d4, 0x136a031823304ab94c93e3bf39b189e240a81e0a42b6060e38c7c2064b8148fb, 0xd82d0c90c41c41fb24d7160c8f1708c258222ef0539a2776a20c742dae0a624],
    [0x190f922d97c8a7dcf0a142a3be27749d1c64bc22f1c556aaa24925d158cac56, 0x2b0f98b255bc9fbaffc4b09dfe423873babfeb16c64a31d8f7ba70db133e8425, 0x137ffcc374ae9e222e733fdf9d0c515946baf3c1aeacab2c6218180eec5d6a48, 0xe6a056e92c767cd1fc970b338fa5c7377240432e6bd45aadd958d48f15d6033, 0x264c9a5c6eda708da60f401ff1171c9ea279af17f1df202bb27cc56773a37853, 0x1862618d4abfaf9e176dff2dfa86f1b94e291ee3e02dfea816637787edf4f37f, 0x4d0d2b042b8d971610b3b9433f373d693a306f1082186a35a8ed6a758e0c11c, 0x8854bcafc5f356516b2df46f5386a116f14de1b197290316d49869ee6dd0187, 0x4b8696c509d9557bd8cc6227caa099f002c5101ff6d5b7a4e48284e31992562, 0x125c58848e89261172f9ad256ef6cb755841d2913f2ee2ae9d68fd2eefa84d9b, 0x181ffc981c54778532d7ddd39ede7dd3e54d655cfe6681b049df6d85f76439fe, 0x198f1451b611973be77cc3ae7c744af71b1c94e3e87056b7af1e949e92cee5a, 0x4c9f885fd1b69729a871eb611c4a9ef1e009b0605a0cc3befbb806701b63853, 0xaafeadc15dddce6b214e3991babc93af04e3c6db03ae0e1408a503e1eec3433, 0x225622d35902840ed662b3dc9480d941545df10f2f1a8199260a65018d7af93, 0x209d4d14e8b9192e061a42f149c09d0c9831a1f02c35412f4563cfc03304ff9c, 0x1192a624780a6633d00dcfc49ab6cacdbe3d4a62f6c7d8abff6094a678714f2a],
    [0x190f922d97c8a7dcf0a142a3be27749d1c64bc22f1c556aaa24925d158cac56, 0x23278ece68d054afc53c1489204000d720cba66a63842ba7269e35e0bbc6d14, 0x9177ed9f3f33508db8be8f15b53360afeccc2f208bc7143bd226b4c885786ae, 0x175a7d6713e16fdb34e680606af50037ac78419ba5cf0dece2aba5d849184975, 0x1bd2f6eff3f24489dd492eaababe1b0c09b50e983658c1dafb2bcdb69a724195, 0x16b53ba34c5215013c262d62007837ae1cbfae155bc7cb3da840bf945becccce, 0x2c062183d49d2fd7140548607e86ab487b7a6f4da0109dc8b37955c866ba91c9, 0x22451ab479c09eecc408145baafa7f51fa598b3ff2d057365903ea317ab9064, 0x82f7e3f789ae657cef0f342c994968f47fed29262d4242964e0e793edd2af9, 0x11139d29901eaeae25fe8a6b8b27062045be218be37844305ca3b7e348b0438c, 0xcbb2e8c216cfa7779e8085a1a8b24ea1ca6446a664b48d576accae16c0e12b6, 0x48f7ffdaec0a2144b28a00ffeb5b61300386fbeee792be38552bfc8363561b7, 0xe0bba24d78116594570dd93a932c82b5b6730cda14170f58b73105e29fd59cd, 0xa4dc036fd4d9bc2561d3d0c35a0222670c59e5a0626e36811b56646b345a0bc, 0x1a1f2f87b5b4221b764e44a68abc8f56f6a97936fcfec06a3022ce00a3017373, 0x1dd702226b6b31fede8c6b8067fd51da81ad5b970b023875c1ae5bd2d56cc29c, 0x22c40118e01863b586d4bc9b2640c4f6c903410c17f5bffc7032420d494d5058],
    [0x190f922d97c8a7dcf0a142a3be27749d1c64bc22f1c556aaa24925d158cac56, 0x18b43cb399d143c97d4f8de9fe9c4aaffb6dd3785d9ce5dc9651b975b9054167, 0x12c599db262111be3d9842cd39f3a6f34e51abe1c1bc0711e12f69c3cc973e7e, 0x8bb47ee7a3961cbb9c94a68b2ccd3cf4ac95e8836f7538addff55f926bf496e, 0x2f5694920b9644b4396caec1b4c4150eb46a18cca0ebd71c4be28cedb456b39f, 0x307bc951cc2c9d4eff936eb6098bc1fb25254728e3906bf089bced7826fb137, 0x17bcfa98efb68a8236a23a716d27b3cc4539c8e79ca9026a9b5423a6442e2eda, 0x14787ef740948dfc067ea4f81bc1346453f77806e6bc39e3defdaf82eb952e96, 0x257a201998e59bfb34cf5494e14c65dc3f2fad4fcc76aa9dbaefd0005446972d, 0x12a8d99dd91ae7dc9bd892be2c72d980ab6459d3a6fb8efb96a54dd414906257, 0x200bf208f11f7a4a4de085188220177b52da270fcaadd23e79e9e879dce364c1, 0x1a9f530729b8ca369b1d5e6937ae365f01dde06c24722bf111ce4ca5c764cb06, 0x651d7f9fbca106c4e8b3b5a1ce48b2db6bc1657f7aed28d952e28711132c0ea, 0x2a3316648cb65a090f0faea9d38323345b7d4a91a9587a9e8d1cae632896dcc9, 0x1553ad82056a8d74b3bb80bcced6a7779eeba7eae923ca8b492b9bdae81110ed, 0x130aa152e81341ae6952e6732a315d1567f3ab12cdff38449e42c18ee55e388a, 0x2162c9c868800aabd5be303b798357d4530f56e0d8c94c99e095740337911cc9],
    [0x190f922d97c8a7dcf0a142a3be27749d1c64bc22f1c556aaa24925d158cac56, 0x138ee349a5126b8c59ffcc05c3e58041d520f8cb80be3db2d0b72af7a24d090, 0x2e59364c831ea593aad5fe14da76a1d7705b7af94f331ab85362c4b5943b8b68, 0x24b0f5945c543f6ca8126782d2337ef8dc930a1b77c0e133c6fa94fa2a19a462, 0x2d8f29c644853834a8f1a61a8965a9890fd8460a82ed2520a9fb332e6a22b983, 0x1e408424ad586d58ca0a0481dc08b8ee63f96c838175dc8a652ada892c293dc0, 0x1cae05e2d2ed01ae5077fea699a2119531fc30938a5ae2c55ce656b6eef33b8a, 0x1f0c1735c782a57b3049ebfdb7de3238a608fb6fa9f89bdfe199c3df1c1db15f, 0x1c9b672560571e96a5590c64c2c5b799e1e317634d8de5b731bd7a51a68d5d4f, 0xc6e7bd2073ed42eaf2db5a728b6d4f1245a87e614b322c25fc51eb0ffaa6eaa, 0x1fae1dfd513367218a20406dde57d573c62196c4e12f5347ef486102e809cef3, 0xe408e6db3d016f993a53e864198deee0f2aeb8309bd66f33fcfa38f401c780d, 0x2684ad738e6116f3db8dcccb6c61cbb27fcba040b598ded972d6422299e0c09f, 0x2ccc5b6bf5cfb7ba1e8a89e76404ba0067c3d817bf3ebfbbe4635a789c7bf067, 0x2e3dcba12acbf09be187f2b4d453be5dd4f3cce2994f18cd1226c63de056e868, 0x23e70e3f73723a94ddfcbba70771ce2f5a4e15b4a8f51b2828c05cb07ad2a19, 0x169c46ee7bf4e148cbe64b6cb8aa1abee9fb5fbb04997f18ed315345a8594c5e],
    [0x190f922d97c8a7dcf0a142a3be27749d1c64bc22f1c556aaa24925d158cac56, 0x7cdcc3b6498adde2756987e13560d7664f1e805180ae0fbbee1dcf1fa417d7b, 0x2d9b8536ae52537df2579df0ff0a06d4a99757ad71652f91d3d724b4eb970acb, 0xa1f0085c5a9cd49df855b92dd309c3681293e5af0417301e9e5e68d1b34128c, 0xd1376badc16946a4a5f324390a4c6fb00baf670827048805a36b06357c39c1f, 0x106d0427df7fc4dd7aa26de279073df7fa15370084bc27e16f5f12a8b01551f2, 0x1cadca4ffc5bd9eb861f7ef6e7ba8aa20d7709c633c90111b98e094af29df8c, 0xff923b3ab95cf5a3957cd89d03319b4bba3287807830e11073542019971eab2, 0x1202a33c0359b51491e38826ccf21bb0c545e660b3da916ab91b0e02e30484aa, 0x11608aa64cc3dc635c119d0691f46b0a479e142e0532f9256d3414369f5e3010, 0x127d38a920bd78f2b5feba943466e85100ead21ffb0bd048683c7e7ba457443f, 0x21f792c3d068276d10650a4ef8c8e6101d763990945f044ebfc6f51126332d07, 0x1bdbd707d55dc4709b586695c5708e9973eba79a19d6504181cf8692f7f636be, 0x123ed252de9f1a986305fb990661544d1f0bb2d12e3e5abf36130d680d61450c, 0xead6abad94e79729b5e708c60dca274356c3e5142349c43382984d4df096650, 0x21eb504af959f21f9c7a6b50a58bf5278209a2631dd62bfdf6175af8f22b3c0a, 0x27a7eed4d44ade3583fbe7ddd6fe43796ab32266aa3f4ee382c20b99debc6e1d],
    [0x190f922d97c8a7dcf0a142a3be27749d1c64bc22f1c556aaa24925d158cac56, 0x1462238c5857d995aa2c7ccdbe788cb06271537ea1a299f28c307a825e8cdfd2, 0x20c2ff1b99b7a949739ea108f5f462a0aeea077303cbd515bc7591ae02a0d43c, 0x2aaa992acebf67c5ac50fce7824cbf41e6e5a9f87cf42926fb964505ba60c198, 0x2797fd373735895c3192ae84ed39007478a4b3435d8a497549edda3d559833c0, 0x135eb9d0101c2a78ca1b03ca53bc556a8c9af537d77bacafbff7f9bc66be9b98, 0x2f594669789d1b805b611c27ca33a5a102ca3854938369a172c78de5a4083851, 0xb8f930192502857b534625bb6ad2ff73e94ef4db9565a7de5c513f46fbc3e83, 0xa520b7ed463311aa8ab8e7b8fedb2fe271214127264cb3a0f7a32d0fb871735, 0x17198721be91de95ad64e64495b07d2dfae45ea67b2c824debefece304d25858, 0x12b591844eeeeb06eed46691ba7e1bd4d6615d2aee6f1c040e6334596ee06d0d, 0x2e1d81aaa4a22d294a4f57ca1199bdd171c6bdc0ceb9e9e4f7371b50bf3fc969, 0xd18e43e3b9d5671e7f8080d1b451523e655cbf183ccccbd58793628aa689057, 0xaca56cd420446d0f57751deb06906cca2c88c5bac6d35a2f721702b1bb56c53, 0x18370450204ee070cab3e252535bd279023c9ade36b971986e9f4a821bb0ca0, 0x10717c1af2308a9d4ae527c637257974d71bf361d742cccfd9cbeefb04120e56, 0x229af48ad01840fada729de64d9ac6c4e2ced8d16820f464b60969310998be7a],
    [0x190f922d97c8a7dcf0a142a3be27749d1c64bc22f1c556aaa24925d158cac56, 0x1f6027d1806f3db36b0e2918305ea28007622b62282d0aa7d2d1c38bc3a14580, 0xd023c3469f5337eb7ad3f6a1a9a3cc877415f1aebb7e9e5a955ce93ffb786da, 0x2b7436beb1e205a4e723df370f2c669857eff6da7fc85771e7dc8256f511c547, 0x2cf4f5bd0389a8d20b9cf97d0b2e75a429f36d01e1a1e6a9eaebc6002e6d7f27, 0x2c689316dee7e23d23cb31070bf6225d9cc562fb57e3fbdcec3def3143d073db, 0x1dbe68dff3088f0cb02990e0c030039e116d0196eed2410a30e91c08cbde3dcd, 0x16a3fcc3080e28463fa4da66d305d58b74885dc099dd32b159209361fda491f6, 0x2f84ea8936e6f0e98529bcd5d666e87d8c7e68aaa1787fa673b8920669b10a6f, 0xf67f541e326dfc3555b54a5a8089013085f3cef05dcdae0666cbe4d1476c1ce, 0x22c68a5cd419b439a367b742715697ce0d2e09a481dae8751d7c7726837211aa, 0x2063328c09ac22652283d91a52d9851b919051815bb5ad070ee015040835b157, 0xe78527a4658f58dac40430d4ddc9043ed3cc910a8a0e30b03ea904a781ba8b6, 0x1935fe3bceae0bc5b8a13b073b2678048252e77d85f393f84a1bbf1911b41bfd, 0xdc76ca0df681fe5c3b9ccebaf864ae495c8f92b48bb3d9d40274154da97286, 0x119aa817917a73d46dec3e58fea0eb8ebf74041c1b069b1a83ad4856b1809ef7, 0x2aa46d04f1238c646746e8df5bd0cf9dbecafd57d5de4f743fdb593379ff138],
    [0x190f922d97c8a7dcf0a142a3be27749d1c64bc22f1c556aaa24925d158cac56, 0x100148238e0ea61c5b6b81fba32193d55597904d4b1220500edcac81ad52f68c, 0x8243c72e44e0114151fd9b102eaaa569fad5df40df83a1b52accee13fe49fab, 0x156b1e5836f0f59be75c7f198a5d153ca30f0b79882036489937fa8c3b6d8323, 0x2c0e264b43ed6c4b0c36fef6aaf1aaed9091f35a830550ac4364d602bc9e9e4a, 0x534b4de30df58163e970ffa0ecef0738a9fec8c0ec4e7d9d15a666a16f45c07, 0x4dfc3e86105970cac41059c73d5f2ce55b16f40cf638a85521ff270c6e11e29, 0x183720d9443c6a59364afe5312050095e335b211598478c7b005249e89ced914, 0x1dd461fcefb3549ba9a151df4013b323b1183ebdf913126b53003e86c08d99ef, 0x2656efdbacd1d58ceac9a0e79d35044753ff9b7f6dedbbc6d8a48fa48028fb5d, 0x2ef319b13362ac4e82896c082a6fd4a64b9cb25efe1e0f5068deb6fddf95d02d, 0x13e976b891949cb18b46fe1130d4fa1b16342e954779fdaf98258da7192b9c91, 0x8c80492d0cc609e181c3f9d8e2da90f68390facc7e468d29d49ad9257f55c28, 0x1aa3c7c7a08d082afa7fb91c6f1c9f989b98f9619b56dc62c7ff1e18c6b72c86, 0x1d115ed240331ec2adbd0a398df0d4dbbbf2f6392bdb03085e088d60d7f02ba9, 0x1444e0fd467ba09ef9c1c6ce9a80b4e7be755d0e9f81a90f74f0ab7d110015da, 0x3ce99d4bd9007aff4e13c2679d14a31d6467b32827e68f234314d3013266217],
    [0x190f922d97c8a7dcf0a142a3be27749d1c64bc22f1c556aaa24925d158cac56, 0x1129b914cee489016fc3ff8d20e2be4c9abc873041ba82bb7e7781e976961b24, 0x21dbd50af59bdf352310dc018015a605fe2dfe0e8e65ce1feb72f2972b985640, 0x25a5291beb01d9f13ed31c588755e56e5e6158b2f46341c86eddd86aecd52d7f, 0x8de172c56eebbffb029ee873bff13163cb2d06caa46108bae1dbb2c40d22216, 0x1dd2d55f238308639169dba6066e0922ad620678106ac7a1091b7f7ae0d3090, 0x189191a64c9e4d960a7f281e378669034e779be7ac0cdc6e4fee4da0659b04ff, 0x141fd736c823aff77ac2f28632342c25d14a649b026ef03f36961bf4eb85d4bb, 0x113a24d1bc9d10e47f90f308781ddcc9b9249d95bbacd113d88d5a6ea33721b2, 0x8f0b7b38b133684b73d01fc731f895bcb30ea14364715ea92920501722d81a2, 0x1bf14ce82aaffec31f46bdce8d22f3baff0f96b8bfa00499581fad99e61f6076, 0x14b7be33a41e00d0333a0917a729539fdb90ba42f12451c63de66fd411f6e379, 0x2107e9e2811d6ac968dfadd3ae015e3f71f87d0c5d5c5ce4f9f7c66bc92a3931, 0x9e1397c5f39d763040b82fc2be1a64262cd5a4d9f32491ada436ce437bcfbea, 0x1d1a01986546a0812d3a4dae34ab33abe9cedf2060a4f654c7cb05d1298a03cf, 0xda3f22ff498a9cfef80f63e2c92dbd95928e85463777018a0d3204d1e50f38, 0x25b74b90af9818fe0fd8fbf33e539dc037a45ad9f433bac8dd3717b64600b622],
    [0x190f922d97c8a7dcf0a142a3be27749d1c64bc22f1c556aaa24925d158cac56, 0xf3d58dc69226c994ada311ddd4f11174b51c490cf3fdd93047540be437cfc8c, 0x1d948e7f1fa4705b5ae3e5f030a59ef966fa374f1d6bb87fb74d57b76f2b61fc, 0x224176ed89ccb581b45f6afac435d9b2fdf08a0f2622a5a20c2ba4ca8738fbcf, 0xf5cfe8147eeb9451b966cc087d2a9927396a83cd407d7f22afbea6ed6313ad5, 0x1b73e95446d5beaad0bb2c324a27dd0fdc5445ea8a553289a88cd540a7a8a633, 0x1b0f4b75472ab2e5ad4482742bcedf3b45d90177dd52680bc781786ea3e96be3, 0x2e189fd270377427f98adf8a3f49917ebddffe7716ad08db78761da20e671fa, 0x7c0a2036465c336f0fc397665c86a87ca0173ee19696b8fe7e6075283e5f0fe, 0x2fb5497d60412c8bbc14b961d96bcd9d2cf82a25da250d7860453dc0c36d3760, 0x25aa324c8bdacb11e81d612e258814beb13dd01a7de07d57b721a6c83101233a, 0x29266b9fc1cca7e41d3c58443362cce77c81557f56e3b2a9a0e3165f38fb28dd, 0x1557e3cbcfa7fa080014f6ceadf2ddc22cc1c6debade1eb605d0cc2755268dd8, 0x28ad3d8ba97896df26b3281b73de59d9d3a055cf84e24bf4b7cfca4a6f18e1c, 0x27692be22a3100758923b4b09be3c0e1ca34c62eb2875d4ca2e95199ef57e13f, 0x26cb523869e976355b8b2ead6493c3b1af3b24b9f619648976a925dbfb9c2520, 0x2a943b5d83171ed1ba5b2d0151f770d05cf117e28c8a2d0bd07901124b7a78ec],
    [0x190f922d97c8a7dcf0a142a3be27749d1c64bc22f1c556aaa24925d158cac56, 0x24917421c163008e468b59990ce9c9659723c7a143eeddf00b22bea911a23faf, 0x20347f9b860c7318d8abb5924973a6032790ed146dd51c2b175890e67c7c14eb, 0xc7b4b3d63f3985e07d15f46bff54c7f1382c7fcead2fc4d2732369ecf62312a, 0x16c3c15bfb090d3c32b6783b8f35b56bf1ed17cafab462123eb872e18f40bc84, 0xf4bf0d79b3a4f157a77cb759e8c3a950c2bf08d3b37e6e2252feda118dfeb6c, 0x207bc2820e9268ac4529e9415d7094f6c4a3dd32c21fb6f34a6721806e60a66e, 0x46d6e4942fc73df5a5c24e50a1390fcd3971f81416ec30338d988421d471e62, 0x25d86cb7ab23b7d7829d52fb3d3c2dc42ecb745bc74e6e29c00faf2eceda60e6, 0x291e27d656977488568245f7d60e5d31f7993b3530b6e7a5d2ecc5ed8bfcab9e, 0xdde8d80231232c0283b7ad84aa356bbf7a3e7605dba21f29b53fd949cd378cd, 0x16b9bca3f4757ee5bd884c08642d294730db13f90182970a962c956d5ded06bc, 0x148e1434a77d59aafd26c76dfcd0d9dd58709b43c99173ceae6ddc899e39d810, 0x23e38e3fa1713fb566e00717c0a22fe7e056067f7f455cf67c239fed5313c484, 0xecb380bf60702c006a2e0b413bb060a7dafdcf4d8c736483da381315d128380, 0x1504e0be27d971001c9c52f6ddabd8839fbf3cda3a42dc01c201788063ece2ad, 0x204cd425d4fe74aa1fc3966950209bd6e9966aa7df1f515e5ff4eb504623704c],
    [0x190f922d97c8a7dcf0a142a3be27749d1c64bc22f1c556aaa24925d158cac56, 0x26b0354a46c4b6f840abef50577ae0160c403ac2ae154cc44dd1b3ef95cc9a32, 0x76acba1cd92e4c02cec66b997f2136e03c86a5099967b8d2d6c3fa51ce470a6, 0x1b9f835efd362eced66b1b4feb359a5a292e5179eca20536bc05fcf71ce8b0cf, 0x1554b5740239a036650e957cf54880a05ffda13bd4a40b9946d1454b6e5ee619, 0x2337f0f2350dcf2d2c4cb2f2e3c8cbfe8eac44b18a4e7df6ab9659c6d3bd51f8, 0x2f70347a3e263a829f4c9524c0528c57aad8197d74f498c96618b82d6e38c750, 0x2ae047c01e6b790967c9af15fe9700bf12a32cb4742c75ec4f2264355251b598, 0x12bdad753525224488f0df2411e45b18e6d99df86b64ee5c2e1eaaa26b6b1165, 0x7ed14a9dec030c79ab897464c9c31e89ac5d398e5fc2330ebd747dc62704e80, 0x2586c2f08326503a7ccc396ada19284c6381f5402a1ddee59134036c6f9f4c85, 0xe28de3e58815af816aa0e449cb6b0b68151fc3b74c8844b0433fb556e13bf35, 0x15ed9ae17b48708404c20e204de218462f5c1de7a672c0400b1a4a97d82be2fc, 0x2897a3c61ab7e1096d59db7d062d3509dbbe5288e8503eb723a783668f39363e, 0x19382e0101202bcff4c8186a39e4ced12ada7adcbc0d3d535a37fd8e4e65d6a8, 0x1dccf64cf1043efc8ff525df9a110883db70b13bb644c6567c0ed56006979547, 0x14f753284093a5bc753e6e4516dc5f1856c363cde9ecc95745dde82f8f475dfe],
    [0x190f922d97c8a7dcf0a142a3be27749d1c64bc22f1c556aaa24925d158cac56, 0x47ce0768d3b94501b69470f61a3279af86cceda48efc0aeb4f755ce355a8c06, 0xa838da94e6aa2b7e3c8d24fbbd1abf9fe09cda8242afff691d57aff64a307c7, 0x2ccf7207714857e1b96f90a10f6662a0a161fef6f8554acffb454b475cad2249, 0x2c964702e998844a760e735d74ec7fc17e793f656653128910e08a1c48b27399, 0x26c73fcc286358f8a8c45940e32da21acecd2723a3e6c00003b875972e7e4215, 0x2503bb71691693c6cd6c045d3f40b4cd2885a71adf5348642d80b44b4274164b, 0x21abb0f3aa09de0569e24a9adf7863bd965ce656e4ee30611d0f063c1b6b1d49, 0x1e6c18a3ca281852b9738876128c7d16d2fd27789043907cd624471d1356d10c, 0xbb323797079be60788e8c257caa1e1e9b52b8f58128eb49dfd8d7595fa8275c, 0x16ed4d5164745fdda2328ab28d0ef0350a3bb50589d72655d0e0d5a8f1dbab81, 0x1719e6626ea03d94441eddcffb00dc8e76767224986c45f5f8bf746f72e33805, 0x20dd2444d1b30a7e45a076776b4366f04e9c5d1b32a43b260d706f646a098db7, 0x2276006ca87d973c1f5841a3b63aa9e6a4f8446a8a0ee03e068fda23a8a2e0b1, 0x2d3e7d6feeaad7f3c8700e6293a0d896028d4149d57c219935463621fa77998e, 0x26f15d4ba4736c73750ddbff4a7d9865f06d5676e449e9d249d3dc9ea62053c1, 0x3636803242973ab91fef85aa46df13cba4ac9f6537aa3730c0da88b9d05c751],
    [0x190f922d97c8a7dcf0a142a3be27749d1c64bc22f1c556aaa24925d158cac56, 0x2ef01bca238ea43551e5857e412427af1daae81b8d9aa0c33bf392bb9e71f123, 0x3030333648057d1d46a7a3973031a86637d6cdec3559bc12fa3bec6c0aab01cc, 0x24dce91bc3df505f0593715987d3e6bab8f1847e5eea91341a9d1e83bfc39abe, 0x27a2aa95ce7bd870fda385fc945d76269a9cb6d64b85f943430c796311d03868, 0xf32e1ed6656688b400c42da52ffa8fac2d25ee877612e565f9271c1cdb216e, 0xd69d7d99a58af860357adcbab763a96d048806bb1b3352c3ddcc0795e6bfc0f, 0xfca01158c0aecddc404d7561a6d4ee7c6e7baf54eef93f1b4c72bd9468d8140, 0x24f65dd1622f5993f172c7a803a71af6d9936a45fcf2f11c65a2291693c409c0, 0x23b6c1c4a9697834526084cc56e8b53ab3ccb20e06ed7bd94e752cae13e04650, 0x6b0b0674f9e70ca31b8658df5a918b6aa90ee4da8272d7ad50109ab73af2372, 0x119ea3133debe120feb5b0ff2128b745ade6329c228d8c93ef9ecac933de75bb, 0x28fe0921f3e250bd0d74df9669ece211330111bcda65ff19fe8bd02779da7686, 0x121bc322c37b3a84cfa33407bca08421c76577f4ed5009151ee61de9538906f0, 0xc6c6d133c64df4a3f148d03064ab681f6754192023f96e5c660181bf6708e7a, 0x1f357b000c8ec106142c05d7fcb45bee3ca8602aceed83c3254d1596854d8e9c, 0x2c635fbb8a475d22cc9388f33298ca3286d55e529d8167d036cc97e28b5c1109],
    [0x190f922d97c8a7dcf0a142a3be27749d1c64bc22f1c556aaa24925d158cac56, 0x1416e46669e99f6376ed9f1b60b4c1cbe2c13f36ac1a0961b28c0a4ded622be, 0x83b993a01c06914fae37498067d1cc7575d4d6692e905a76c01012829848e35, 0x7d66eff962ec6ddaeb23a84cb8fc53fb2435fb0779fdc6de042af8cbf653e, 0x243493ca2e9aefca93b6f729cd48e89c5b6977dc8b9f128e80f2181a0c9321f9, 0x25315cd8d5b5f0935df3ad290e18c8fbb1aa8a200af1b3b7acb784f2b1eb65f4, 0x219e9f27376ebda36a9da6a406a6c2346e6db6c35e36390500ffbdd24c754013, 0x2784f770d363c088139614dcafe4e82fec4aff60cbb9420b2defa1e5ceaf52ff, 0x2ef0972f7624a2c71c7339890b350f716c7fc3cb884c48df73788cb38e8efe3d, 0x2638005f1bfa951f04d3e6967a19ba68e797261d015fb0b4a200084da0520420, 0x19952bfc2b15a1b7a44e59a4f007076a56aa61c9cb4fec45f42301ef9157a095, 0x21bfebd7f0dbfa952f62f95d4475c079f623f56f67ec13f29e51fea4b142befd, 0xabe0cbbdad752e9c30c665546f1b68cdd2d556f659c98c9d0c4048cbf0ba4d4, 0x20c4f2c291c5f0b15e54fad44d549bdfa06e8405141d07446ecea299bded58d4, 0xc703a5af22bea77a163ee98e379877fc276a2e60a134bfa6b3e0f3674aad830, 0x23898a43fb970529f4c12bd16e98f891aed64fcb59738bd5c2ef1d7f5b9bd4a7, 0x27de205e3b4f798811873af0dc39f91c449bae168ea2b2ca268f0fff421969d],
    [0x190f922d97c8a7dcf0a142a3be27749d1c64bc22f1c556aaa24925d158cac56, 0x34e0217aaa3133ffb88fd09bad59e44d8f0e74e1a64c86f3e9aa4587000464d, 0xf0d2954a3425d4ef6291aeeca8d1e1927250f8e566688bf01f77206b6a0e0da, 0x38ae6c953b05fde8ec1997151d62106c38561a6563b7c5c42c3ca3f254ebba8, 0x129dae3e6abc9b3eef8419054977e8ebb35956b5da4731f87a1558b93d5b676a, 0x43331ce5bf13e212c36bb6028ea5edc909d6807630483960ffd1e472333de8a, 0x6edd2bca6596515c7bfa7f82c123947366efc923072442cd0d6cb3cb95b6590, 0x218d39e5cb24a98ff778833ec9cc9c97154a2f0dcf576e36841e61f2a9d53c10, 0x7babdb5f969df1056dcd1a4d25ecdaab931bdcd410f51443221f43ee9ad60d7, 0x51f51c6edca7ad20f95cbd07ce9c5c51918dd6639ecb58e2db44f9da92ac45b, 0x18d0cb9110ed2c13ca697c51731265461aa40cbff3eec69770c471bfab8547b5, 0x151c0d100750fd3fc64ac7ca148c41bf2634c161746e664b6403e1d5ff99edb6, 0x1badce073db9156bc6bc0b05a5f9ad32826ff80c20dbb90991c59b84f1887631, 0x1d09611b11f20c357da69b64b7f235ea79741583cf177a43141caee3928bc88a, 0x15903ccf8bd20aaf86dc7a0c1919a20b2beefa10ee9373ba62a75da5db50cd54, 0xa3ed89f4229594227e8d35c0f775d81daef83cf50f6daf6c92584dbc86bbd7f, 0x15c5a6fdd9b6ba06ec2cdeb9f465fb29a83a9345daed49e0c27064b2a745f832],
    [0x190f922d97c8a7dcf0a142a3be27749d1c64bc22f1c556aaa24925d158cac56, 0x29c47b21c3c1399dcde464739cd972c2ae7dd8511ef4dc4ab062de40904cd041, 0x5d20c3e118f7e163803874435eb8c4f939fad669606a0f8823155b46636b40d, 0x2a8adf7b64ebaf6bbae4363b8de139b047e49cc258d86927cdb17f64d7a76365, 0xcfab49644bb24735309134d8f1160397b61c23766c13afa2f67350700ea184c, 0x978c1e24a56e9f48e04a00ebacf84a971bf524a94ff82c9fa6cf2a4145ea323, 0x1e7feb08ad0759f1632751fda2c80347296a181f33553bfd11c84e3b99e4dca1, 0x1636f1c4c6be9b16647fd56e418b432d81dee2c09c00d14df526a491d03df083, 0x1d0941c7678aa3814c49962f80f06a3b6ff48c4563cb563925c87b621392968f, 0x1ba792f0e7770d294979a396e2c55b21baee98d0be48705b32f831f2d09f470d, 0x1adfb90be5993e8a8e82466fd94d2142e05c507c38a0095535894369079e2858, 0x1701417adcc7a63515f58d3fe4840f96d7b87646be925abf5831c7d9f6839e9a, 0x16669c07129defa028d468884eec4825c1852e6ae60f5acc4a7a7754f9383ee, 0xc030db661bf66032b9e0abfe88cc482f134b5f39b13e8aa20b540d23a5cb4d6, 0x6c29b50030b9f9653c8cfe80928a76e6ba1fe5385109b7e606ef07634d53130, 0x158eff715b637ea2e1c4312cfcfc154d3dcae6d2e240826e791dc661d4122a0e, 0xb7414bf9dacff0d87b4613d9bb448ef0583f07948cb26d86963b0442a478865],
    [0x190f922d97c8a7dcf0a142a3be27749d1c64bc22f1c556aaa24925d158cac56, 0x2fc5816a8a9d54f1397ed6dcc705505ca28a50d608f2d6b0351d133ea65cf8aa, 0x24d04d2b53f9f94b51e0300c6bf97e655ab6bb25f790365c64949876fc8e400a, 0x12c2d385c706f78b68d132d1677f1c43fe555d3d9bd6622de8dce6a01aed702a, 0x2cfc07b04b7ac6bd6ff67cc6d32ace4717cbc56974a70b9e3dda54b1741ce3e, 0xdbec9e92d14512f3a95f1bd6eb87e7684fd099d747641e16956e281834fcbde, 0x11110cac8dad45362476f50536e03d139076972f5e03db946753ed0034ed3050, 0x17be085a196605f2b021add82a2fefe6c062bf2042537e054642c521dda6e462, 0x2d30434c0cef5fb5dd60f6b52c01556819bedd08f87f0c191941f95b833853d0, 0x297804121986231c72d5f3db2bb23cfc41d9091b7f085eebf0905f59854ad640, 0x263cfbe2843370e8f2352bb41b51d59a8f9dd4a39552922021dae9bd777d64f3, 0x1ada1b57547ba0b44cec18e94b273c02af369be58ba4ca5dddfc0c54c6d952cd, 0x1a022e3c7f181a5af4ca6b68ea1e8636ad7a51eb2e49779fea2abda08058ce2a, 0x1a51a742b5e2a8cb02194fe5442fe8160f887d71a8c624097cc751e6fc9e106c, 0x33a3c4fb2a336862528fe456e4b28417f0cd5b8d702fa598648593cb27ff95b, 0x275297e881159b1ff115beb9741fefff245fcebf2267fb7788bcfdb710ee11ec, 0xc4330cf0545fe0d4d56dcebff69cc7564232b0ba94e58e879f9a838fa43b50d],
    [0x190f922d97c8a7dcf0a142a3be27749d1c64bc22f1c556aaa24925d158cac56, 0x7b613d8cbe7c7e104e3144d883270530e6b3190606a2df92791fee2f3f0db30, 0x328bb8607f89952c7a0e199a914abfe679afd366f57160513708a57b0bc0665, 0x2797d2a42bf2c3f860818f92783ee5b77ea5c8ef3ac3433a4ba8f8934fe40e7f, 0x233e6f522a14ca24067c5c09affc7b53af6c87776525bb21d9058d01fc106af, 0x390562c095c160aa786394027404bbd6a3882cc1118cc8ed82307c6e8d80084, 0x17106e1ac0cfcf36e9d75f64a39807c812cc85b77e3c5ada491629f71d978f6e, 0x1aa28e48122d0a44733a370e5031375a8c9c648cc46dcf3344621e6cd4ca5c76, 0x18f6e768b9bcf25d37f90fae8b9a4c5cac181b9b05c6bceb922d50d8444bb79e, 0xfa9340f079ddc476b10060bfb852af827ff712c5c9fea03f62d13d0c670d988, 0x1db99f295b05ab42a946c2c3a5c73b225ba99ee53dc906eaf360675867efafeb, 0x97578aeb43a7d6b1b10240c0a6b9b771d65b7c5a3a5555226e3ce45de3d3477, 0x1974c34d88938d66ade5546a726dcba9bd76c31f1b4ee763af03f8d5698f4a87, 0xe25a828aaee6f1168bbd9ca2c177973a8f20f4d8bf3aec06a0c24512df222ce, 0x2e13ee7394e626ffebeaa09712936f8402400971986556871516f2a0eca9057e, 0x20be54787d3e6d7e91de4a052172de99a251cb83be6fad47ec5a56b053717254, 0x2019386dbf15958ed2efabc0f81184a6710e0f8239e8932e25827ccaabb750],
    [0x190f922d97c8a7dcf0a142a3be27749d1c64bc22f1c556aaa24925d158cac56, 0x1195db45235e0b286717bbb0e7fb7f4bd5f1346a8d6d47dde45513baa490207c, 0x257be62b59d6f54c021c27f0c3c0a7ca3222dc5ecfb298bed986f1b6cb74f79, 0x2fc61e8c69f1b6a89a698d4bd390f1ad961ef1c979c315fc069d1d3364630829, 0x4ed6dd96dd4ba79b9474bfe10517c93ceb5a6dc5b95497a71a38c42c4171dbb, 0x10c8d7d4846014d1d37d7aa27311dce9257ea1de1700a7175a03b358f12c0dd1, 0x7f833418697f43d68c6792ed1b6a4274500d96c2894313f43d9185129ed01b8, 0xaa1fb14156f9db59737b23efdaccc40d8f609b346809f66d96402e5f9a2c102, 0x1a3b635b05a022877abf26c5378da756752882d30152a75e75095a4992926de2, 0x5ff6852ef2c7807df8c68cc1fb842fe07ef08892e6706f4ccb3059f1d80714c, 0x18e93ae4b4c092b271ce21881f133bb369d09e3726967ceb0484698a6cb02374, 0x5f1d71fc99fd6e8dd1a4ff1c6fb4d16aad3445b2c5b2698a8ca995b3ec32fdd, 0x260b2c665cf863248a5c9a03fc5ec713c1d32dd3bb17f3a6dba7af1690317514, 0x199dc26831d1b81e333ea797e6aa2e76ea2e6cfdd888393682076ce77fbd4cf3, 0x1fc7841c3762549185cf197f765c50f4da97358c40cb69cf74940eeb165417e8, 0x3dd8db3c33075dc724dab7416f943e45adc39e147443ffcbf3fbed8068089fd, 0x1415d87f2ece25dd6da8a9b56a5bdcef4f235a1b676ac4fe0ece8bea54f0d620],
    [0x190f922d97c8a7dcf0a142a3be27749d1c64bc22f1c556aaa24925d158cac56, 0x173e973d92b03e8f7cd54b5dcbd49e5c93046288c5bd8ac95f711e384807a40a, 0x1e9e9e8f087fe7eae21b84385017d6306c73ee4dcc5b09efe1f91b9df6396353, 0x2cd39e6fda7b0a75926254d1b4bd27ad6018ea559290d2041a6a1cd485026cee, 0x2babe32c6ad1c466c0923e89242ff07997ad91281972ca9690ad77806c79f9a8, 0x1671e3aefead10c1eab057577cef2d003653275ea183f956583dab5e6717aef6, 0x638040b4e068d6330e2073b9042e25763872c4564b413d1d8df3dc5271cde9d, 0x13a1be086b1c130fc9b0377bf5f4c7ab4166b34dc1442af15bd9ada0b316489f, 0xe92a08c67a64c7e267acf28a048035d8d702bc0e49b7157132781f3f912c04, 0x24fcf21bb660a9465b6a50ea1e0ff6c88d463e5c14cc82e7f333bd8cd9e9da57, 0x19c3400c22778ad2608cc33d103d7558b909f2bffe1128945021cfa3996b90ce, 0x1804ddf73341fab213bd15ac4fb0b38b210038ab3097df363df15449ca092955, 0x2d030e104eb695f158216f2d17baf589c6b7eb3174702acffff3459faa369209, 0x2ac28b5273536d5520dbc0f2d1ca6225372569f2c1f815eb0d98ea23bde3e0a9, 0x132369e44fa5b49f309bdb51e3f76481bc7151112c28ee7c6058d4404d326aab, 0x1030d8dd6355ef0e8b3bd213083f0540158a13dc059335b0a68471c1d8f995cf, 0x10754be6667d0c88da8d27c8d885c68c2ec53e66879efc8664a313846c8db7f4],
    [0x190f922d97c8a7dcf0a142a3be27749d1c64bc22f1c556aaa24925d158cac56, 0x245fdf24ed7cac6d987a5f1098a3dc2094e8445ea8a34d409caa0de9ee8833ad, 0x2ddcd4b1ef28429efb5371343d7c1aa34394b214ba4d3786a72ff4a260f80341, 0x9796da1c54e94658988e1e47f2ab2a18fb54bd12c0f69761a11428d2bf8060b, 0x2b820079829572e4737fd84b55e00d69b9842681762d614c4cc9f4c83dc7c88a, 0x2a2c8f2dd7ed7049029ac58e2483bbc92ca9deb979598179962834099a206d0b, 0x2e5131ed99601233301a58544eb5b390adc2aed2f7bb8975f4e3089ba598e03d, 0x6f800a70d479c89318ce14ace0c1f7ded913cb3186aa67acc7290b35f941c80, 0x848edf27122e8c897ece8ff31c76e8e3da4ec246480e769809bebcdb4680146, 0x3032a7d711f11783b0cfa12d0a9bbaff62fb9d75cbe50aa6e684f9285d55840a, 0x156bb4b89a15827370ed5326bc516f90e80da2b33bfa976b4c9a26f4c0bcb5d4, 0x104b800aad84f2de01925253de1300447944ff027999bf3a113dfe28236e707e, 0xee24634e1374e506d3186a10f60315beb8a311ca69d595c0afa0e4dfad5ec22, 0x886f6c8618d45654de796ffb0a718eb65e5236deff84adc493e6a49308509bf, 0x303f792b77de056334bf4b95c535b224edccc1d65b28e52d569695fe0a86f7e7, 0x2ce5f9bdc64ab48b32e5ed411be107b280119255d976673c14ca2e70c76fa68a, 0x26f0252f0b0b6f638aa04dab03f6a8fe7875a84fe5c6763aa9443faabd36d6af],
    [0x190f922d97c8a7dcf0a142a3be27749d1c64bc22f1c556aaa24925d158cac56, 0x895eaa7421d5c92db73111875ff0e97d1f1cf13454c8d0ee65ae0c86cb9f0c6, 0x5a37e53d3c5dbbf9cd972b637bfb018efcfa1fd5cbe8b5dbf9f37608783392a, 0x2151abfa55e801a5dd55f82b711f05b3e61fd9c94dc77201a9e62c89091da8c0, 0x1df7040bdf6398bfbc5dc0bcfd52e2cb6acc1e32ea9eec40e1c14a173615a901, 0x82d9c0993ae4a12a039c11aad12743c5f5d286c648a89b4342169aa4100b9aa, 0x295f9f8fa059d54d4b582213965eabc5ed6f785e4aa71196f6238be2c511bd11, 0x11489075194474f063993741279cea5cea810bce027e64ad900225ced81b35e, 0xc308adc9b0dea53e1c37e06d0576f4ed39c2aea66bf429ac00575a9105112b0, 0x1c8ae9521d6579b43520c3cbcd712b3dfbbd2b1543d1564f7d918c6e330e08a6, 0xc69ad644957599bb3eda1d9f831ca67b021b33f6407ff2e56870e7ab3d5a569, 0x17de4f74815fb3a0f45728b381e2ddf7c1157e5d65989ebde47f8bcb88f36836, 0x1fc13b76344108f12af68f0bc80c99577f09a266368f0e274794a3cf65b48d17, 0x2fad04c4a1bf440fe56076df74e5c30a58a6e26fa9da0865bd0374b6ae37f4a2, 0x20766bcc7f359bfe765ce87998097a7501d7924730fe7325aacceaa054e2ea5b, 0x14eb221ab65d0dbc5edf6a2065188ea9057f935d028f7ed14729ebdd66ed5fd7, 0x1cade81c4d562aff84daadd630392b735b948175c064ace958e0c789c9d93bf],
    [0x190f922d97c8a7dcf0a142a3be27749d1c64bc22f1c556aaa24925d158cac56, 0x19b64914374910bacc33326c70be0a8518e71f26b4e1aae5d33fd5dcebbb1f44, 0xec087bc39e5058e0c5c1432b20c612537441be0107ed759d3a9468ada975dda, 0x25f6ade6e9833696c4dbc19c765ca2ced09f47f0745dfc850efd26e3a8bfc5f6, 0x842f674f65a495938dba020f22a476840e0591f179780d72c00153ddef5a9ae, 0x24b3232f05be57ef3c4c22af9cc37a73f0ae40289fb0fa880630f7e3d00997aa, 0x2f4b230d825a682520ac0b5326d130a24bb89363318961ef5f65391b8e7f6bc3, 0xf1644020d8a6c0dde5068f18ab196d348172aadcfd6391c31ff1b54f513509d, 0x73fd850ca9561f8a645c9e4af943d372a4b8620b78bbbc357a97d14f531797, 0x284f86b9cce13fbb6fd660d8e52cf27f7bf2723a494278f3cb0c3bad0574d104, 0x16bee52d1d6d362b9430ccf4d2f1afeafe3572ae4eaa03be6af6f1bcc05de855, 0x254cec1178e80740cca318d1b5db37b5dd23fa2c44abb7f1535200618b9ba0c5, 0x113069cf767ed4afc61e592e98a63edaef98278c2ce59db109c94ef6dea9cf, 0x2829e1532b4fcdb2df9104cc23b3331a1d51c7d0da9b645a4a43dbeaea77d229, 0x24a03c0f7b51b6e24a889690a3341f55deacaddafc1ff871af6fd6a76dce8bee, 0x24a7c2c124131ab37ed62a0182114a5dce4ab7e62b14ff632703b23a78f391a0, 0x19529e943e466da82e6bae8f1750de8620e060306d9df5a9d20a83a4b68fc09c],
    [0x190f922d97c8a7dcf0a142a3be27749d1c64bc22f1c556aaa24925d158cac56, 0x274c0f68f679da53bdcdf9c11393c34ef8fe59cdeeecf859d4ad53069a88789c, 0x1c900ca5882b107a3b8a8938140b127cd3ffbf539c9145f385cea5e7dc6978f5, 0x55a3264b130bb4316f4503af137f0d964b753ba575456a74581b68c6789df33, 0x290033424503055ab2e6b8093a758db0f02dcfc4adaf26a30f467b0e8aa1af13, 0x1b415d6ec7893774bf9a598a8496f83a5422861a044211e0d525493f75c7bca1, 0x2d5e6a92650786e6ab35f3a62c5689a0288849d1eec7ebf89b9a6df75cdafd39, 0x15b1c6c75717d38e94265523f0f6491e22d8b79a791b10b21139f008651e3037, 0x1f929349fb5222c4a6f17fde7f0aaca6430b6785cc5f65c3e1b7842c338dc1e3, 0x23034bb8b8618de8c8890fc8fee6422147545d11d45e41ed6326b767ff099cba, 0x2ab706c6d21e887b5906d4db350e41b176323ed39f88a75b80f1eb2680169f69, 0x4c1031dda5e43ef325b33a80e6cd32cb22b16ad324fbd90ccf79c1f7e9ee062, 0x1d663d31705eefca25d29b8894223a7daf06bfecf4e8e0bb845682fce0b1a41e, 0x18c97bc6dc2ee1c3d66bdad7046019b6d4aba6592823a51ae2a8052824c6e332, 0xdde410729932dcaff0490adec752faade582e2eff9d05896da43fac32e1ad3a, 0xb12de1270d788dabec1456611485a6841cdfe411a09f80c0e132828568d8eab, 0x5194088cb1b0f39c5b1527bd0a3ac4d16c845c2388cd22dee75544eceab640c],
    [0x190f922d97c8a7dcf0a142a3be27749d1c64bc22f1c556aaa24925d158cac56, 0x2a2904f92bdc035f347c6fb6df54ac6b482a2642dd8e798f9df0915fcc86872b, 0x8bc0f22b597fa12cd8189c5fd0f79b2b10d6c65946b287890dc5f594761d665, 0x2bb55a554f9bcc5ea8dbd4d5453e188122c66c507fdd08d0589706c1335619d4, 0x2471e91078add335f5c48457785ef1b469484ed697e2e9f80d0fc73852492508, 0x2ccf72b7324cbdd4a1b980d883532ef2887c798ef446408e885f8cbd14ac42ac, 0x1c3b75aada78c1b204a35386f68e09a8ed700bd88685d0e38cedadfbd88a583d, 0x11164ea9623704eafef86bbcfecad592597038fc1b097380effca4502577c733, 0x4b961c368270196ac2ada2e66e44a4440905eff5b58341302ceaddfa215f691, 0x39dcd1dd3ff8d7fe019dda64104e9bbfa1c60fabd54065c85e727302d8335db, 0x90f27feffe276b6c1d77f6a80d2c25680fb854af9ad1be11268064e735060b8, 0x202922769a226e1dea3c39d791bf28ec93639c7937eb7be2c10912ee896fd3e2, 0x163bb1b115962019e41bd1c7cf0d8783d4baa163dcbf6e25d368c543f9560a5, 0x255dd24ea1b49972007c3b74fd98c3ccc682fde58858a2073be4b90b39e57cf8, 0x2be5aecc70e89fd7fd3e2683bea0ce600cf42759ec5941f0746f126b11beccdc, 0x1584587c91f57bbdc41e85ea3ac8ea67ed261cd8d5014b424a1dc01bac478b91, 0x2131be5b4387d226c22bcd102973756cd7ff955452e9eae429107ab244294b14],
    [0x190f922d97c8a7dcf0a142a3be27749d1c64bc22f1c556aaa24925d158cac56, 0x254b0e91bf714a1b45748d756729102fdab89301fc89d029d5537f9226e042f7, 0x303c21aa2f173c290af9ea8e0a10f7858ffab7519185843d2049a22946026b11, 0x41e6ecfc8a13cdf52f9c21662906f395ae172f944c7575073c0eee9962941f9, 0x19eb35e2795098faffef9ef5baca33da9ecf94d5973c0ecd25e6899630af7a76, 0x1142d22ec011a94a940fe203deb1997b64f780bf35d06276644f98e48e2c9ff8, 0xfddc36dde84e16a5c2f631470943ce31e4be6305bca6e5c753c6186f1059f62, 0x5b14ba6526be3dcc17bf7d609a42aac1adfe0f449a3d9374e0c22e26b2c2362, 0x16152ab0a00c391d450290ae825cf5ca2769fbbf2e7eb69f8764025f68e9ff5b, 0x28cc90877e4cce38fd08c1af95cc3f885a5c5328fa0ee0bc89ca190694d8e484, 0x2df5ab9a480bba00072c401baae420c1800155b9f7d1ab9b31e976ad800929d1, 0x12640a01d9b60560290065a3fd812afc07a6e795408f988071aeedf22ab75e66, 0x1b2792d807f55ebab5f4274d43ccdb9d23c155b8b9f6df8694ecc6f67e20028b, 0x16c2ea687479d257e26a655b5c6c27bc1f455eeeac28c3b3ce654bc76cac38f3, 0x26da8fd5fc478751e06453b0ecb6cdaabf231a58e603ac4ad14717d70db2f27d, 0x14f3a3e34739d7c727b010a5022d9f0f3e035e91db3aa947e3ebe3366eed27c3, 0x366141d1115aafb084cfa866c52ef40a5fa57fdc8e06fc2f1e46b967c9c6615],
    [0x190f922d97c8a7dcf0a142a3be27749d1c64bc22f1c556aaa24925d158cac56, 0x15658afd9b2c13d4bc0c637cef9717e943c50f83b67c8676d67d17050494e5cc, 0x1f318dc3e277bd895a88dbd9e3c4febd43cdb9064683ffbf1be9e6f9b2a71669, 0x141cdd5f2c18d63eec6e82248935eaeac4ef044ee76cb7ef0e9259ab6f93daaa, 0xe4b254bc67d3857f499682863a0f95b76e9d5cc9fb7c2c59729db203050299f, 0x2cc2b90a7bf9f3663b0f41ede34f60d63a99860760ed6027fe17d4fa9eb1b396, 0x2e0819713df7c7a942c08b3ea50add92e39214104120803a5806aad10234abc1, 0x24164a433840a28d2615c719c716f2f7c01f7c3854a327da6c5db75097fef1ee, 0x272543f2284921391729ae58db1d9db0807629d9211778b0756ea7e4f88297b1, 0x194af27987f50ed8730d267dcfd98a9a284a3582cfb7356e3dc46bbca1eeed6a, 0x2044ba55f5e44c7069590bd2abfcb2b7b163d47e0e1bf2e2524c0948da4b1a37, 0x19d37fca1b67b7ac626349cbf2928b9457863637baa2613b494d9da18cc384f0, 0x1230ea231084e3641817b74662caf5732556c3d94a01d209fea1f6777ae6cca1, 0x2f924a42d4d9446cb488295883fdadce8debda5ac727901eabf2d8627dc6d698, 0x2da745785ae0d3eff1a3281d7537383abfdfba2031a880acd8dabb3388a4ce95, 0x72fa635414d1673fab8d057107792b3039c033d924cc0b1530497c2c810428, 0x19db329f086a50781b0c6eb2552ba454db2fcbbc125a5ec41ed2c0e840bd6774],
    [0x190f922d97c8a7dcf0a142a3be27749d1c64bc22f1c556aaa24925d158cac56, 0x1ea4f3fe9b4abfce9e655b05c4f64a0849003f9b349bdbf349ea2a249bdc945d, 0x23c87854133b5d392742dce58aa01cf376e3983dd939634c4fee6326db21db4c, 0xbc4774e1e80349b9a704c01709de843f3b20a75be630d1b6c6555adf3bda042, 0x143ffd0adddc79c51edcfac6ffc1aa3d99ebf2d55349df53a54842c945a82f55, 0x2b813146b9e70f53e3cb2549a91e68963928c40e02c08729e0fd3f5941b3d602, 0x13de9ef153bd22f5063cb42abc061c09eec510e4b694a4e9b9bf6de56cc2f206, 0x30015dd143c80d113c290bf94ee9d7b10cbfb93959e846751c3b3ef9f8d07490, 0x2515eeb903d6537674e4fb3cee0b3a4c5051ef3cfc1a3d1dd2a25f4ddf96e05a, 0x20ec5ec6cb5f91d860925a6341af5cb15fcf4b2694083235ebc7ea78ccf6421f, 0x77160d3b99920220fa591a49f79c56a282b6e368cd1419ef09632e869599f14, 0x2dc01f61427888cb2d5ae9d8a0499cafc03945dbf111727b1a2cbae73bb41b0d, 0x1df3b805da3b583cc8f736372e7b16d3d0407e634b6cb7ebef2b168932194147, 0x224a6cb7f4e964e616ca5b0f23c77859232674745d32072096bb9f12131f0075, 0x7f74f0de535231775307017a09328c7491bf0fb7ce86ad5fb589594154983fd, 0x2816d118f59d3cead1cedf5cc76a1a87829b2d8c1fa10adbb2fd4eebc0373b26, 0x1698c0df24945164067e5d0d9b0321a757818a0cbfae969e28c76dc470974440],
    [0x190f922d97c8a7dcf0a142a3be27749d1c64bc22f1c556aaa24925d158cac56, 0x2d878d0119485477be8dbf01a3aefa927a230065cefa169e34cdcd8e97efee48, 0x2af377e1ffcb6909a07fb9d03937ce4a8fead2190cabda6baebd5943445dc0e4, 0x110ffaae8772ac77a0fe26f368484344ff681843ef616c6d73e0dd95d5f1f3e8, 0x92cde477438d1a1335b795d5a5ae15d0949877c734a0eca249865ae30a4ce2d, 0x2cb1dcc78144adfca1e53dc251c2e4084970c941855ee6a772d30dfbb1a6448b, 0x1e80f366933f00562d3facb54015e72fc4cf46897bd71f3f3015bb3f8895231d, 0x20c5d9b2e153f4787a765096aa7c1f47f990e810004ee7737c211150c40b79ed, 0x12e81ecb7ef55b86893278ce37c429400af30b34c10b0acd786fbd7b25c3469d, 0x1cbbeabe0289ed5942f50531a647530f105e72d1f912eb11539d1fc5588ce1f7, 0x213c4970760a5882661e0e818f43450b8cf9e02dbd0046f27ea4d66403ed0ee7, 0x286f73e14f72495fbb280d713b0161ff695a21091150ee6c9ae96eddf36e212b, 0xd64a21cebd1f59801551216c693b181aa963bce18a7f4439f179e7105836296, 0x14bb39c836c00f33ea9903dba3d3d434ec33deaec35076eafc1a4c5a01a417c3, 0x2ca5b88e6bb11f61e5dcc2a4ef664b49a3801009f1eb74208313b7b04d59edd8, 0x2c44af041ac89242a8bd751d96ce0f86eddf8c312e6b3127c53e6017c0d22e77, 0x1466d21f848850fbea559a4c76b1a00787f997c1a4a5bd40643036ab684553d7],
    [0x190f922d97c8a7dcf0a142a3be27749d1c64bc22f1c556aaa24925d158cac56, 0x220cecbc247151bc202a81a4573f923bc92a2208b17e1c0bf2dfba0de4fd26da, 0xb71d939b546f609ccb189dcbeed82a34d8f2faa2c597a3b3678369a471d817a, 0x2cfba88722ad37fda1b7ec9489a96e09e88bbf6649c8b7014bdde34ef18a64e0, 0xd0debc0f0d5dcdf74f2192da068f87631213a52aaf59eada0bd59bb99ba9510, 0x1d202504d57a61c4cd6bf007e478d9588d8e6585ebc602227379aaf25bbf6ad7, 0x251253367a3e28a691d3b6fff1209f6cf0e03736928725dea0f9f0824ae70dc2, 0x260c55e9c06f653d9202d03f1c184fb70df2f937ad157719685863e4338fb4be, 0x200b2246239844344cce8854c24c9a9b14e438de6a3ea445151882f23168fd20, 0x2e3e47be40c7216d9db75470bd8193c3558ba3c61c552bc56dab2713af62506c, 0x2784c2b142bf3e8639e090358a1a3c81e25f23edcab18001514c617cd0918a5c, 0x125de24f4fbc6e879b4039af38a1d041e6c38a270b3b9502e10c09f149445d66, 0x29740adacf9d3689e443639c25e367b23d07d690c9ea8da6e12fa6443502f903, 0x2bb9d36c36a107db72deb4262776967926f923df9c96cf07708d5659cc04ac81, 0xb3d9827d898e83333c83c65818f7fc1761fcf632d1b5f03ee95085b518dfb67, 0x10a6e860715f76969d739bd3c393f1af2c6d27f3f8c21e101dc8cf7a515eef7e, 0x2d8b0a8bf894b7d607d9a49dc6f8725431f69ef0541debd9a41ccec4b7c1853e],
    [0x190f922d97c8a7dcf0a142a3be27749d1c64bc22f1c556aaa24925d158cac56, 0x2f127fbd7f50d13e1ed144760d37a375a507ac1f0475fd1fa1cab401ecafc7fb, 0x1577d27a4a8983d54a364994db2232806dc6a3f1ae005960adbcb4352a88b9e2, 0x52914cca13bf1c8dd7b8ae8329393ccb24dcbb32c4625ea2ba6cf935be4f231, 0x3ae3cb86c125ba7e22c68fc612f2928a961ba4967a5afc661ed2c32de93fd30, 0x297797def82244ac873c64c1e3b0586725adff324eeb9b15a9b476823e6179e1, 0x124a7a8c6e44e7135b58fc2b76062171b5054af0def6044d99637adfdb5b403, 0x1122cd468ae5a811791bbfd990f5ef430eb1e1f1c6f7469e5746db7ec0426892, 0x2409be076f6bbfe87a660f865fe5aeb4abf064c12bdada933eed7824ba271cdf, 0x300cab922f89292915e01a78def7ae323501694f122737b9ec6739f123278b3b, 0xd743547bd321fbd1b27ebfc7d52797b2f97323d25f1a374afec19a1630ab63b, 0x9563550bdacc55218984e8413a1226c22b38c12d69ac16bf6e3f952a787a504, 0x1985c8553ee8e78bd1c65b3f375fe99cb0c14d60e69fc6d205cc54bd173f5204, 0x1bd7b38a27edbf115143764d25bdac7e921e83b29964101b494f8075a7800763, 0x2766850751254f44f4e93db5621839bf0eced728a6d2b8cff05b0fcda945e, 0x135b92c76b52af013119fdf43e9ff79cb40208b2c78cccd727781ff1f456039e, 0x19da226a03cebea345c9a56cf3b4c7e6980d613471b97894a7d5fed6f3e1c743],
    [0x190f922d97c8a7dcf0a142a3be27749d1c64bc22f1c556aaa24925d158cac56, 0x92f4acca2e0ede5ba901916da9e1f67bf4458f8495eea238d17332da63aa71a, 0x1641d2d820f16a7e3f48def116b6cd078de47aeb782d8295c5f505d89a9e4ba, 0x85201a2d77102c3d0c63353013c47c2adea146120e8d6b3e2319d8e63ba0cca, 0xa53d758d0108ebf22dace7bbbb70afa26f400485dee9e4e7f4f7ab7d9299677, 0x262d9423cd20852bc68c46fe5eae59a81d1d814a66a638c8c00127fe2dd98761, 0x2ade8678e1c4e5a88001f70873e9c28bb8b86bc77c1712731057b410468c8f30, 0xee8ff3fc24bcd3063e995a4cbcd34f46142c9f3abff0f8e46a86795b5b46552, 0x2b825f9cd4585ef46a5da502209c12464c824adfb18032718bb37e4738cb3292, 0x1ac8101da6ddec552238fcff3932ff2eb40ba38ed0c39eb5903e3adccff791d, 0x1ab95f20ef0daa5ceb85f821413b046e9fb8a70b61e77f8f5469711f508f178f, 0x580d8b79189de04500aa5749909874f8b5968c9204d6511e05ba1a3953362c, 0x275875a979f31b1c8db47f6dba4c553c8732aa37c4c74d7fe9f979274dc27c95, 0x13d84732bb3b9bc97162533644a7515d91f08d970584510db56caba62dfa0d66, 0x4d47f94ed591c3969fee09e23f392dcd0831126d621ff5a07784bbb5178e876, 0x268be50015a5f4676f202ecef15e094130bab5822d63d777374c8a0b9f4f3832, 0xc44a75d5020d4aed139ad7294f27763391f2be6bd3343691ea6e122c4356fcb],
    [0x190f922d97c8a7dcf0a142a3be27749d1c64bc22f1c556aaa24925d158cac56, 0x212e7e2ecfce78922708fcaf276bbbded3c0e2d8804d66a13fa020749c48ecc0, 0x158fa860b8267b4011780eeb782c4d2b878ae2615e317b798961be28a7ca2462, 0x1def7622e54639fd40813cf1bf8162198af19e07d88a0d42d436368745e3cca6, 0x145ad4994d42ca69669e4c78ef8db06461047f4976dbc5ad4a6cf2c3ff78bf57, 0x197d0463b10a21649f25670cdd2504ba58621ab912b643293b32a515f50afdfc, 0x23398d180006069a68c7742caf4c669b87742b603d5ec75c13d2a835103a0fd4, 0x1e0258bd63687d7b17c4fa3789f9fd82108a3d38ed4458e50a071c4b622866c8, 0x423f6744b5b95af35bb9caa720088b05e7fe89176569010e96792e0fd06a28c, 0xc50436db6d99e5a8933aef29ac83fa2817395c577d0ba3e0152fd383542088a, 0x10a22724b783a4ed75e92202a6121ad76eec88c3f6b6d2b0cd5a2f829d7caa37, 0xf49f1ad9de4f057eb3acadbe2279d617384c0f594503c616c8a1f7c05fcc886, 0x2141c09b30eaac9f355f49e98905435476bfa52fa5339ea30fc48beabece0f4b, 0x15c1c2b59c45dfc274c111fbcc2b79bd7440d738d0b433518ad3c8ce8d064ed, 0x1db3bd1d64fe08c2dae2ddaddc2c339ca0402bec8b41b74d74998aabfdfb7bfc, 0x29a5a2015c3c31790000852191471c62442721881310f01e2fb0b92157a6adaf, 0xc8dc01d3f82d41bd600fd0759bfe0aa674a0b7d089b0ed0ea9127fd0847832],
    [0x190f922d97c8a7dcf0a142a3be27749d1c64bc22f1c556aaa24925d158cac56, 0x2a824ce1fd2a8c476123e3a989bf2d6709db1ae25b6003b35f4e9a63b414a58, 0x12ebc9623cf8edf6e519f0b679939b74b2e4b4097992d2ed382afa7dc08b484f, 0x16be2e58e7c791d1a9edeb27d648d697ac592d085c504517cac06dcccc9b80b9, 0x11f10e1bbfb29ef8257b3f13add23550576bae71f723613ffadbda16f76e67de, 0x1ad4858514fea633d11ef8b8460a55cbbff262b90a7704fc2ae9f4de51d43328, 0x215f4b249b5c5e65fabe4b485656a746d564d4451568c1949d28e35624cd5d60, 0x1fbad1d2ea18f2f77723b3dcf4acde26751b05615c0af9d607481ae4155b0b31, 0x21662871d695f76be370b37b3214a511fa6a186c5c856af4f830950ca601a9e0, 0x23ef880efe39676ca81b90ff6258371415feffe1514a33fb3b944360cebab527, 0x2821c241fcaebd3a0039501eb930cf9a84760a177be827540ba0f3c7aec6e354, 0x146be2228a62f0b2678d113c1e9bc68ec984fbc98358441882c3223c5d08ddac, 0xb88bf45643cca07b10d4c2d229d9f4f8186e5da1b4a7921bdb81082d525ff22, 0x8fc9cbeac386e14a1121a09f0ba01977c6a4b444528bf675ffa538229fd0b1e, 0x1b50431a74a6fbb3653b07cb93b41b31f4b8e8f0069132630d85d6247c754a05, 0x1e406be857f7f834e34e4366a64203a4587e3d15e3fb68fce7cd1648bf281d9b, 0x148eba772251ed3515118d4b1cd35d1dad67cb449e93053aeedf6c90725deec4],
    [0x190f922d97c8a7dcf0a142a3be27749d1c64bc22f1c556aaa24925d158cac56, 0x2e04360710f57315981909dd928e62c44c44034647842dfa31526f83f4e02671, 0x2aafcfc0a678286f879baff9f360018f642f5dc0fcdd24efede6f42ab41f3876, 0xc056d71fbe0367362ee12d47779dbac6784d03b9effcfdeb97b91c57f65e433, 0x115524aab9917d448fef5342d3773f10c7bc33b0fe015fc39851bb6afb542fd7, 0x117e6ade5e05bc5efbd21dd42adbec70159c427bdabafa5df3bafe8d48240958, 0x381334a0ddf5db66871f8bd943e4a54dfd1f9b7d13c52944fa0ff2562250fc8, 0x43e8c4009abbada6a3350bee3e92556368245a5aac0c1b52f2338e1ce1121c4, 0x2e88167d899544487a1cff38e196dc25b3b8ebd01a2289b382c965e11128cb7c, 0x1c308d8fbd04e1e349b4e0ce629b3fbac322460faa3a3731112d44c3a4db27ae, 0x34ef7e4e0ac0d3d85f4adb5bef214c96512accc1c0f3a11470b493d4a6e7946, 0x2b6f7ec4e66fade014011c277952b270953966e9fc9def4bcd21052f62315a76, 0x2a8510585ae4c162b269375af5bf36d48824b1cd4d323125f061dc90f06fe318, 0x19008b99b3e1da588b1094f3110f9032354d1aaf9c93ca9f1dd0010f974c3fde, 0x2560926db4543ac9b3ec4ad64b12021d232944ba8ddc47bdc494f5ba051f65e3, 0x29ccea21d8edecf6359058c36019960b8e0cd6e0878f835879477fa3ba09965, 0x22200c2de87d7552604e1ecc47c639ec983525fe8484a3d24655d5dec1a4ba33],
    [0x190f922d97c8a7dcf0a142a3be27749d1c64bc22f1c556aaa24925d158cac56, 0x2ad7a0d2da92e10ea6eb68264ba502da9a0a5b35bab9699cbc29fd8fe2e30ab1, 0x20590023505117aecc066d41c1adbd5ad4cbf0e9b8dfeaf9f9e8799f07534408, 0x222c46e262ca50113017fcf937c68bc5a2ce66216ece4254ac3d07fdacbff44d, 0x18e7420a44ea5b1e13f4779818b97a2081be214baeb62671e0dae86c4023ae13, 0x22ea7ca068c59b65cc056374a848ac65417a6f02d8caa04407d1394ea1ba8256, 0xd3a07b74e65318c9e1879c337057cc712c0f533ba49c1c626d1b7ab155936db, 0x61d5292ac1d8dc58ab73a0a48f6f631262c6601fb7c0b48c1a16452b546db6d, 0x5833012960b055133c9ba572828b91414cd7ba31d68ef46f5f76078c3ca1841, 0x2f2764c49d1bc1427e519f7690e301a620a62a89bd44dd766d6ca181d02eb406, 0xb8a8d7bade0db2c62bb09b73bf7444c087ff5e82ef4df25cd0f9ecaa12bfff9, 0x1bd2b4b1504d8c446a5125fa97754b345cce5966a6e0ece3586933510071283c, 0x87c0b8b7b9ed1a7f917066f04927482b71b00120114f6eb57c272cb26ab0ab0, 0x20fd707a8cc61d2a031709dab4ae58bf5032a09b570e7497c3415596d3d5fd24, 0x1a33b2e800ae297e35eeaf4e3bd055dc56e533f4441bb24bfd130b924d71cf72, 0x18415cd52a959280d64154df2c538469ce854f7561e19b7d05235c9fa478ce0c, 0x2e6a310ed3f24d835969e401ff1df8540801ab6fafa90e70e50a8230f334ae66],
    [0x190f922d97c8a7dcf0a142a3be27749d1c64bc22f1c556aaa24925d158cac56, 0x2fc4ba3b1f7871a2df1a801b29d1eb494e3a4d072b6638da905d5fceefd93c51, 0x1162c765b187e20f079a417abec80c369b6e1efebdd9a6bad7577c1722b597b, 0x9a3571080ab89c41d2c53279c9ab9ced52efb9cd1526d24dd58b31771a75606, 0x2fdf9f81c2ad998f2229e64e084f9149ea3f0948cd928136086120b68ae69651, 0x178e83d7f2f9ed92d3d783287f25fe8d0d28bef0cbf2315ca03da314aaeb94bf, 0x278d681f603da186319befa5d2c5567a9fb52eed6061787cefa92b27c28a64ee, 0x108fd8bc50dcc43af4d73686abf8fd70b42245c1af2edcf11090784a24aa5fb9, 0x4ff765c30d4e035bcfbc196c646541fa1d27c05d5d087e01c03ef11224b78f3, 0x607cd8ff9b889773c9eb68b8a4366469d470cd7c6004106caae95c10c424419, 0x1da524cff60b64856dc1f5dde0ff62da7b182da26908f6ba6e590adebf91b40c, 0x22f33eaee3c481e65801b761a72832908f066fe21dab5fa5ec1d4c6e99dd6dfc, 0x75f84e9c719bb8de8e61083290daff19aaa4337454e5ba804257787470f2f54, 0x2084be9a57e9adb80303a8dcaffd4bb77adb6815168b36a1d363b38425437135, 0xb303449f1bf4b92d2cbc26ab34b4215b6dd7af010747a705b2a6e3398882922, 0xc099bc68243537203f97254f08dfb7efc09de8f96d72f3b3e0aaded45e18b4a, 0x1c5fd9060d4e0d999264429a5004c165570bd1675b09f977708b1ca48e616388]]

/-- starky/src/poseidon_bn128_constants.rs L2417-3057, one round per line -/
def c9 : List (List Nat) := [
    [0x2088ce9534577bf38be7bc457f2756d558d66e0c07b9cc001a580bd42cda0e77, 0x1b86e63908c4b12af43cec6810356c94d21c9e37d73dfff9742a58e0ec356be1, 0x9ca022ba1142d170f755212e2edc9d0a4ace33e16825f540d5d50d5a021a169, 0x277e69d47a133804241f6aebe9449be6e22c849c6d8ad8c938eaf613bc1aecd4, 0x17b57ea03754e24ae0ef425aa2ad931aac9ba5457a18cec594545a235db6b269, 0x11c740983395e0f4a026e2c7c939236375c9077755eb1a37a77d5a1fd74abac6, 0x1cd85529010dd7e2fb7ea403515bab5727556a479c59b822efc5a81eb37bc5bd, 0x2cb9354002cec4bcbfa985de34f43d702ced83d197aa374b5a1f96f87b12f292, 0x1f7af98e08f6877923f27a3dad40c525ac52f56fbbd878506544f9acd61aa32d],
    [0x2b15176925df33a45c9e99a7c4f26ad946b1075de58c7064c0ff92c431d31dd5, 0x22c89859b4d399d3a60a322d6b399b88061358493f3cb3653fda940e988c1ca3, 0x1a9f2730c80854d8f6dd98109363d405597039373af5055aa67fc18e5b1938fe, 0x40bae2c57fc68e3ce5e294998ea060e2563ebbac58ff8fc4a1a0a40575f0ed3, 0x16bf4f5622729467ee9749cc380605d2bc4d885cb99699aa2dd8565c4faf8b7e, 0x1045ecea044ba1cb1c3bf07ff4968390a3ea075001b21637ec7fcef61b11329a, 0x26a319fe6b7d6e08dd6cea9587cfe3f523492ece769f70f66d3b6197a262fd09, 0x28a5629b4c2083387eacb09c1571256d172ef1ed9c0738686da84216ba81bd6e, 0x186be22b6a063d18cc8760dba63b119cfc6d8897e32d6a0b19de280532fa9726],
    [0x2c41eaf9c0128c486c5595a1ced6b3dd15bd9b73218c6af88137cb8aa5c574e7, 0x11864265d76e8873b4d2ceccd18dada46ab7213321dbe0683727fa2df7e3cd7a, 0x1383e7371d7f3eb75f97461ff79565538166ede6fb6ac68b02cb60d8322467e4, 0x1a005346e9edc59573e3989f34c304ff1351de9642f398163602e138c59c7469, 0x2b541345bc4fe1589d649270ceed4b2dc6299c69a5d24b460e36f3b4eb486052, 0x213e74e3b88692068b420fdac7a62f3e90f87e8bd993310b982881b4ea7eb58d, 0x254370fdf60e319df5d27b984e21d8979c86cc6c9db77b47e9e037d41ae2b84, 0x83b7377987bed3fbd0c5ee3279cccb319adaa660bb6a79ceee627f5a6369ecb, 0xa2b26bbf2b84a55bc4c5b09b209d4a77bade4ecb0999e2a70021cccd4fbce1c],
    [0x287090d407c4c5293cd72bdd881ace1a4785c51889ac9ca053faef068533eb09, 0xa9fcc21a234bc22a473c04931dde66476001ea6e32931277ca4cdab62a8587, 0x1d79fcc5066ff2a62d6ec0c096f3c0623f9722c5d10d6411386b8cf06606d116, 0x1d2da676081b7b0a7d87a57c6a6f2c91022a82291934ae8d646814f38b7c9cc3, 0x121189d7362dba92f3bba28737ea247e85ff4b3ceabb4eadac26f7a79d371ad, 0x3ba01bdc7f31b4b3626831d5e82852a5da5a7f472f497564362ee63bd6d6102, 0x216487ac4eea81e4d835b220c7f1e7b7a3312df5ed0b6e606a169bdec89a35cb, 0xeb5eb424bc72e5b20779d6138a7296dc333b4d98e4cede698c1d8f3069fc804, 0x1476087ee68863fe69d538de90f90bf271875fafec3aac6831fa17811afc45f6],
    [0x25995ecf079f4f81925ce8050e6bdd0b440e7adfb00da7e4dfd8a5aaec009f32, 0x1b590ea145df6152ff0e8eccb97f057eb378d3dc8585a8195a8fc6b03dddb21, 0xebfed12777ad9747734d82fb7ab59ebc85f07c3d055eb987dd42470e016bd52, 0x2e03b519ff070e31bad1ced25d02de18c5c073355890f26d6437c9990a3e232c, 0x28ed48befb70534a157c0bc8037347830ff6f7bffeda93a22663117c3038109, 0x21d5480ef2288cf37627083f5c6ff5806645d7878339792169d109945aa879cc, 0x2a017f4ca62717fe9d616fc3b74f426a22666a268eed190c92513679ff531866, 0x85cf123084d6b4b0b2b34cf06cf6f893e0a9db664958560e13102dca258a182, 0x1cab1eb61ae5a9c4f1b1f0f4cf71073d063cf8ea6ecb3a326bc3f2f24fc30ab],
    [0x8b659a737c0a7e198c51de07438e7faee94369715042367495f0305e89bb96f, 0x2b3adfef956007ba949e044a68115b0a9c895a81386e769744e7b5b2c307df6, 0x1a502a7b0883deaf9b24a7b451cf439d9b04c40af2fecc172b057b4fc00cafa6, 0x3048a536a2a75af41a0fa596752c83edb19c46c00e4072516a2cce33a42ce949, 0x1d008216832f77736b9f2c8eaf18d2ae69a7595a3d2e8725e75b3e9c66ab22c, 0x67389fa6719bb9e493424576d30d6254f1b7d54e69e1d1896c1b15ee85c0c20, 0x17da04cb5060861588a4dee60dacec407e08d6b19650359452705699bcdcabf4, 0x1e110b24526cf19448a04b71f91f834d903a08d3a7658e05ff0104ce6de14af0, 0xb0a28b67269dcfb242231c7384d9b96c4406708f1a7bec26160e2352a820e34],
    [0x226ba223bf5cc831bca604a2f55b324ad1d4b29b81ae33cbd7391ad0dca0c61, 0x1fa506fae71f617db6a04dba21eb6224accac5f7cff145947093bfce2f3f5cfc, 0x29724cc2973b5b34c4e53fb981f273589e7e0467a5b4b5a16d596f48844f0394, 0x20185815e6d5bd43d769b1e7b3a42369db44fada44534a9e41a181a7cd90cac4, 0x2cb5ecab94a2faf89986b565545493d5d8649d73a9f53133b614af6d89376612, 0x6772704a6a6c396f2f186272db825135c5986fbdbce0a3fd879bc27ee2134bf, 0x112bff4736679a477440e744d7fc6191e168efe6c37fd0beeb6e64d30591851, 0x2faacc248d2f742b7dc50b013be9c4b2ea8d00be172832ad07ac0e268e391a57, 0x115ea053915c9231d6b9a71b4f3437e76d08af6e8fe7e42a3800136498df40aa],
    [0x353e2c2845c0fdfc53f58394e2dbaca06164d10dbaf756127621b5a22181235, 0x29b3685900bbaca910363ae0cdec5f61cae2c52c7ede3ec010e2afeac748710e, 0x1a73ba985b824209d0a9f310920791fad9227b21bfd8e8a3a9f1c2fa89fac1a4, 0x274682d63a1d6a9eb5ea22e0558b145f5b9b5e845c8c9dceb83be943309a305f, 0x249de663dfdf6682ddc122e02aac0d79398f38e6089d92e2c892ccf949fcafcd, 0x76346a494ca499918229d2faf87b6b5afd4992f0d7d4023cbb677ea4376d4e2, 0x712154eb43b0a3e8bdd94e29ad85939e220daf6931b84464741e64e9926b50e, 0x15bb7e127b9fc937642692a92d864960e249ddf327fc6c92afdedd89befc6c32, 0xd438d885c3fce5b06a80584015eaf7a8ae05c60052c10ab80d80076800d8e11],
    [0x2bffb873c9b04762b2e362d6195c8013dcf7a5fd881894b7dc383c8aa34a9e0c, 0x24ea42c76f7350d08e8b1016663fdaa3f8552b9564e5ba2da45b76652707d6c0, 0x2a62ea21a0ade4740b808b9d838b4ef205b1193b579ecece0da34523c481dfbc, 0xc49774a68f5274b468cea0f32211cc9a8ca864c6d32f2c644b1ab89edf475e9, 0xa9b4d3d32564d83c24d4e052dc3072cffd61cbffaec957151fead13246073cc, 0x221179d848ae3c29baa0de8e19ad399cf000dcfce572ac310fc64bd4d201c3a1, 0x1702294352579a43d19da15dee1fdcb2a70a45de25203435e2340692f7f5e0a0, 0x59ab788273600685cf6de04f87ca9dbbceb1aefe37f779663a7ef5019d4d8e0, 0x23af64b1622be07735af1999691398ad6a034029a109ce435f12c1b21b41f599],
    [0x109ed21e2456ad7f94a0c6ca6ed942ef5e8132433e5fba6ed8f49b2038594516, 0x26d9ccfa5379d3fd6927a58958338d6037872271d891f19f67f70c39e0893326, 0x24ea9e2db358c1becf7dcd7d0e46979a647207816ae5a901fb00a6ccd991d0fe, 0x15a9b8c33fce93ae3971d193a430be98eeca1d27735974cf502bfb20c71bbc, 0x2bbb366f79bc3baa138d79a96ab5cd14826bd3a85347e559550bf351f296dc1c, 0xa1c76641eded157eaa1bf4aadc956791d9e7b29eb14d07654af052686b70e29, 0xa8a9f9ee8ecf8ad0b5cd84217af26fdce2ca16c07bc747d103abcb48ab21fc2, 0x26d6852b5917f4e229c46824d00b44442b77d8e566fe3b3901ba6de2011dead6, 0x19601734c30cb2a44ee4a323b35f2c171ed67e0f3c1fcec7096e5f01fbae6885],
    [0x7895f7f029f84c3f17e359b0ee926d402505587f386cbb71070bc17cc87d044, 0x5807e0a2b2473f3b87130586c7868228eb4d9503bf25cc2b0f35a939e0ef483, 0x1ac9ba8eb9e2fde0a79886aa8c7dbd362aa490a355e07982828be3e5099d2fde, 0x231c7595f76fea5828672afc5bbb6463cd00e7a07346e2588af5638e3b321b40, 0x2e3d1677310217ce5fcc58f4039532ff946e2eff2b80d17f581ca78f0068672d, 0x974163441712975a33b4093f922d7df17b2bdce7b7eb02c7830c5980464000e, 0x1cf5c1a4280822a59deecb82a64baab4edb87977e98ee29139bb51671b9919b2, 0x11ad46e13792150cf57933aa9476ec9184bfd5f23de46f1df78ed7e94cc81289, 0x828fbfc0951c1ea0c0f3d5af2fe5796ed792a9c3cc4002b41e7a1bb8e63dae7],
    [0x2c720a8486e7122305304ecf3a00f99854535c4ff404fe82e30e99e8500fcf6, 0x9bdfc942fba8824c0a38d6f525f9176360d2881aa425028f1cd3a7fc3ef72c2, 0x1d954a0f93250e5581c6b897fbd72f4f2a943dde51e262e7dcc4a1b2ca82e2bb, 0x2b829352e297ab2106e74f9fe702f69635edf37e7ab0e1a7f92f14c98aed56eb, 0x12d3b917e58f1f44e1babaa341d1dac923dfac75482e108af1c33368734a904e, 0x28a9e6c65d06ed6ea47795bde9b177b5509305f85326062ad5015077afe4bbfb, 0x2bd3c33ae311c2f8d4ad82508b76df890c311fc8d232fbc2dc535fa593221ca8, 0x272d00d7a8fb1463bb624f1dd774edc8f3a0923bf9059bae3d84da23767d6873, 0x1355a796abdfaa903b81dfae32101a13068f5070440552eee0acf2a4d07d03bd],
    [0x734bcbce4180ae16d4a6689b9b94f2b02cc7d74ca8ef1592cd16afe2a033728, 0x778d4a614c2f76e28199d989a9052e2627464b620d91e7b6d3d15dbd4799d54, 0x16bbc980a67b2a65434d087c501859d127db377ae144ff634cb8574fe8bf869c, 0x12a3e7e197b0504c6894366245bed65e326db7c7aaf2c1c0d59e4bac10d633cf, 0x1f35f8c4431fb0dbf42d9d07334fd67f99160fa9f7e20d811f4b8fea7dd5d33f, 0x25d5bf1a863a0a6441cf55e7c85b8f232ff1556e77fbcc6d71e8bdf349bfdfbc, 0x15e6b8d9ab7e063a3638216ae471176e87ee4ce30cc24cad19587a23332320aa, 0x1929ef47c7322b77ebd0d1a40f9ec4d41eb2641bfba35a9cba7b708a534c9ca, 0x184f51e791edaa2dea7911151247bad4b0e864d7a8f678c7708ac65c51e3bb79],
    [0x2605adf5562d5055ffb284df1ec0d4e371eee0595ce1422ac535a410597cd866, 0x6e6d41feb832c2fe007e1bccc81442585bc9eae1612b8bc3d2a4925c239ad51, 0x137eb7da068955cde28db6ae5e780b7ae1c0d633cdd113bf0fde4345ac9c954d, 0x2e97930eb419f7353ba27b25879753fe64d7d187023ce2de4bf9e70eba6e9bb6, 0x13af409362087866e62d6860fdab159207405bf9c75a9efd9321736a1d812413, 0xfd2f95404a9e92f46d57c80507375724966264560ebafb3ff2fd19259d47d62, 0xbdd93ac21aedf31826fc3012fc8fff14384add521d98135df3ce70e47d38116, 0x83ea678d5a53e8a9b601906befbef23811a6137788bb873fefd5521f7d99f03, 0x8a9906be6e9ab93cbf1b94f090df2d02df6c6ccff6364c2ed6986d61f16af29],
    [0x187b1c82cfaf880449337cfa77f618e3ed19c604e65fb768b0333d8d535eaa47, 0x245005f814e38250751143117f5e27d5c173f0ca4ea2a81b1b8f3e90d7fec4f3, 0x25aa5a53ec5e71f3f47fb1cf8ea8c757fab69a61274fb36eada71deaf1614db2, 0x1c244a2ed1922753b39ec6b775f07cad91b14cd9b6578b64492c2cc4b0c8bb9, 0x1664e5c861216c4cb10cf3a3bd51afa0f3e59eae24fcd7e7daaa853d46c382e, 0x2af001a296c111e41e327ad212ed30234da2beada0449ea1d2e0f0a00e424074, 0x16022bdd67d2ade15f661a287dfe23915433b270f28c24e6066e45039aed813b, 0x132d7ca5f935f3e8864268ad723e8780df36916384a54b812c74a749a26826f6, 0x20bdab9829e48c89a99d0e8b0d69b79a4a273808807ade4ec5db95fd184c4f37],
    [0x28db494350ae9c81ab52d719ea05f98dc2afe87bc1afe556161e61772258a951, 0x19fc92f1d2c1dc043af3427b77ea74e80ab9f6041e0e51d1b24d9cb9f3fb3ed0, 0x16bea7126b8f072ab6c86afca80b606cb90c7e5fd02bbdba1dd733c3cb884705, 0x1fc57b168a5badca15a417ebb4bf5beb28fd09e0dff889550a126f5833f1fd5d, 0x1ad20d1a3ee559b6334be4ba911dec957d56699cf37dd7b97d23dcbc65bd9afd, 0x2173430a6842061f027393a443b6e25e59a3e5bcd20895ade0fcd7bebcd88885, 0x11673173043e15137361db05a0b067147a23d7f3003680f3e1534b183fe27cd8, 0x37c80af5ed51c1c22181f3e7738806984493eb998add05556eff65129259ff2, 0x1d70b961246d2262cacd8c0954040548b63fbd25f3038285c36f6b44e9b9ff5f],
    [0x2184448a7bb80d176dbe3de73f383a909635e4610c25864b2c63252186b6c44b, 0x3bdca6b22fb80cf9e7b317190ebbb9f6c7d3c96c1bf7d5013f36521a5dba7d0, 0x2b65873313d5bffa44d510dcb3f55048436f4eea91a100ec0d1af952eb64b247, 0x2a7fd02ef10db1c9dc03c9cbe82e857cf06f37ea10e7e3f539b53778ca274616, 0x1cb880cea192153865713565ee4255ce72da23b3d2142d265fbc2196fb8b569f, 0x16628b6f83fc36bbc1d60029a69c843d27484f594a7e3ba8d47cdfa548a91a56, 0x26fa9b84e855f1069e76e037104f8886b760d4919bed798e2e4b8dbe0080f16e, 0xee86c87bdf0ecd526e36a6c4ac9fc9bf05b9161856d658c1b9ecd80da9e9687, 0x8a5179993a8056405527cb82b6f619984c63cd115ffed3a6734ffa85267191f],
    [0x47aa61e4bf0721ac4e0a2f291e62124bcc2ad3949dcf96e875f45df7eeb5437, 0x263a511f033e1fbdc6d282b52712a09bf5d1fec21ea8bbfe2eb1ef5bc4f21148, 0x226520bf730486e2d8c859b449bbda7631b86432a2c100dd7386c9b1f993f34e, 0x2baef27107a52854788f0c5a940f5a4df0d18d38b893cbb1157b386a7d356357, 0x18022cca17f26818d54e60e300b5c949d9c92122f7de5651a60cf70c8da5fc52, 0x7baad301d58460d1e6ed10f52abf1bd785caef8565777fed94dd67de6717d25, 0x1e476106c4bce3903a5aac6e110df2cc1a7f71b4135be3662f4b01047e248a6a, 0x1e019dea5028d23b2df063c210466a88c3fc1ebdedccb8045c7e9d1bb6e77a98, 0xdd55f006559bb6747b254d29a73f5ea7174c6b6067e730a5f9a9908186308e2],
    [0x993085a8024a598e0c9059d3b919fb2ebc81be408cb96fe38a48a952c029189, 0x143f3cbf98e40971b2115493ee06e26c7893787bfcfb13b39f165869ec7fb9b7, 0x525ff28fa24291b8d033b021395754fa030d497312cc17caafd008524eda07d, 0x2d9fdc18cd2586b9f449142017909392025095182d5f40d5911f708eb05cd852, 0x230997202fcd6f051e1bf1e59a9d01188e3621d613fe0e78e6dfb400efb43f45, 0x44b56469ffbbc9d0c0f075e20f390d30d11981a767e507b80aef7ed69e7171f, 0x1507d88bbe10b21c23a94555d1e4d379aa71672e002450393eaf7a23736150b7, 0x104d6752a761b50026377ec798404f71151b3cf6a9ea1be93c6840594824e9b6, 0x25276305cdeae4c16558de60da72941446a9fd2226aa604d44bbff12b1e0ec23],
    [0x10f3cefb054d630bd7dc4c7cabd97940dca683dad8cc35a6d0c30cbd9812051c, 0xe406cbfa384c6b24ed043ff3cb1d6891baff0585afc4fcecc7cccec809df03d, 0x18f36033fcf64f1bda0c12616b00b611863efdb8966db7ed3534cfda40aeaf0d, 0x165d022a34cf10ad3255723635a51a35ba2a6db07572dba106dc56ca6c937c52, 0x223c8c9aed305b3d18265b56ecb7a4cfc4b10e58baa1365827a539c47819424f, 0x2103fee94674840b1aa185a1f8221ee4511a2b5268f1ac96d7b28c8984fde6d6, 0x1c1396433bb9eac9a02abf2390973c1723ec5cd55297a387a92806f78ef9d384, 0x1befee24005a88d2c9ae9226169e898106996fd32fecb72b0cb4decf109f1b92, 0x1adc49f1f1b405df727a64e98675ea0ac2fc742c806f0d5950c8ac41350f5184],
    [0x10a0e0cab76db0b6a00799dab1f2e4a74ef739173cfaab2d03eae240c9c847cb, 0x1a9aff62d6c66fdfed0eb91b6c4f974c1e047c0b27ef49b10d2933af1af3f997, 0x261967f6840995daf7411034526eb5ac725f95e21fc36c8ed191873985f95cb4, 0x1338030f85fcd2fae09eb016f4254086e1af2f88fe7dbe29d183c89ed5286098, 0x2c53745d1f0e66499ff109e777727e750c1134914cbb4d52bdf1649c7911ada, 0x2740100354406de4d94eb857a1c5df1c0e88d8b0b82d10c1276ea7d9f62a05d0, 0xb8a9153d3d643f0a9f7dc08f24d70863e4f150d1c32ac8905a6226887c9bcef, 0x25dd73d81ea8918c9c1ff69b0b86a0ed3801ed1aa4059d94eb72cf548b2eea1d, 0x253d813cf05f2ff1c7d6622bdb9faaff277b4d0312a5888a9dcd12891ad1526f],
    [0x2523322d2d2a78cc54c944b57752bdd8d2c8e62e3af51e020eb2c15ed830f5f6, 0x2ac9c2d60d456848e8dfd47499cdbd4f2377f3b4ac98e10e2ae3e4f83b0071b4, 0x2a4e35f1df833442f9ccb8c75523b1ac8a9716174f47fb0830d94f9bc4386bcf, 0x270e7f6b15f2c0e0926147cbf79a7330b676d174acb65b730522dccb096f9fdb, 0x1933ef75d4b862f2274634e1f5a4e50ce899f15214f0b8feaebb2ca2ef52ced2, 0x165130ddf77a82db84278a31841109da4108d364bbdc6acbb1b0fa7aa5175dc5, 0x2fc1fe031dcd4538d5d8b1340d0d37df5505e965b7e7dc4c19895b9f6fceda6c, 0xe1ead2be6f64559d903eaeb6e02a7c85d546422e7730e360a1e4bcc0f62f16f, 0xa983360bf32392d5df30a2e4b22535a4f161fda3d05b1a5067d278e21c8e54c],
    [0x2e27e61828693607c17eff9bb1e5ed0baeef782e879c5230b86d6a79d729f4ce, 0xd1cea26a08207e522ace505e837caa2ce7b105cbd04e7c838c1acd006ffa53f, 0xb958dabc9a8066de9e4cef89abc82e3396a03568376fb44ccde4c38cb2a1944, 0x16f5b42d88f8d4f787ffff796bcf8175b1cdce307261dec86cf2034a9b88bbe8, 0x12b68aec2db262e0a61f0fd4b976b00ddbcf7546ef27f47d7435a288c2b6c63a, 0x1d2238d8d9768dc639d06ca5870e3503f3f81ef863300944c87b77628ab6d84d, 0xd164e32fca3c3c8da3ae332a831cc9a95e75d4833ae232ae382bdc6b790d91a, 0x2fcdde6d6eabd7f2fa19234fb157661b762a5c47b57739a62000d7f6ca8ef3b, 0xf133b8b1e54f43484574647812ca377c802a1590df5e5b8f9c8c21908efbe37],
    [0x3057ea8932e9bf7d1a4bad8241e14f1e60afd13ba4e90afb472d9dd29c42bde, 0x23dbcb6ecb4807740debdc825f7764571bc93f33645825d0e45c88b0088a9f18, 0x1b90754a2058217cdb64ab45e24c2e29423bc3a76f8289579927ecdf63edac9, 0x28db800ae16d7033c8e107e198aeaabbf9d0271c74d957c6bb9514a0f038fa91, 0x2f97a36ef93a7904cbdbdc36e5ef374e58eaf37b5b9439473cbe477c3fab178, 0x1bad1d9637a6ad6db5cbd19ba7b955a45b9e8089d1697445a130743e03ed3caf, 0x2b96f520dda8251a878b28bf96d281855b9c43220b0a3279179753f740edae80, 0x41f97f76c60b28e0fdf7974bf922b7a0999e0e0e40c654378ae12843212909d, 0x13b5cf57475057a2f5fb6d08093123973aef9726cbd9835b95616c2aed5588e0],
    [0x2ca43aed5aea162e8c9be92a15e7ad0af84d44f3d2e398b5f7491fa2df12deee, 0x89f6b1ec8b51cd1e6ea69b9649520a6f0f2f96ea11df270ab0c5d9adb5c3df0, 0x4f510cfc7e528370babb8ed7c50c34c6041772627793a0f3711d1300b4d1275, 0x260e12c47d0ab52563affcdd5c2862f4bad5b7af4ee037ea5f8164d0f13d1059, 0x1a656424760e75468aedd8515b3111e16cc0d60f8dce451f7bb35b12dec772b7, 0xcc850e959c567bed20058b6769fc27a6c70cf72f222b80879e9bdfbc6711a9, 0x88947910eb3b43ebd8688695c64ac020e19d0bbe875a7f3a0b699bc60f18cac, 0x2c25c236bb48035f45fde5b178105655ace9f3f9afb09071e790dc4babdc86be, 0x12dfe1bc28654f5c9ba65865769c9e47f2bde0d79ddbdda21704904b2905da68],
    [0x5645b68f99a564ff08f745e1413bd83ab5b0442f0b8efaa2a986a6cfb2fd8fb, 0x17cf3ec9831b4d6ead640d912e41b4c72e9c259126bf6310fa4b110e43864c75, 0x12b15f28fefe5d6fa519ab9cc67a78c57dd721ab44af286e72fbbd5689a66f61, 0x2da44f7210520779cbdacfaab2e1ef01edda8eedb6fe6d037ffaf8e59842a00b, 0x137ff7323fe757f32afa165f11588b403bd393d5c9a961cd2f7da2e5d9a894cc, 0x1318105fa9fe1549f04ef48679c73d46b91ee0bf27b4451195de945c8cf78aff, 0x1408a4259df52a491775936b2c2d476a121708c312e635ef8d1f843c3ba3438d, 0x10cf20dd5734c18880dec5be44ae2ddcc4f447f20cac98c95193eb7571585d07, 0x2787fe4623bd3264e0c8b5a471974ac1feb1e37fbc3a9c8a4ea74d6010b7d08e],
    [0x1b90e21074907545c1dec3c59dbf2a6b1f703258bc03707e33db582d45ab172e, 0xb8e912a5ec5a0bfb779a0801b90863edfd9429a7b3632bb5022fdbc40636cfb, 0xd9982378cd9a8370bb7a555c34df3183ee6b0d8abf31f1f547a3993044188db, 0x1e497bcfd5c95cdfd630b0afbf6d376f29a468d1cd3ecde56f6940221d248af4, 0x2d602401cabbc69dff3dd552e271eec29a5a4acbc935686ccff9a15076585b7a, 0x170a5f4518f58544330671ad2a361f2c803c0d355f3e10a5784951f2abefa707, 0x21b3a23c3a553d401c08502eca497be938776af671edfe44c784956acf98865e, 0x224dd497bf3a4247b9c48c9ac3cee5307490e824a14204ed88c2b1166e8e479a, 0x2654965a3bf3c92422fb54e676ac8401baaf0f68d42664e300624a375302e0ef],
    [0x1d525f4105f51b69c006828670e7785b726e95be160ee1a3e299677820839f32, 0x28f88d089f421ca2bfe697270fc0f34f50ec41a1ede53612c52db74479b4b323, 0x82e621153ee34324e9fb7ff3d123fc9560ef9af0fa0f948db24d1c8e6f07a9c, 0x7f8578337523867b1d9403e9ca61ad99c0d7d5bcde4f19d8752e12a4d5805f7, 0x2e52f30dd05931adb7d7e85255849b062ba1cf2eb8d59208b5bda8e35d69819a, 0x14cb3e56b2b8c6605ba04261a8b117791caf26f7c233bb183f83f72ef4c8f345, 0x2fd6b4e6c892609fda21414dd8712de845eab305be627df4d36c8d325c9bd7ac, 0x325898c8434f7ca32ebd73f53df3b1adb0c9940a69e9191fd996a4a96157bf8, 0x8f50a7b584dc022b85d6a16a0d3dff6b8a7ec4dcf5ec066f99fc4644d6d5d48],
    [0x29c5bbb8eb214fb285ca30a43cfd7141d9ceb8a19ff3c970f2bbf4c9bae9e11f, 0x1264cbd9ec001175211e2856a78901e4088f1eb7eaf5934999e1997307e7432c, 0x28a0e7819aa0251e9cf2bdabf64fadbd51dc9416533ae33f7cb97fd177688504, 0x1a9be651c412fee6c800848477cbb67e4c52fc23e51ade9c48f6af307ec621d6, 0x1bf70a24fe7fc8946fdde6f556b3ed4b03c33005cbe7f34ac11296e5b0c75f6d, 0x2f56c8c0387e5e44cf4921abd33b1590cad0719e932a36195c5138e0c6ac83c2, 0x1109db87b7684f4927b2afeeff00608af5f211920eb8d638e3a7c943b293fede, 0x1851c29804025b6f9c69c80891035590a51d13032cd576d332ca89222bc75787, 0x909e4cdc0bc47f2df4898106b5c40f25c7137e1d5ac9a986c9f66fd5dfadfba],
    [0x2ae3e90e2650e286d5913d4dd1e71d4f233659701b319aa228e16af9f010e07e, 0x6a6c015f95173441f7a40d4f1bde04eb60fbc4dc72fdab7dd81ec557235d530, 0x2f6ab5d35ccfe9ea366da257c8596fa6ff30d6c46816a3bd3d484c97f8d2446c, 0x1f9c60308182eb6d4a83f9272bc220a8745d9c9127050899bf6426f7ab57cdd, 0x2f514c412bfd9754e6798e4c3cb13d5e4c4b29609d3ea5617ded35bc01d799d8, 0x14c4162b9c9eefb97941b1f133bb18225d28294d092cb8917afcb3e08abcd9cc, 0x19921fd625c66ec67ecd8af3d6ff0e0a3cb650e1e72b3fc98884b00354085b32, 0x1c852aefc9296753e1268739ac15d2c6d21de3436c816f75f93b8debf37eb6ca, 0x4bf4a69b1aa4f304afaa1dd1bf60de1f559e8167edddac1eb88ad9d02745fb8],
    [0x240a791f3b8bb62d5d9aae80f341cb569fe3fe72e7183d8e5830165e4d123753, 0x151b295b4242e0c09fef7bc5ef40f1e3c8551654186d62cc663ee4f28ff5e764, 0x86eb3d30bc4d80664a074a09739dc8c497c93cf7e657954b0cbf7676165f23d, 0x17aa8992d7b901eade7eacd95a8e89382a292a7121ab0ebbebe0dd62622c21c4, 0x1a5b3345a4c0d875663657607b5c7ff832f489b23a3c43962008570f96eb8de8, 0x2f03b46d9eeedcd7f8f4cf2cf710e48ce3f31d1364f03345b2a7964b01e6347c, 0xfef583e7e8e102feba879f7bd60241870a0291723aa354a35259e0a40050d45, 0x2e07b5d70ca583cf4d9baffacd02d7d80fa5e523abbd895086a36288b969fa6a, 0x24599dbfa1dd1f4714d585248cf23ca1394b858af8e904c0517baedbf2f176df],
    [0xa826afd370bcb65b66189e8d986777e61377388d8727e407b500fb5291f8ee, 0x28745950870bc1848adbc5f4bc03415f0a2bf23e905e7d33cad03de907081e3b, 0x219e6dcda590fc88d405673d2cb4710f8b5747b46dd9914d1be4081714cace58, 0x296692077b42e972399f17ba71ffededd95185ff7253d9d1f41747c6f27dbe6a, 0x2ccc5f0e2049d426841862f32f8062829fb5d826a6a483dd5078de859f9cbceb, 0x4f915a4fabc8ab208a615dd89fa207d367700bbb9bc061d07fa90a70feffda2, 0x2e04b7c1aa853f9ee5e4fbb5cd7b6e60ccea4ed5928a34f4e59ea9eba8794708, 0x8700df51138b36c0ef2bed12bd78340ec69b04a2e1b865108036391b4b6db3a, 0x2503336398f165bdea8d4929db1dd0b3710416fd63d7aadcec41bb7062c24782],
    [0x5633785a50a9c77573ab10d893341a0cc2df072ed8eab9a2996a47a527bdaed, 0xba4084e44c50e1412a4c982dc0d8a0d4622513b7c96e9fccb2c3be2d3901e1c, 0x2d6f32cb761406dfa9e03d7ff8a43bae106dc4519c61c3996cc9cccd8f307c86, 0x2f959c830737e631395846373b1f7d003c8e6bae3aea2edb73491244f8373687, 0x14863af59792adb1bb40901664349217498d999250cc0a858db27aed54fbaa38, 0x27623d101b1f922899f9c5783e1fdbb1e7552826e4d6b58d6df8d986937cdc82, 0x247328a4d9ce81603e37ea72cc5d1c895c21f09305301bf1411c0798602a6268, 0x1921909aaad03cc78a6cfbed6c1056e3d93a25a5496cafaca12af4ce324c6081, 0xa85c0358cf388b47d14d42feafbdd4392df154f649b7213e29cf101aed00d80],
    [0x1bac04734a5920d65d67aaee04165de621beb56f902ca483860f7077537512e, 0x1dd1720966b3231bb00b08d6b8bac6c76dee5454f784134b93d8c70ab3eed999, 0x22897debc6eb2a7f36bee1e7f42ed4b0d37ad696535d82d39ccfbbe92e86c08e, 0x2ad01bb42b95d113b3b91ad88c69a33c1e94dc85512bc5168ee73065b387e175, 0x2e82bd0a053ce03af9aa947df5f131791529a57f8360a2cd697eaa177c6000b0, 0x2d2daeaeaa93a5f9d8b6529f00c4c6d691c3bc4efbfc8e7c2f08ae3e44e1f4bb, 0xab08914b2de57397983bace0b327f98c1a9c1e58c76ef2e716cc305727a0f72, 0x2758796cd1c178ed0c433c4f1b6b19d42ffa1bc884c3cd1ccca107cb2bc91998, 0x63df5b0349016e7bda4741ec898c74e4a30fc4f1b59fb713a824992311e30f4],
    [0x23713016555546753d41abd69e6fb91e4344b7c05838048ed0641cedc5fc6728, 0x26bdfc0a894998e693b7e2059d6a528aa86ab57eb031b96b53fe8b5adb74c075, 0x8897118f75cc8e9115dac581b9553cb407a1de135b632541bb734f53985286a, 0x2ef8eb2c7b26f7a57691ecb1e15a40afa9b3a5557abe81146ea6f6d4960c346, 0x254e8e5fc11b992348fd7a2c9f4a5a0b586bcaaf12603658b25910f63cf08b01, 0x2f41c21b73dd4e7b510dca16e7b4b4277301da5fbbd59db03d3a32b89c57b7c, 0x253f09ce9ecfd2aeeae98ba1b29806bc2871e5fc67bff13e303db99618e1d0a0, 0x4395eb655582d03f25775e66ae67be0aaf7c63ceffbbea9226b04b0e795bfc9, 0x13711235c3d21dd749e3e41bd048a32bfa2e796e26b72e05c999e6e6126e402c],
    [0x83c75117510a37d43b5513963fbd0f9f33590ddcc297e3cdd9ea42add7a175b, 0x26cc9b5718d84e606582d35d8fdbda944c6525ddcd7488cff21d4d0d823dcea9, 0xe8978f047929b1a94601499634a8da020b9a46d0b1187d54504ed8a344d56e4, 0x2b11423af39a5d15be397439b5ca50aa9a6d41234acabed2006247688f6fa805, 0x21a56381040c702dda5a31a5aa275ce692685625e5aa77bbc430382573b402b6, 0x19a869e15b3f9b965016feca2cb82a2f14c800945ba49db74aad8e9346af07f6, 0x2b01c5a2baa16f9569d4670098466f05bf3ae097aa930771b76f24afa6be50d5, 0x586148573b6b56617f94602fd6c86ad4a71b3fc67a35448d64eaea532582124, 0x40352e19809dd93bc7a2c549bc19cb007872e0599a3127a3e7704411894f98a],
    [0x2d6486b8e7b9549ea86cf044e8950ffa36974e842e1fef876561e1346c5a893a, 0x2ea9d2e1b7d07c9a3895565840e25843c9debe589044f305c1b5872c74e5a49f, 0x12e0dc4105acd8692b7cea0bd76da34aaeb8f6d00ecf84b4f062270413a8087a, 0xda9c10656e6f42c3ce7c980a70c9d793db4df8307599a33a491f24b6368290f, 0x2f3551c6a648387da629c96633d5cc99360d9b89aec23c18ac76af21b11a850, 0x202de33a6fce9dfe8aeea34af1ed5c74093386c8a553d3a3da46e134731dde14, 0x7372d41054dbc009e3e91f902d57a213f043575f3427e35768a5a52482b1b7c, 0x2f7e35a4bbe9699949a819262943c97e8e938cd999cd911a9edbc716e2454fa, 0x2a27b84a7422e29b8cc73bf54bf535b011606c819b4baa6824b6123036d73ff1],
    [0x19527e9093b313d5d2638c863499839ff5d8e5f98e74b312fa0c63aff7161a3e, 0x8571a6b8b730363299666231e3c49ed231d1e355d93894c8562ba033147f025, 0x2c0f32778edfe932d912961c81d88e98d4fb64caea2cc2d4e3f213a5d2a1b9ed, 0x2710a63e84f8bf3b15da09e69bc24c567f84a4577610b19cc58191b2b1453ea0, 0x2d4b8440f168745ed84c3e393f75bdc0b0fb3f148e4ee77b525ebc258a953dd7, 0x234901ff3ec65e0a4f629bf6e96eaf379aea7c808ca9ee79b6b796895917684f, 0x28a529a627cfc689ba1bb3372072518c7720b450975339e87865c36be526e5e6, 0x1a1af260473d83489a6a466ddc1855fdc6e83d73b5c5c0fed554af11c6cef5eb, 0x2fd594dc14997e8e0123f3af16c9289d088264cc16a8119e8f02ab7270952924],
    [0xd3564e44716de8c02d8f8278b0d2f819658234bc4db59147fa3a5dc23eec833, 0x293e9ac448bada42377dd8b02d5ae5695e886e0f8e43f01b38266aada3cfaa0d, 0x2186e961df0728bcd7b667d35e95f354cfb1ee1288aefb7e0b2381296daecdb8, 0x1b4972ee03b2787a27219cdeab7acdb5dce44bf8368a0c43e1e3b8c8a7f49e74, 0x1105ad26651d5ac52e817c32d86a3b10f05738fce996b2fa905ce1c3279522a, 0x72b770a70dab242ac30d03f5d2477595cf521ba7c91478d72e45358569ef30c, 0x1e399a42196a8061079e9d61ec97ff8c837195bb936206997f5a93021b70d275, 0x24f50ccc3a68ab3e2cba453ec40a8796a3c59735dd3303bcfadb6218aefb7d6a, 0x14fe92dc9227b42df23f8a5a0a7a2f50bc119f01dfe708b9118f75616714bd3c],
    [0x24713d85951736c77b66941c007d170282271958c98fd42d6b12696a7065916f, 0x5cf2ad05c75de38238f63258c8dfce0d1b698dede7feea9a97b263cce815ceb, 0x2d62695c7008a11d0c874b40395a695fffaaea6e6bfce85ae1580dc48218aa26, 0x19e47227e74d5563126770fa5ba61405ea6f348565c3aadad0830b3ef5d775a0, 0x20e43ff580378bafe2074a6b2fd50c74594537f98565f2d65ed8c15e5ca1084a, 0x264e4841309ac1aae92ddd9cb4d973e237406d50d2849c7091bf1c1bf5c1273e, 0x1238beacedd4f53b35b578af1c30c077f4289680658fb26ae1b4c0b2f710e604, 0xd90474c262aac1913f37459d4f2055dade903de9bc02fa5fc7c137cce05fe35, 0xf5aaf4827d5f40e00235ebd1cd1b9f6ebf3388383e692573b95cae4f653ad82],
    [0x2cdda4350f35334773cd823df37097ee967c28d62d0c45c34d0cee4008834893, 0x1c0c8c2ebb6860e64dc46755a7e072795bc2c78832a618bb6a2d5d0911b7d768, 0x269fa26069db1cf0cb705bc3584c0150b85642d4f243d5e68d7240b8e8c03276, 0x9b443b0a7676575b9a6d3f003609fa7c7b6226341ac8389258881d994fa91c8, 0x191b4697a8e295ab80f81b25743fe13f3fb6998e9131e99a86f22bd33e7bddbc, 0xb488b6a875f238bc324f04288ad865c8577e8f906a971ad4bb9d91775645730, 0x275928b25e503c9c95c01b18a5d30081bb0cd31c36cd172bde1db83287f5f5e6, 0x1fde053dd87291d7e14f0f2e7b7461b49f60e4afc39cfdcde65d70f65c3b026f, 0x29b2c386816e9d3f76100e8fb9543329ff88ac29199a181358dc231aa1dd3e0b],
    [0x4987de3e3121811ec3c10421005e133fe1ce9c2aa7d7c54a26f425cd19767c5, 0x19a23ba97426bfa81b757e35aa3559050628665eb496ed8732d409942fb6e16b, 0x12333e97d1f0e3280b5e2f9d96561b2c04d001d2b393791a861fdc26c1b7f767, 0x23e48a5b646d353895d06928a181d75ad25c95a7672f3a1f4917ca03baff3227, 0x1b6bff423317d2c2721965972823ca2e93b8f2bb0a52245cedcd94587d596382, 0x16af0f387b9ba94c0ba6d176df30701ff378b3524680aafda4f7c4df4b088b07, 0x1bfad9c1a92234ed97c51ac7dc2d80f2e908c098b28bbe712cb75b92797a2103, 0x29bb5064073e9a6aaec7bfd94d48fe2207d90ea8962530f388442ca4d95e6256, 0x1cbe456ec3f8d8849e10fea36509acc3647edc3e765f4de7489264f5e34033e5],
    [0x87a35062dbd735636f76cef6fab3b412749781f03b39b181495a62aae42424, 0x1f1219145ff0bf15d9645e347879a7347f9a6a5f3dea9a9bf9495174d228bcc3, 0x7f93fb41605d3cae1b42b92d527b2ce7cef14ad2b907702afa13d76ce02f88c, 0xae3de8a6edd589ab62767e92f3c19efbf32115679d2629a5ebd26c1c7d34299, 0x15b6688e877724b41ce08fb17695347b5eb8844423c71a98ebcc188c23888dcb, 0x131cdc252f00cfe48cd6cb1b15344b6fec8b176c1ca5584d76d6f9f6ad26bb13, 0x1bd570cf878b3dc1616ca32bf55e0b3fd898444d0e70d64909ec789ff11e8eed, 0x1e5a54e71ef7b9eabf717c01dd99b7262c3b43d1d6960094b8e508d1e11f03cb, 0x21c88de360b36a24fb641014feceacee94856233dfbccbdd1e9f0f35c9e7fccd],
    [0x2ef387dc1012ae94898b8afc9aa54a3be1f91820b61ab86f45ecb3ae21e23ac3, 0x283914da97f036349936af1157c536d9c2873fc3c1543afdbfc1c0c55cc6d5f4, 0x276ad4f7ba33971e4db2292c7ff704d15a14246a6e7d76ea79f1189066dd42c0, 0x24ca7fd6a2014d9821a624bf07950e8f64f5e6892d48e4a71cd4f63e9e2c63d8, 0xfe8f370d24968de4dec0fae5919d8f4f666673ecae78bd7e22dc2276364afd5, 0x2f0bbec7f6a255512df348122df4b91778775ace589d4657dcc1223aafbf2586, 0x180732ee6d3ae2aa4866158f54f4d8b980013cc671d68c69a72d5955678703d1, 0x5a0b0ba16b7b0631dbe2c92f9121284974a7033a69be30407bec6b153590703, 0x2908a5a3204a9a144f6565e561bbfe9a4b664edaeba4106e1a57ac77290193db],
    [0x18c860a5d2537a84944a1075e804c32ec66cb5979908a8ca8cd7f2d8a7029c0f, 0x1ef80617b025bd54de5361dc2fb16cfb90c364e37f7a1f07ddb9ab292afc0e91, 0x2ab495215ccdfda498510f6d5dbfdac1429464e7788a229feae561be3d62c2c5, 0x251dc073bf23010a06bea25560e1be3ccb2c38e67d64eac680aea6c19952a7ec, 0x2201c3662a59685a511e2555643567df50772e8c150bcec0943a8af3f106847, 0x2bb9277b8021c5d354300da09101d24c72a842f97627a82065e5e67a22f465f9, 0x14f5ee46878e605585b3ded3fa8b9b7fd62a2017b6d2f30ed61339cca435e348, 0x114578668b59522fc7d794abcd2497baabd855f3fba503d5f5e0486047bf3fc4, 0x20bc06a35fe07cd507d0dd0a9da6987f228017055096ee68cd33eab3773a1146],
    [0x184801f655e82f8d32b94fb0612baa4ec983d1cd94cada67237670051d5fac5f, 0x1404d5fc7a2e8940778158fb2d303364892147a64bfee54b25d3906ab5b3490f, 0x251df4335e5164fcbbae73beb8cb57b809d71cb59d6e303db0560b0c1ee79e0f, 0x9a45be49f35c4f987b58d749c78c69082486d3f8777eba4103eac7190faad57, 0x2ede228b9b96b21dd5e1e6ea260a87f902c0051f1f203c788fb907df00e51177, 0x100a3118e3248ac400e6aab0e4e6b10f07e96de582c2c923a99cd14e45d6f209, 0x15872dba1f1047ac1faeac076b57513ad92ff71b6a6a2b32f27adce084894e10, 0x1f68a35d81c05733a573076ccd7946a4039da22e42959520737e4a6843283fa9, 0x2a165a1a2b018ab2fa4e581d7cb567d9b1515db27ea710af3683a8919e99a282],
    [0x64ff94b98a0588aa924e943ca627fcbd2ef854c66f917ae526f719fb40c6759, 0x1c8349f898cbf2d1fe6db936c53bd3564b673b72d673aaa39f9691e08283d5ef, 0x2e4628a8655d2fc84a32f10e0a95e92d0576739c07050bcb0158f156db6e7c5a, 0x68316de71fed80213380a8757b3a9d517e7ea1e4800a22c510755a4a1ec152, 0x229e32cdf952fd49ddac8bacca9ec0a85b9f5f1e8b4ebbd995ec5b8289a54289, 0x26c9af69ab4a7e08335cdfdf33ce102a14cfafb05ad000afa7383f01b9b5b892, 0x14bc5140566915518f20d51498ca60f6e5e48678f97c1bb58e17af4db8f232d4, 0x22fe06bbaccc5b18b4a8bf2cc8c47e351291bacee5c5226fbd0cdb308734339c, 0x1dca1403773581144b083aa9b9768db5a81902626de0d81d80f53d75d247af04],
    [0x4152e8ca329e892a4503613f3472ee94b7e3025a592d4625f420c45c56a1f52, 0x13ce7edc9f1c7d2ed533026150f2bb6d261f379f1fbb48a8d556cc5ad7914e36, 0x24f4fa36a48be01d0bbe57854d48399d81ec03c394fb2eec544a631f4e1cb1de, 0x26e0659af8c838aacc352710f1433d9df9ccefc47bd5c487a0b3c29a01e559ec, 0x222f80f3327ff730c8ca585c067b5ce946724707601b7a4a72476c4f73e7818d, 0x19cd3a66216e859e433f64e4f9f3e2ad9c58d993ee168ceae5ebed3049ab2f87, 0xd01aa823ee846c2cb695543c8499803101fc0ef222e3c2b44d8680e8a76188e, 0x2e17901918cb6f4fad9ac0d387757aa77c7207924e177d0826ebcc45c76488b3, 0x2e30cc49639069e2101cb479c7281e8715ce5f34d17c016430a9fa75bf484ad4],
    [0x18694d18fe6758b36c38ac70d1344c6d2b70249db92a74e1404683b2f00dee5c, 0x2597efc11329ee3e0c8bd40b4a78681738b4c52af4e55fb5be529996b56bffbc, 0x3ead8cba0d24715aea9ff5443d25ee640893186e6ff6c045dfc91edbbd1c94, 0x1e17e4583d68f0e1e7234d41915f2fa3c7b7c04cc2afaabd7f3bbe071cf1ca2c, 0x2d05098ef2828d71e8758837f5c973ec97b7547bdfa1433a5527168ee9f9d5c0, 0x9220ca57e2ddf5a1b2f2971627d1a74b7c1b837ade64a37e8e1f0d436051a7e, 0x22ee5c6d36a980b7a428f8afc999eb09868adc52b4fccfdb68b3f5fba518e03f, 0x1b70154b6e76cf9bcf4411203db1c19c77bc0ca8bef907ae8a4b4aac270842c1, 0x1a2ad9a834a4d41bc0d5bac3b7e9453100f58c8605fd112ef6b7a25baa7dfb88],
    [0x75aa06f43a273433cf8ee196e8577e5fa28844595b1f2b36f6473ffda38380d, 0x70f884d5d0093ff75fb09ce934c8733008f994efa4f556520f11ee8bcedf82a, 0x7d5a9301209de0fa56d9dee45f8480b12d33a73be02f078f7b9df6f9225ddf9, 0x100dd4a2833b127fd800d28af04254a018853218ce565a8f615995a0f2466ea, 0x164c79e2906202e73bcfb8105c5c10829397bcb0089ce03bafc5f0e627e0d836, 0x29dec9bfa2a12f2fa1bc9158dc1d3d1ebad1d849fad58d34163d741923f8fdac, 0x27d590c95d3dddcdd43e3c40f7579dde645f33c7b0ce03d55e07978096257f88, 0xc32e71be02fa8302d8abcb8ab2c6a3dc4e962e75955401c1e6a66157dfb965c, 0xcecd591ea4f3cfe0c7d3edf52f4f93d60a3126433bf9b9e47710d298c31e9d3],
    [0x70627a0421fde844216f5f24789b3f54d44f1a06184aa81f75aa227335f264e, 0x116f5232abcabac8a8b9f1a3ac86bfa97fe285811ec2cfd733f1206f449d1de6, 0x2a8ecaecf1355850d03fa2f1a7904cf3a2ba7d3bae30aad7a35cfb4a6d7dbec1, 0x252ee8a2dfbaab265c060600b3f6e19f24e491ddd37195211f95918d3d39b911, 0x23ed5e73a4223df85afe948fdef2b6e0d3c120aa31e2f1b4c89054d5218258e8, 0xddef510d2c7ba32e4331ddba93aa688bb9fb86173625037b86ba4c62a0600fe, 0x2339cd5cb769acf2dafb5073bd988be15a65bf8ad06c38a82d38d317f0febe8d, 0x26fb4a101c97c06acc999150483d44aa762b585c422bf8dcb37afbfdf076ab49, 0x77d5874dba21d260cb02f280c5fdf78fb8ed9e0acada998ab5cb833b09d1858],
    [0x22ddb2bebc8cd1c946f8522d7326702328511313b40b4a9e812b69aeb6113220, 0x2e7c43c6222e6323f682c05c571f6aa62a3da64be2c3f381698e2c0ddadc93b5, 0x19ee0e60fc2da7a295371c667ce850772acdbbfa0a9eab7a7c94a50c9c682de5, 0x4d46d32c131ca79258ef2c525659b8138c0e199ce5968e57a82e780f1fa79b9, 0x2ddd25bd37dea23386a030f4bcc1d4382635a6dc7ea3cf3889a5e8faca46bd82, 0xbe3e9d472b8118ce3d01a92fc168de78549347b44526893312fd5ec3d2726ad, 0x27fa8f235db616a5909a2f31896dc8de9594798707b477f343b48ff528e49b8e, 0x17226412ab2fab6223eeda0b848333816a4dd6495e29ca47ce8b96f8c87aea21, 0x8a2aca609e6344086eed8a710a35469bdce68646a435a6918277a21d03d4a8],
    [0x27a10619eec3b5211b7ce9c318df7edfaecf7bc84098dc1c58232ac25093e35a, 0x6def2df638eab9899865393563ec8bc81897fe0f1adc5c0499755f25497fc46, 0xc86bd5b00467b98563b7ad1b362a058538a7faa110a438b9d0ec7be8c50c098, 0x2237c3870ca51c0c9daf086524707a78be8845df471e4d4fb3f2e7f30d90214, 0x2aef4c14a514a36ce1afa9f2c5f1ede8d00530e01e2a704d70494cfd3c2982cf, 0xf425f81861ada856f01fcf0d5ef108acea281735a913d24eea75b55833b328f, 0x1e562f2a3a83be1321eeaf564fb19f57aec9c66e6cc8fda18999d5baa0b4630f, 0x627d8f4c1a8c8f8c5e1eb617598954aa814a756782e2cd85b79e8e1e748c705, 0x15e5ad36f719cca83a41f67782388cca380c25992e5cd14c670fd3c317b0ea5b],
    [0xcc8d138d0854f9b62697b7791da960be500e3529cdefd4f0b18d16c5e757ce2, 0x17ff555b52d28be1b3c46c80946df519e9de247d2cf8d8175086f975d24c1e8b, 0xfd5dd57c2cede876671978d2fd289aa0a02693252b74f7fdee8bd404e6c79e6, 0x203144a77c72ea89fcaff39b141def7e93a1da1fb9e22b7d0c6733bd72f06f69, 0x1979320524dfa45aa8ef35eebbcf6f621e1c855b5704d8bf755bed7daaf721d4, 0x89b6683b1f849dbbab0f1092ca04880f8b894d7f8bbcb95cade4e736ea28998, 0x2c2dd8e6610a0495784aa08bb9661fbe25c908396b5c3f2bd51109517fa28162, 0x2b9627b579ec4019306886e1ff4003aeb3a33249be5cc6b56dc3607b17e42477, 0x178f70a99501a6e05bf4ca79b2d6da47049f8c988936696519344ddd931174f5],
    [0x224ffa0f9d0d57eb0c7d718e99cf3b6ba01b523548ea0ca23a3f156c04083abe, 0xf2ee1e2be1ece2cd8aef1dbfc826997d304d88cdee555ef67a799759c39ed4, 0x25757740ab14ca93745a76000e24328eb1a3d21d3cbed1930dd1ba2cbf7de236, 0xfa6b963bc65bd930510b3ca6e1ae62c1b4675edf79ee79a7f280eae6496f16f, 0xccb794ddf870bb92a9cba5f859fb3cc3f4eb1f1117d14c1caef37beced0e32d, 0x123fc6d306f17fcd5a4309d4fe6e0cc1ca00fc23ea9447a7c6b68c7f6ba50005, 0x22162170a1f845eb0aa1ee7baea486212a09814a9557bcb9fc72cf90f0a29961, 0x13e385a5cd2fbda978dc7740e927ce8d422c9ee861c43036257242484e497e3a, 0x13bebd80c2022724017d8e3eb84c269810cecf47f9f57e237bb4be69410a7803],
    [0x13ed291502566a7033b4c4607245156a158a6fc84f4ba6f0246c1de057d8ff1c, 0x2ffa06928536af91c7ac3b7714f204e26c541142742179217095a6e54f743247, 0x2a6df655e926c4aa029749aaa7c9a40a10fd55a368624c148b5e528d4313183e, 0x27d8531ec6121a3eca74db524323fc100db502a580b8a4cf8651f1bf6b9b0238, 0x1ea104a44d82fbe1bc1ccfd4626cea0c06693422b3846b3a2b4aa12a3b0e747d, 0x1d69a3852720a88758034d954dea602e5989114a4667251b0da5915412ac5ff4, 0x1b8e232710f6c1ceeff9c1086d49cd8d2e647f6926da913cb5e10337d7f3d7e5, 0x2d40d3f8e6f9e3aa6014c69630dbfdf3169f88067574ffc9210f7da599c4fb3d, 0x24e1c2f60b1cd36101770cefc4334a8c02f00cc696df64f76df54a6fb6f0508b],
    [0x2408f2eb6b1e958ccadbff81c9a44913ac0c9cb5cbcb4b4054017abb3db8c04d, 0xe3c6ecd281ba2e16aa37dacd2abc38eb07c1353dad96e87d14e5ea33ff8ecde, 0x248c7cfb7ba2e71819bfc755eb9e9a306cd0f6e3212e254090f0006d9ec543e8, 0x267fdcdeecf69d799e79f68632217df51226d8ce39574d72b4ae4f39d21721ed, 0x2bd9173ef276b7d4911ebf78dd15342eb261603c2c9afcf4ad831de9fa34bab9, 0x1cc0af33d07e50b2adda3346723006250fabad8fa3ddb365c1d8582f4dc65f14, 0x221f2bc4b7dce9195f9ca9ce8fdeaefcb05440c20dd9754bc59c11447caecebc, 0x18ebd5c63b0bf20f45d238fd0cab5dec8dbf1996bcd1b3489f3c2499ecf92b07, 0x2f338bc5a586f2774af3beb92aa92ce8e58a5efa19ddc891be47a5e77e9f5a4b],
    [0x556b9c3784145eb4f2ff6e0c88f41989da5907f8c7118ae492939bfe4e9fb1e, 0x1ec100367f65684538bc6956805ed37051238a3637e47022a3294cbde38b2284, 0x1645a29dd4527ab91a4b798c7096e832073c8baac6e5db87e26c215bf448f84f, 0x22a78abf7d5b362a743ed52ef2737bbbddd375e9b3bfb42409a95ad105ac9350, 0x1a9921dead26c55aafb3ac9f3f35acb61a49d5f181e8036540830bb18686eb37, 0xeb8645b0d2b8f0c3927d4643574c0b1a588272465d319e15fcc6c3262191aa9, 0xe48af0cb275af55deb825a34ca48904a47c31b5592c4afa9077d60e5e7ea655, 0x17dfbac5a26f06fff967cfef597a6da11b5bc894ee6b62e626a62e85a3ea4b66, 0xdffbd016ffd2b795226a83edbdb3c5a6f78917d7fbdbbc1b3631027c866aaa1],
    [0x2f948d5f70856b5f23a4338d244f6ba7e7ebfc750e16ebd1e2c2d13825094310, 0x194c9f7615cbe3eaa0f885c59e420bb89dca60fe174ea321d80435301511713c, 0x16e81a0540143cbbe662c7ae726051ec663d621562fb3701240cbfbb4b17b3cf, 0x11ef0c2d88131f715e47e9a4953f789fec78decdbeed34bc8eaa42927ea6eee2, 0x876e45a4f862901bfc620a55951802a1d1d5c3e1414308db7d548400f668535, 0x2e78d35e1dd86776a4ddaee1192c055aa8676363bfcf3165317dcc98017e6c75, 0x19f6e589ba384db3c36adae4bc034fb9a444da42164b6ef289009a2cd7d15a6e, 0x9fed90b1f10f84f6739bdb1b4b508957acceadace687aa735dc9f6ab14404fe, 0x55e35bbef7ce5ee7a3603222e09005dd5192adcd70dc33721714137221f4831],
    [0x5e8dc359ee98d3bb6990fd928ecf056f9bb736e0d47cec22a96e7cac65a9828, 0xc732297f8b0c272fac76944ee969930752a7bd3943c7b97e038bcd2315d290f, 0x16703fb8b02c94ade315d5b62aa1bf7834de248310887dc13cfd13fb6c2a10ba, 0x28715ac5265d7a812af4e39e43bf9ac80059635d01fd6fe40f3f1e059d7f7f4e, 0x2f683b0027994e095e71eec8475730fe227b480a6aca67ab1593ce6f837bcaf8, 0x854d9c3be72187a2f198590decd43943c5aa6140a858f21595b9a08da85b323, 0x1e3d592b71a473c85b2104acc1d8db8cb9101a3cce55c66801a0d379497deadd, 0x1eb27377cfa38a3967a71e697725c195bc1d7ce047e83d0e069dee8b95a9a70a, 0x45b9fd1e0f115801232c7aaafb5e73bc2d657c47b122f4e3ea30a659bdd9be],
    [0x27aefe3d1130e9394b61a804dfe2231d68295910dd39245f1e1de65a87dba6a, 0x2e4c5fa1a42064e556fc50dd7fca7b48625e4c169415487d4df0482a9b1df4eb, 0x5767cb28f1019a39627a19196a7e4672e82441be0b90523c7b9b9f74dd3315d, 0x17e443e32ab352d209d3e038d1364b24eb3f945e99a6809502c5439c807fb4dd, 0x17a0c0d83cead8ffb70978edec1bf3c4acef4a2cdcfd8c335bce42793513e43, 0x28b749b2a9becb34665e38f3c49b767f20738a481a7a76a19bf1030008a252b3, 0x1f5252eb629922c70f2fc1b5ec5ea0a0e0acee47da26c40436c3f1ffca690356, 0x29324c40ee7bc85d33a056c3fa8f44d6a7724da53ccedb3e56cc26b73358aa0e, 0x567e9bd8a2b947d75b376a9a1af17bf8bec6c9abede582054fb3ecf7860cde],
    [0x1e96bab6ed6f45550f2621c0adad747c2fc9988485f6184355c3176d5c11e8d6, 0x8d47dc23b1ff527992c9eddc91259a748f6cd7c1f61874a0836f599e995a399, 0x22733cdd318150f40d89d1ac142f26750809a0b888c85743af671050cf6736a2, 0x2168174bb9c45be2ee87441174a24fd41de6bff4a377803025864c5ca1927347, 0xb48fdaba88524ef8d0495ba63e8713b65af4a9267b5d62083e7b8726043a1e0, 0x18658643fcb63644520c0fa02dce232935a4ce8d7b733a9b17a866e50b3ec8a9, 0x2fc94cda5238fc785871bca97960b299ed0df05f6c6b28a3834865fd4974bc21, 0x1a54a91a89dd7e0ce87530303c12ef76244fcf42c38db35513d65c6d5994ab6f, 0x15610d8d64ba02952f4170eaf42a27cfb2d13f04d4673537b72510c5c4c3da22],
    [0x13597b4707657f437ee42087cf8b589042b277467d8a0436cf66ea44a6661212, 0x2dbb95e5114e740028bc5edf58b2e9fc7e3871d3f16ad0c3845d5e961a87837f, 0x2cb3a3e7ce16cad9596eab92d772f6b8afb43cb6492b2c363ec71e11f86c52f9, 0x286e8b9468bd2d392dad5d90ef65d28dec27de7147ce50b8edffeca5d70020a4, 0x166e762a73b519001d753737d7d908ef226237b077cb76ed9f6bbfcce9989317, 0x1dc5bee6477d7e7879fa2f33ba9adce878a57fad3845e7c9eaf4be54ab844f61, 0x1f16f7f1cd61d9563e064c86b508afec41d614abc7b34bb45174b40d3877155c, 0x28df04cdd7f79cb06fbf044e631ab11fadf9691e4ea5f6209f8751af58c8eb15, 0x18aa6490047ab52105dc1e60f448762461b7075d38a7c0b2ba95646526588fb6],
    [0x76ab8143a290792147c6a6465c9a83bddf4f65388cae8357bc6bd9400ab99b, 0x2616217a94f407053cef3b234cc11acbbd2e344b403bbd8a26f821bcb6f1f8de, 0x2296862cb9a14424a34d3a11080d6ed5bfe1bc4e0301ec1cbd4e260d81675684, 0x828428022a299903406314c159732bc0fda227a3e7a40a4834e513f3ef97c53, 0x771ff9f397469dda6f20cf1841e702c1780a0719b3f590175b394f38279c77b, 0xdc489dcf61aba1104925eb9439a4f44228d06dd4567fce1444965a749567975, 0x104470f92923d3b9dafa39eabdf7eaa23b6ff11b2ebb64a63bdb912d43865fa1, 0x14a490ce09c929505ad223e2f397186135aa6586b27cc9ccd4f78efbec993a6d, 0x206893bb747ca2504461fb24a2f72eae4cf330835825fb8ac9563fed9a7853ea],
    [0x3c2a738e753f35b068c6ac8171244c23fbd4f37c80ba508618c800acf626546, 0x129edb7a013029be80efc7400212cd7af1308100d34a569ef3646b52cfb06e16, 0x874b0edfee05d8cddac89e7b562f917c7ece1ec2e262f226f4d1524a1ddc158, 0x10a0bab2786cda30537c696bb1ffaf898078841896f7be41cdf30ad2517b2aae, 0xbab661c2a17fbe0221f435ba90520bced928364cac984e17a6c72a47e13fc2b, 0x2042016e686c984057a28aa2ae13c981ad8dd02ac7d4663005e1380c54f843b2, 0x1fc295ac71911a59a81d087f967f16a3a887739d7cee663fff5d6e0710cf4a42, 0x5922697b04ae608cc3bb0d9d345cadeaf4fa291de888e9b1dd32c19cb1a8777, 0x271b87d8b895c6e1d864b9cd030729e523bc90b469cee37b51144bb3b0e4b9db],
    [0x24aa401343e4705f22900fee892cca269d0c0ffab8f55c21c674edb9d7bba552, 0x1b07068cafe17b55b5e00f7037c9ac37ef0268d5d2b76d7271c617004f05922d, 0x1e35bad319a036cc6a2094f2a1bf2d1984a2b74aaf3e5b13a6ee30c90097cb33, 0x2ab91b9a85ce69e7bea68f4fb5b1fa0903945e039c4ddbe05eff2d5e754fc219, 0x21e979fa3a2594d2365ec70b5b3e0ddc5edb8e28fa7ec307aab14b547858f666, 0x187cffd76c5fb29795523ebe065c9c2115e73784ac6b15c596fdd68469d1ad0e, 0x18d2ff882c52b396a8c068f88c3d23f9d11d9f91c0f7fde9ef6af2180a007392, 0xa878a77de615e83c3d430f11f326b785c1ac114e599c24e5adc1d9fb91b31f3, 0x286b9c6381700288bcc75d020ea09c45957a615576d7620a0b9af2609d39afcc],
    [0x1c4e5ed7db96db52059ae2da709879d489a1ac5031c35ee1b6c422d9080c3f12, 0x27141679bb9260a693b880784ff5fbc5d59457b96630e0a5c04912092a4d2abd, 0x15e337c65fa58edb6a74fdbe7cdd1901b5d019ce7dd4144a8b49eba02bf085fe, 0x8256792218c8227eca89f5114f1e7f091d88a557c69b2a956fd2dc90cae3631, 0xc08d19af9c30a31acd3928ffb5a57de5e83367204ee67209ee7ed1bca5185da, 0x1919839ad91604c370f237d2a0aa98efac29246f93c24a1bd0f9d2b60709b6fa, 0x15bf65b02b92f40b9f0ea893ddbb0572f49375acb5958bf944c77ff6c3561a41, 0x122e02f2e0169809b22def001acc797b202d335af7bd2cf032e3a7c75ef033b5, 0x12075100dddb8098654e718605211f7f6a21f5176d380141fb39977305182469],
    [0x2dadbbb8fecf5ccdf01f73d0cc60b15f1bbef018a63f50f68d00b72d8adf0878, 0x14334ece05a631ab375e7cfe7b89fa0d8092ec0cee24c9fa3009edcd62ea8b71, 0x9a51856d49ec654f7d44aca57b174365ba5479d8714a09f0f6de08b34e3942c, 0x48e8feea9b828528dbc63cd3d811ed05ce9de018f4a4647ac1f685bb8f6715b, 0x204ba6f18193f747ff10980957022ecaa8fa4c13e7fa4e89730a76253c9b07f6, 0x79e1be1622edc5742e4f811ea2c0379bff4fa82b79fde5d0c9a0d174df130e, 0x27e48eabb0ef3b22305ab720ee4c7f414e8d4dbf4360c81d1ffae4d7683f637a, 0x15571becc7f5454e45ae416a6b3576274767215f659c91ba354372d999881d5a, 0x2e6a4545ebf7c2e44af91ca7192eec4aedddbd2ac1df4f5101f7f8cdd316655e],
    [0x2de19fcc78800027b1932cdf6f9e959208606cbf8a07524457492867f8f6bca5, 0x2e1ca8efd1876e209fc2d62cb14446e8f3c4bdd53d6382ca86b113f3209d55f2, 0x154b3f85eaed8b65718e733ca2ca7c8af03cf8f23befc4d7c6177ac00ebad368, 0x29e58f39555d9dde7bac3df18d8eaeb2a5a50503860d20c5cd0ba2a2cf6373bd, 0x32d32032e52103ad798fb36ef7c0681504cd2d86a12c7d937ff518e57b4c3f0, 0x281de0191d30af73105e39dc174015d65dc7ff12d20888d02cec650e1a245a3a, 0xf7e76af800ebab14281645d290607eabb062bf0afe1419133e1ffdcf70c808f, 0x27ea405bdfc6557a4dd338a2bca9819547501f6f77a588a75c014d46283f75b3, 0x570af543efefdfddab63fb05d31edcad395ac82381491a80c825c621c7ac22b],
    [0x27a797e0014302478a413cede7a45cd894b0a229c8e89f56ebaec4c46692bfe, 0x1dd0e283a8ef7d0f4966a517687fc53243554a8d3c7e41d91719b36bace81516, 0x2006444695987560869df6dcde2673e5b73ee5bccbb43a05c2d8be6c59979242, 0x271926392e5f1c94437afe2c2969bea4ff3f6d83ee71394008831d24bb1b6cb6, 0x1b607ed2f130580d9a8c20ea26b33b478d6e1f00cc82f00176935a8b54cabf8e, 0xb7a6e33808d217a9e55c23871cfdfe495c10d62b8b981784b0487e63df03e0a, 0x28ac790d462bb345ab80cd1670403943599b79edef17cf70236ecb1ef872cbc9, 0x2f8d745b1b4750fd2f932f7913095515c498be314210180c6c3077231226bb94, 0x2a3ef20e60142f17d2f3b82eef6135079523956d8bc684092eecb7a7d56d71be],
    [0x8119b14b83922e4b224697c2c6536cf772d067489d42672b988cb638c71a0f0, 0x1a4bae6c9cf73ea22739a275bc722c8cc83d91e7ddfd5110614a52d84ce73205, 0x1d659aebe4b37b888be3a7d7f23e362c250046c09d5326312d8d94cdb384d1be, 0x28e2fb92bf6da4e6b96730479f170760564458d95f732aae2406af4c03969f8f, 0x10f4ec3ad6f3ed3387729990456c9685786ede8e6e14b7c66311d47b8778aa68, 0x2ad366d90419107866504d4d34346e0a3c595de6e0aa51c805272ae1bcddc2d8, 0x2f1dc29a06c64c9e43d3379db0f2e8f0cd8f80351724d313ca02ad24c6dac81, 0x20086a672c397e65cb37cfb64ddab08074f173f37d0e4a1747b7f020652da64e, 0xef2861f4ec9ba5fec74ba22c0b7af9d458c3cd8f90c825c1f36110ca2ee9076]]

/-- starky/src/poseidon_bn128_constants.rs L11179-11279 -/
def m9 : List (List Nat) := [
    [0x190f922d97c8a7dcf0a142a3be27749d1c64bc22f1c556aaa24925d158cac56, 0x1f8d3a9d2d31ab32d9bdb6375170dbba89f6f8f74d16e4fd02f3675d5fe2baad, 0x230c694139416f40422d713e13c056c45c3c631b346854523970eaea58a37df4, 0x2063a461ad06315ae5992a53a14bb598367624afc2833ccbb83af92ca0f6a334, 0xc574e628f84b6ba9d17b9d2bfd4747e06dd68cda2383d64ce365927098c046f, 0x276428d88040a3e0f442424d2ffcb8d19becf3fb6ca02c1b5c61b5ddc53ceb90, 0x24bdf6101b2f223174e869d6aecbe8ea5b04a14c38fdf1494393cc6fdb3e42a5, 0x180fca184150c0e354b4b3a4a075824d4b68e8274943f4dd8b0c64eca25dc68e, 0x10726dcff87299c8532159976607633f1bc2ad24453c1bab26b726b82d756ebb],
    [0x607cd8ff9b889773c9eb68b8a4366469d470cd7c6004106caae95c10c424419, 0x2591580b73e7b5d5f34d9fdc0cf7fe3de7f6a18a255e4376fde3eb31dfa51d79, 0x93cff12150aecb3465c4c99f044be85dcc1eba21d429132c2260dd3d12ea441, 0x59116da88a081267dd888204fc6fb79046c3297ccb65f9e0fe0d50b4db44ec6, 0x2c948497373514e7d9846dea9ddf5755337ddb661043d6c628cecb8f55173bd8, 0x2c2729812be9ed432e75709133119cb0a14e1b6ea31c1279b7c3e495deaf108e, 0x2280d6d4718f9f06b551a988408f0515070e455ed63377e910be087fb79bd191, 0x1b1bba125505ae9675bcec7c9af579c5cc83533c9d555be398afa09cbf95d6a7, 0x17013257716d3cbae28e1c272cb6aaa2844136049ffbca05ca201523032c64d4],
    [0x1da524cff60b64856dc1f5dde0ff62da7b182da26908f6ba6e590adebf91b40c, 0x2bb4565893b6ffc5799139cdc151158749c2c65db48672abaf24c5b3813c0e2b, 0x25081a00fc20ae366b1fe7ea6b09e62a51f6fd377f608368c12ba4e3bf89935f, 0x1b43719cd10b60c5647c097d1fa84b8f3c12c9c475ade13b388c7ec47240be11, 0x22dd201ecbab94a2ee393796fefcca63aa54d9a19ab9c7f20a0bedcfb9d191f2, 0xb8e79838cd30707999c621621e77e69c0f433d543b79c668cf379b6623bac84, 0x2082d5647658eae648936cefbedfad2cd0538572aa6122ca68ccced68f432f4, 0x277bae2fc597a536adbe9c24bc8ee81731eddb574c6a5142c1c5a48c51f82e81, 0x30354c9f29c920c05e99d7cc747510e76f7fa69a71594a290eae7293c5a48441],
    [0x22f33eaee3c481e65801b761a72832908f066fe21dab5fa5ec1d4c6e99dd6dfc, 0x1c5ce77776893d48147444b9f6d66a4da29c95707de832756c739eab8e87658f, 0x2ab8edd22fbe2a1cd3ce9a4212d0efb282ccac28af4d876fc946203070c920bd, 0x26e49154acca24424d5f8d29f650f9824de82eb7887329cbc83a56ae01dee4a2, 0xbadd77f516d4fa321d1099bc1e51909001591ad9919f08ce9718aeeb2bca4d6, 0x23671c5d1fb556063a64b5f664340936dc5ffedd4bdbaa2e96205704da5864f5, 0x20d7202ccde24901d6ce2d107e79e1fd78d6c9398ba7a4996f116adef14def3, 0x1d86496995f14264e7a054cc8224900368775c3e5ac6b5f54285f4a73c2171ae, 0x136961746d34fd196025173c4d79bf8b3d1d05291c584928d97258fd5fb4fb4e],
    [0x75f84e9c719bb8de8e61083290daff19aaa4337454e5ba804257787470f2f54, 0x175505391c619b75530fa83e513184381e603d8449d1e070017ee8ec0a4d25f9, 0x29c5ce97710c1578a0990d862cf881badf10e4f6bde629199e803cd1c426be4e, 0x2caf86cff60521ccc5ec6e2e2c83b4707bb90f948644bfaa8f80b0afcd4cde10, 0x24f92793d67638b4abfdf48ce3b62ab5d0e1b250dc274d746f2f7d0544185b62, 0x2809dfe24c7fd7cd49b97b27150f4d38a340b60f0733fd4530cd4269b4811e4, 0x26709688150ed035f959687edf7747ee8ee946b770173dbe50390ab8c08c5f9c, 0x1e5ae4c295ad5a17e00f973f136f1230a6fb85637631b306d3705f80effac24a, 0x2310e2337e4d53c1635da18a2722178d55af583591bcc317eba842df247deaa9],
    [0x2084be9a57e9adb80303a8dcaffd4bb77adb6815168b36a1d363b38425437135, 0x6ed1d14dedf763a3065f27e7a46d7fbf20d2b4e86a0db86692a269767d577e3, 0x1324544a54174cf7b3cd8ffc4b86320f2319d9b88c1779b89b1916018f3fb9b7, 0x2e923ea46d492247e12e0a7dccf6620f5eea6629b7532b3af246809398859633, 0xbbbbb87eccc91d5fb07b6c55088ca514d68ddd93cf31c8ed2d2cc7f23b22b, 0x26010a3f5295bb4481310cbca5384a47af0f9905e4c76bf54b870ef0ffefa1c8, 0x751a4a4af246255ce412c4bb47fa34a51b8628f3cd902077775c8fa488e7519, 0x28d2351619ccc6fb31ad4206e2c064bf4d9b2292b28463e53e4771f10670ddbf, 0x1815e4f7b40a7027878640a6cdc4b2854300cf6fd4953c2ac2c77625ef44ae04],
    [0xb303449f1bf4b92d2cbc26ab34b4215b6dd7af010747a705b2a6e3398882922, 0x140cdda33bb7a79b2baa851df5ad459e7df569b9f2c3da542d3b8d5b76b356ce, 0x1d18b25aac98b282e10b5a3a74ce5caa169a5c30bae52bba280ed517f3f82fef, 0x1ec6c32f513b8f30c7aab42e7d91aecbe54aeb188a84f8ca46bd7e9741b9a389, 0x89beeb21c346cb9bc182aa2b70f853f1a2258d56893ce5a948d9c645ecbc9bb, 0x2790643a66038cce4a6488847d8d2da2eea84961f8134b1be36947f803527e67, 0x159e25e00326a76f25c1143a5be6f53fa51ccf368d9974cc6d93cce8eb81d37c, 0x2486b884370d49a003fd041e800f0a898ab61b5e947997461ee3284241f3baaa, 0x111efc136a9dfe0ebcffae8943e679cc0fbf62fd0ce03b409fecd932a8281b10],
    [0xc099bc68243537203f97254f08dfb7efc09de8f96d72f3b3e0aaded45e18b4a, 0x35e9ecc464cb431cc92c3356e8a98547e843ed1324c1e971179fd1ad9fd51a0, 0x2f35e921dae87f1284c0c8ae737dbdc4936cbbb03a03a5918552fe565270a8d, 0x23a72c27f4f5e6ea5325d5b368f98b40693b2db1e8ca3d096739753dc5678303, 0xe07b1d22eed54fdf966ffdfbcebb653b5dac3b2a91f50272876efb17158be2c, 0x5fa56d431d4bd09625a86d3623464dc90bd541ea41748f2026f65025ea9d2f2, 0x2d6f3e0e98413d5d6a1101b245c9e711bb2e956e27a5870784fd5403b39867cc, 0x213176bc1a04939fe7d6bc30691aabd6152ed24f309bff3939a0d91d54c67a66, 0xa5a1148dad4562eab18162b3914b64d5753e9617a5154e93f7e43e6860687ea],
    [0x1c5fd9060d4e0d999264429a5004c165570bd1675b09f977708b1ca48e616388, 0x129f06c930edd36fc2fb7044a6332751a2e3bcdbe756d883716cead6bc7063cb, 0x14a5ce1603228d6e6fade57c1da536659ba46d1b25566f12c28debcbedc5b4f4, 0x143617efcdbbc0d27a091f28039eba8abb39392e2a462850b1f9cd8532f5075f, 0x2885f2d44be0ecff57d92a4384edb5bebfb585bb23eae2a2ea50806bab8b7bd7, 0x4715db6d86b513d002589f1f9522f7de3b1a8bd702c167559ede97da2c0076d, 0x88887966c079d2e689a8d6d7bd913e92d326959bada59b99a653feaadf6c467, 0x12ded41f8047da3e6c22bfed3ec5bb52d027e560048db4c0f96ca9fa85e17bc3, 0x1f47c67a4325672f17b8bd1ddbd80e4e9e6c62419a9c204cc7e8821892431aae]]

/-- the inverse of the matrix (not in the code) -/
def mInv9 : List (List Nat) := [
    [0x9bd2d783faa923e0469d6f709b9822f3c8a895735a29ed69293e7bab42a8e3c, 0xdd95bc82dbbbe8a786ff5cd756e48f8117fb80abeface0afbedd1678382dd35, 0x2f126b5a84f5c88a319e8cbf113bd7e236b2db42ac94c62a30a402759b2612ab, 0xf702b68a808af15e316dc7afefba1ee18a918cf5e51c1275bf2f3eb09129b66, 0x1a8fc4cccf493dfe2c5169b204c71a0b66a73fa6c797ff0d5dff175f319e56b8, 0x267e73e580862864d8a6e6325c8871f8676ed6d767290a565b4a98d136d44c7b, 0x2a29024fc4c3f9263e64e28b0317fa07e5c5bdb3830d92ac8217d8cb95f25387, 0x14cd7b0ff272a5cfca6c842b0ff6e86ebee352f11d6dab1a378f1f8a85797c3d, 0x610e42cc72694e195bf6fc161b5a35eb16577d3567a2bc80df7d188e048254c],
    [0x1434cc541e0d83e0d55debebfcc3520b23e6008651553858b5fc4d5db241fe89, 0x1d9ba669e7d664d20aafd3af24c49e0e23e32575d676626e19caa30f1ae6d83, 0x1d8f0b3f2a85ee3a7b5c7e2d7a51b3bfec00231368fb91bfd699083ef098ab17, 0x290770accd1aa3225b2f42ce0ea1ce9f193b70c56e878a3feda49d54a241ab8b, 0x2a9402a11882d41e6e7e0d877ad5353fb58bde36c3317cefa52078f1af5ec5de, 0x16ef79f4a1b957147cee49737bebca3ad1fc5d5a7579704f7c5a116f095395bb, 0x2d0ccd831811bc5aad252821ad8c5c61bb714f557d74b60098c23d207c0b07fb, 0x14ca2a6e938f49acfe9c7936c7f5dfceff3f6212186ef278f0e647c0973dbc14, 0x20cc71ca37d210655054405f16c493353820127b7846dfa905bfbbdaff972971],
    [0x18a5a03fd62db06791a54a13d3a19478b9ecab7515d65f177449c76825b4c972, 0x24cf25ed009c9e3c383c62d8d4f0ba7eeb2917bf5baffc4aded4a74b25a4ad09, 0x50c08b25329d7477e7f0b7dcac227da170bb38c0cdc2266b70255f98395e46a, 0x11b4686a523bb7426d8a9da9d6ab6b42ab749273c7464cefb6fb477c071cce26, 0x1153cccbb9a5263cb51ddd59fd7571e30b47c8ee2b62c487b12c35294a65a6e1, 0x7d17f3e527b8deb8c72b2a33ef4c00ab53ff7c4921a171ad8e0b65e00cf2461, 0x18b5041bb67a990d6968fb61ee9dc8cf72fb6ccedd075c1654cd2c9a0eefab6e, 0x2d1ace5ae9f725aea98ff9fd330ed70bbd052e38d7fdd18a82a1f7c3cec4ec04, 0x1e22c1ee54c1e0d50b761ae1f7394e246994bd61235b5aec3a586b194031b593],
    [0x22e036e0b43276856f288c7d331be2b26e18066c98730f248cb371bad0bdbf16, 0xac5027b71797972ac14ccf298c59cdefd02ab1eb64acfbe962caae231d8a1e4, 0x1e4d4b434fedaa78fda73a64b71e98d7c0146885b1b81128c45bf5b0eba04ac0, 0xc06787a26b5969d4ac3260fe80c9bd402ad269589fc6374b3e50ad35dc77f55, 0x193ba2a45b205945326cf0ff0ee0e3557d86470185e14ffc62773f9fa081a78, 0x150ac999515fd87abe0912689b1de39b475cd5ce97af149b4bd2f43e448ef5f3, 0x12a8969e956d6555ec86a0ad45330f273a420958abcb245609688284b5c48e9d, 0x28f17a79fee231e5ac4a04dae8f3aa2df1512c8857d21e9cf4be0e85f6beb321, 0x2ac411b40504e6872c28f94e11acca6aa106d0fa973064e9ad0c485d34b9614f],
    [0x12cbb13be229e19cfa2fd1e2e14e9c6aeb32d2d3aef99e67ec55094a17f5524, 0x1911830b57a83d6a6635dcd06ca354e23927462f5ecb89e6d7da9cc6787379c8, 0x16a3b5113b4258e3786276969726a82ab5118f1c35cf30c61da06635b5735378, 0x1a11e76489225c458ee492f9cdd5738095ddd5379870fce54605ca06be6764f8, 0x28616b09b36e6221ac68248cdb93ab10daa4e52cfd63d67a6588a61c42a3ceec, 0x2a3ae927e0f8716b2bacaa80c61f826cd424b0ab507bf2bf5b3f7d9eb0e5e2ad, 0xabca21a10890045d0dcd0255182f33a7c95af87d66859337470da09f948cfb5, 0xad3a2b8c579c4c74e28f969d80fb40582ad583128251c546954512b4fed4e11, 0x2ddf11ac1b4ccbcefb385942acd7e9ba5d37b8fac190143f9cd67ffae38f6504],
    [0x34fd60f25aace7e594c36e0715ec9b180ed94557ec372b68e20a49eb93c561b, 0x16fa0d18564de18dc6ed9656d1797297163f46fe71ad8ed2de969b8adb4b84da, 0x238537b0eb8d5a8187975ae164811bf4d70ca09be619e6d1a6c22e9e14a727bc, 0x19f02ff8dbdea0b5fc1356bab7160d63fdca2f7612fe147a9b38d26a2e90f2f3, 0xf7115ebde53c795cded19598fe857d09cf771e1bd5e23ca91d3d12170bb3183, 0x139d0d6ec8ee9b7370ba8562a8880500fd93b9d97fd54b81faa8cd43cd75b303, 0x17a3eff719899870b2d661d7f651498511b63d8049d350a65bc3b9b2b23c0097, 0x22261ed2b818f4387dc7bae0434fff5a4374411edeaabdce574904005c9c95e3, 0x139bd1f36c32631082ea18ab35d48e04c884bedf1b423dd2c8ce056c6afc9edc],
    [0xa51bf38ff43b9970269b8df607bea9998f8607489df56162785cdb3cef59750, 0xdd390de10a72d7259fb647da2a905b917bd1382c23fe832cadeccc88383c85f, 0x15e35b7563e2a705429bc147e9086cecbd4afa9b4ea1fed63c8eac1028fe6563, 0x2996c49ed1edc9513f423661b7c0d4941b5126b5b1eaf4df36c50baa73dde36b, 0x1ee2535895b8e9b9640e74c11fbaad471b2baa47835068ec923a0321a1a3204e, 0x14831e46f59a5ab70a782a7615a61589a8631683427b73fa84677044bf6b0325, 0xd5a9e7c5f209c7099f59309507ae883d8e43432ac8fe47fa1563ec0ddabcf2c, 0x29c4752af035efe906b2e7c0f05ac9b7a7e9856dbffd1d92ffdd2cadddc77322, 0xfd58111aa9427d97caf2c31059bba19e9140d90937b475ef62fecaf0a03a0f1],
    [0x22f25824d42a30c7dee7529aefecee7ecf0d368668e08c80fe95f03ccc3aa2a0, 0x15fde349dc560c8dfec2aa9279771eeb907380d3ec1d531574ff27c27120d3a1, 0x26e1f48c7e28af1f0e524483599a0ceb4b22dbccdf2c616743e1d5719bd43e71, 0xbcc88d8fe3cdeffa51bbea29bcc117ca6f10f77a5e2677e2e8944e0472b71ec, 0x2ba287a14b5c0a752c899a56d7f641171ca1f60c09f8770d8a42b060e634b30e, 0xaf30704b137a65867f936259ca5520b0b24e5ed3469ad7ead6df191c954705a, 0x19b65bae79a0b8b88363150bab102beaa8e783d3be5090984a988c5bbeb69333, 0x242888d645c548248cf35f61e671ca9a90c4ada100d604ef61037ff0fbdfb65b, 0x4494a4314fde62833f3e698fa9b6c518b945ed3d557ec533f5e0e8fa0e404ff],
    [0x2c09b2039973e2637b58030c7b6ccea046d0a83dec54b9f54357fcc19d1803fc, 0x1ac13db0ba3b58f0b88f97edf0af728f5630b158d3f2b6a40ac9d4cac44bb9fa, 0x273373faa6efc8c9493fd09c319d284d9c16d3cf9a895f2099ab87f7e2907a3c, 0x9c8b0b730460c6b58bf1cdd60ea1b0095e43f39cf5a34f2977c08c8ac59c409, 0x1fd7b75b058dec50977a8bcc69c79ca810d275eb5fb5e51e0a92c14fcec019a9, 0x14820b15498482a3b04d6b99d12ca6857137ecda4f9b561000698d205a5aa2fe, 0x1cbf7d8dc0c35174ffbe9ab0713048a7552914b818c61033f83d3ff1e31ed430, 0x2154a18a29ef5fdba62375c3ecdf22999dfc947f108e0ab9f4b6bff215b73bf8, 0x2b29a3b10d3154bf2568383236f66348620e191eb904971c480d07119fd8c284]]

/-- the tables have the sizes that the code reads and load without a panic -/
theorem sized9 : (opt9.sized 8 4 63 && opt9.below bnMod && c9.length == 71 && c9.all (·.all (· < bnMod)) && m9.all (·.all (· < bnMod))) = true := by decide +kernel

theorem ok9 : opt9.check bnMod 8 4 63 c9 m9 = true := by decide +kernel

theorem inv9 : invOk bnMod mInv9 8 opt9.m = true := by decide +kernel

end Verif.Poseidon.Bn128
