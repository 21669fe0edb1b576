import Verif.Poseidon.Check
import Verif.Poseidon.Primes

/-!
# Poseidon over BN254, 4 inputs (t = 5): the tables, copied verbatim, and their checks
-/
namespace Verif.Poseidon.Bn128

set_option maxRecDepth 1000000

/-- starky/src/poseidon_bn128_constants_opt.rs: C L256-357, M L2304-2340, P L4426-4462, S L7346-7887 -/
def opt5 : Table where
  cF := [
    [0xeb544fee2815dda7f53e29ccac98ed7d889bb4ebd47c3864f3c2bd81a6da891, 0x554d736315b8662f02fdba7dd737fbca197aeb12ea64713ba733f28475128cb, 0x2f83b9df259b2b68bcd748056307c37754907df0c0fb0035f5087c58d5e8c2d4, 0x2ca70e2e8d7f39a12447ac83052451b461f15f8b41a75ef31915208f5aba9683, 0x1cb5f9319be6a45e91b04d7222271c94994196f12ed22c5d4ec719cb83ecfea9],
    [0xa9c0b1916a8e41d360d02e6e2e5d1b98c34dfcec769429c851867e46e126fa3, 0x1dd6ba3731e49d21e8d36e9d4d1edad245ebf9bdd9ebb60a252e4804a6390f6a, 0x24ae2a67c3d521c11a11b7112abbdee30647107b808866a980837d0d7da4e3e0, 0xd20c9310b5c14d9ef12866af5a45eae3ca9be16d200497066c8b2ee96781d70, 0xe047c9821fe94d55d400d763a66c4c6169993abed543c7284b4a35430019445],
    [0x29474ab799b1e13948eff41d2ce79bfad335d09110157076988ac207e10c81dd, 0x3899f139d0dc4b281be3b74ab4c70789b7f41e7aca47ea2722a20d79afbca93, 0x1866624f761ab8dd7a91c5f37af5e47639951d5acb6b1bbf3b96ca273f71029d, 0x13c119f36718f7d5f09ad8541325a13acf6b34db6d9ee2af7ea06061240f3009, 0xe4a1008158077402b11f13c08890b739643cc8e93fa44487b5a1575dd867fd7],
    [0xef505fd44ac10a251b670dafe14cabd9ada9e3002210ac9c3876f37de4e7ad8, 0x1d31e4e2a5978b7491c43d367470a5a5d1445b6b8129a5b9a6fd238405720de5, 0xa979ad5428d481cb624d9d504524a9694ca5cb4421b5d1dc6af2c030fbeac39, 0xf7fccd2ec8bc6ed9ce3682f38aa291deea9373f4995778bf762ade36d6ab2a0, 0x2691b924dfa123005f7c078d9bf8706defe99c2ba99bd6ee53b153e9fec7bb80],
    [0x2077df6510b4860e56b913bef3a80dbc464b0e4678add60dea7a9517463220b, 0x29ee09d8af9d24ca49350ce2e0aa47d00a3dc21bafbfac1c9ba61c58e2993e8c, 0x8b292c661d427506b9a01916624f3cde332aaced9f1a494a733cea6f25bfaad, 0x2583699ce536a757b22e4713edfbb050092c84abc72c90ad87393a1da9a4cf90, 0x1e3f1b660223d65ad88999475374f6e25fd4148eb8110a0b12cffa19657b0b66]]
  cP := [0x20f3ecbb37c34aec79131455461259e59b222f0ee8e02f3194cf62a9ad4c3448, 0xdf4f5088e4444fbf87d553ba62dbda95696d8b9cf6210b1c85513b1776fbc64, 0x2b348effd4c9cef00a1cf4dd67dd664b2ffe361a807c589a252c63bcbfc6833, 0x1ba1e522fcb153676cd8f20e82256f0327c000fa96b1b462fc84b556f26a86c7, 0x294c44df8e68c96144e964c37bbc5766764ed3550aff80dbe9d3fa74419fe50, 0x313716eec6dcd8a602ca040700498dc04c77dfe2194753c59bc818c1d2636a1, 0x287dec74696d663e2359f68225de955384d960bbafb90967429a442e19e3ec61, 0x25e42f72c6be0942311ba097cf365683db4962c8204fec9213f0f8f72c1946be, 0x12b6881b96654fe1768c242acd5399b08639f081a94896f5ea6da70b6b475c91, 0xdfc2b54546fd3267d7be55c716cb243ef18118ed9498c8270449bd9418afdb5, 0x27dd55fe0d5c0ff56ad4890fa029c27c5f36d04cdc73899ab99b2872b28eedf0, 0xc60962711aef16e7a2ce59f587443ec8b41ef8dcfccb38188adcbddd32f173f, 0x2edc09feb267c6b586e62fffe32bf5f16c28b585986b81116684b7e8b40d42d2, 0xaf8386859db252ff295a19466d8d100622c90502137aa1cd4c4bcc9656d11e2, 0x121f218392f73d4c16abe382102a459e6c080b3ca4eda51a23e651a13a680550, 0x1ea38273f5d59e65061f8c775c571ffc75ef67d29405b5e02913cb3019d56f8e, 0x9bd2349005699bcc0ac35b627e2f8f08bfc3b0bf30b146f37742ac1556187fe, 0x91c505b1e92448c11aea22aaac4d44f6a7f2132f89e91b7f55f9404696c1433, 0xb316f1c29689d4f490f7fcdd5e9f2d256d443ba14cda4bb799b0573a931a99f, 0x2049251919a8f3f4398188b81f99d2e2d0e3f5359cfa55bdf3aa75fdadf367e7, 0x1fe7f9eb6788101908814168e3e4cf7a899a105bf9e584af0064188a4aac55bd, 0x158e6579b0388153b0acd630ea94de8f6d966d529c2d01b9e9b1c67c1ec1d570, 0x1994f82f27153afb9de2aa3f4be05c4b2c487e393dcedca2566aa6b7fbc3696b, 0x1b6250553e8629a5a8a40b568432ce7dbd83c87603eeccc8dad572ccebef6e1d, 0x20296940a7d1eded2ae79fd78fa2ac11abb2210bf24542feabee71f0d0d7c9e, 0x2553943f9e0ffce9c297cd31c29f1fa5f01883cc9e504fded7a905032c170c89, 0x1c56eb362896c2f00ad18faeaf04d577f5feb4db4e077965c38f2eaf5f7be08c, 0xed8857205e0680055de7e822b6f7d62ac0f75fef67da1ff7b7735208885cf90, 0x118f91185a09355f9d8c3f556367a2bebe79e7d9528a8d72a592681671aac75, 0x2a71e6a67abdb25a78010fe6fe0a20d1d84e21cba75ad55937dc1834c13af0c5, 0x2327dbc05997ce8575680e4b8929d4e9ed25fb9204277d603061986dbee57e0, 0xe05235e01f21cc3f2971c382d18c14e41785a5ec8d447cd93d13281792e6d6e, 0x98afa2ea7ff065b2adfc4ab00f3b04496c1e490eab264d2370b107e5a49204e, 0x27bddb7bf06eaa63419adae44209dd25a4e35edcb863b009bd34ccc4905d204b, 0x2704406bc806f4ccb19085cb9d3771b12ab5ce7aabf0601e9e06a2bc98837ade, 0x21c75c54664b9fec86756aa9027261975244f42cf91c9cc0b33c2a62b756a3ef, 0x2be84c1d84c16038ea5f933290699daaaa8164c5ea39a02bcbddc66cf69fe8ec, 0x2c970e41d48649cf013c676c8c688ac165563720d1d5f32628ac5b239488a96e, 0xe1ad2660a2e958daa1f2654b3a37fee60546ca0327150733070742edc806435, 0x2060ee7fdf775fc7e389a55376374c9e35d5c8763d597f426304e236f577b829, 0x1e0116818c843ed86f09daee0a581af10d52deeadad77656e736eac08e6f0f17, 0xa89c1498ef25a383d886bb58424e6940ac399e3e557e9de951a697c54a7576c, 0x303743d6f36d925e1097483350f5bd2cb297d4ec9239209f63c516b849a67e6, 0x8cf44446d968430232df175d462b9c9b0e2e2c37e8406764cb96c7c3446018d, 0x2419811cbaeb3f551b0a9232eee5d53e3769fbcf5239533074375f1b00777f16, 0x4237c622626db376b774849dbbe876809082f1b13f5824f4c58369f27fe7b6, 0x1e5b490c72eeb607e114a5cb87a8494b178937cdee34b9e8e947342c14454558, 0x4265333e59e1a5ff749203cb4a5d1415a72862c61380b1c242d0f32ca15b97a, 0x189deaf74258451ac4da682532be43d24a5c683293c1ff7486de26d35d982e86, 0x4ec516b0fd42fa53a34905cfdedaad021b36399d03d8263ae08c46af3eca76f, 0x2ce1c8a00845a82b3aa1b6642fc988578576cef86196525e6d595c7701ad700d, 0x247816fd0d34f9d3b396917478605c94a1c052a6ed663bdc344e7aee9686b6b4, 0xc676dbe6c494d5609c444de622bcf60cf555091a507fce86477019daea987d, 0x1cb395ade530fc2407aa7b2148d2dfaee30f4ddf258fc149cce3c5cde80a85d5, 0x190e1494e3cfdada3b9e65d8fe3c1ec769540da023f9ec2e56259f6a56890b0e, 0x18f2941b2335138336c351a792343222a845ee0a2ea5a3b9160c1d6d9b229fe2, 0x14ea23ce8b2312e07df57e0aece1da5d2c0e01f757e6a5c86ab5e403688544dc, 0x2818ad1005f4efb5d554361a29f85ea10940d6e71f38e8369beff3563a660bbe, 0x23ce3a9a522915a281793977b49054c37d65f90b841e0ca90817bab49d79db4a, 0x6c2ed2be876309a9b3b44ece37b1c42382927dd04249658a3d41e3f38d5e022]
  cL := [
    [0x18b6740f72d77ebcf642b945ca2ed6c8a9853a3749d7fab6051e4ca36f44fc42, 0x1feacb9eb2a6878061374d069a9dae328369ee63e75a1b99cdb06a48b0d9976a, 0x1a44ee4565a967647300c75ed2b2543d8d45d5477fd606a356d1073bd13831d2, 0x41f3b3b5b1050c16bf3d62d87d5d273b067da484679103231ed65a18da9fe48, 0x1fd958cc4fe0a290bd0fbfb8b8a513acb5898d63bc0d7e585b7d081c49eb5659],
    [0x175daba07c5edbf84f09c87a8c34dd73325943a48fc12cb839dca47512561d2e, 0x9cf0a4e6e31dc24dfd5a5a27a77833e477d5b2d92cff5fc5ccad9528c43ba78, 0x12d49465bd4120cbf78e5a3414d44c6530bc963bd701c54d4c6418a6cebe80b1, 0x101b2f2b675804d3b26b2bd1e07c7365af0bfc2edf010916eefb39e28215d44a, 0x114fc65faba09a59749e0b5f111930783529a0638456216232cb7e5a339736aa],
    [0x1dff99b52799afc802c2bbf9b67dd044d3cb51017dc4f88358ddd67366d3a9f5, 0x290f4496a52dd4dda59edccd7325038bbdc0554ad3a9a0be7931c91062a67027, 0x91e8704663c516c3b96721d2033d985089fb992dca48c8ddcb97d7d15c7e188, 0x2dce22599de04196a0169fc211d0f9c8692643aa09728eadf6d50bb534c0e323, 0x29a7ff0720e170c0e67efde72795328fecef66daada5f0e2ca858a8c6135fd48]]
  m := [
    [0x251e7fdf99591080080b0af133b9e4369f22e57ace3cd7f64fc6fdbcf38d7da1, 0x2a70b9f1d4bbccdbc03e17c1d1dcdb02052903dc6609ea6969f661b2eb74c839, 0x2f69a7198e1fbcc7dea43265306a37ed55b91bff652ad69aa4fa8478970d401d, 0xc3f050a6bf5af151981e55e3e1a29a13c3ffa4550bd2514f1afd6c5f721f830, 0x2a20e3a4a0e57d92f97c9d6186c6c3ea7c5e55c20146259be2f78c2ccc2e3595],
    [0x25fb50b65acf4fb047cbd3b1c17d97c7fe26ea9ca238d6e348550486e91c7765, 0x281154651c921e746315a9934f1b8a1bba9f92ad8ef4b979115b8e2e991ccd7a, 0x1c1edd62645b73ad931ab80e37bbb267ba312b34140e716d6a3747594d3052, 0xdec54e6dbf75205fa75ba7992bd34f08b2efe2ecd424a73eda7784320a1a36e, 0x1049f8210566b51faafb1e9a5d63c0ee701673aed820d9c4403b01feb727a549],
    [0x293d617d7da72102355f39ebf62f91b06deb5325f367a4556ea1e31ed5767833, 0x28c2be2f8264f95f0b53c732134efa338ccd8fdb9ee2b45fb86a894f7db36c37, 0x15b98ce93e47bc64ce2f2c96c69663c439c40c603049466fa7f9a4b228bfc32b, 0x1c482a25a729f5df20225815034b196098364a11f4d988fb7cc75cf32d8136fa, 0x2ecac687ef5b4b568002bd9d1b96b4bef357a69e3e86b5561b9299b82d69c8e],
    [0x104d0295ab00c85e960111ac25da474366599e575a9b7edf6145f14ba6d3c1c4, 0x21888041e6febd546d427c890b1883bb9b626d8cb4dc18dcc4ec8fa75e530a13, 0x12c7e2adfa524e5958f65be2fbac809fcba8458b28e44d9265051de33163cf9c, 0x2625ce48a7b39a4252732624e4ab94360812ac2fc9a14a5fb8b607ae9fd8514a, 0x2d3a1aea2e6d44466808f88c9ba903d3bdcb6b58ba40441ed4ebcf11bbe1e37b],
    [0xaaa35e2c84baf117dea3e336cd96a39792b3813954fe9bf3ed5b90f2f69c977, 0x14ddb5fada0171db80195b9592d8cf2be810930e3ea4574a350d65e2cbff4941, 0x2efc2b90d688134849018222e7b8922eaf67ce79816ef468531ec2de53bbd167, 0x7f017a7ebd56dd086f7cd4fd710c509ed7ef8e300b9a8bb9fb9f28af710251f, 0x14074bb14c982c81c9ad171e4f35fe49b39c4a7a72dbb6d9c98d803bfed65e64]]
  p := [
    [0x251e7fdf99591080080b0af133b9e4369f22e57ace3cd7f64fc6fdbcf38d7da1, 0x12873658ecf188d299b8ccd568eb14a4d4307c5caa95633dc296f05cfc966598, 0x153cf8033d8e8a15cde2c5e6b93da4018c5954d00a9274ec5ec6d5101ea22761, 0x9f15a882446823fdca6f6ab15dd8e250d90c84470516671afbdfb0de80fb00e, 0x167c655bf6cf3e0fb64c9075773bc862b24b4ce2f69c8ec198add2758a2ce216],
    [0x25fb50b65acf4fb047cbd3b1c17d97c7fe26ea9ca238d6e348550486e91c7765, 0x27f9160806de9ef57ddb4243f839e4b7e8bb293ac176fdc5b5419ed73a07999f, 0x16fceedd703bbbc2bc6f1d792e501939105b044b1b904d3b110110da983ccdc2, 0x2eaa925d06b6f5a77c0d5cb20598742791495cec84593a57ee9fc4c9115ae7ca, 0x279b324735fbc883e24f191ca7039f9986115b9e6fcf4946cf45f08ceda2dc8c],
    [0x293d617d7da72102355f39ebf62f91b06deb5325f367a4556ea1e31ed5767833, 0x97d71f1fd579a0d0f436a6b36165cd23a9fcab03ad25e7872cdb09b4a0ea0dc, 0x1a9fd26611128d592d594f51c251dbf4eff6dccecbcf2ebf310e34bed661337e, 0x21eb30a57e5912ab06d18573fc546b2bf3be840d5f5ede01f91dd2bbb578dcc2, 0x13abaf72889b31372b1e6f48759371ef65bc57d28ac2f60e6d227eb008b96ced],
    [0x104d0295ab00c85e960111ac25da474366599e575a9b7edf6145f14ba6d3c1c4, 0x19bb8abf6a012cc7b8b974039c6be6df31446a51702b39a8d90ae4be7ec33ec9, 0x11075889bc0dcc9d6f06af3012f04aadcf9049de04fc775f8fa091702e70b9bb, 0x2e4cb25599a3dbf07de338827b28d16b9c8fcab8fffe8f2a16161be6a521a358, 0xc7a700b33fb23fc642e0e8671deb84d05ded8ccbc968d15171182e158684e85],
    [0xaaa35e2c84baf117dea3e336cd96a39792b3813954fe9bf3ed5b90f2f69c977, 0x2b5d28e8d648bffe0fab59e3c7d983a4099fa0a4c548df0006e6d0f4e20206c1, 0x1a96c37c461ab8a38ee15bc2784c5096d30d1482e57c2f861bab95584b90d84a, 0xdbdd3171308bfcd3cb8b8a676592858b8652e902142beb8fe4145002fba8e0f, 0x17ac4855f295a3b8fb8ceded7f4b39290647a0145af56b03b01e957808d66fa7]]
  s := [
    [0x251e7fdf99591080080b0af133b9e4369f22e57ace3cd7f64fc6fdbcf38d7da1, 0x351d582486c39726623750495e297970b0e19787b49173a9388a0d5b08788ab, 0x10e1a3beae297a472a31a3b51514c664abb12ec2d15860a29d2a9352d3ce8ba, 0x12395fabf1c14664faf3ecc72a84623c1d5cb7b5e5744e602c886a5773e5f06d, 0x9b91873151f00b299a173a5b736f73fbe2ce543f0b4d237565bd58758935cfd, 0x1d53cf618f93c90852172c773264b8f49e938bf22791cff829e95ff6942299b, 0x1a78e48450798918f254396fa7417bf2c5ff69259200c2a8d53af5f2c4d8ba1e, 0xd3d4c1eb9828c87afeca8ea128d1d533750cf555c6b70d70a8520ccf16feb, 0x3af062fcd1ca71ba6de0ca4436f1a5a0698a3f49abbe4ecf3daa0ea2e4dc84c],
    [0x251e7fdf99591080080b0af133b9e4369f22e57ace3cd7f64fc6fdbcf38d7da1, 0x1ad1ba4f26d401924b25657414256b59767284a692897ba5cd53a7f5322005fc, 0x1133694747d2cb4890f4f5982564eac6019ca5a9091b302d2c10b87297041d5f, 0x1b46c42ff1aa475972e26f559a88164024234f7b392039fb2a2171be631bd8de, 0x1954aa0a79f14968c817000929e2e744262871011f238d986086e7d9574936b4, 0x7aced898db99ae9796fc7191a103b9de4c77f0e08ecea6aa593974f652ac4ba, 0x18a5a098d914f6221726d42ada7683a1605e20217a09489c9b2d84c3cdd2c39e, 0x13e00cf4ab3b1e028165af8d41019ca20a21aeb40926592a180f9806083eb5a0, 0x478f72938b528ec79defe09215b46320801fb752ddc88d638a48790561b4e2b],
    [0x251e7fdf99591080080b0af133b9e4369f22e57ace3cd7f64fc6fdbcf38d7da1, 0x8ff43b0eda2134077b96d7e4cc37a6871254910ab4c58a4bcc78c1bc6ce3937, 0x27d7fa3ab9c438b6ad1ec5a60e8ad91aad02e4d2908ff7192e5ac0cebd91f928, 0x1e9ac8ae7cf2b40d629999251be50d9771391326a664dfc206f2abec8efbe56f, 0x2d6b56b4849de82b636d81f2e98476bb6c35cbc8962137b615bff86f8f261971, 0x21e70566d2f4bb8728fdb3749da99a2143a0d90bb6c1b0d6d02125aa1fe63092, 0x1c01c050dd9b0b8ec8e5ee1eaecac1171bf69a8f3d477eb7ec3a605b010d4ea5, 0x282e8dde73a0dc74ee10816aacc1dba10c142109c14ad7954eb7b56ca268a16e, 0x767cf96b16035a96d19fcc57edcd92e746d226cfe84b733454c7ff9a16d25cc],
    [0x251e7fdf99591080080b0af133b9e4369f22e57ace3cd7f64fc6fdbcf38d7da1, 0x18974b9f253b6bb681f82ed0f2d3e6b4f70ca858468b7f1bd3ded1a581ec21d9, 0x18153fe8966abfc450a25222a6a27f6175fe851989776dcd2111a5a2de99c2da, 0x2da1e2e775539490c2fe2c827e65c00e382a4a5d6c49a8374381d39c627f36c, 0x2608589b9cd3f4c12b4e832e05fc5ebdcb403cd6560a8d7ece8d17ac94e79e06, 0x5b4b074edb1366d35bf1c1ec1451a36cff351b407a8d30d563471bde491f146, 0x856cc5a00bc37dd0217920da66c5765dea0644555e35822d7fd464d9eb38096, 0x2021dde3ed193bdade457c9db5ab799e6b3fca640669d2f6295b4852f54d446e, 0x12e3785f05f36bb797b2c9f03c5a55fab52e88b0550b7155d6013b706574d41b],
    [0x251e7fdf99591080080b0af133b9e4369f22e57ace3cd7f64fc6fdbcf38d7da1, 0x118084c76d1340b3980add4df3878df4ffc6e9fe26f0b5c4e2f9579ee6fe2c1a, 0xb9dacae8623c514c622c85753ef7b994d9102ab46620f956c26e9c62fe53050, 0xdaea6d18a826bb2ba972ae16dc621cb8fdf9ecd531ee3c9f9d0b4012da6769f, 0x8f2a5df6437e253b579921fc3208b3c176e5a18dde267a4f85b7afb7f79ceed, 0x6a91d7c75e34fd43d9aa53b7d2793e4d5d70a5fecc5fd5653b162ba2631aa68, 0x207579e33c36af2d20d759996c313f78dc339878c0a289d5db58b6b3d6069c56, 0x25562540cd12084b3392c8cb8cda95ffc9c2dd6f8a75054ce16acf87ba871b9f, 0xbbf47feca60b93dd0501ee0fc294c2a82b103817b4acf0af6979183afcdc87],
    [0x251e7fdf99591080080b0af133b9e4369f22e57ace3cd7f64fc6fdbcf38d7da1, 0x1e0814ce223453b24804a1ab4ce39815e35aed2fe9f7510e6288abb9d8b15711, 0x18f9aa2721d95963399ae18d6d95a6f81b78b528e750554eb2613d6dabbd72a9, 0x2ea329822ad302ab8831c559c64080e7ba6bf4c98ea0caf9cddd929bbb5875a6, 0x29910d86bc27b38a93bca80677a3647c01cb5262ed19cd0c00872925a046a338, 0x21c0a05ace45015ea895e01d630ce6b7423f3c211d26e8b6ef54d3dfc0660ab, 0x25e7c463042f520ed2ff8c68be30bdddbd7ea5cdd7a91224bc6a32a3f5c0fcc, 0xdf5b7e7663197f911e0dcd1ff4237ffdf080234e9b92201538ae7db6b6a7d21, 0x94d0fcd9592b4771d2b9bfbc2bd78defef3b6ca923c68382650f9d63ce37c85],
    [0x251e7fdf99591080080b0af133b9e4369f22e57ace3cd7f64fc6fdbcf38d7da1, 0x270361108967ed0391a49d4b7cd6af9bdd544e8bf048658c4fab36aa12407263, 0x18bbf89e7cae93044c847bea654101914dbdd1656483e54e07ae332857821961, 0x4aa47a0ede64ecdfa83507a2b8947b4b587758d75239071f6b4d3d66777bc1e, 0x182d30ec988fca803ff7def1470c06aa6a596f56710184909fda17d354d3ce02, 0x223c27171e456846dffc59cb1a53c761afddf85582e4c70ebafddf10eb1f8448, 0x7d46dc97554a25edb78ea4d862c48bc5a08e9ea1eb369c5c8c2e0903114c915, 0x1bf473a2e982e519523b486d264941d8e32cbbad362bdbf736d7ac04c4d2a964, 0x12277b175bf54c3f2b0a57eb189e77714cf21630ace1fcf44d39397aae5b6da5],
    [0x251e7fdf99591080080b0af133b9e4369f22e57ace3cd7f64fc6fdbcf38d7da1, 0x15c0a2cfffac7feab86a185031f489a9f83e89e3337a84b51dfe6fbb57feb15b, 0x2b83199ec584185de52190f5a415c1fbb9efd4bb9eae4c4e2763abcf99359ccc, 0x28601b9940a312c65b02adccb76937ef645d4e451c940ad4241b2b0f4925d7da, 0x1a187b4875be24a2420729e016901b94ec0566c8a6936978c3f21e8d611996f7, 0x10ed1fd44722d10bc7e44824e64978d36e68d56de2a465a0201b8e31065d5c57, 0x2c4b6867179a949d377a9bfd3efe48456f7e70f02d859c78684a3573486dc227, 0x15cb2c17aabecf7aa0f61655a8bb35a7afd87d0e20ac38fe21a07da7b388dfb1, 0x4dff03c742111aab3e61f4166a733e87699c1ffa889fce179316e39f7d845ec],
    [0x251e7fdf99591080080b0af133b9e4369f22e57ace3cd7f64fc6fdbcf38d7da1, 0x17baac874eaaa88de70cc92d5a72e00be4ec0e5e99ba7cbac2b0d98cead394a1, 0x1dba338b4779919a2fb22ba949a050c85a73983d5ea4752cd73f664fe05f6247, 0x1e33e7fcc41f32f90de5771d69e58f4486290c7b856becd5cd967d8e7739f719, 0x10877ad7cf0652a2ff93977d3862e3ffb5d87d0c040f02a4f98612afafc9b604, 0x115d3675856ff59ebcc9110defb9d6c70df6af533d4b0875d0e5eec430350595, 0x3d74b961ba9013a874e7bcdc782f478da6097537549db7e6af4702ca749dae5, 0x2563411e29867500a8fd18e4eba3c9a2b7992e44d263c29f7e06000f74887cdd, 0x285501c4e0ee1b3c3e6b1b29160d6ec0f1af4dc2f36a4a1e654b7b47899738d7],
    [0x251e7fdf99591080080b0af133b9e4369f22e57ace3cd7f64fc6fdbcf38d7da1, 0x209194489c86891b179e33103a81d969c5c75e941dc30e7228c04ed8ba68704f, 0x2c7b2835cb79c29852926900cc168b2315aaf03a89532dd9fc162c2f7ddad845, 0x1df181c420308c5b0bf00ee21c16f248edff686e9e835869d1022dcd4a8a635a, 0x1ffabdffee2481d8cc1233506f708d9acabc1d758bb99c329142c866ef4c7474, 0x8955ed55c2bec07027e4355a694a9b6ae1d9d50126563b29d8a074ea65540f5, 0x1ab4b24a4db7c5758471846eb375163e7587791417cbc355b6ce93b64fd01da2, 0x25a3439d2838ad459270bc633164f3a68215e11217eef1d605ecfa8b1805c609, 0x65240d63179ae83013295a8251fbe17dd988ca5c84761ccb6a6ecb2bfbf02a6],
    [0x251e7fdf99591080080b0af133b9e4369f22e57ace3cd7f64fc6fdbcf38d7da1, 0xc1a91ddc1b24113bf876a2ef895c3315cd1b109cfa569b79f3155ee12b1c564, 0x146fe8e28539ae36ae921069f4af83f675f1b68399efceb18989cab5fdd36ac9, 0x1ba8c3cfa46425412e30790090980db139810efed7bdba7a38adf75e1a0d3641, 0x83a58c9d889b74e66636bb8418db624726b0f1374f59eafb4d269ba1ed234d8, 0x2b812a76ea526ce18df6032192ef033541aaf99d1c61839a0edf0336142a25f3, 0x295f6d35fb9e57a50a5d913600538030ba8c09e021c16aa8634488cc8eeba645, 0x1de69ba07e3b9f90c87eb67b1f64660c71befe5138061dbebb752296032542e6, 0x24734fa363e52c64ee0162a86578ca899796e89caa1a3a3533b0965665208f59],
    [0x251e7fdf99591080080b0af133b9e4369f22e57ace3cd7f64fc6fdbcf38d7da1, 0x2d5fb67efe93e8386fac071fe3522be1dade9dbf1d1030417a7b51e3122111f4, 0x19522e9228feae7473e317fd7958a021a0b042a81b75da6dbf7568b857afab75, 0x2bc3f6f0df0c7305afe83fd9ef0b708e129fbe889fce42cb695b33b290479342, 0x783e5635eea0e623bb8c406909f0db77ad4f9302d4828b51015d6512818690e, 0x2d61b243f02e21edaed6fd2e4969ddb95a6d0da8db17d115a9a3b0d8885bccaa, 0x55e1a09f4bd4809a86e67f99279fc06ca89a4468df1ea25d76fe0ad36ccea12, 0x17871eed22b0cdd2de61e55ba5c9f4e37da63ed0376420bb1ee7f077a0d7a85e, 0x20fd0af1329bbdd70d4d835d18c915d98956c5f0a4252cfb81c1fe02fe130091],
    [0x251e7fdf99591080080b0af133b9e4369f22e57ace3cd7f64fc6fdbcf38d7da1, 0x2e5b840ca8faeba6ec3613e22eb7b071d9633c83cef659ed96b2f6a8fcc6b262, 0x5f5385703edf7c4a388ce585a81fe7cc92ff49e900b5601865a352c61d6b111, 0x21e83ab5e95d369ccd30cc1c55cd5844cb1cc78ffcf0c8bc91c9c0d9937a3fab, 0xa67b7ed9c37946306ac525597f1275b30a5d004ca50258c3d992284d90d724d, 0x214f52f9f73a2c2d5425c9610461303d839dfe71891489c376c2ea3b5d868b27, 0x241e0d267f7d1d899656929cdebd850f70ace216d9ac10253ab720bf40da0c7e, 0x2229153475b7a6b282e110b10e8aed1fbc2a05a37352e954f40d85205fbd8bef, 0xf30d0b7cd8ef10e895cdfab3faa4f4c1a61a5f4eba688634540619c84782d2d],
    [0x251e7fdf99591080080b0af133b9e4369f22e57ace3cd7f64fc6fdbcf38d7da1, 0x265589a340c71d49e1660d3dd43d1869408176d8b9110ae8c369078de8ff7aef, 0x1bcadf844bd1a2e7f4f464991dd651b9f15630c94977d35ebc3e85801252ac2e, 0xc112b1c56ea288e8518cc039fe050649cf40b7ab98de8fdbc56eb7ef6bcfdde, 0xf020b9ef75af8ddd505cd3947e11a04270be15daacbfa76fa04d9005283aa77, 0xa426601ce9415e666acbbaf2a7cc8ef7ef7d07538d84b1a53da24c19c601688, 0x10a1af65503614381fe2003123aee9008ab97d69739dc462e72a8be04594618e, 0x2d792f9fe5f0ad658dddadfe3893d158012d84b3837b7415e188131595b060d2, 0x2daa42d04e0b62fcb3869031bf382c3b9f8a98f7f5bf7421d0b63c2598f5f65e],
    [0x251e7fdf99591080080b0af133b9e4369f22e57ace3cd7f64fc6fdbcf38d7da1, 0x144c0395157a1bfcfb5cc4187f271096784dbcdbfcb6a28c31ce8a06f908c0ac, 0x1af8cdba0eccc83c16019622667527645e94c9ce64add4415df7f40446277a09, 0x213c7a7ad6237e7211530c210a8d6f46a25bee433bade010591e6adf42fcd906, 0x224f1ca24803c0119ad0e6c41a64968e064a83f5821972f2a5c9d5895da4ea42, 0x10944d95ff5a3699efdde41ead13344937e3b1b93ba73a1531246ca4b99aad2b, 0xcb2508b0a3395fabbeee5286ce5f1839c006ebbc09d94f475924923d8079ec2, 0x284a14b1007ff6c5c0f8f7d8d0e4b19fe2d4a7094103912134b0f563a672acd1, 0x2bc0bce43d55bfe1a27eed426980cf9055b0dbd42e8de516e77580b9d9a9060f],
    [0x251e7fdf99591080080b0af133b9e4369f22e57ace3cd7f64fc6fdbcf38d7da1, 0x28e9b1884a4619b38b6f8a384368c358b7f210f3412c4481a26ae296f73c5c72, 0x2123ca1f119a35e7d4e1b323fd2942d12ed020ccff3a7ad6b65af90457f00614, 0x4aaffb0ba008fb9a82fc0700beaab2ce39efa895acdc280252f01e31035b8ad, 0x1f1e16f8ec9261c82443b9b31cd908015e2c2d2314629a22639af1f37e1073d8, 0x134928ff5ebe5e019214ef937b7f7a28248285d583613ea2bedfc66b5e2ae924, 0x87fc99e11e63deec9d55047ac98030c57a4f09228cfa7749a3e1c7ab5f212e7, 0x9429bcc52d6c43814df5b07fa116f8875299500a36ef791b592a64e27cca486, 0x2267b1dfa5d26e6f0a80bc8b4c0026f0204bd4fd06c7725544d7760354e401f4],
    [0x251e7fdf99591080080b0af133b9e4369f22e57ace3cd7f64fc6fdbcf38d7da1, 0x16fb3cdb76d21d3448c9988f428d198c8e5a640035ac2caff7aa7964b34ff1dd, 0x80dd9d263a6698479df06bc98fc64594478028b61047ff93c425b29b092d37c, 0x165f4f2d302a24eea5f46abeec4ab03d21e3d013865085e515bebcb2684af340, 0xa8a3f3abf28f457c62045789fdcd302f0df1049b6ec521db2b7e72e8d9516cb, 0x2342f103587a005c977578b12810378f9014bae831809cf7ad59ef3aed48aae9, 0x1d1308e311e7ab846e158769c12213013eca377f396061aada6220f29eb1b7d8, 0x2563949aeabfaa782be07dad903ebff5c913893761b75a3f8402a1e2bea5a998, 0xcb371898d8d2e1f5bbc32dc21782704a73e415e0c9f6387157b48746bbf6ebe],
    [0x251e7fdf99591080080b0af133b9e4369f22e57ace3cd7f64fc6fdbcf38d7da1, 0x1231d40e7c6fe5bd47010ebe4f63d186369cdb6e8823aec194093a0b4cbc6845, 0x18943696a4da551747068255f57a0437ba0ec36ad7e5c92cbed9c49a9775b97, 0x1fa58f378160dd4af40e3b01bfe32dfd34f2cdca527973c194a53af30bc40670, 0xc976561eeade533c5579041bcf5e8272e4af95efe3af9e5372250fdc5ad8966, 0xcacfeeae1a8359ae9fcf831f315a4b8c576d579eae86b1b09823656231d3bff, 0x109b0647298eaec354e4a155308192b5facfb586bc2fe63f073cd221a2106fb4, 0x69d4744aca289d123baa0e6754c5232202dbcdfadd0ee8d14dd19a7bea39781, 0x156195fe27df23b8184fc58a30e1a9bafcb9cc9fa9ce071163a26dccfb7c6ad0],
    [0x251e7fdf99591080080b0af133b9e4369f22e57ace3cd7f64fc6fdbcf38d7da1, 0x20fed35942cbdc86df51a49ca26055bb25e232a42476ef06997af8911560fc12, 0xcf20343957a55345423dd3450c2fd74039f1a82c6c02446dd64c4569d31471e, 0x1e177139b05dbe38a56c40f919dc1f07126bad03049fc4025d77b4bc34c25ebf, 0x144d1944a849fdc2aba8ab2a4368d57911e9614e3956d9326ca493c83050e932, 0x162f08d305fe4f1b0a9bb1acf1223bde3405aecbf2356508841b85f1180cbc1d, 0x21d68868502ab599c7c5f2a54d65be40ed5caec1613a98b2a98c5f8117415d97, 0x984adb0c5263193be4027c68c6f3a6dbf7e22cf199dc4358b52968b0a248789, 0x2883f3a940a8c10f7f347a8011b0f0d7f6e0a4a82eff568fffc7524235d1e4f3],
    [0x251e7fdf99591080080b0af133b9e4369f22e57ace3cd7f64fc6fdbcf38d7da1, 0xd89a340993be3d3ba07d2fa8432d412730e8ebf2bbfacbf9378c0c4d3d1e692, 0x105e4a12836770bdbab24c85e7a63572c77556fffafc8f55a0e3f6e7383f7b02, 0x4b09e851bb6dbbffd0780af3f99cbb707f5e8a073810b28b1b59794c8b117a8, 0x2c8031907c10e1df2bfdd2589dd502a012a2292202e67954091ca57d21906d41, 0x88a360cf4c5e26faddcba291dd2553906abd82fecb0ffaff4f3f544f672d703, 0xe9e8d8ba62712e7f95840b5651f32912e84f146bbd57c566c178084cbb155f8, 0x38fbaea7dd737c642ec414759bdeca4250d31d6011140e7e45e86c12c6f6fe2, 0x96dea6e0d6411dd0c18e516511b03d8506c4901c52dbc2772c3d47bdbf461ab],
    [0x251e7fdf99591080080b0af133b9e4369f22e57ace3cd7f64fc6fdbcf38d7da1, 0x2d60fb66fb133b0507b6b41ed7fbd5278c4ba9fa0679d2889da9672d21f07037, 0x2567f444cfdbbf4d7799d5b50c8c582e1d2038a11969b3eb2b60aebafb1efc7b, 0x2401d941b4fafe3311bc6cd9fb0bef62ad9b59e731c1ec4e6b0ca5e2c685bb2c, 0x28747741579283853ed4e6525da70a4312769f7040db4f098eb7d9214fc8fae6, 0x1104899fde3f530cf99500f20c4fb9d479e512cd70a15def442a4ea92bcb9743, 0x4ddfde1b1aacb33977d4b3020db51b834f6197a18505e3ccfb37fa8a3a8764c, 0x2bfa6913d62c8aea04ccc3e50229220efe3b9af6a568194ece56c065e3cac8aa, 0x5cb914ec7b72436cf25adcbd0550c2db3c9c09aac565d46f96ac156fa72a90e],
    [0x251e7fdf99591080080b0af133b9e4369f22e57ace3cd7f64fc6fdbcf38d7da1, 0x145dcc8a89ffd8fddf4e5bbe377a3b7649ab6faaddf5eb580ced3e0421b7077c, 0x21f1b7c169a0744e49718346cbd390dbe3287f5de3897acdaaf2e4bbc1f3e80b, 0xeeae34b5e8e48d2ba6bd062c803ced1dd1165cce5f8f0574ff7caf4e6eaf6b4, 0x2827170c30a7f570a12f37aa0434e01a4aed9b5d37f1815029d5de89a8ff75e2, 0xe328161a29c0376af526c8004597fbe018328d6d0c89503eaee36f59a4cee8a, 0xd6617ff29ac941a779f907e749603cb36778fef6644b8684fa40055c8d978c6, 0x169506e0877092fdef32109c064d251c4d6a50257ab9c032bd79801fa23094ba, 0x8c516740479e1a852294e8cbbcbf83b4d7095b69758aaa9f1a368004dc1742a],
    [0x251e7fdf99591080080b0af133b9e4369f22e57ace3cd7f64fc6fdbcf38d7da1, 0x281bcec4cbcefa9e18a1aca1dfeacd7f7ec527df5deb6c002f541ee4c0f2bcda, 0x13ea58a6a82bf43f6d4c2619b87da0ce760410b68b77f694685e3f34ff47b86c, 0x1ed604569bf581c71e4180d59a78dd48e2103006ac045566e44162656c36080b, 0x15d25d19f8fb93c9272f10ea525e787c758f98c5bca884e6317ed21a292abf6f, 0x1696701143abf5794f370a122fc60dafa4f0c241e8607983222bc72d1d8d1439, 0x1471c9bea5d880676ffb53255487c1af57a0476b77eba56204a4a3780b109b50, 0x1ec18e953909ee6e34dcbdde64fd6ae8b99817ffef4811551a27924b714cc00d, 0x89ad915c65eb1cc1633229dd97f098a2f86e7ea44ee6d94f3fe5f08682c807f],
    [0x251e7fdf99591080080b0af133b9e4369f22e57ace3cd7f64fc6fdbcf38d7da1, 0x7e3bb22a5d8f517b12b42d68ab707d809ce83671dd9a933313d251889a9d55, 0x142b4285cb7ac7249975ddf59d177aeed1a94e0412002d83861ce061e3f38621, 0x24839c6f8fade0c2ef1e248f64c4d81e324caa4ef4052916a31c5d1da484ec43, 0xac0879ac864dc7bf40955a3f4a19cf37846fcfa9289ae59c8f8c7c174c5a57e, 0x44832eb1eb4ac43192406deb4a37ea61e2d110468762d3a31f01f3c6c1f8208, 0x2b3f948fb289860a26e995d14c6f8aba2089511c7ba58a310e6cbcb533f2dca2, 0x118bfa7e2d1386301f187c1b1eda2f48c0a03de15e370b5be0f431a0b574681e, 0x1399fb352bfce7874d22e0fcb24553b96ab59b85364c0c3c9b0135d4970c2349],
    [0x251e7fdf99591080080b0af133b9e4369f22e57ace3cd7f64fc6fdbcf38d7da1, 0x2f25d0089300da1d286c5efcc9cf22d095af8f615b76cbee09b9ba651d737311, 0x84eaaf7a0b07cf4992c7d05790c42cc742a7bed021c48f614b988d99f141e3d, 0xcbb53527ad34cbd3c4d59504fa47c87eb5be078155e58ac3f1e4b3f45dd1cec, 0x14e8e0d80d2af6efd3cc60741cbc21f6da3a42e2429322bc209097b1d22d26b4, 0x149dc605f3ad39d4b470a132191d2739df2ad19fb71e067f6ede3f9da3172922, 0x1533cdda4fe346f0a3e538172b8d5636d3b4b502047cb268015b2088f12b9897, 0x1da21ab47505b1ed4358160f3cd24a01330718bb901beedde8cca37839805c62, 0x130eee6229e6346096e121bda6bd3892aba85c363deda16ae8c8efc6ba721b18],
    [0x251e7fdf99591080080b0af133b9e4369f22e57ace3cd7f64fc6fdbcf38d7da1, 0x1d0669bb3cb83ad8702a76855510918ef300df2416cdf04a83061a915a6fbdeb, 0x113f0f0db699267055417d499467b7502e23179a0c23787b7e8130967c95080d, 0x28cd66f5e2046799405a9c14282070ef66fd409507971fcbac16032499bada61, 0x230173d8146362d28c0cc9bc2c72a64afa7741b77653726017932821c1dc9502, 0x4b23de911f3a1d3f32366c35a7f293837e1e7e8287b8abde423b2b3ab81c187, 0xd4bcdd5ff441637f977dba6d523ef1f6178ba245cda76e429a91b0ca994db04, 0x93bfbfaa8f3a8718603066321ce48219b55558f33e0f8645a93a41e6f4d3e2d, 0x24e21e25f0b3d0e754bfd0e91e62b5fcd232e756ab34cbed6b4ab709dfca551a],
    [0x251e7fdf99591080080b0af133b9e4369f22e57ace3cd7f64fc6fdbcf38d7da1, 0x146990fff0e10b8d70a4411f57f9e74a03d2ac0127b216400b82c8c644038303, 0x1ddaefaba77bcd9c5ba0671b0a34a4cb37b7c689bdca187d90212f188ba4a87c, 0xa7c37e8eab27e5edcfc3d6682b0267e3d9250fe470980956f5e3e5993ddaaaf, 0x2d81f6984b67d7cc74b35aa9d673878f05d517085812190798dd24a510b8d6b5, 0x7c46458e45e15ce1338bbe98ed3c0726664d8ae0c965bf0fc79ae31ad04a349, 0x16dd83567c7289d8ea0e62df8620df74f3c987d5f162b6b0a24ab09837b5d2da, 0x21819b9d78ef5e05c535a83e7d709f80f3ab5e8d733146139015ec4e34b29f1b, 0x2340a29e4e4d4e920f39a6a32149b54307f918a2e179e6c7288cd02834c0e44c],
    [0x251e7fdf99591080080b0af133b9e4369f22e57ace3cd7f64fc6fdbcf38d7da1, 0x1ced784118aac9880c9fbbee28972453b36abc3d967b20e9b0a886af86d64305, 0x237848c6b0c87f794b30cad5a3cebfe2c6c9173f7a258f4ea139252338a3ea5a, 0x27c636aa956756d9ee04b355abe2fad8d703b1721fcf73b17a77751813c8abb4, 0x1b40358386698e21d43bd3950c00f81d6ae340eff9ac0821a213f8fabd142d09, 0x695487b95b15feda7188ab9bd8072f0edfcdaea2dfbe06596f8c037bf52145b, 0x1df336831b6745c8f22a80c252ba12b24e2bb1e7fd3615cc96145d898dbf3220, 0x264b7a66fcd41995c19f021b71fcb1abd59986c55377a82ad92e79a1165e58f5, 0x208defb2122d53224aacda9868250ca3b39f78b13c9d150a14d75a886a1a42bc],
    [0x251e7fdf99591080080b0af133b9e4369f22e57ace3cd7f64fc6fdbcf38d7da1, 0x1627fe11fe92ca5b0841cd804a211151ca6c0d2706b2a17ec17a7fd224a48a13, 0xd483b82a1ed0d6788ec73c257cacba9738eae7232e365df112b15a93459627e, 0x24c490612a1636b43f902459851afb3cfc37d71db5e9ffd247116d5cbd34f9fc, 0x2f2d08c8cab748b056307066141837d5cf195104459a91084768548346c8593f, 0x42d3a4f87d782326b0c097a03de01ac1698954c8f300af708fa79a92e84790f, 0x2b064fb3fabe9deb1593d253ecc7a12fcfae3193e8f7e16ec563876f92e4c62c, 0x22b8060d8bd295c3a201655ef3891a481e21748554dcb7613ce6c0a532628e5a, 0x1526148f85ce610667aa96af20059f0b02c8a9d4d463b27f0711db72a545503a],
    [0x251e7fdf99591080080b0af133b9e4369f22e57ace3cd7f64fc6fdbcf38d7da1, 0x12d2a42d255875bd671d376e499cd79393db48c414f967d53388f60b4e180986, 0x22d0f27c6767b64adf2eb09ed595e2f2c211a3504a8de66ac01991c81c0e2669, 0x1fbcdf3ca6f2e0739b571248a9a994ea913375db065ed255b5eca3fde587dc91, 0x402b7640d18feac0c700cbea0d8f527a7c3fb44a110c4d7cff21deae9a70e40, 0x27f6c76f1b519e71c3888f1ece7cce4e0f99f231ddccc7798a31b0dee0c68206, 0x2fe908cd208699c9d8e3b0c09f5c0fd58716d0eb50017aa7d12df08b53d963ff, 0x1922a59ac83c1e2821afccf1610aa5fb0b3cf8eb3fe3f4957bac604c177fcffc, 0x126fc5609db3cb254a05919034b8a7f9a0f85ec5abbde6f85068607250ea0ac0],
    [0x251e7fdf99591080080b0af133b9e4369f22e57ace3cd7f64fc6fdbcf38d7da1, 0x28db35e17bb31e5be954d69f5bf8f6838651bb6f5c80f750b6b7017643b6c28c, 0x26dd684288015065728c5e09454535a33e1537761d874102bd4ecd2baf40b384, 0x1895d33a312becc17090e45df74981b4fc4b220d3aaa346c7e8485311cab159d, 0x28bff25eb0f2a5c6d007a92a7c4d88bd9c12c5622d0ecc5a509c404048b7b5aa, 0x130136f07c7e09acd49556f3a6bf0739c9efc0a1be738453af67b31e845c976e, 0x259c455761e6b6420dadf3d6b64eb65493f989fb3e5698e7307a6d6075714ede, 0x1c9ac464fb08828d02006c7529eb1e8f45eef54405ed2cfaa133bd697f618929, 0x60abe65207efd0fda7b24719d35018f7607dd732e71c05077148f3d046dd180],
    [0x251e7fdf99591080080b0af133b9e4369f22e57ace3cd7f64fc6fdbcf38d7da1, 0x2a41f347b5f6eebe8969667071926905a3e6e521b85a89006ec2f500ef42b000, 0x17840fa3a180177731bce340ffeb5a3b6a68b94e3f870501e787edc5a94db63b, 0x161ec94c3f624f928eadb0e2f2cf6b16430fba680a5a50590d89005a688d9b18, 0x22d8be171b4571fb5b773c3a548fbb286b06e2701ce99b7630866e1bca6e2cc5, 0x52464c9c7ad14525380aaea9b06e76f03db8edd220f90b03a9feef2fecfb978, 0xbdee83b20d91ff9a0404d8b0593879c90f7be5a95a22c8e1b157d92c3cf4746, 0x2d84235b4f4e04262d8f246123b8e631ad51a4e1051f41f1c89cc42b61717302, 0x3d6b62f816bc4b464e2971cc6a7c1a585e519266c4627b1367ce7963cf93d86],
    [0x251e7fdf99591080080b0af133b9e4369f22e57ace3cd7f64fc6fdbcf38d7da1, 0x16caff6fcc165168b3ed958d3aac8d09f98f670bdbb847ec0e9083a022d27692, 0x2cd4beaac59c5306bf76ef7e06c81adff6de4bee730cd4676e966db45fc067d4, 0x1b11abd8ee736830ffeda3782fc7a82623ecc5afa92c0ec9eeec58177ce8608b, 0x2c80d3430e64bf850c9e10a22f6b781fd513af20d4705435bc870ec8cbe93cee, 0x2d2f20d2ec0e52eec9fc2d0e49fef7a2454aa77a5055ebfc4d4449e8f83bd015, 0x1e51c55a8d7a04be4edae4f7dfe6137e96370ee2a4ed459ec524b19de646e0b0, 0x13d4327afa809e26c8f97e36ebb5be1d3992ec72d459760bbd25659790738f43, 0x176222f47d8c0ff9e8a967920376793dbdb9dcc3a79b44fd25e1f43a755e6b81],
    [0x251e7fdf99591080080b0af133b9e4369f22e57ace3cd7f64fc6fdbcf38d7da1, 0x5193cbcb59713c78012ede93db828e69336a197fdd30c6b7d03b1cfcdd6adfc, 0x2bbe660fd34f6ac3f2545cba9f717d2eae9f8c60242851657f8661504a457c69, 0x1fe59c3d2724f4158483406e6cd62aafa121c451f13e48ab3c857b2293333c3b, 0x249c893f9de208601de45c9769ebad071eb864524003add0bde31fef7f4f91a7, 0xc20c4a12bbd772e0dbb929b69b24751da26b0fa8639005ff786a25ac1a5fe96, 0x1a0750fb1d27bcb326ceb3a3065a487cf7d513d8954f31dfb174fc5ed95ce55b, 0x16d40c0ba7a7aa232eea997d45ec4f0567fb6814677b262aadfaefc91d409cad, 0x25ccf860fc7237cc8721aaf1c717190db40ccd65bf65d108b16f851cebca736],
    [0x251e7fdf99591080080b0af133b9e4369f22e57ace3cd7f64fc6fdbcf38d7da1, 0x1a25b1a6b81926e968ffffa63979c900c1e82452c986ae599ef991ba214e6f67, 0x2b344bbb50400ea76151bd0b68c3139955f101c701d32befddcfec1ca72df25e, 0x1044e69af594eca5f9ca7ee28cc38d161d01037fe223412e2f10838bb9ffd1e5, 0x1145f6f783af7d1e0ee3388f107ccc27609bb8314bce27b03dbf8d02843ab2c7, 0x20ed7009a6093b160020318b0bbfbc9a9d14de64a3aa25936ddff0ffe3a3bc4b, 0x24cc5ed4ff9d84fce95c1508e1c7852fe60a6def592f423bb79c229327be7627, 0x1fc31b0e67cdf9efa9c0c312afe54b5158ada1511719c76953587b772f1c830c, 0x1faf997032cbbadc0c6d30fc804d068faeccbdf7cc90155395b739e017081259],
    [0x251e7fdf99591080080b0af133b9e4369f22e57ace3cd7f64fc6fdbcf38d7da1, 0x1197c402e5f0a49c8f9b9a41af6fbcd013cf9adfe864613c1bdecb6201d9651e, 0x3025d698462f4cf23c7d4d8a3eec4aa8e1a2184a43020122db653afc6d0deb4, 0xecd1d402fafa3602052ab586f804ec15f1910542f35c608eb7a247d5a960cc9, 0x30021619d0c0b402b429d4e962cc3c2a2d00c62c131144f7b3d7f8acae6975b8, 0x2bcd05e889bf0fcd9dc4f5faf21c506cde15c316aaca47724e71bad0cf34b27d, 0x1b890b4097a781900b40d9c1ffa06a5e8cd05ae8fe52e040db0e7085ca46b460, 0x8081b53a974ee264310b279468093218cd5e5edec1b7da6b21ab35622242e48, 0xe6632e8ec976cefca5b164e6c07ab40ac611fc723e8d8a14899a4cf4be3b2a],
    [0x251e7fdf99591080080b0af133b9e4369f22e57ace3cd7f64fc6fdbcf38d7da1, 0x63a3f8dea9d024a6f6a851ecdb21bffbfe259ac17f6793c91e73823a82f4f76, 0x23b2c6ec9af5d0188e75baab9990f663f8e929bcdac96cc09c4c0626274692a0, 0x9a41c06730fe53d395c602113f1607fbe01425190d50d56e9f215658ad128cc, 0x16571048fa92024a9345a0ffecc159e76602455a71bc7e9c9c01dc50d8aa1d6c, 0x2a5a7e76dc76ad78878b3d3b4c74995e2ce77bc126e4d17db507161b049eadf6, 0xa23738e129c11b285d81c1c01e3f87989c87600727e7593af45607f98fb18eb, 0x2ce8d6eeaf4d6c7ca0922c4738e81dfba227e98fc3ed24e7696ebe9c2732a1ff, 0x22e3bfb13d10368cee5175f5e2a2cc205d28021caf5fb2898de2389123178a5],
    [0x251e7fdf99591080080b0af133b9e4369f22e57ace3cd7f64fc6fdbcf38d7da1, 0x66c43e71903c5b74ee8e90ec30a1d8cbff7d8c85d3c7b995a976036eef8c4b7, 0x2fe5dfcdc9335f0c0dd3d08f4e783a5ff6c2e6fb7e2928840821e6da8d91570a, 0x9accce03257f967a24c11ce718f21167d9d71a1cb60a4f50d0228418428300, 0x224e2a85316b67bf2dc64549c505721a7858438a00e793fe76b961bfbfb67291, 0x29f1447b45128f5c1cdb12a334509e0a991c0d2c9360a5cfc28af420c2ffffe0, 0x1301ae5665bd3e87cb647f566ebcf2f2eb5bec4b257a77061a15dcc7b8b34abf, 0xfc6599ea957e02f69b1ca585c7135425a6825867d0cdd2b06019f3c9398ba4f, 0x22e91a30a945b960bd87d7b0d8290dcd5f5b1caa339c41aef323be1ba9c724e],
    [0x251e7fdf99591080080b0af133b9e4369f22e57ace3cd7f64fc6fdbcf38d7da1, 0x1c7c359c26eab655aa469e0f9a8cc3d8c7a8149ba9e9baeca9233b7edddd1d24, 0x1ddf651a5d396b680828eaea1f252625db1988504765eb4aeae3274a19cef175, 0xab486e3e737f40898d3fdd6bab09213c0056c2e090a90acc754574739159385, 0xd0b817b8995913e3ddd08b576951bd47b45f536739fc9cc782e769fd17e0028, 0x13471abd3a25160947928376fcd79dd5aa58672f8382745e3a040c2acb464974, 0x7bff672e50ff1f20296b1838e5270229a7477110d9a7fb56580371ee4ba38c4, 0x23f91ef1b8182e80c8a0f54c3a35ad51cb9a3bb61b07b3e34386f16f7f4b32bd, 0x16c390b3fdf09c6c42e50b66557532cc5998cb5a8c15446d31813e7b70607ec5],
    [0x251e7fdf99591080080b0af133b9e4369f22e57ace3cd7f64fc6fdbcf38d7da1, 0x1976d21aee74f79c60d44e46029a5b04fc03ebfb9bdb09a0b5dbb89f677cd296, 0x56e7cdc08bff8d8bc12dc72af3c84858dde68919cd991bdf513656eb0a0cfb2, 0x22b7992d7c0ed349aab7531de2f12da4fdcf961215ba06f2b7577f5d42bfa85e, 0x10f97fcc757a0d6d0d4e2d585ea5968b3faba9d6458d16bd366d081ab65ae95a, 0x21bc046c3d727baf6e65b568653a398aeed8c95b73567feca3884a051ac001a2, 0xe757fd0b77219a771723e071c9896062eedbb3da05cda25d39ead3cdf738491, 0x1ed536c497ff36f612f326f3d03e97d30abf91605ba686af36ea04c19cce4f4a, 0x2491340ecfed3f98ed6fd566034240e64a08e5a39a468c78b31e4734a679bd67],
    [0x251e7fdf99591080080b0af133b9e4369f22e57ace3cd7f64fc6fdbcf38d7da1, 0x144b73c6f361a4c232674a08616b36c33f7bd667dcaeec35530a2e8fcb66103f, 0xb244143540a248840ba5fa161cbfb2fb2dab97332073042cbf8a932144d27b, 0xb5bedd8122560caf5a9dbd69f82f7439543bbad397d7cfb4ef7782f64ea4e12, 0x1386c7e88c5c0bf880b28eb2735e221c2a88e7f871ca5d720c99b4287c528a67, 0x277164cdc5187613b0a6d6450b56cabfc828f20dd7d07611edccbfc3d381c9ba, 0x16bc97ee1ac4b1cea8f96e731dfa610212aec4a193015b94b0f2a1657d41f13, 0xb341e4361f31734af9951c20a6aace08a3dc80f57379add9693b56b047b3480, 0x263a060ba49fe4862df997994261e665c0406642c669c32dee4ae7a153fe1dbf],
    [0x251e7fdf99591080080b0af133b9e4369f22e57ace3cd7f64fc6fdbcf38d7da1, 0xdf811b70cab32c0ad0aacb576fd95b23424d3686d79e36feeff21d1aa047eb8, 0xafae979e41c0cf7d662b4cf09e93dca70c0945c6759c4f8d2c935a6084eced, 0x21ae12f1dbb152c33213efe9cdb6044574b3df8236be92341131435152115e5f, 0x272fd8955a7524a09f77c28ce89d58caf7d883f9e4503ad6a37c0eab6bcbe468, 0x3712cabfab0f6f3d23ac7beb815226883f409d60d798242c6d5e9dae8178fa6, 0x15bc41d746b14885ba93dc7d00594ea2f174b3b3dbc1acd774335405c18b154f, 0x9dded6d75c33754be1c1ebd2dbed077c1f1cb80938f0798bb2e25b054a52962, 0x1d9fd7f273e141e48d7ae825a6d7758e351d80c4ed50139a659d52edff60d227],
    [0x251e7fdf99591080080b0af133b9e4369f22e57ace3cd7f64fc6fdbcf38d7da1, 0xca2cbfed626671d6e0f2e3d1b6b2ebb5e9048c2f1273223c34fe599429e1f2, 0x1e9bb2efac004014858166710da5d764ab36b80e4e97500d784fe5cc2326fca1, 0x23f8af81b77d2f06d566eb0d9096c4b267f498f92bac69d622dbed85bc8a8ada, 0x11546811642965c71b3865d830809b7f402e02d1980c3219c4bbe48e8bd37811, 0x2b872c434320ac521ac1e14867c05d88692de6ee063f402c28cba02adeaf9c51, 0x1f80e8d09a04ffb20613cd83ea35fc1593f9a5d8db6c846d80dca53cd4ba5a94, 0x117c4e17071565b51a2b97908f375ca0194dd595e9e873e8c0a158b59684ac70, 0x14da94b9be3adb3c5f7cd04dd5c58f63e74245d5a1e6fce5de3d093d476f08a4],
    [0x251e7fdf99591080080b0af133b9e4369f22e57ace3cd7f64fc6fdbcf38d7da1, 0x2ac96264771dd5b1762078d5132db23febb0d2edb19c7b24848d4b654e9ce670, 0x5a23e8be5fe8e01b11d0c7a1dc85c909602604b15d620c7a51e2b017dd63830, 0x172623676d3d38b2c68ba2b30c12c5818d874d83a98478cbec0b1d27f5dd7ece, 0xb632ee1e8730d509691580805b890371ca2d51bce083faed1615a845481de7b, 0x2a220ef566e4d54373e1a095231c10905a2f5e72edd2b6259b46ea45749203ce, 0x2ebf4340ee05460d8298d52260b4ebae389357bd857cb638c41b2708cc333dc8, 0x27e873b1750916366d2e7906ffe4f42e6dd7545bf534adc73a02b7410f7f8275, 0x1ee70cb51ad6da4513ce42ff200e46dfa39992a90447f1004765711f3f5ad52e],
    [0x251e7fdf99591080080b0af133b9e4369f22e57ace3cd7f64fc6fdbcf38d7da1, 0x1021282efc84669e4a98956e30ad0043c6c19dfeb98d6d14bf027bcfa555f8af, 0x1f1c2e424bdeadd277162d70faeb398d661225414a975a59be613e47274b73c3, 0x1a71e415abc5ccd5bf268130070e89b1e61981cd54f6e5864b8cc4e1d50bb21b, 0x29799820e28bb9c0a7bd0a2c6d6105e5c91f8f88b2823da7c57825067214dbb6, 0x17377cb0195b95b473606c81a6bd5c807b22870afa6cb230a1048e9515e31db, 0x2f73cf9f22e0431d5e7bbd907ebeb8553b4117ff1fc50d09fc7b75935ef41251, 0x19cd57e77a99328260bd31fb993e7bb3fd27fdc21b2187fe3a4bac0ad664719c, 0xd5ff1b6b5f33d6d568d9197d0df40d07abede20ae3a94a0292c01c304012713],
    [0x251e7fdf99591080080b0af133b9e4369f22e57ace3cd7f64fc6fdbcf38d7da1, 0x26c7615e04be2355af0773fc0e025f86baab5f59d834ba005e099d95331d61b0, 0x170ea6732c6d1b2ce3279f2d4990926fb8d279e4864d966ce6ee6c319739c2f5, 0x2f870269a506f351fb0b9a9d677bad1bbc5e6ab40ff0afc1772f02ba395fdc8c, 0x11986790a1cc239c92bd4b8d8a1b9baa76e1e49f847f16ede5f6398aa83e97c2, 0x2510c2e5a39cd6c243ff590621941b221d2a2c5a79ed6e5bb90eb1008219239f, 0x1ba5c05a828609b93a7e151338699af0b8b0aa96d3d5cc9e7d3785333fa03dcd, 0x8648c03bd03b5f4dc3868ac1c47363d90010b9cb19933554fc7586b97b5fbda, 0x69d0c72c5880618f66ad58d65f09e5fc488697c71d92135be291f55d496cb7],
    [0x251e7fdf99591080080b0af133b9e4369f22e57ace3cd7f64fc6fdbcf38d7da1, 0x91acb34aa0d03afd0ea47c1d56965a9051b05eebff9af71e07c4554184f462a, 0x2b3f75e8ca7118776d9676fe058565eb99b6e99bd23505a8fefc927e17cf5336, 0x16d9ae82c0073fe1dcf35384c0dce87494b2400f9027ce1e64ee440a439fcbaa, 0x2a11becd9333eb48f3027ad8f3c24fa1a0ea671a1020278ad84c863c322e8057, 0xd569be295d5e44ccffd9d3ba84aaf6a0c178e8639689aa6c57214f00a6a9d90, 0xa66025e45040fd45eb136eccc63e2d7fd237aae9b62e2330aaaa0bb44dbef48, 0x2cda68234c7e22d8fd725d952d3c529b6997b68dc02065f6a047b6cabdd29e42, 0x1f9ab3e8029afc72f56af02ced5a6b145ebc81444ed12e82c7ea547e9ad23650],
    [0x251e7fdf99591080080b0af133b9e4369f22e57ace3cd7f64fc6fdbcf38d7da1, 0x18a2e32bb69277e0f5e82c2a60a008b3db5caf3c53a669215c0b3493b73c7138, 0x224c4f2e98b4fa10d4ddc83f26ada461e5b4f412f94a1eb153be707470746fbf, 0x1b2a8787e954d981add1b123a6f6c100a609e8135c0781ac9a1e7e326c4b0f4e, 0x2da288c34f32d86d5dfc0b2dc9891091d396d36de9f70589b7beee769a058622, 0x2e24d351b0d0e94f3e0f83eb60f2d476b8b64dcb47674290e87b27eda7f20180, 0x14af016f9da2f982e82aec1ff6ee809445db2c6d85382f959508a31830dce9d7, 0x91aeac9bde9ce64a54cbad523032180c2135b51ec4547ebcda08824bc9cdf9e, 0xcaa07eac62d9f07c17f63f749b7047eaa1adda97f5716d76f23affd6d845dd3],
    [0x251e7fdf99591080080b0af133b9e4369f22e57ace3cd7f64fc6fdbcf38d7da1, 0x554f06e31b164d9d7ada3e01c4bbf452fdccac121ca787b08ad50dd2928ed42, 0xbf8f8d7702b1e8830bf126dc420158a624359067a0f6385068390b01d176601, 0x1604d181baf488dce4f99bf63c065ed934ee29f0649af4dcc9ac2a2887e8690c, 0xac951e2944f7532d4ddce72d31c8e91c0795cdfab82df338f172dd9bffdae43, 0x24d53d9f665348c12bdc3425c2b83e24fbea3b66b0c9d119146ed5d5a1d1e9f3, 0x1ee01a89a7ebc6b8e93f2ac2e60b9909e3e3d855852e0e113a72a118f56e2da3, 0x2b78c3171a3c8ec6231bb7c208e5b7c2c90a85956a7f2a1f763cb6c883059938, 0x7ca1e306d90787461696fc7e4a3938712312494329be76c8e2b402cc0d617e1],
    [0x251e7fdf99591080080b0af133b9e4369f22e57ace3cd7f64fc6fdbcf38d7da1, 0x1febc25f88aab92179ac3cefeea663f51562f6fc631bb236c04f5ef85b464784, 0x1b1b065eb60dbd39a34da94414fdfa4415933a6bdba5c2de470ad8ccef1b28fd, 0x60fcebd24cc08503ac4f80c0ffb87d0898f34bdce41420e84d941b5f7d352a, 0x2a7b16d282447357a66d83fc5aafab7d3edbcb3f01105f193954c5ed496ae165, 0xac39f59e76b9e296ef53921ae0436ab01217493f948bf6eca12b11ce46678b5, 0x90b38aaae1df1873784a8966f1f62b68bbd93d34b0f4c637e208f9aeaedfc26, 0x1ba601baf813cb2d40ed5674747b9e3d5760143501e0f21e31a7dd44b7135eb8, 0x17695ec6204f10059ae5ca72c1332bc882cb7b4e161accd1ba9ef760b7365d5d],
    [0x251e7fdf99591080080b0af133b9e4369f22e57ace3cd7f64fc6fdbcf38d7da1, 0xab5930a06bb6b9a78e664dc5308da0b64d1e09e6c69fa583bc737245c5a469, 0x16ab9a5de48bf089fba600dc70d2790ce0e8f79c1430566802f97fee43bc4e2b, 0x75df7d5cdb7ccc175462dfad73927bf5a5f465e15ad267930c5ec846f42ae5e, 0x23e4a7be74d0f0930279585aeaa432b5c28a4a2b21e3990aa45b5092f08d48ed, 0x298795a8af97b8b3d378279e60b276b95227e66d74e2dc66cffa1c495af98c25, 0x133d1455b6ea278f4acd91c65906bf75f2c90e41cdbefc2721b1e96adc5eeda7, 0x24b722af1967cddac6a1745b71aca7bac72d436ed464e2b8ce55aa2ad5ff3502, 0x276cb6e59cf4a06ff6775a537a4b04c6b42780c9c98a51ff634804b23acfac2b],
    [0x251e7fdf99591080080b0af133b9e4369f22e57ace3cd7f64fc6fdbcf38d7da1, 0x1044b0ed6b39096c0ff4d292c18632c909d1519149139b1cd192de01485dce3e, 0x2dc918abffffceeb34cb17a8cb532f889d7dea98e9ad2686ef8e30936ecdb03a, 0x2a5030937ec5690d090ad8b3d897541ecd187d2ee126fac5be6a280fbd4aa465, 0x16961c105f85925010e0fdd445ee840dbd3370aab933ccfcb6e4b24a8826037, 0x17262da0f8e41b6c42707dfbabec1d9f79ecdfdd25a32c2a640d3c5a4a3e8770, 0x59935903a135cffc7c5e8cb06de7a0adbc6fe4f66b07a74172eb65951c6a345, 0x1ea2228bc5f09dadfabf025e3d19db3cca4e448e60f2973605d2559a27b3bff8, 0x1e35c4737f19de2debd3760ddc81e1f5857a01c42c86f4e264ba323f4165d5ed],
    [0x251e7fdf99591080080b0af133b9e4369f22e57ace3cd7f64fc6fdbcf38d7da1, 0x5958875cfb17091058a7e29cbfe20d0d242ecdfbd3635279cd1e0c3a1144dd8, 0x19fd165b2741329dc18d2a5b03d7b58eb3dcdf2c2b0870731a924387139033dd, 0x11cea375386801203c61577504cdc68493716d023d116356def9ad9825be5887, 0x2e911408231ad83ab40e44e28ee0b017a82f7e080a0d4bc1b42c52e9205ed13a, 0x9d3f08c1d2cd4de393b703a7dd94df0540c91b59b288df6c1ad8ba0e51f179a, 0xd8bac92c12807a3fb4b20ec11e083a88b953070c08c1ae9be28c80cddb29a50, 0x22829b774491c0e3add8e7d2de8096cb55a1009ae9ce983b80c14972bc68b84e, 0x2aec91a87a1731f6b2f534955aef3d09ca7e2ee2dbdb5e9a0d15db232557c621],
    [0x251e7fdf99591080080b0af133b9e4369f22e57ace3cd7f64fc6fdbcf38d7da1, 0x281ec503552e6778fbafd7270951cfef153fcfeca0517410e495c62b81655f9e, 0x98a3183f2ee18973943856c28e0dceb4392af147ca8b528ebee97577178bcf1, 0x794a78e51b51af07808b643ed37bad31e6d6c68e5ef3171dcd06de598c6c29e, 0x214a19348cd7cc8b1f985287e637e7987a3bedfa233f98dae9774daaea42fce9, 0x130acc584954a9048597bda6395bd25ba02fce56102928cea7d5a6f520683ca4, 0x1d09e1227434a4bcf72d8e91f5419ffd6da212a1d1ccb2a51b03e80aa258243, 0x127397f2b156ba00d83847f03dd242007faf326271d0e2cd4f6dc84c961b19a6, 0x971a3d373d35db8f181e0d7b26c33cff17e533e8f560d844694f853e7197e47],
    [0x251e7fdf99591080080b0af133b9e4369f22e57ace3cd7f64fc6fdbcf38d7da1, 0x241c8bcc463ac96e3c1cc240ce83c44edcf9c781e258a2dad09d1976d9dc6dd6, 0x1a0b489baf0a182599f458897aa340e57986dcde7bfd34738851092a75ae6e0e, 0x102c886ce6381276fe52d15c51dbd571e94904a8ec4d4445d457d596442e443e, 0x289f8a46d6792691caac00cd43dde74940f122c0e5ac202588349c2eee473f6b, 0x2ed1721123242c33f23f809f6e431511594c10b0533afde3304ba62afc55f5ec, 0xc730a9beb7b64f090a39929af4901900e772b0f817098adace287cc20dd9e84, 0x480eb2f48521f46f5049f8d9d682d6f4060ff6c4190b2a22c40c27d0754b912, 0x221d30bbccbb39bc23ffe2c8571a8cd1763cd48de6dfe21d7d8f2805db1e5066],
    [0x251e7fdf99591080080b0af133b9e4369f22e57ace3cd7f64fc6fdbcf38d7da1, 0x22eff0bad54cf4f8fda9e07bfdae36713527756cff255aa481b730bd286cc90, 0x220c6f4c23ec9272eafb522055494a1af4de6fe7456b39c5db851e1299b7a86e, 0x18d66b43fd01a9cc88dd14b1b5d6c0d23b29ac28775ff60d3ccf36039de0963a, 0x1f62901537c1c56f671fabbb4fc31fa743f3236c26f9f5c98ecbf332eda817df, 0x130beece629451200a3de22eab4c45bb592aad667f9fc6729842971d4a802fcc, 0x24411acb2c9c481c59adc41bc54fdb0fac658ed6e0b3636cdadfd12c386f8c98, 0x2370059923938a3552819155a8b3816fb90cbde45871f6c122c190a27e7fdc43, 0x217ccb823582bf7edbf4a6a64692e37928f2b02d79b43775abf304500dd2da46],
    [0x251e7fdf99591080080b0af133b9e4369f22e57ace3cd7f64fc6fdbcf38d7da1, 0xe2be5d3f9ee73557a1c421fe42cb29bdf8f4a58679a61496bf8a5a4f9bba3be, 0x27639d7e461732f3baeb172103de2bc4a26708623919783fe54774153bdb59bf, 0x159c005b660c7fb3551cbf624aadcec047ce72625673c866c5fb289f8c865fff, 0x130d38734b549e833b50c550a90580c53248bb96731c0921ad6373316dfdaa8c, 0x13ee4afd14334602b6791a7b8f49c4f4979d485b8d1b1119cb4a2a7c31a74f39, 0x2d2647b74c63579e81a6270afc73e636e588996745ac0499dbeb6a7cf80a889e, 0x1b884086fa3c4173be0fd5cb1c866c87e0f9ae4c3d9f1e3df630cb4c2fa59af5, 0x2289328b5db5b2b2d00e76ff78815696e77eb19acdcb6c84279e65fcce29d15d],
    [0x251e7fdf99591080080b0af133b9e4369f22e57ace3cd7f64fc6fdbcf38d7da1, 0xbbd293300c70f612c8f5b7bcc6c4106246d2f713df02774a29742c31efeb4ae, 0x278e2893fbb5d590fe623652e50086d58ab18d3015a59d6a61602b409252ec2b, 0x2fcc41f73df0c835b0b514cbdd469af1e2b494f05269d15a6343af34668b18c9, 0x378097f57525674b961d42a2f57a937c1fecaba4c673bdce345050d981b8fe0, 0x15a6727e6f181a5da795ce173f1889e07f12892e13f889c4f8f6c71725ab9f62, 0x1edc3a58673d364ba5906c3b39ff7f654c5d42f4ff94e6e75d2c500842846477, 0x1aeddbe743c87ec10fe447a5d08ab5c73836eb214ef95a08ce91131b8e1a7f8, 0x286e544456f114ce609d6b805b31064ab65482585699c91b9b3e83a75ca386b3],
    [0x251e7fdf99591080080b0af133b9e4369f22e57ace3cd7f64fc6fdbcf38d7da1, 0x1477e88daf9348ea5f95cb08426f4285c654a897a2c4895333052fe2cdba34cb, 0xc9918bbd089bc26c937ae2e0a92a1d8c87cf4480b055e43831a5e6a3acbe5b5, 0x283c24f7bedf789f31465682347ff86b4c0fbb7f9aacbe5630021b41532f7931, 0xb1e5f0ca68bafaf026438a4682a55c1df5d387c4c5f3e111ead3163eb5b2754, 0x2d9da1df21f14ce401ff84b99fba07311a9da3cd7efc200695ab55b1233b9043, 0xbb61e50ddc0821f0c03b3bed9476f580a02157b6a69a17f2afb0eff5f1e2a37, 0x21dc1358f62ff3dc24cfc896fdfbae88b0074323dfc7b36d680edba89c470e4b, 0xdc75868b6f7e6ec9c26221637eb789b9e4c2b892ce81b527c7da05627ec2dc8],
    [0x251e7fdf99591080080b0af133b9e4369f22e57ace3cd7f64fc6fdbcf38d7da1, 0x8606e28acd8b2ee4c23a757886d7e99e407d177a58fb31b410ead7fbe1ef272, 0x2f70d379513ce458231a8ee6b3029bcbbb4860ef48c104ddcffe65603d81592d, 0x15315ba38b9e4c7a64a0844985e7b45db39eaec4c63b490cecfb19f02e102669, 0x2a1529e4b1ca0cee97cde58af1536c4823f7e558bdc13f774e4ef3ec8454675b, 0x2a70b9f1d4bbccdbc03e17c1d1dcdb02052903dc6609ea6969f661b2eb74c839, 0x2f69a7198e1fbcc7dea43265306a37ed55b91bff652ad69aa4fa8478970d401d, 0xc3f050a6bf5af151981e55e3e1a29a13c3ffa4550bd2514f1afd6c5f721f830, 0x2a20e3a4a0e57d92f97c9d6186c6c3ea7c5e55c20146259be2f78c2ccc2e3595]]

/-- starky/src/poseidon_bn128_constants.rs L588-929, one round per line -/
def c5 : List (List Nat) := [
    [0xeb544fee2815dda7f53e29ccac98ed7d889bb4ebd47c3864f3c2bd81a6da891, 0x554d736315b8662f02fdba7dd737fbca197aeb12ea64713ba733f28475128cb, 0x2f83b9df259b2b68bcd748056307c37754907df0c0fb0035f5087c58d5e8c2d4, 0x2ca70e2e8d7f39a12447ac83052451b461f15f8b41a75ef31915208f5aba9683, 0x1cb5f9319be6a45e91b04d7222271c94994196f12ed22c5d4ec719cb83ecfea9],
    [0x2eb4f99c69f966ebf8a42192de7ff61621c7bb47b93750c2b9ea08d18446c122, 0x224a28e5a35385a7c5198169e405d9ea0fc7da8b93ee13b6d5f7d099e299520e, 0xf7411b465e600eed8afdd6afca49c3036f33ecbd9a0f97823796b993bbd82f7, 0xf9d0d5aad2c9555a2be7150392d8d9819b208ae3370f99a0626f9ff5d90e4e3, 0x1e9a96dc8292bb596f52a59538d329229732b25259cf744b6a12d30702d6fba0],
    [0x8780514ccd90380887d578c45555e593cfe52eab4b945c6c2cd4d528fb3fe3c, 0x272498fced686c7ac8149fa3f73ef8c2ced64717e3556d5a59f119d629ccb5fc, 0x1ef8f9dd7c93aac4b7cb80930bd06eb45bd350aff585f10e3d0ef8a782ef7df, 0x45b9f59b6595e614dc08f222b469b138e886e64bf3c40aa97ea0ae754934d30, 0xac1e91c57d9da919fd6f59d2a40ff8ea3e41e24e247a387adf2584295d61c66],
    [0x28a1621a94054b0c7f9a421353cd89d0fd67061aee99979d12e68f04e62d134, 0x26b41802c071ea4c9632647ed059236e50c19c3fb3c96d09d02aae2a0dcd9dbc, 0x2fb5dda8072bb72cbaac2f63e468215e05c9de06758db6a94af34384aedb462b, 0x2212d3a0f5fccaf244ff3547fd823249ad8ab8ba2a18d383dd05c56ee894d850, 0x1b041ad5b2f0684258e4dfaeea09be56a3276fdb19f44c015cd0c7eed465e2e3],
    [0xa01776bb22f4b6b8eccff33e76fded3144fb7e3ac14e846a91e64afb1500eff, 0x2b7b5674aaecc3cbf34d3f275066d549a4f33ae8c15cf827f7936440810ace43, 0x29d299b80cd4489e4cf75779ed54b48c60b042257b78fc004c1b803381a3bdfd, 0x1c46831d9a74529357641c219d721a74a427110032b5e1dd19dde30424be401e, 0x6d7626c953ccb72f37141dc34d578e036296c0657674f80739ae1d883e91269],
    [0x28ffddc86f18c136c54002748e0c410edc5c440a3022cd960f108c71cda2930c, 0x2e67f7ee5e4aa295f85deed09e400b17be67f1b7ed2ab6adb8ec0619f6fbc5e9, 0x26ce38fa636c90630e97f25114a79a2dca56859ef759e53ce7abf22c24e80f27, 0x2e6e07c3c95bf7c34dd7a01d00a7ffec42cb3d16a1f72721afacb4c4cfd35db1, 0x2aa74f7597f0c9f45f91d7961c3a54fb8890d276612e1246384b1470da24d8cc],
    [0x287d681a46a2faae2c7c090f668ab45b8a71313c1509183e2ec0ca639b7f73fe, 0x212bd19df812eaaef4a40600528f3d7da5d3106ff565aa3b11e29f3305e73c04, 0x1154f7cf519186bf1aafb14b350eb860f97fd9740926dab93809c28404713504, 0x1dff6385cb31f1c24637810a4bd1b16fbf5152905be36583da747e79661fc207, 0xe444582d22b4e76c081d34c44c18e424011a34d5476252863ea3c606b551e5c],
    [0x323c9e433ba66c4abab6638328f02f1815773e9c2846323ff72d3aab7e4eff8, 0x12746bbd71791059193bba79cdec448f25b8cf002740112db70f2c6876a9c29d, 0x1173b7d112c2a798fd9b9d3751842c75d466c837cf50d73efd049eb4438a2240, 0x13d51c1090a1ad4876d1e555d7fed13da8e5713b25026ebe5fdb4808703243da, 0x874c1344a4ad51ff8dcb7cbd2d9743cb72743f0394efe7f4a58ebeb956baa1],
    [0x22df22131aaab85865ce236b07f244fa0eea48d3546e97d6a32a562074fef08f, 0xbf964d2dbd25b908708b437a445fc3e984524a59101e6c18bf5eb05a919f155, 0x9b18d9b917a55bca302be1f7f181e0e640b9d73a9ab298c69b435b5fc502f32, 0x94f5534444fae36a4bfc1d5bf3dc05bfbbbc70a6365366dd6745a5067289e43, 0x2999bab1a5f25210519fa6622af53a15a3e240c0da5701cb784fddc0dc23f01f],
    [0x2f6898c07581f6371ca94db73710e88084301bce8a93d13669575a11b03a3d23, 0x7268eaaba08bc19ec16d7e1318a4740565deb1e8e5742f862174b1a6866fccb, 0x186279b003454db01339ff77113bc9eb62603e078e1c6689a6c9582c41a0529f, 0x18a3f736509197d6e4915bdd04d3e5ddb67e2cc5de9a22750768e5524737172c, 0xa21fa1988cf38d877cc1e2ed24c808c725e2d4bcb2d3a007b5987b87085671d],
    [0x15b285cbe26c467f1faf5ef6a64625228328c184a2c43bc00b36a135e785fba2, 0x164b7062c4671cf08c08b8c3f9806d560b7775b7c902f5788cd28de3e779f161, 0x890ba0819ac0a6f86d9865fe7e50ef361c61d3d43b6e65d7a24f651249baa70, 0x2fbea4d65d7ed425a42712e5a721e4eaa627ac5cb0eb878ccc2ee0aed543e922, 0x492bf383c36fa55540303a3b536f85e7b70a58e854ab9b9103d7f5f379abaaa],
    [0x5e91fe944e944104e20251c565142d61d6185a9ce85675f6a969d56292dc24e, 0x12fe5c2029e4b33893d463cb041acad0995b9621e6e49c3b7e380a76e36e6c1c, 0x24154adf0255d47958f7723921474131f2629fadc89496906cd01dc6fa0784e, 0x18824a09e6afaf4a36ed2462a86bd0bad798815644f2bbde8813c13457a45550, 0xc8b482dba0ad51be9f255de0c3dbddddf84a630af68d50bbb06983e3d5d58a5],
    [0x17325fd0ab635871363e0a1667d3b67c5a4fa67fcd6aaf86441392878fdb05e6, 0x50ae95f6d2f1519122f5af67b690f31e550773fa8d18bf71cc6d0e911fa402e, 0xf0d139a0e81e943038cb288d62636764bbb6295f07569885771ec84edc50c40, 0x1c0f8697795689cdf70fd2f2c0f93d1a79b39ebc7a1b1c549dbbca7b8e747cd6, 0x2bd0f940ad936b796d2bc2e048bc979e49be23a4b13598f9fe536a16dc1d81e6],
    [0x27eb1be27c9c4e934778c09a0053337fa06ebb275e096d167ce54d1e96ee62cb, 0x2e4889d830a67e5a8f96bdd3155a7ca3284fbd307d1f71b0f151be62548e2aea, 0x193fe3db0ab47d3c5d2ec5e9c5bd9983c9891f2cadc165db6064bbe6fcc1e305, 0x2bf3086e96c36c7bce415907ad0c40ed6e9661c009679e4e37cb13027c83e525, 0x12f16e2de6d4ad46a98cdb697c6cad5dd5e7e413f741ccf29ff2ea486e59bb28],
    [0x2a72147d230119f3a0262e3653ddd19f33f3d5d6ec6c4bf0ad919b0343b92d2f, 0x21be0e2c4bfd64e56dc47f957806dc5f0a2d9bcc26412e2977df79acc10ba974, 0xe2d7e1dc946d70b2749a3b54367b25a71b84fb911aa57ae137fd4b6c21b444a, 0x2667f7fb5a4fa1246170a745d8a4188cc31adb0eae3325dc9f3f07d4b92b3e2e, 0x2ccc6f431fb7400730a783b66064697a1550c12b08dfeb72830e107da78e3405],
    [0x8888a94fc5a2ca34f0201462420001fae6dbee9e8ca0c242ec50621e38e6e5d, 0x2977b34eeaa3cb6ad40dd42c9b6fdd7a0d2fbe753af88b36acfcd3ccbc53f2a, 0x120ccce13d28b75cfd6fb6c9ea13a648bfcfe0d7e6ff8e9610b5e9f971e16b9a, 0x9fad2269c4a8e93c81e1b9770ea098c92787a4575b2bd73a0bf2af32f86ff3c, 0x26091fd3d4c44d50a4b310e4ac6f0fa0debdb70775eeb8af630cffb60092d6f],
    [0x29404aa2ba565b77bb7fba9dfb6fc3212543cc56afad6afcb904fd2bca893994, 0x2749475c399aaf39d4e87c2548695b4ef1ffd86590e0827de7201351b7c883f9, 0x98c842322479f7239912b50424685cba2ebe2dc2e4da70ac7557dab65ffa222, 0x18cef581222b647e31238e57fead7d5c758ace14c93c4da40191d0c053b51936, 0x13177839c68a5080d4e746745e43711d3cbc0ca4a108f98d63b2aa681698de60],
    [0x20ca696f531e43ec088f56f4b74325626cc4df712c0e5f0a907d88e5f0deffd, 0x27230eede9cccfc9fa805a30fc548db693d13708c646841d16e028387c7ac022, 0x1645911c1198b01d64fde34a342a1786497c05969a015439057d2fe75bb281c, 0x2c323fe16481bf496e439c88341ce25f198971e14487056cfdca4a451a5d8643, 0xfc082dfe70728e8450bd2074c3e22e1b022c124d3bffe8b5af88ae6db5085c8],
    [0x2052c174800db209d8cdca568dcc25b3be9642116ac4c77efe8a488b423521ee, 0x28e420e10df2fbb5af96d621d55423190be351ce8129065a8dd9fd05b3ece9c0, 0x25698ca5e24a1b799f783c4462a24db655d6ae1bdacd1cb549d6e0bc3ae5069a, 0x160a9981a5c89a57cf8ffbfa57d51049a297b61074422ac134d9b857d6984d35, 0x21c91a39e145c3bc34d9b694b843f3bf8b7cebf59ddbb0a064642b069997f3d4],
    [0x1ac8d80dcd5ee876d2b09345ef112345d6eaa029d93f03b6d10975461e41734c, 0xab3e6ad0ecf8b8e7c1662a4174c52225d822895e2755544b8dbcea5657ce02c, 0x1c675182512620ae27e3b0b917b3a21ca52ef3ef5909b4e1c5b2237cbdab3377, 0x2cdbc998dfd7affd3d948d0c85bad2e2e37a4a3e07a7d75d0c8a9092ac2bed45, 0x23b584a56e2117b0774bf67cc0dee33324337350309dff833e491a133bb63b2e],
    [0x1e9e2b310f60ba9f8cb73030a3c9d2a10d133bc6ba4ec1152f3d20de1465e9a5, 0xe01e365ba5b3031abc3e720140ae746c9ab5dab987520c460bcd4f1fa5b22db, 0x40884cdcfc64bfc7b7127340498d5c443382011b61c9a4b1387d85bc1264e68, 0x190b1ee1205eb9500c74a3998f2bea36353f1724d6067ed0a0a17de311ef9668, 0x1647c72aec6c4388d04f52fc23cd9c08c1dfcf65ce61e165fc28d1f832bd3b2c],
    [0x2430006346a0145f799880cc4c8736269f5494d89fb48b02842e595b71e4541d, 0x177b9a08343917e1365107a3da3ae7f69d853902bb16bacb3221850252b757af, 0x4a420e642b11ae94e58862a68f5e32609cd53d0ae29423439b11d04666df4f8, 0x25d0e0f739fb39fc105a88fab0afd810de2461858e956ccccdfabeddb6a25c8f, 0x4476d91b7eff2fd85905cbf58651edc320cb15610eaed452c4d4ffa0c740a27],
    [0x1090c0b68b3d7d7b8bc9ca2419eb8dea1c28f6d5e1250cb5e9780fd9ca286fae, 0x25393ce3b9256d50448a725c5c7cd5ad376f2d435855c10ebf2899cb5c6617be, 0x25931c0c7371f4f1fc862f306e6e5830ed824388d6b9342697d144f0fab46630, 0x2396cb501700bbe6c82aad51b0fb79cf8a4d353185d5808203f73f22afbf62f6, 0x26a363483348b58954ea748a7129a7b0a3dc9068c3cca7b5b3f0ce03b8724884],
    [0x27ca107ca204f2a18d6f1535b92c5478c99b893334215f6ba7a0e5b45fcd6897, 0x26da28fc097ed77ce4662bde326b2cceac15f7301178581d8d2d02b3b2d91056, 0x56ab351691d8bb3703e3055070ac9cc655774c1bb35d57572971ba56ee0cb89, 0x2638b57f23b754aec76d109a2f481aa3c22547a11ffc50152d729af632376a90, 0x304754bb8c57d60732f492c2605184fdc33e46a532bdec80ea7bc5519ede7cef],
    [0xd1727f8457ee03514f155b5806cbf748ec6857fc554010752ac93a9b7619ac, 0xee1f3c66fbc05c43ba295a303c72fab5bca86805ec9419c588e50947761fa3, 0xafafadcf5b4dd4a4a76b5a1d82415fd10a19fbcfc59078c61f9297eb675d972, 0xb2449f39746085e86ce45e8eed108ee65a234835a0a6a5ea8996d124dd04d0a, 0x206b0ce2f1b2c5b7c9f37b0045227095f6c6f071ec3bdda76a7ddf4823dd5dd6],
    [0xfeba4fb87834c7cb696e67433628cd6caffc3a4ef20fea852c7e1029459409c, 0x254dbfac74c49b0b8926752e084e02513b06f1315e6d70e18173e972336e55d3, 0xaddb1372cee4e164655168c367559e19606c5bd17910aeb37719edfa0ca8762, 0x26b25b7e257f3e97c799024fb019f65c6ca4d8d81b1ae16221a589d68831d759, 0x90995b79acec240413b8d4c658787e5a4657b9ab00bdb5b1960b1059e113ba3],
    [0x8dbdc2e21ef11f2c57299687843cea3eb0d8e40e99131f42974178d44f73b7b, 0x9e8aba671481197679faf752a0f78e342fe9c491596ab6758f170939785179f, 0x1deb05180e833e45659052a7ebaf816c7efd12a7f9eec94b7bc7c683f1363d5c, 0x19a70ec6bdfc9098a926efbcc04aa9ee248997e8b2c24af335fd6523e5250879, 0x21d773660adafb8a879986f9aab4890566353a3777d8a3f1eb93abe10bbf1f64],
    [0x9f1890f72e9dc713e20ba637b89d5d397a6b01fcd667347f6f46617841c3901, 0x5af459361eb454d2a300c61e446998d48fa1f897bf219d608c2145c33b111c3, 0xfa1a1d6829f0345664a66dc75a657335f336f15f340756cfa12fc850cc8b513, 0x2e47a35bcc0c3a0bda0b1c0307ad543f4280fcf87f636f853655cf97a628bb0, 0x14f773e9834c6bdeb8f90e78bf4c24b7203411460112491036621895204d0f12],
    [0x102d98cf502ed843255cf19d29bc7d8e642abe7cfd639992ffb091962fc8f7cc, 0x43dd5f4aa5a76dd4c47f6c65da7ca2320d4c73ad3294738cba686a7e91373c2, 0x21833819c3337194a6c0d29a48d4f2676f0e7c79743a306f4cfdb2b26bd11efa, 0xf281925cf5ee649b474a6819d116ca3eb4eca246c311ecadc53262a3cff2b53, 0xd3e2477a7b10beb44709c7746d6824edf625dd60504d5dc93ce662f15c238d6],
    [0x2cd7f641bedbf66956ff8a01be9cde35d80f80ab51e73b49acbfc3eff5aefc44, 0x29e95b492bf2f95f4d09380f98b74e389149d24045811d7a86dd861310463cf8, 0x22da66bc62e8f011266efca86a6c810f9ae4c51af6ffeb57f8b3c50df83cc13e, 0xfe6d30de7a82d163023491794f4aca3220db79e8129df3643072d841925554a, 0x50e842a1299909123c46eff185c23ad312d03fef1adfecc7e07ecb298fd67f],
    [0x2130a3a7b3221222be34cc53a42d7733666f9ddf714ed7c5885cbbdb63108c21, 0x2df9ee294edf99e3d8d5883fe0566c24aa66731f34a93280e1d328e67b33c9fa, 0x1bf7d6e489ad8c0cf26eb68cc21ff54158132396dc250aeba4b6fc5fc3372762, 0xc602fa155be958761eaf739617ab136cf7b807728bf7fe35d4778d311780e54, 0x2e50e2c5b36aa20532407d86b8d22d7d5154080a24972faeb63faf0121ed7f21],
    [0x17c2510982a7b5825710d6290ec4f782f674995ee8409b42b459123b180332e1, 0xb0d52f03c8af7276803ecf2465b885b21337b538eabd2f6b2ab255f376b42a8, 0xf5633df1972b9455953d88a63f80647a9ac77c6c0f85d4561972dd8fab8bd14, 0xebf7ad29ca13804e1422e939681155124780ff43e76e929035498130a7f1572, 0x1aff13c81bda47e80b02962173bba343e18f94bee27c8a57661b1103a720ffe2],
    [0x210449dbf5cf3061da2465be85505862d3f31de1a3b58ff35713be57efac6c07, 0x88230c2794e50c57d75cd6d3c7b9dbe19d1e2f1d3001044b93ad1c3ee629817, 0x1c408c256490b0a1da08dc464138dfc78cce9a9e16c7705617a4d6dbb20e7e3a, 0x74517e081eb4c1f22d1771200fb07658f7c77654d58440490dd6f557e9e3903, 0x2d04e9c21df1dbd88524bdb203691b4cee5530559d6cf0fa05adf61e12fdcbf],
    [0x2eb7a011b8bce91082e13ebd75de3b58eb9b4650dae9f11aa81db32cf1b67b13, 0x2efda77ed35f4af0299f75d6e8a849b54d2ac6bf95368304e6030c18f0cf17b5, 0x9199dcafd50ce642eddbeda65206d4f61a73d10852b8114c51b2440192ae064, 0x268c5cfc446d399c4dd319db666a75b5cb655d8c1797e9fa76181cb4216e1562, 0x2303a652c949071826b0e9a36c80578697b44e912cce6687012854eda11a18dc],
    [0x27c53563b12a6ee2c3f041f31dc45922bc5353eb110868d237073f4efb35fbdf, 0x1201a87eaf4ae618f02bd82d0a5109049969b5248cfe90f42c278f22615d2b0e, 0x2c43169439fcd69ead8214997bb069becafcb1ba2c51e5706cb4b43dab2a443d, 0x683597315359040ea03c45d6984c6894f46cbb36d702e3c4fb9847e6304d944, 0x3545706706eab36afb93b128febd16fb0425e158314197b77795ad3a798d183],
    [0x1a33c254ec117619d35f1fc051b31728740bed23a6a37870edb393b71a0c0e6b, 0x1ffe6968a4470cd567b0c002281caf996e88f71e759b87e6f338e517f1690c78, 0xfd66e03ba8808ffecb059c899fd80f4140ddd5d2a5c4483107f4e02e355b393, 0x263ab69f13b966f8197394552906b17e6c8617a7bdd5d74a7be3396b7fe013ab, 0x16a425e47d1110625054d5a165de413e3bd87d5aa3958fdd6eb7e03e39ba4046],
    [0x2dc510a4719ec10cad752f03c673f0e253cc31d13e39e909fcc5f73af9138d9a, 0x24df8e8d856c5b5e1bd1cad23d07dda3423c5179329b7a82cb4aa709a94576e5, 0x2bcc94ff4fc3c76f3cd5c68915a042e87628249a01b09561bdf24a6cdce5620f, 0x76c1e88dc540c8d8de54e343df7c429d3295f52c38cffe6b48be86852da97df, 0x9b5f209a451ac431c051fb12d9a5e4fe40ee1601120947da990fb8e12cb46e1],
    [0x205f17b0d8729e2eaa88d6a44135a6ab64e9424f55b0f1ea0683af75eb677c07, 0x281c5c688836f6cf912638c38be046cd091681f0a41761720cdd1edf9f237029, 0x1a053e6878e900f45f4d67448c471cf3009a44e7a02ea50e4afa44f2592621f5, 0x100dc7d426debe3007fb7ceac84e4f5468efcb897e7bbee981742839d59e064c, 0x17022672a016a957bb87e2cfadc8b75fb28905bdb62c82c80b1cb31b411e49c8],
    [0x1086db7e2760fc8b71053a87ebe151239fb8b547182b170de0c27203f954f4d2, 0x15384fe39d73b63302460ae4c2942fac2b41fb65a185536fb85dd24fd7584064, 0x2ebb599fe9136d424bf4abc5342c6c7447b1a853205fcfb5519e551357709008, 0x1b4b5e87cfb9262cfec3c0f0542e4c5a4cf278292b4ce3eed996fac6f4d37288, 0x2465053ae50b6885801f3f82e302cafbbb4a7581bb4fba60b637febe659e5057],
    [0x114f32edcdea09cd095c5bb5d38f1b97da9f05e18b3708bf6e0ab9d3d54859ef, 0x2bc70dfeb2baab2f6b387cd77be779ac2e5e5519f3d18123ee28d8c2543c7148, 0x1c9bf7a203ce22b775e3a61ad7e77b6a78348b9f6ec68a412e49bfe32c05415, 0x514b0fe5909ea887bedb0295fbbcec355cfb575ff6a97cd9f4ad00ccb57ee9b, 0x267c76ec81934cc81a132a8b058910a12092520b12a201af03e3202d7b6c1b7e],
    [0x29170e3322b3d8d5c78c84babbb470adf1622493ce83e95cfb151cf757bde5d6, 0x19f6a8124b19e33af33e5d3873f9c335c6f09a45486cab536dd596ca41d9519, 0x1904aa4d6908544a8b348e9db1981c27009ed8ea171518ae5405d036242b60e9, 0x26f17873949bc679f7f043956694e422b3cee1de9dd6f6473b932a476455ff1a, 0x1ac668f612b8243c193b33720b8aa54040c476031197131ebdcac9b18bc48f75],
    [0x996d961a75c0d07196dae45bf624766ccfbf8555be9796da52f81568ef0663d, 0x30c97e1b8cad1d4fd50d1b4383fbe6674d171f99c63febb5425b395c24fc819, 0x6e3ad6a46900e2d3953370255b68f89b3e523f1fe502642ee226f2d8bd0848f, 0x1d6b3755331cd0216b6880e42f9880f565cb94b0e0455153a329890588cc916e, 0x28e4dcba4b96f12a59b041535e730ac8c35189dc0b85ac033dd38c08bae531f2],
    [0x8b6086046a835508ccf484f2974b6a6b0712a476260376c7a3b3e4bc4a47a14, 0x162cd2ca7fe3b5f1444bcec97812019bb6fd85fba6a0536a89643e15b9bb3b52, 0x28f1e03baaea9bbc05af5b11937e4f5cb5c9a9c1192063d1998c01c64d483a76, 0x1bdb062778d7c15da395af2734c25faa0127d2aab4aa71366031a0bb6791ce10, 0x2375839502e09890cb2914e829627e0e0fc98870b2324a8b50329ebdd24749cb],
    [0x1fa8662fbcb61fb3ad7c55668dc9423a332dc87cfb2df456e92d33611ed7bb50, 0x1e4fad2dd6b0a6f1f8707f721716c8a446e2fb2c47a5138f3f7f9736079d7694, 0x211256d16c7269fd6df6f5fcdd1fa788ba3bd050059f53d261b0f5f13731ffe7, 0x2e49084b336eceaa4f8e2a2e6af08318f42060e574dda341f4a1079b12bcc5a5, 0xce19f54cdc39f7f3bf35192ac6808211aecea08dfe14cab758d25891fb00bb9],
    [0x11c5d56c390e893cc394221261d8748dc60451e4ae4e1c84a8468bab2c14cb, 0x17d79ff06b63ac2a8a9e05ee6af3dbb7ca60e17bfa39b47514a8cd8051579b4c, 0x19a7d3a446cb5393dc74560093592b06b1a8b35cd6416a2ecab00173639015fa, 0x30c00a0933dcdba2a808b2e1b9282f331f04596d8928da7aa6c3c97237037a6, 0x16bcb447ce2d50f3ae25ad080695382e935d2d00184c4acc9370be8aab64139c],
    [0x12341b46b0150aa25ea4ec8715312997e62124f37cab7b6d39255b7cd66feb1d, 0xe86d13917f44050b72a97b2bf610c84002fc28e296d1044dc89212db6a49ff4, 0x8e6eb4089d37d66d357e00b53d7f30d1052a181f8f2eb14d059025b110c7262, 0x2ea123856245f6c84738d15dd1481a0c0415ccb351a1e0cee10c48ce97ca7b18, 0x2dca72b2ebcab8c23446e00330b163104195789025413abf664db0f9c84dfa6f],
    [0x6ff9ed50d327e8463329f585ec924b3f2f6b4235f036fa4c64a26cbd42b6a6b, 0x246a10b7e3e0089947f7c9bda3d54df8e2a60e0cca84ea2ac630a4535afbf730, 0x22a63501c5f04b9018719ed99d700ee52f846a715ae67ad75c96b39d688b6691, 0x2f4c50477f7fd9c671799ac5d2e224cdb9164f58351d8aa140ec07e514fae937, 0x10ffb7aad1f51c7d13b17f4d876d9a1e38f0ba8a4a23d4b50cda32cad851567e],
    [0xe9cefddc3c2d3bea4d39722532d5420784027352187e7af1a056935c35803ae, 0x7af84a4d3141e7ac23352e6dc6ea4afa1656f96a33c8978a3e83bdd4ba62b41, 0x2d9e31a10aebc761f8de00d14b1e566d1a39323d6e89b638e940f3ec8a22c3c5, 0x27f19a6532e66b5333db1afd592f66f1d36034b314dad8447656747be27e64c7, 0x58fa3c8454d63354b2024c3b4a577a180ed99f8f3155cd7e4d617d47d07ffd],
    [0x41627b6715b780967957c080699343eb0414a205d3a175d708964956816a5d5, 0x6ac49dd9253edc7f632e57b958ccecd98201471cf1f66589888f12b727c52d, 0x131adffd8bd7254b1d8c3616bbe3386ec0c9c0d6d25a9a4ec46a6bf18301398, 0x1c4a6f52c9fccf7a4138e413ef62a28377977ad7e25e49a3cf030e1cd8f9f5b6, 0x3f2a6be51ec677f946551b3860ea479fee048ae2078aeb7d1f7958d2c2645f6],
    [0x2da770aad2c2eb09391a0cb78ef3a9648a1372d8543119564d7376396b8ddc62, 0x15278463665f74cddc1802febfab02cec9d45fe866c359c738062afb75d64a03, 0x12fe278aa36544eac9731027090518d434e38ea966a08a6f8d580638ac54c773, 0x149b9c802182558a4c45d119d3f4cc7fd8587604ca4f0d6e21b06ff30b6a23b6, 0x812e7b4d847bc8517d19319772f3c9855e044fd60dbac9a0adc4959b691dfe4],
    [0x2ed8d8ddeafe3d9d8df7f28a0bfaa7f555813c7e7503aea2a66973703a0c61b, 0xebd073ba0537b514deb6029f921029e55e5e4d9a03d6b6ba1304038662d4db8, 0x15c754d5b14b2c4205c6ba8d2ccd028255b3e792c6afa08b44ee75b62eff9f59, 0x169515c89ac5479db0ed8fa6fa311b391cc1235270f4cbc5c29e7cbc30e8732a, 0x25479fbfb3a68f982388f2621001101608bdc29f6ff037696d9161f5cd9a4fef],
    [0x14475c4bd520451f3c852cb0311a578ca7f8e6e972182196ce09486e94be6071, 0x45a691066cc66bec9baf2798833a1dfd3a847502aec8d5f5c4e73363d097799, 0x26029c0c267c799fb833ac8a11e3a3f0147a8ca037221b90013b8bcb37eba683, 0x163facb34ff572fbf7c946969c1c260873ce12a6a94a3e45b8101d5b948d1641, 0x2c714e96e1913b351d969320cc69d5ec13e06a6275e58688af8ee00c4240ee28],
    [0x1c1661e2a7ce74b75aba84665ecd2bf9ddd6268f06debfe2d52b804eff1d5fa6, 0x6a69ae795ee9bfe5e5af3e6619a47d26635b34c2a0889fea8c3c068b7dc2c71, 0x113d58535d892115c5d28b4c19a3609374dbdbadf54195c731416c85d731d46a, 0x2ab89102e2b8d5e638ff97d761da6042e534f1ff47f7917a2ca1a74063b46101, 0x3c11ca79e41fdfe962730c45e699546349031893da2b4fd39804fd6a15ad1b3],
    [0x27096c672621403888014ddbbbfc9da1f7f67b4d4cfe846c6adf040faaf2669c, 0x2de32ad15497aef4d504d4deeb53b13c66db790ce486130caa9dc2b57ef5be0d, 0xdc108f2b0a280d2fd5d341310722a2d28c738dddaec9f3d255754448eefd001, 0x1869f3b763fe8164c96858a1bb9efad5bcdc3eebc409be7c7d34ca50365d832f, 0x22ed3a2d9ff31cbf82559fe6a911843b616945e16a568d48c6d33767129682d],
    [0x2155d6005210169e3944ed1365bd0e7292fca1f27c19c26610c6aec077d026bc, 0xde1ba7a562a8f7acae93263f5f1b4bbec0c0556c91af3db3ea5928c8caeae85, 0x5dbb4406024beabcfce5bf46ec7da38126f740bce8d637b6351dfa7da902563, 0x5d4149baac413bed4d8dc8ad778d32c00e789e3fcd72dccc97e5427a368fd5e, 0x1cdf8b452d97c2b9be5046e7397e76ff0b6802fa941c7879212e22172c27b2e],
    [0x1fc6a71867027f56af8085ff81adce33c4d7c5015eced8c71b0a22279d46c07c, 0x1040bef4c642d0345d4d59a5a7a3a42ba9e185b75306d9c3568e0fda96aaafc2, 0x16b79c3a6bf316e0ff2c91b289334a4d2b21e95676431918a8081475ab8fad0d, 0x20dff1bc30f6db6b434b3a1387e3c8c6a34070e52b601fc13cbe1cdcd59f474e, 0x212ac2ab7a6eaaec254955030a970f8062dd4171a726a8bdfb7fd8512ae060d],
    [0x2f29377491474442869a109c9215637cb02dc03134f0044213c8119f6996ae09, 0x984ca6a5f9185d525ec93c33fea603273be9f3866aa284c5837d9f32d814bfa, 0xd080a6b6b3b60700d299bd6fa81220de491361c8a6bd19ceb0ee9294b24f028, 0xe65cd99e84b052f6789530638cb0ad821acc85b6400264dce929ed7c85a4544, 0x2e208875bc7ac1224808f72c716cd05ee30e3d20380ff6a655975da12736920b],
    [0x2989f3ae477c2fd376a0b0ff3d7dfac1ae2e3b894afd29f64a60d1aa8592bad5, 0x11361ce544e941379222d101e6fac0ce918106a463290a3e3a74c3cea7189459, 0x1e8d014b86cb5a7da539e10c173f6a75d122a822b8fb366c34c8bd05a2061438, 0x173f65adec8deee27ba812ad29558e23a0c2324167ef6c91212ee2c28ee98733, 0x1c36daaf9f01f1bafee8bd0c779ac3e5da5df7ad45499d0991bd695310eddd9],
    [0x1353acb08c05adb4aa9ab1c485bb85fff277d1a3f2fc89944a6f5741f381e562, 0x2e5abd2537207cad1860e71ea1188ee4009d33deb4f93aeb20f1c87a3b064d34, 0x191d5c5edaef42d3d02eedbb7ab8562513deb4eb34913a13421726ba8f69455c, 0x11d7f8d1f269264282a263fea6d7599d82a04c74c127de9dee7939dd2dcd089e, 0x4218fde366829ed90f79ad5e67997973445cb4cd6bc6f951bad085286cac971],
    [0x70772f7cf52453048397ca5f47a202027b73b489301c3227b71c730d76d6dd, 0x38a389baef5d9a7c865b065687a1d9b67681a98cd051634c1dc04dbe3d2b861, 0x9a5eefab8b36a80cda446b2b4b59ccd0f39d00966a50beaf19860789015a6e5, 0x1b588848b8b47c8b969c145109b4b583d9ec99edfacb7489d16212c7584cd8c, 0xb846e4a390e560f6e1af6dfc3341419545e5abfa323d817fed91e30d42954a6],
    [0x23a6679c7d9adb660d43a02ddb900040eb1513bc394fc4f985cabfe85ce72fe3, 0x2e0374a699197e343e5caa35f1351e9f4c3402fb7c85ecccf72f31d6fe089254, 0x752cd899e52dc4d7f7a08af4cde3ff64b8cc0b1176bb9ec37d41913a7a27b48, 0x68f8813127299dac349a2b6d57397a50275142b664b802c99e2873dd7ae55a7, 0x2ba70a102355d549677574167434b3f986872d04a295b5b8b374330f2da202b5],
    [0x2c467af88748abf6a334d1df03b5521309f9099b825dd289b8609e70a0b50828, 0x5c5f20bef1bd82701009a2b448ae881e3a52c2d1a31957296d29e5763e8f497, 0xdc6385fdc567be5842a381f6006e2c60cd083a2c649d9f23ac8c9fe61b73871, 0x142d3983f3dc7f7e19d49911b8670fa70378d5b84150d25ed255baa8114b369c, 0x29a01efb2f6aa894fd7e6d98c96a0fa0f36f86a7a99aa35c00fa18c1b2df67bf],
    [0x525ffee737d605138c4a5066644ec630ab9e8afc64555b7d2a1af04eb613a76, 0x1e807dca81d79581f076677ca0e822767e164f614910264ef177cf4238301dc8, 0x385fb3f89c74dc993510816472474d34c0223e0f733a52fdba56082dbd8757c, 0x37640dc1afc0143e1a6298e53cae59fcfabd7016fd6ef1af558f337bab0ea01, 0x1341999a1ed86919f12a6c5260829eee5fd56cf031da8050b7e4c0de896074b4],
    [0x69eb075866b0af356906d4bafb10ad773afd642efdcc5657b244f65bed8ece7, 0x171c0b81e62136e395b38e8e08b3e646d2726101d3afaa02ea1909a619033696, 0x2c81814c9453f51cb6eb55c311753e84cbbdcb39bfe696f95575107502acced8, 0x29d843c0415d35d9e3b33fadcf274b2ab04b39032adca92ce39b8a86a7c3a604, 0x85d6a1070f3513d8436bccdabb78750d8e15ea5947f2cdaa7669cf3fae7728b],
    [0x11820363ed541daa10a44ba665bf302cdbf1dd4e6706b02c9e2a5cda412fc394, 0x201935a58f5c57fc02b60d61a83785bddfd3150e05f1df5d105840b751a16317, 0xa8c2820c56971aae27a952abd33a03d46794eedd686cd8ecfed610e87c02e9a, 0x180638ff301a64ca04abd6d0bd7500b6650b65ff33e6be1fd50dbc163a281877, 0x95c716266f1de59044f97114a4158a3f85ca8a937cfbec63e9b321a812dd36b],
    [0x17c31ea02fbc378320d86ffed6c7ca1583b618c5c1a687818d4087a497d73490, 0x5b86c4bb8ef318b6a7227e4192d149d3c17a9764ccd660de4d50a77f192a91b, 0x265bc95df4a4c4876ff70d7ea2fde2c7ab15f4a6ae0d237cd6ce74ba986c7a7b, 0x24752b47bc6c6bc8d9bbe48f5fef2f6908701739c5f5b4b3d6c886d4715c7929, 0x14814a1e0f492a4ea0d86e527a96482178d624b98da96ee5e583b9324d974efe],
    [0x10def931073b6479bd60577378f29381997c8e041d3cfb3dc7523bca906f00bd, 0x14f7ae770bf7e95f7f706c0d8ab4ed03fa0b880d28c69d031b4592c98610175f, 0x1aef50a0cee751b59f926af40e8035d19decc9d428ebe4e775c5cc9dce1ce589, 0x41935607172f68eba65ca60068dfe3b086c2a2d57d09602951214b57e73cf5a, 0x26863e9dd24255d1573bd083959b856c0493fbefe83c819837a151d3bf452cb8],
    [0x2036efb6f9830965eb3d7a068bd087c9f5adf251ba62052c652738e63ff8b3af, 0xc712a975b74dc9d766b639a029969ca30be4f75a753f854b00fa4f1b4f4ee9b, 0x8014dab3cd1667e27afc99bfac1e6807afdff6456492ca3375731d387539699, 0x198d07192db4fac2a82a4a79839d6a2b97c4dd4d37b4e8f3b53009f79b34e6a4, 0x29eb1de42a3ad381b23b4131426897a32709b29d53bb946dfd15784d1f63e572]]

/-- starky/src/poseidon_bn128_constants.rs L10945-10981 -/
def m5 : List (List Nat) := [
    [0x251e7fdf99591080080b0af133b9e4369f22e57ace3cd7f64fc6fdbcf38d7da1, 0x25fb50b65acf4fb047cbd3b1c17d97c7fe26ea9ca238d6e348550486e91c7765, 0x293d617d7da72102355f39ebf62f91b06deb5325f367a4556ea1e31ed5767833, 0x104d0295ab00c85e960111ac25da474366599e575a9b7edf6145f14ba6d3c1c4, 0xaaa35e2c84baf117dea3e336cd96a39792b3813954fe9bf3ed5b90f2f69c977],
    [0x2a70b9f1d4bbccdbc03e17c1d1dcdb02052903dc6609ea6969f661b2eb74c839, 0x281154651c921e746315a9934f1b8a1bba9f92ad8ef4b979115b8e2e991ccd7a, 0x28c2be2f8264f95f0b53c732134efa338ccd8fdb9ee2b45fb86a894f7db36c37, 0x21888041e6febd546d427c890b1883bb9b626d8cb4dc18dcc4ec8fa75e530a13, 0x14ddb5fada0171db80195b9592d8cf2be810930e3ea4574a350d65e2cbff4941],
    [0x2f69a7198e1fbcc7dea43265306a37ed55b91bff652ad69aa4fa8478970d401d, 0x1c1edd62645b73ad931ab80e37bbb267ba312b34140e716d6a3747594d3052, 0x15b98ce93e47bc64ce2f2c96c69663c439c40c603049466fa7f9a4b228bfc32b, 0x12c7e2adfa524e5958f65be2fbac809fcba8458b28e44d9265051de33163cf9c, 0x2efc2b90d688134849018222e7b8922eaf67ce79816ef468531ec2de53bbd167],
    [0xc3f050a6bf5af151981e55e3e1a29a13c3ffa4550bd2514f1afd6c5f721f830, 0xdec54e6dbf75205fa75ba7992bd34f08b2efe2ecd424a73eda7784320a1a36e, 0x1c482a25a729f5df20225815034b196098364a11f4d988fb7cc75cf32d8136fa, 0x2625ce48a7b39a4252732624e4ab94360812ac2fc9a14a5fb8b607ae9fd8514a, 0x7f017a7ebd56dd086f7cd4fd710c509ed7ef8e300b9a8bb9fb9f28af710251f],
    [0x2a20e3a4a0e57d92f97c9d6186c6c3ea7c5e55c20146259be2f78c2ccc2e3595, 0x1049f8210566b51faafb1e9a5d63c0ee701673aed820d9c4403b01feb727a549, 0x2ecac687ef5b4b568002bd9d1b96b4bef357a69e3e86b5561b9299b82d69c8e, 0x2d3a1aea2e6d44466808f88c9ba903d3bdcb6b58ba40441ed4ebcf11bbe1e37b, 0x14074bb14c982c81c9ad171e4f35fe49b39c4a7a72dbb6d9c98d803bfed65e64]]

/-- the inverse of the matrix (not in the code) -/
def mInv5 : List (List Nat) := [
    [0x164ce7689cd34e715530d7a8f9f89493fa401f28866868300a07b795463d35d5, 0x1db393d0c2263141f20ea20e014a394a12b2b6d18e5bb2fcd023820eb5609d5c, 0x2ea4b39c798cb58fc5c1feea7573b0bd6384229a60b5b10e00364d7e376c668a, 0x2d2b4966cbb1a87832f7e0591681966b81bd3a5a0ed04aed9d41b342029ba735, 0x245f6aa5486951fc05c8759855667af4e608a349b9dd3773644241f986b0fed0],
    [0x2ee7542648a761d8d986605b83ae10161b4bd6e69583846944ed206093d6aabd, 0x3f8d4362488e27a7ed0b2b93fc0a2a6833b15f6f4e4c37d15190ef0969c8858, 0xd7155cc3c817a4453138d6d7efd5b139ddd05b3aebe03737510417e0bb5e415, 0x2a3f9c292dfdd2782dd5fa16bd6aff83a98dded90fa50d828e6bf1612749b599, 0x2ef087b95a30db206e4a5dbc7bbc2f864584a3ce4044b0dbb9a9386f96f88ce4],
    [0x268b887963db67de1e46b9c6579509bf8b3b35799934113f9b0adc8be22c2097, 0x7c4cf6317d31876d25c3c95da1d1f6e2a8a52a76b3b17072b8e51632fdd069d, 0x1bb99031ff6199b89621c4849c428d51cd503388d240f0a3fd702b37cca47eae, 0x2bb7f772403e18b530bc6db6591628d52ea1499416b4849ee85db447c038bd9b, 0x7d150a72e22cdd15d41bdd3ccf8e33f02424059a4aaf101a70f45bf661ba481],
    [0x1aea063d15e7adc4a06a0858209330f5bcd5922e8e81b5509305cd673be8ad9e, 0x1ab18e5f72e67dcc438c2b060ec991745c33674763c77b6be378276bfdd32f08, 0x1473c50d66be6cbee3216274cde2e85914e19fd3481bad423cd940ae057a9f08, 0x262ef3416da68dcbef9ee1d4c8aaa35ac8c6e6e77849266cbb7327dc2956b7a0, 0x229cfdf3f130b726d9e031c10ea9700de85b23a57fd148e758b0d3bf0f3e2fdc],
    [0x125e07c324bfc084f986809ce528a884deffa4d49dfdb73990623a1fa06826c5, 0x10ef80f794f0c1cec1d24a0dc7fb7b6111f1b42a43909d7260db1afca351100f, 0x1e2f2d99860658a8e31bfe9d3806054c15b0d5de8c2d49b789de85d9ecd3c179, 0x199f0a09d4d0c2bf9afd5ae47f613afa107ecbf4a7f540669a2545674b427d94, 0x1cefd8df4cfbe3410164dd73b1a7c35e1429981380184c8174979f2e71b01a16]]

/-- the tables have the sizes that the code reads and load without a panic -/
theorem sized5 : (opt5.sized 4 4 60 && opt5.below bnMod && c5.length == 68 && c5.all (·.all (· < bnMod)) && m5.all (·.all (· < bnMod))) = true := by decide +kernel

theorem ok5 : opt5.check bnMod 4 4 60 c5 m5 = true := by decide +kernel

theorem inv5 : invOk bnMod mInv5 4 opt5.m = true := by decide +kernel

end Verif.Poseidon.Bn128
