import Verif.Poseidon.Check
import Verif.Poseidon.Primes
import Verif.Poseidon.BlsT13 -- only so that the large tables are not checked at the same time (memory)

/-!
# Poseidon over BN254, 12 inputs (t = 13): the tables, copied verbatim, and their checks
-/
namespace Verif.Poseidon.Bn128

set_option maxRecDepth 1000000

/-- starky/src/poseidon_bn128_constants_opt.rs: C L1312-1482, M L3076-3272, P L5198-5394, S L15318-16944 -/
def opt13 : Table where
  cF := [
    [0x1373c771cdf15121a224f330d84b6688ef9fe0038a3bc26a28e3196578a0000d, 0x29f9fbda3c999836017f76e121af3aca5ce78bb48fa867a6a95e5b9db387533a, 0x1c7eb5116a20075c169b786d9dc86a24ee7a2525b565bbc262209a8cda490528, 0x21a549eb554f0f859f61d68f1b6bbe9aa3449a6238546bbdf2a1c308c9cc52e6, 0xb53fff701347d1b9df98b46175800e0d3250ac6d4a1afa71a349ed195873508, 0x2129ac4742415c020db2473999b34dfdbabba3cad4713718f95e6346e1583b7, 0x1d28f305e8b0ec88da37c8251b0c8d230b68bea9401a15f5124d64c5454bc29, 0x1ed301e02e3fc930999fce6d3744c23596700c03720705939d61cee451faff93, 0x2edb1832966e34eaeee0903858afedb13dbba9f7c802c83ee628530d0e26ae1b, 0x123daaddc930c65fc67bc77ca8bf4123fe81fbd0501e8f89ac31a698756d87d9, 0x2bcc36362c90210acf67d5fe21d53104e9d5478d057141d3b17259fed8e4a8fc, 0x1fa928cab5938207e898e61d99c7d616269144f7900815b17095f7ff76e3c9d5, 0x29c2f1cfa72a0fb8f53a631e84cfdf5cc18fb426c254f5a905fd3e831fc7c837],
    [0x2da58609f78b29ae6889f95ea2e8ef01a6a6c2814ed02317ae9e7142a29d301, 0x2bef1f45efbae1a4f77721631df4f6982555d05ac5f5ed215dd25939af5c1b06, 0x69266bb89813e77b00e34743aee026a873b7e31fc6f64ed57da189c460142f7, 0x2b7198b043ff31d915deb9d5fdd0338e5bd8028992cdc033eefb9cebf92c9f55, 0x20ff6cb38e8d9501add93d1684e5420d1bba60394e7c02787a8deb9573878000, 0x16afd4f19d312cc4b2568dda85d89dd7c834b05b4d8ffabf4410f15c22b77cbc, 0x2bc96c4bd9eb8f09c17483aa57c5c05f002c6a21aeae2201e882335bedf4f1fa, 0x1827a11b658414b98b8f76dd10bd5e0fec96568c2fe059f71999ecafbab0a00a, 0x202d1bece537583634b6e1e70659a1bcf1afe1c7775c478c00648b437578d9a9, 0x218b5b58b3333e735ce7c88a6e2f179e907322150a7833fb841325bde83845, 0x117267f052b39319c4ce34bc8a543b13e80784662c208ce378ad6118fdb0ace5, 0x2979bc493ae1eb3e0df74316cf12fdef6dd1674174a00ae9ef908b3a2df98ab5, 0x1925313243795f90651c448c814b13f2fa988cfc8895c9a2bfa8551164461a47],
    [0x309b8bc3b0ab07525a643105acedd0ae664e53332f89a185ed3d7f1da80203, 0x2c514d1803b41345f96cadcf983dcef5551b7ebe8ff78f23ecde23ebd5a36831, 0x23d56ffd6d38c9ba909730fbe6443cb5b4cf9a9702efdd98696652c3f2d1775d, 0x1eb7ae2f9df6ed33760e51a351cfaa3f4aaeba7c854b85bc6e2b63cc3f2a3dc6, 0xb3a63736983f365880bedfae6fb8fe5eea0f32e0b398e16d610d62a82407957, 0x249f511f31c4ddeb74d919cda9133fdbc1cf2d9b66288c9ad13e02c719c39612, 0x121d3b76e65bd665f5f5d2908435c2571441546a9504370a0f0c33de6fd7e738, 0x1e1fd57e79cf042b1b3b883d4f4265f15f08839a8b5c3f1802ab7b62d55eb238, 0x16fefbda0580e528dbf2648ec82d6acc114c3c1b720d56af01c542ed6d656b22, 0x83a8b8f4854d599ee237fbea3239f9090e06c223b77d130f591036be8209dbf, 0x2a521323dfe7e7e2cd622674f46cc5d64123113e3423406966ed06f2e7d37935, 0x10fad028a543b9445ee6841a44434121317b9a163e423a7bd6c0852ec521e965, 0x274bdd049a73b6677e0ff3e64a8d76d34009e467760819a9b0189a94ff14f79a],
    [0x2669e29b8bd468aa3991639947dfe76fc166111d6ff1b24139d2ffff1e1259ee, 0x12f59494b5695acd76123fec001dd777e40278b7342b34863e61dab94779831f, 0xe45ac1f353f45ff384658f34bad47b3b03da93784b770b607d22ee036c8ff62, 0x270d5a7fc5af9d4ffbc6edc57c91594348c60f3ca8a794d141f57c7aea7b0e20, 0x1c57c847fdb709bfd38776164af9aae7175005861f6cce68e7179dc8eb8d59da, 0x97bd4c74c9ef8617f364e87d90a2e4f461c57f2e7b42dc48b245973a25f8198, 0x9399dcf5fdabe6afe6c02a3fa831bf0a4f92cce46654d7aeb4aab80067863e6, 0xa11daa6724ecf2f75d8e368d31ed437dff1bba0acd32ba12288d4428ab66d9, 0x95ca5b00386b675738ee39827f9ae5a43ce09cd2b7a708c526c9d478f650906, 0x1161eb2d96d8f5e199a01fb1712c5f4b29ebc97d5de98e644474aaa34391f75f, 0x27ca09bcc614752905359dc489829b9ca0755de8b9efc1ccc6d83477db1bd60a, 0x2f2ddd101005b0d76d47f4440b2de8d982ffcb26416bd7acd5b1218327097968, 0x226bb0d31a8e961ff7925de0e07d33ae63c3e806ff19f375e8e96b150ac2eb9c],
    [0x1e50f8ce5e8e48a47693351bc4c95fffc274e75aad2fe7e6d607d8061e08da17, 0x17e98bdc10062dcab33e194593186fd29f06a5a3cd95a6bf373e314047ea75da, 0x7e6d38b28db0d587b13ac7ca4056fe27cc6e51467253b9e1b9318b181f61ad9, 0x7a06dd6230750e3f59b57edf6b3fdd71a4a1485e2b9765bc85402de6c539e15, 0x224bcbf9e7ad9eb63bdaa8e679c0ba67c594e4c8bebd2e06f1d736c4fa5b9c19, 0x14e43b10484fd331ef027a94de953dd133c14e823656e2a3f7580376d90b778a, 0x21c2c69e30546f53363e24e6032202627228f2d32c61924ff4f64b7b3e93a8c8, 0x3fe37796dedfc13fa0160d2da3998890a3f20e8c3522c4fa717e10796f40715, 0x2bd5b2e11cda485bef53bb4c2c654c39bebb5814b06134902858ba1c79fe0883, 0x1db6d06d30d62c08ffc1c2249d3297734c08dc141e9ad9abcc251bf4605b3b63, 0x350d5175824d117a97a0c758ffad0d3d23df500f097a25f8e061d79dd42aeed, 0xf46d145eace6b1dc1bb7f218431ae9af0c9278ac2912ca102627a656be2fad3, 0xfbd2953a1cdb40ce84ca589f711a8aae5e75c745c5ca4826f65dd2bb50813d2]]
  cP := [0x2e6fee6ff51b2abf66db3ce9c23271ba35caed4e6893762161bf7283e0c27982, 0xeb4c21214c0ce434010f1fe4733a327820e1afe53ba7233312df51615d5897, 0x149a01e3644a9aea475d77e728a2e9826f6b935ccb5de9f060c0a05d8904a470, 0x3051abcbd422db239b04ed4beacd3b4db8bd045b8d4ab36a872454e362f82b22, 0x138a0119816ee4ac8015badfe5abb7114820f161375b6074205af54887e788e7, 0x16c8e1464970e0d76c1e3c4073e63fb2e514b25858bf46adef59b1751480f452, 0x179ae599e009a3f1027b559b07961307ef54673d52e8bf8c4f87ac5f999a9ac2, 0x13b3518cb4a884686be5ef802fe3c9a0761950f2e5f66a469df47c4980fbdbce, 0x52a354e6f8a8c482b9ca8fa51e4732763bda214a65fe575ff12c954a433e27b, 0x30348154b1407f9bb3b3d8fe8decc41c770cce188d64ba7b0218515b3622fe7e, 0x22493fbdd06dc2accec415de98a9d411e393393e648cdf86ad3efb60373da4dc, 0x2bd33c38d67da9e28ff22b4ae3b6e0ea68c6c8b275d64408cd7c0bc7f3c20746, 0x18ca35802730ebd5aabf25fc7cd352283442bbfa6e925e66e8344345932ec3a0, 0x123a15b31db64480736ee720631ab0088a24167d1460be4dd420f7cd40acf2e5, 0x1ba31fb49dbfe083d1f4210e344596a9c61e6f4bccbfeddd88f3beb168921b07, 0x10c73167a97d9141097672c848cf3ee8116d380e6f1301778533933a078f2a27, 0x12b2f0963b677d68900fbe2500bdfd4b532085e5cafe9db9c2e636a8ab0c98cc, 0x1feee9a8c818254bec43c0bfea4e01ce2a7e6faa9a4dd01208770a6f0bbe7c35, 0x2388c6a47ec73b9c198bf0ad3d5922e3598457cbca82d0b1d2cdbcacf56ae36d, 0x1bd9b76b67a672ec982cdbaeb55e14628a4db0792bc0f52451c475cab0ecf3dd, 0xb2ee64ddecd3f26acc1c6c44ef1643b8eb6e589d0304fea3b7b7e1e91c2f534, 0x107f80d883fd761322467565a99dc8786e69ac197fbedb7636432ec5cfcb2678, 0x19f0a831e164772368d5365a0107d0ae264ba97bd5160bee069f1e2b459babc4, 0x99ab87e7b852429782bcaff58bd19649ea26b24e493b243c71d411b48e36375, 0x18db42f8cb42180422587e68173a24cd0dd62f6b17009897541f16263a405746, 0x2a22132453db2d68d388b700545cde863d652bdbc5f733c692a1863754fc7294, 0x2e3f81e949bbe1a2e8a06b70e21d433a1036aa684bf39b7e933839973867ea3c, 0x2c21f85518cc932c232aafbca1e4eccaf6d7375a80b1542828e1aff7ad8d8442, 0x21c0239127fe8b2965a32cc7ee8d063eb792ff468703c54cdde10092fa9d922d, 0x201c6b5b791d42b85000a1011ac52b25bad5309ef4f482e26110310001bccb4e, 0x2db1d234cd755ea9599fe56001866bb4b711ed049227d67ddb35c03bdb8c6df3, 0x18498b6b4ebea39d429c25e5aab1b5fc97ec880e736331814a3cdf799bfea718, 0x1e5d12fcc0c680824e0934a64153a1dedd491ec29effb629e35a45d889028343, 0x1ddc4b9d3159354a45944b963b54081d3584448192659625d3f06fa98181f43a, 0x11fc72e4994e6b2e99f8b58773a5eb8ab282dd06ef0607051371bada7b80c40a, 0x21bc7461e5160f2dc86d270fbc2c8f91605a49e5c75ac57c7ae3481bf1f4bb4f, 0x2d16510a22095aee95dac7335895a70e0ec56a9a9b33201d94b5f7cb6fc626b7, 0x2fdfb1134a1f54ad7dd904be3991e086e1b8e0c4d5c0eb80420da5c0fe4b0944, 0x28646d4e0061355d5cd936c08f7e8419701d959482990a46d4cbe164badafb26, 0x1dbb1b476c0fdd507664a1c03624038c2cf2232c87bea9e711fd32dc9150622, 0x81dbd4fdc8779da9472fc7c3dc8b35418c3f670643b4ec8e878c256f6cc22a4, 0x886cdaa0b431c97d8463419ac5651ff457a7c15673fb88916e94fa55f584d31, 0x2838331687e032e9ba3fff6492c1c547f685ebd7609536770c09dbd7ec3cd2de, 0x2621bc61696ec99cf22f64501b131655f498c95fed719edc34691e18154354e5, 0x2549d455daeaa01b7b52782493fe1b0b7c14dfb77087c9151b4ca36f15306ac9, 0xa4c236eb53846ff3488a5bcf59fe22252f78a20e953516f22c88b4c06e7f4a7, 0x10c077e94f0d3852b3e3c2b14eecba18c27b52cefd6fb1a1ff6a26ef95e41815, 0x2eb187c8e8b5d69de44971a4b370ae917ecdd0286b75560c1d3036ecc54b196b, 0xb395bd209a15083fb3a580abaa376a1fa397c54f91cf8a0c141ec7b4d7c1e97, 0x2a1aa4e24d835d8a3f9ead7881aa391fa930752f8c9c1a448d53307ff930d8bc, 0x1a3959bfaa6e5ec9fa45a9939b47676ed773b545d372e5f8403ce000528605ad, 0x31eea5b773a9e18aa6a29863ff6c51130f4e76974071207bbca7f238e4910e9, 0x109a8a86778d80cfdf86b4d6bbb1e57e218ab8fd8495f1fe051b576ff2e77c98, 0x361d334bf2e907948c05b6252bff7903afddc738f2952a0dc893b09fb034ecf, 0x11f636b7d7ee19603bd7eda90e668b7ecb2399750d002d9cd2978364b632ea0b, 0x23af2f1d6a7dbe734d6006377fe06a202a5482cdf7cf324bff2c3eef417e8d9e, 0x20057e0887d089856cd5bcdebb9e75b12474add58e57e3a77a26cb6cc36bb61c, 0x2657371dbdb26288e4a31975410dd5772003e2255a15e5419f11e97da00aa5e2, 0x149681e3e7671ece7381c6981fcfb46ec93264cc242f9a6140b3344aa641758d, 0x4483482a502545fce490d73674becc29dec91db3a6721869a92856252f5ebe3, 0x1afb1e247f5795105296f8f075ebc831ede8b5128e378bfc374343ee6f93197e, 0x23140be54f97f6d1cc5ba00847848e4fc973656baa56ab3e1b754cc12a296bbe, 0xae6ffce46e6c0bc0ce6341f9d308c792436f0a07142988a937db3fd8a333539, 0x129231c0dfad986f9c0c2f9868b00c22b314e22b24b55a438770b320ef193ea7, 0x1d62b56618a967c7d128e45a28062fe7f0bce6dc55083b58374ab6806e01573a]
  cL := [
    [0x17e3794052d48c4aa936c5e189fde01b8bb4607fd478b67fdbbcad3e8aa9166b, 0x24af4f43a91c5c51c6b2f3f44eca59bdc79ac86b06ca092cff9fc7d9c4691fb3, 0x215075ce41bd685be3c97d2bc28bec174421398024a8bbe4d9122008e6e027c1, 0x10ff29fe3e761d9f78518eb60b2a1daeb394753487490c9f5ef937df3b87699b, 0x160ff9e43a764ba2280d5ff675a9db049a29e7924f5ba24583b1d6d90caa0324, 0xad301157c28a1200715676e5ab5b2469fa39559c1a847f7787abf487d828055, 0x3409e3a83bbf52d16fef10fbbeebbb40ba299ef770e3640651a48602f13d108, 0xb1232364d87cdbc709442909811d0a0241d0d8b7933b59471799d6b30a58da4, 0x195dcc72dd9f2629db85af3e0c9a3ff52fed868038cb27103d9f30c8c70e1fbc, 0x192d2d9e31fb65b409ab273e7e2b050c1bff596ae56ca4687ff8e86ba8bc27af, 0x2ad9eedb67e8bf182bb967045b906afce866e00258a320380a709b818521bf3b, 0x2ddfe92956df2e751715ede80573cfa5308b46be5fd0f77def8a519f113a4107, 0x1ef0dac6020d7b376e6f0fa82187820a0a4d8be7a8effda342f7f8806565f2a8],
    [0xe4d6efe23c1496d8275f8a4dd536bf988a2c8ba2d2beba328f28606a4ca0f91, 0x185b30ee2d3a166f2f59a03c7ee9f206411f74f777873b92045b6c128ff84202, 0x19ea7d6275a6dd167757942770dac2861057e16a988d2e93e4f61849d8427aa4, 0x23c3b4f5e49e16ae69e639b956d48ad6ba696f243a669aab13ab2c2855e1187f, 0x29037d64b549d1c9ec4524ebbedb8069cb23218bef3cda811134b36d3551ddc7, 0x2ea8637b89b798a2f731d98f2ab89ae9814f18deaa7effcc9633fe829a9d109b, 0x2bb4bf36b15be77b7374a026352644b8e70b1ac9516eb87eba7672ecd03f1202, 0x1006f07533b6e5f33d613b89b858bb6616c18f8478f225af2f4e3d726780cea8, 0x1749f416df7b4f43257d9b8555e540bb0ad0d7c8ab0a4ae1296021da0d90ec59, 0x26c86b58437b04557a96cc74b511dbda00e9c4c57bb86c15d49bce318da8b592, 0x2679dc5e56ae1f6a54d38287c7ed606d0d9505a5cad5a0699b09041571c4560a, 0x133eab2d7a718f3f741eb10e973bc5e29a021e83f6442418a832b091bc2d6136, 0x1684a4b71cd72ec3cbee67151c638d5588e3705820c468c289c52e73d69a8fa0],
    [0x17cb936bca97a37f63732c01e6c40f6807360cdb73f62d792eb910e034b4041f, 0x1bf4b473f0c77aa5ac94a46972216b339d99c933a8f5034044b4b535adc388a7, 0x2c6b76a42a2fd9fc8105378de5176d60c2f8129cdcca89fa0b00f3edc64e079b, 0x2893d0cb426295edce9b5506b56a2b867eaf48b08c5242888ef79766f8d9aed2, 0x192d74bf58f3dfad901612983c6bcc753902e2241a371f9880e351150e68292b, 0x1bf69bb66db73ef6a0e04689e9698896ebed84d97966838113f5df5f5710736d, 0x1f8201a8020ba29e8521a1a0cd3bff50603daafaf084f0373f2edb68fee7308d, 0x2fc51d7afa548b449f40ee7c48386655db021f9e34e143c51b1382399bbf6e4c, 0x1f4e909114c65d62e1a1e466d4968ba9f6fa612578d474e25cc1ea13888f360f, 0x2957f8aa51d126b9961950fd72e1c7224668a359da4e5c0bf761d49913d147ec, 0x1a80f9577c8384aeb8889b63361078284ef552c62d2cc0880667e85f01d0333e, 0x1de416e08ad386d654b37fd2b61eadb5b555e0fec1b7b09d8435bee97e57b0e1, 0x1ba2ce3d6e352d0643b2d3c5c7c023b6d1777f246278cfe6e1654e9e5413b535]]
  m := [
    [0xd064dee824928d39f2a8be7d2fa583223c33995784d228839adde2559592592, 0x2d8c70035731ad9efba92821a88119f6b8183a362be641729a93d6a327c03809, 0x7b620c8a78e09e49ce547aa783aa78f3e4594c49ab3dd6f602bc6c0351d823f, 0x231996b592528575567d39d00645a83b13929093bbfa00d6a661e4a690351d0f, 0x4e47a72e49b9c5aa3f69f6af22fa0ab640c93fc524dd3c508486d66f079852a, 0xa8cb4b2bf3f0c5da671e48f83e5c1b3018f0d31200a6f19fd5195db22eef7f4, 0x18bbb002b46f2e5fec2b120faf87822ca8e77ace94e03aab5c16c4b931739dc8, 0x2bfae1b054ef2e924d75a8a01283da29103c57bad129ec8396ce274ba4524df, 0x6d101b19477d1627b9542581bf0cdfab38b05cdefdcb81965c5be00d780f192, 0x18af61f6184ff85f104c2bef179b3ec5a5d242dfbebe8e27a2918f620e8a5be8, 0x11e3a7c2d5f74371beb188c6e3d7a14b33128af8ee3287546d12d7777cef70cb, 0x2de5d6a7a27343dd0422ac71b8d409b43ccb0b672e978f8fdfd214f4d7866404, 0x227cb43b9818924f2a2588964a0ad7ddfa3df62284b4b3b10199a501ed970622],
    [0x2b2ff5f27531b6f3d6a85d75e3e08f3a2f0dac3680a6c26d55ecbf803ca80569, 0x9ef3492ad19dd1d0bfbeb191330a880ee7933c9d3b36bb5fa02283bae5d605e, 0x27d6bd18703d7ca92aa24076d3187b6c0028d0b6213d9e5d2c66115237a19051, 0x193f32a3f839f76049c9cbf2414590698a2118e83658327c4338aa3648d8f7d7, 0x235d0e71a350f1f23d9bb5182ac44ec9e4615e77801e5aadcab8336aadb1712c, 0x1df5c9ef694afe61bc253ae908a8f6af0a08cdb9e78a9f322c22388322f16c2a, 0x1db2021eca3a3624a7d45bb16cf4a44e2af4fae0dc280030e7ebe55394f69d8c, 0x1a46a26691841c26109a32ae07eb584a6b8af657273cdc4d8a112dea0bcc85cf, 0xcae80cc05aedb66d6e649b057dbc5ae9759da5d7b43d5e25a400e1f92e9d1aa, 0x195057af1319e24df1b905c6e2eb2957003cfc34b001c0e54b9dcf2ea5df6be9, 0x2d4d35acd9f28a3e6bfd601472948293c1e4f084c714ddb1a075f2eae9ce21b3, 0x25eb2ed84c520aba164e33f0353b5131886c0fbd18e55695541512dec563a0c, 0x16c7c5c6161eda32c65bb347655acaa80bcc98bfc023f4ab12f5b2a899f37e3d],
    [0xb658849ce620bbeeff233b7d12258015ea9f87a5390f5614981eb6e4cb4a5fa, 0x1458de516a534190c5550c6a1bed3af535c38b242eb9291373096ec60e39c1f1, 0x2969eb5016f24b31accf173ca204668dc2229845bf6446cea007c113349bd4d7, 0xa5da659b6fcb1a4273e1b7e3b544d2cbd362cac497afd004b8ea920fdb04bff, 0x1219740c424743dbbf896996f0ee7a4076ba960a57e8d7679b828479218570d1, 0x134431128e5ffc0ab60136c5d851a11dcdd63cdcf17ad64fd77517701de675f8, 0x97c6133aea8fe48f3a5fc416bdf5e46d05de0723bc49e53b9fb5e83d350c295, 0x107da0784dfb314d82859be44d37b4d2b6345c174b91651c65c98449682a5204, 0x12256b3b99d31d8a372986f95d66cc139dd23e935487da26b3e249ea7cbf91ae, 0x1d952ebffcbedd26036c54a1e8a2828fe320adf07a286e7f2c211b47f6c3ee86, 0x26309b52cb55f6ea5a9030b01378f65d2e6b7a9619926d9b1b1e21cba01fa7e1, 0xa12525f0781322371fd70b0928cce6e2eaaa67b8970dcdf319df25e8019a6de, 0x27e37c68a01530f092cd37c4a26dece2737868dc2c3519435e1f2cb88f07b62c],
    [0x118132fbc1cd83f95167cb4473d54c6bd2c417e2782e5efea16e72d47b48b70f, 0x136ef2515955ff6619498fac59424816189f896ac0ed69b59854d105df47c4b4, 0x29c67bce04bfd020f4ff7eacab6cbde034b22fb86334675a361f059e50395311, 0x2a832ceed3837e742196e09491fe23e3f6e51126eab9acec96e71953102ef24, 0x2b501f1003e27aa809dc9e5cd84976a3b8c169c1e9c63977d7823f80d3f823be, 0x3ea4e2bffe02da5977ced1f1a6e852e921abe2e015f35b36ce4bd0246c2cd89, 0x150ef9e932a74b8debf670080641339b12684ff5a303b2fb7c1d8d56f56ab61f, 0x2b45b3be2674fd820516acd6cc6183c4fae0f7edfa9afcd02dfeeccd02bfed46, 0x238965d658967afa2bce50ff18cbbe535327c65b0b76e50da30739ded25eb492, 0x370b757ac6cdd46610eec0c22d43a543d5e0482577bbdc14e71090307b5f69a, 0x2aa84c1ef9e848a64f748b80e279ddcff871e9c4c3e2fafaaf79159b0b4e4018, 0x1bbf43ddb5a0b0d2845923b1ce128292359cbb313c5876fbb52f5e6b1fcb7031, 0x19dd1c6d45298248ad499531f33ce002505458d76178eca26298e39a62fb9501],
    [0xb5944768d61c1b3562a5749f4f06c4dd085bb562b838d7e2ef14a21fdf524c0, 0x18cbfde0cd21c183797a2f089594a81cd828f3b0742371ed02eb83fb0064dd43, 0x124474b08829d9b717c50884bc895cd3f81d519859d21235d7a74450d0a9427b, 0x98bb2c4c6334dfea474d04cb2e9761861f6b18a8058a52b619d6227a26228a8, 0xf34db93ea8d2ad7d1eff86db5820cc7ada47bdcd8c82d01821f5c21a3ea2325, 0x6e03ca1146705522bb5e9dc73560eeee6b9b4bf51d48f953fbd1f006d758a75, 0x1237f44f036b2da0067a94947334e3afa2ac4cf1009896766f5b191cde284972, 0x2082e9103cc45245924289111527312860f6e7ee94578f0118f4a920d0f8d525, 0x23a6e143284e8f238c4b632ad78ace5b0dcd94a897cb05d1e297b4880e7433b2, 0x22e076a3aa6ebfe996ba068bf5bffb17fa724338cd67f67ea25330195c628172, 0x2fe31b0df04f276a525b619acc4a5ba3eb58d8c321c62390febab05ecdbc798d, 0x23e8c3606aee818d2afa8c4465d5ecb9c45bde78dd819c0f35a620593c1f42e6, 0x215f5563464e2df6a8daa8c34476a465e4ee9fa0ad01fc4399b649b2e07d1679],
    [0x2b04d6ffbaf7144012d92c5c6212803c0b5bcc0d7b1950b889d1fa6f3e56445a, 0x22757da9e822345297bd060a3f71bb1e70ce977049c393235035677e84357314, 0x2c7e28f59fe8a8a3bb2fa2b2b1e114ce283fe22a978a3df9f62a171cb1d65e4e, 0x101749f9dd2605191c1963f25694ae267f6b44bfe2d1af34fefcb65e958784b0, 0x4d02ab05826fa50bcc5f9af9e396477e68542d076b683ee61b85869d4535893, 0x14c499ee51925b231da17ee7b55a75f96f462e431675ee36c7be4e9b069e260, 0x2d9ea99d2d237328266d59dd7e018bbd6bcc7941d9ff5f07a17baf0099f614d2, 0x303a9e22855d95d07e8172f3a0536d4b95142f962b006a8ab09e7bb6335e8487, 0x24e13a38f04d5e0fc0b6b6e0f782a6a523a8b3b0127224b8e23751b9cb9f8960, 0x126851f3eadc0183288a750153910a41e074b3544f0610a51273ad3698be0cb9, 0x27c1b406bd19ed13d533550b8b621186b1fd47f671e6604680317e6638b091e1, 0x158880f5adb96dd1398128b9ff339f3d827da6463891cca129c012c06b16b321, 0xf36d166e99139b9bfc1ac3270a3d98c4afa81bf97436076f57383da50436a5],
    [0x29be2a42834ae32de3320fb0ee46b4c102a3d1ae44c5dce152fdeab5450c9c44, 0x1622805125ddf344c18e351d11e82291618b975822ad0c903efbeada5a51d44f, 0x165c0b978b4bb646a9ff225ac4900521292be54c879882d3f11eaa3103341487, 0xc7b5e09343db5c63c110d3175d01bb498290d971b1e6dc0e9a0e9e7158356b1, 0x2bcc82e75391be4ea9cd0f8a505f9e4f684778fc7a9b1bceb7868bb299cd2072, 0x611ecd1f379a0062b05c4aedb100bc015244c6a88f1631a456cc2acca8930cc, 0x477f951e19f531b8434ad755b6783d61b679efbb87fd956e394db9c434e2352, 0x2963514313f046f844f950ffea80f5e5b424b707f16599662e5a2e3668cbe5fb, 0x9010d73677620aae1b0fa8023ff1c812313ae9c3bf43066ea60bc1ab477a7f8, 0x361f4082b75a6ebd23f9a6e7309d8c4e7520159da23441edd631a6ac14c20cd, 0xcebcf30975b37267aedf521ee2bc753c3424dc4b6edf3984fb02ae1ead44daf, 0x23a1ac07351946a974c8841e92092a4ffc6aefc7fa988e3c1f7e7c87e1512a90, 0x1edd7c7deaf249e0fd3f5768aa92e9dad64118b491bcce12340c46f210b07ced],
    [0x1946fe9de0a943d5a716eac08561cd91f9031fec82da9ab72883c7b218b11eb7, 0x29765d8cf77619a580658d127fb6faa44d6c70a0f4d65dbaa960754b4195d9fe, 0x2066134bb299d9e359cb82a8380feb63b60e4b9859d9b9872edaf9152f92d4f, 0x116a313d00cf99dc18e21f93a5bb198018bbea4b7cdced3e4d210971dd0a681b, 0xfe29b5bead54c5bbf426bb12844a2920884ac447906101cea9888986a030b11, 0x22af37c0e4a88deae9f7fad83819910735cb4b49311e0aae11cb7534d0bcee6e, 0x1d8b8ba772c4cda72e8ef9b19c424d55d57251b247c632bea255271afcfc70b6, 0x4b7f8d1d5ec8bf689adf12d656b94e15b0b229c1638c9c4757faf0d18fa6433, 0xa41e5a4421defd5ed7acfd48401395a409a67c3edf4c168ce3368ed944212d7, 0x1abe8badb2d12353b9bb98152086a9421b7cee17761730e25ac284d6b1ed7b37, 0x291c0da731c016c0d6c4c75387030a962bf7a2eb35e15aac02fadf530278a3d1, 0x34c460fff28862ef7a509a1750a26ed1e5960fcb58c4f48c7d267c77e58dd66, 0x8e1741a97f6348ed6d68f4b7bc6ec8b2dbf03f426769cc779ceee4ba1beb03f],
    [0x1af3ca6240a55aba55df8e49835b92fa17e39ad5701ef70f8144109f894bf1d0, 0x2bb0b6b08fc1bd11070edc42f23e807b82e8b88ef70355dfc74e096a7ff381cb, 0x9372ed18ba1a774eafe1bff6deec4bc0814b0899c6196fa15a7acd15ecc5ca2, 0x404c0fa1bd1f7e059054cbb87f6b5c69d11457e59f90419ce4bd10bb8a803df, 0x1bb2091870a4fac03682fe5b1e2eb56b14ad6e48f4676fe41454bfeeb0ffd4d9, 0x299ef95aed8c75494db82e8679fbc6d5a3d2e29aecdcf6979a9b272a607dd5df, 0x206aa2f36e32b2b06d6be48ad493d354ca7468753f526e6bd82549fc36cd4109, 0x259547168b64b2a228941a542f394a2699c081c149463dc2c3d21fd8b2e4f31c, 0x2fc7d17f3a9afc1de289ad0f94126aeec834498120629cc87c4586c627780075, 0x15a7e64a5a46f5973e4e82a263ef905ed64f182b2041baa00a1359e7e9c5eda7, 0x1216f05607e032e49038ac1458100e89ac8519a5a3cee4545b08850d8bf160e0, 0x223db18f31c85e98e1dd7b7245dddda0ff8e319bd7d1a67fdbc7eef56d667818, 0x2f4aa8641ea4135031f4d97a7a2f679a8cbca562ba6aa54eae7d32ff7d04dbd2],
    [0x81f58a91a4e0d100e0369fdd81a190035342fd0677ee1bf5215e47f8e58c2c3, 0x4951e747b7ae6b99d9250108c5d2b70181a93ff1d4bf723781e1b938029827c, 0x1e3a130e8caff9b5e563e8aaf84b2fc73668e351cfd28cf66f5012de61345b58, 0xc1c216af33054c497ef04381f58582298b54335f632bd62add29e08067a59d9, 0xf54c9c522a5c74e0d4e0c63611a7502657575b7a963c0e786d2a761c4e845bb, 0x103cc8384be1be1087b9bb47c0eb6049f85e0413f7b408f1dc2fa1e6fc4af91b, 0x28da9309acca103ecf19df72a722134d530bae6c660db3c364d0ebb200c2aeaa, 0x27919dd2f9d3dc9fcbda1a23b95cf23e3630e6fd5210faca6acf4629b88e5ff1, 0x1f86e3e9d147ed604c71e1fb6ef8459cfc40001bb4fc5ccc2661669b155abeba, 0xe154ebd50db3c2864dbe1ed72b0816210851b86c353692d1744cb3372bfa72d, 0x19ae65945a1dbed3965f2de3a39ff2d54ab1dee0f333b88fb49edb3fc9ac7899, 0x99b97c878ce35c957d01b43dab07f8003e2c379b41ca61a6e56a9204fb16bc, 0x21a0a43c88ce26effbf8b9ad668056b5b0362e5009f3d80033db473228fb7fc8],
    [0x22a852af90680a8ca9688b71ed27c157d02b406bd6c7fd8121d7c7793ad2305d, 0x17780b9469e81ca70c7cbb4347e7fb40c63ef68f3dde51d04cb47b3b83fc299e, 0x255543a314afc5a2991413228c75eae398b90576b23b6cd86128665cc3bd9478, 0x11cb20544f43437a688a7dcb573a7da4f8c7b4437349eedf3fce432a6f3c1653, 0x160f5ac0b2481f8019e95e0b26445ba64dc03a4be8a15461496247e6ac29002a, 0x206cf4290ac984434fa774bb0f8901a233905632b793c80b1d59966e96a73832, 0x1b9435855d6cc4339240e9fa3819c2ff420980d6cf14721b75e4cb1fe57e118, 0x2b9237e5941e1657efa507b892c3b8dd57fc8d52876ecb599dd5e1052b6b1f2f, 0x182d8f91ee2a9a26215b35f3c0eecf8ec5cc360124cf6b903e70ca83126975dc, 0x25528d5d31dbd77cfa6e7b1847f8e84c81c1ed5bae2a51c9e403cc754c54bb55, 0x2f996ae620d00a3d4e55ef7a6ce0b681388f1b7ff3875b725aea6eb9039d8b25, 0x2c2b1e7c70fec2f58ca01bef5ac37cbb9471ae7914bf08df7e47dd8e3bc3ce93, 0x31b369d011f219e4a8fb21df9352878d93ff8035bcda834c3dcc41c3c2df85d],
    [0xb27ba82a0ffb98368981736ae927a227828985c00c3e5df8c1276b1001089a1, 0x1913d51d9c71d042bfbf649d9e6e6ea5fdd82b4fd3173ff2fe02b85582528912, 0x76547449fa03845f185e61578a5a8f2683a19733fc04c73ac6a0b89bebb8453, 0x186f160ae866e10c4be0ea7d204cd64e57337c60c40b34c3a371d753f2ff001a, 0x2f3d6b8e2361166089501b9147e84ab6b09792ac17a5f080d75b3e320affc86c, 0xdd85dcf08fd38d22f316d91d812cb2a884308775afa9f667c6ca80954397c86, 0x238832e643158e96689b5803b0b77601b59bdfb4926113a3455f1ff4df6e2b46, 0x202e38e669883619ecbc6a6a45368b9b9a3e9ab67efef50f896dfe48b78d3dac, 0x67d2b612d75f4f974312d04ae0fef43a35b60ef054c0f475302c55fc10bdab0, 0x21f0c6b896fb14220d811441629c78f8e8e27746026220e331cceb89a0ee89a3, 0x2c825ee561c4ab6a22331177999c89806fbc34518387e807c20c359739ba9eb6, 0x4625f2258edf0262ba0647cae426a486fc801dc0b59d20ec0f4d0af8cbd23ce, 0x20a72083579059cb659952d3f2a01ed90d21002275b5ea11f209c763baa8457],
    [0x4b46526207edc70a0d23c8438bc49a365635552dee240661a2cdeef966f20f6, 0x2a9e342a56c8b6466d3fe533b89f1ab441b62dff3153d3ae6500c2c3be6365e8, 0x2f98bf081e0eb78f8025c03ee9c199f2e838c51e5a0aefd333e9f7cfb38f534b, 0x1e1d5920edcfe9d6b2d0ddb2f6f741afb06590340fc07b182ea7c3ebbd933931, 0x1b59bb60e986194987fcea070498bcc7c93dd561ce8af5fade754ceac07b1705, 0x24ce0acb522da527d3eab72865cf073d954babbed3cd1706aa69d767e9afe7cd, 0xb43b8facc43cfc067b5513abcce846504b9395cdc14df96861a528a52ae2ec5, 0x262758fb3e076936995ff3140ef7d1b0a1e0fe4240a50747e2c3c120d977f3ac, 0xeab3f26417e6b53c532072de92d4aa78ccdf1da91660a461abb0f9fd7bdcd7f, 0x20addeb2afd20e752a39d2f21ebddc2772773b062922dc8dd3ba068836dba464, 0x754947436c3cded29a60c9e898237c2183a49db7e70e7eb73aefb4b5c693246, 0x239ca61a6ef7e501810aa89ab4996dbea8fbd47fd2f7a2c96a818e93a3c38c89, 0x19f11771049b5be81b43ca81e3611f4108a4b9dc30cd122441f74319c3adcde9]]
  p := [
    [0xd064dee824928d39f2a8be7d2fa583223c33995784d228839adde2559592592, 0x5da987f17a176320a821339189d24ff783be07f5a6adba84ea72fa0d7faa9a1, 0x142b410fdf81d2489b47702708422b35a9c6c3580144e7f3e94b971bf079585e, 0xb98437a312150d8171b81b1891f3cfc75b9d14473319a77c7043d8d2ec320bf, 0x2f88cac82b777c1c7b751129e0bc1d038481129c546e80007a6a6b73c52c7f4, 0x2b37af1db29d45113ebe8892bd41ba43e82d045eeefca95390f4a7f816639416, 0xe0fcfee5bd6119ea196992bc58dfcffba632cb20e07d9bd7f1f4c0738edf767, 0x1f801f49cc72b3cb1ad6d83474b3e98cc9ab427ac9d1807de151ff591c2d98f9, 0x5aba81d049688ec509fbf12aa240297e0a4cfbeb91c87e4d1d72bac8acb33ae, 0x1efaed0a28bad9712571c0f7200ed332ec1342c08a9270774ed84817ffe8943d, 0x2765f7a0abe74654c9182787a7d252f964c3e38c946a1f459579923b061b206f, 0x540383aee2f7779742ca518ed4d4d752980f2b5dff48339c128acb79daf88e1, 0x198d160f1f80e78fd1e93c5244d636d72185966e93e62dcd0fa8cad1b772f781],
    [0x2b2ff5f27531b6f3d6a85d75e3e08f3a2f0dac3680a6c26d55ecbf803ca80569, 0x20dcb39566362206d4b38ed042277d966f03092b6910f3a05e5b1c3071f4a070, 0x2e3c5d5b931ba49c99edded32e4f404eebef7eb08ca9668d82c912cb5d428585, 0x11c900f3b1c7732081074d0a58091de7f826a4f106a930899d3798c6b02d7735, 0x2cfc4c4f3575a5f8bf5f2ef6b518a47fac9fe853558d584ede340b5e32eff61c, 0x7ba6d2ece419d75b37c87da9b00fd277259b4232542eaac3d6c7d85c8677a21, 0x2ad1869717ab4c539dac1f950998c537d101504b008b46b47d239eed0702f8a9, 0x6b21b6e86693de4b43f26771aa347307be78fc9585a91fc28b6f0f802850576, 0x1e54ea10d6b7cf0607b5224797eafc3b651b492aa74c92ae9a70a692a1965e2, 0x23b47244bbd00be19b1c8046145626bac795b4ba22beb692810bdff4794ae97, 0x16ba1b0ff54dacc9d88f85fa6bb69988a0633a3998eff403bd55f352a195192c, 0x2fca163547569280e953a94133047f3f9281b220b0c6334645e432143edbaa4, 0x262cc29dc7439873e862e94b1948eaef1068da52d8bd493fe44a9e48b47b88de],
    [0xb658849ce620bbeeff233b7d12258015ea9f87a5390f5614981eb6e4cb4a5fa, 0x2816fae6fcd39053c09df75bc62f75875e635472e790e295aaee0c8158961174, 0x5849562006496b3a32966a1a53d29f1c667a80e69e44993133184456ecc57a3, 0x23bdb40dc2a5072c7d0cde89e1baca83c53b963f4129487c1a68ffa36cfc46db, 0x2283767ef21ee3be90dac5aa35e2d5c39f7bdae014bd63b63039d19b042fb575, 0x1a2dc35b3c29c763895e67b7ca3ebb9c34484431cd2d1080544cee9d03194c13, 0xdf23b54c9ee2fd50b58ae1043cc7e0dc3a11f183ee0f815fe9a97caf186033, 0x160a65dbda0b6f118906dc50e0d5a8e64ce7765f4327700e11e753d7386e7392, 0x24b39cab2a81551d5d529ed57986b8ecded02a7650eedf67925eb9efad60dc20, 0x226f8e8bfff7dcdcd1980eed6f88a2566cd997d4f7bec484ef25bf8ee86eba7b, 0x2aaa2c1202b74f2dab3f58dbdc95eafd2ea49d5e3abb47f3b33cbd4ea13474c6, 0xfaa06fba9421c021c6133baf90169f65dcb46cc47ee532989d5ced54155f34f, 0x17af1f8b71c3656ec7d3262406399866d91470e4b912040132b923f891e63720],
    [0x118132fbc1cd83f95167cb4473d54c6bd2c417e2782e5efea16e72d47b48b70f, 0x1df6a4c43bc5c69763183d36c26b6b37fbd5e4252de4b5c3c0da6b81d2bc00e9, 0x2fcd5953b4af9a49fd90b23229198d09fc8fc8ceafdbb53599b133d01023ef76, 0x24c66b7856c9a5d78819772b35eef0de88ae882c19af36039f785a48a75f450b, 0x1692394c144aece305a7f02749a63a355ed6fe024be532af2152a0d53d590a30, 0x2e0f2af806c4c37a9cee0b9d31be62616a7dc6eba5e51ed9854c1be1d9ebb9ed, 0xfda8fed741c4382c69bc3f63c48c052ef784b8f67ad573451a418f2f6401127, 0x1734a0338c0a652d147ea6c26feaa378580ac91d0c8801b3b06a4f50b580d01, 0x239102aa73485d2a291639612b53c10c8a729f09dbf45984e80688332199990d, 0x15c8103fc31eaee1fdcceaf57ff198cea6eeba5237969b036135084cd15e1b57, 0x1ce8ba9e5353bc50ec8a7cada1fb238a643d6d1c03449a5ad1b6826807821747, 0x13cc546736c859756b596bacedfd88344e4cfe16abcd44dfabf1234df19fb7e0, 0x1dcecb2dc57bd3cb8ed9aeae4fbae4f40e7ffc8dedb72e34c84a9318d9863678],
    [0xb5944768d61c1b3562a5749f4f06c4dd085bb562b838d7e2ef14a21fdf524c0, 0x251e1806f1951c2a33eb6ae39afdf9be6b971da924ae9920246d98bc435d9c59, 0x2995212cf7dab0d9fe609ab9e441218c5181d91e3e2f6c5b6a07800c8698fede, 0x23f10d62357467c7e71eaccb73ec7cd5c44d69abfb91849559009504f81aa57f, 0xd435e4564d33704bb176ee01b59499df851abc0dd5bbd64b3ebdf9635ca39a5, 0xffb4165b1b9e112cd77c00ea81f751e9a2d46e3071e5bd3007fc3a987e842e, 0xc55394f0fbacf892378bbfcf44b8e9475af7e5d7e2373b65c205da9b1b8188d, 0x1563ed24f45a7e60b65a0379df8dc871aaab1b5cbdb24f9f675daeb6fa138423, 0x270dd42f73034ebbfbce9182a6e41fb80cdaa78c06605db3c342c0edcc22e577, 0x11293baf366c075e3cf66c9f14a4899e1d9807460f30af948e44c06d43d37653, 0xdbe92f1d5f635e182354a066756bc119c14060543e78a467507983a74f9707a, 0x22b8d93d76a89bc36f0b5d6a1ec3c6053510622713e2b833499ba773dcc0c217, 0x23b478d2e4e21e478ea7c859da3dfa7229f6a2fa20a2ef1f406d9fb0a7f62f28],
    [0x2b04d6ffbaf7144012d92c5c6212803c0b5bcc0d7b1950b889d1fa6f3e56445a, 0xfdaef081ffa41b2a3c6f8f4c23a5980f85b3301bfc3c342c938199cf71aeb64, 0x33a135f38b760028fbd4b2270791912b0e3008c2007a89b30621086f994879d, 0x2e1eb1ea7a1684486cfcfcffff8c926be2670f226bd883d11591addbea75adda, 0x28bf473bec9d8842b84cdf474a435da4108204b09ca3512d6ef73c19d0be40b3, 0x2edb397ae478291b9f48edd50660fbc1b5d7d906947fdddc255ba787d02b0366, 0xfa157820a600d4a78390b8beac81aaf6e8d1607d7f4eab0afa5d7ee6abc605b, 0x283fa69d06b072eb8b27c7c655b71caec057124aa1669240971c1d04fa881c3a, 0xeaf5ba40262c5feb646c4f32ebe7cd2a1ae38a83c48a04e0c1d452730d63058, 0x2306577578a3acb6a7c070ef0649b6eb67c58224662895d470542fff984f5570, 0x2f204614994166d0a9fabf6bf5db5fc3daf0bc16645f0f202989de9df97c1161, 0x2a93e968eafe2ef56b6e5ef823e29d96b551221e994f08806f148c8d318e7920, 0x2f4f684d1f698b3aef34a939ddab2b80696f2246a13250f8978d597a6a20e202],
    [0x29be2a42834ae32de3320fb0ee46b4c102a3d1ae44c5dce152fdeab5450c9c44, 0x2ec317d402fd363380a63c205dd966e0a9fdadd78b8b9485273b6902b17ed49, 0x1ac21ee4c3af5f8d60fb78d0c764adcfe0c20463b3d0abcd3b602409f2770743, 0x882e85d15875eca350c4e7c4e59a820e47a8381321dc5c7f8f78aa3e1aa68c5, 0x290075bb9d48ea0db89e805f26952bcdb6f96b1507580b45cf56e18c21871cb6, 0xdc29c413aa32c2199a2de5e9605e1129b1e681163b80f82cf846ec5f54377fd, 0x2dced935f82c932e7a2a837e2816cac70bf50da3aadafb7f8136bf973b0d3987, 0x104de5f8e59f98489ffa42926a8aa9701c422e4f13abe90507106f2a5a60f0eb, 0x23b7b05c996c963eaec7c5817eae6d0bfc78c01d9c5da84ef4acde5204c4997d, 0x177a7ae9bc58e64a1b3baa1975c6824cc81d32302740709b0c6fac0ed9fc1958, 0x1552bf00f696b1ec39debdba504f79ea16c9ac75458588eb8a879908c80c22c7, 0xbc4a8170c368a03c40fdb65123bcaacdec1f9ab057747d5a2562d28f4785ccf, 0x2593132f444b3731469755f9a76b92bb29f2e89e264ceb1e2881a4aeeec2751e],
    [0x1946fe9de0a943d5a716eac08561cd91f9031fec82da9ab72883c7b218b11eb7, 0xb5cfc2a2895a6f9f5ce97bf05bcd5fac012d6737d93be00df14f91d0e6e8d44, 0x1176eb406c82709b00e6c8aeb7437aee20d0e14b34c91b6d4759d425cea472f1, 0x151f15179f562e6fb43c853c9030c7d95da9bbcc9350b40862350b4339f74320, 0x1d83dbd5511b6cd9e553e82ebce5a91dd9f423bc9e311a211d6509e37e3c8283, 0x62edb4cec259e007c26a95be576fc925088cd487260bcb67fe88dbba993160a, 0xa390e27ae606a3530759c877186ef25fda97764052ade30cb5533f0ae878927, 0x17a961c4c7f021105e4facce2011ba1f6f7e4c18c6522a8879b371bc53eec16f, 0xfba90a3180e89f49b981d7f2d369f14b354f586ca695d5be51d562bb24f01f, 0x1b17b06f9727550affa91416dca65e6940ae6266c426f46a5b2a72201c9bf48f, 0x24aab8dff690a59f7a16863d2987edff9d240c46885a5fe39ce1400c1c6638e5, 0x48ed2132edee472d9b39de6eddaa2ecd7c1259af7c64ea368e66882d3cecb15, 0x3ee389275c64f648e0ef79dd7ef8d7c4034d8b0ff91a834705ad383278f1f7d],
    [0x1af3ca6240a55aba55df8e49835b92fa17e39ad5701ef70f8144109f894bf1d0, 0x2566dbba85110cc708700743aaa5c7061b174365a8efb5938b4bcd82ea79929a, 0x205197098d6814100ccf6c908eb3792b0294290afe47949c85b0cc054a60bed7, 0xcced1f9a364f77fe44b306c4539575f8b1ca45758c4fcbfee234e8dcd973ba6, 0x305e20ea1b93c0fc73307f4825e80471da211c98323f23b727919b63e42501e2, 0x1e473b357377aeb6c9eeca4adacf0ebbe72df720bb533055f056eb9f2c13d536, 0x56d703af2f1982a482cc560c2f4f2da32ef0356c73ce35f7b667b8f825b2451, 0x46beadefd1c7353469794eb81f574d38910f72d81431159d4c532eecc18d67, 0x2ad6ce3498864f0ae788665262f8b99756997eccbe50d70338ecd68dd1e92522, 0x8b39764e398e29ffe39a83c045a1218036653fe8071ecd3779cc6e79e643fe7, 0xffb07a9dd49578818cf9781beaf8940764dcd2f07aab4123f4c9f030513f622, 0x2e7b46afef5262f60443669d526b99983678236c8f5433cd130defb06a39023a, 0x13c717906e68279fd9e57e6419986ee2cfdf96b20d200e4adb31353b19a91470],
    [0x81f58a91a4e0d100e0369fdd81a190035342fd0677ee1bf5215e47f8e58c2c3, 0xd94283e58978ce187d463c50a7277cd3c80e044e15729a6f8ec0422f2ef8b84, 0x440a6e12fefc1ebdb82b5e69c461e3e332fbd297474c18a65390fc8649a3d55, 0x12146efb02498c13aceac7fed685b0dd88fbefe8f5993c0cb21b0b4bb85b11b7, 0x64b0712fa159104820ac07e0d2723a3bbc1d1295ab39a108e2eee8230131f6a, 0x1e0f62f785734194e76cfced2e91600716eb46fa4d9235f28e47e366110af98d, 0x8204690216d1d2ef851dee5e4edd9fbfe66f098fb61c231a0e89bbbd9e9475e, 0x20bac589a995937086cb727fc2561ed052489eefb58cfcc260eefd58502b1ac6, 0x1f4bd25093fafea78a9db91966e6145c46472a4ed46af710826accac2034fe71, 0x278c85ceea23e4c040b66e41ad9cd09a7d0ac6d3457a6e596df14505f071de2e, 0x45ee69f0bcde13dcc97f5910d8228124b16945cbdf38db33cfd3933d2c15c97, 0x5ef0c0803ce631e81fcf86a7c270ded90e8127485d424abfcfa7c4a9da7d8f2, 0x12b584469f8cb8b5c200bd721bb2c299c5e63422d730a3baa52274093f9fc085],
    [0x22a852af90680a8ca9688b71ed27c157d02b406bd6c7fd8121d7c7793ad2305d, 0x239a362ac4f07cd888facdc5e32f0b42e7ce6485e9697d14fb4089bb6074ead1, 0x101185b0a8c7d142bb221c50fc9840e9c5a0bf1110e9dc717b354f100b514422, 0x2719aa9c388ab97e084241110f428722c8f72de23a6ee33f7040c781fa5ae476, 0x18aacbd4af9ddb42418648314a53accac4af473cb54e3dad906a0210b98bcdf7, 0x28d0ac11170cf9ad662a2f31d00633af17b9f0e345889ce997829747120aef6, 0x1c76cca8e7372edc737fe1755f75986a465863a66539143a5f21f8ff9b0f8970, 0xafa7a7f02200447c0e943dd60c468ea6d1cd1e001505ce16ebbcc97297d6cd0, 0x28efb92a44b7e421bca73b274bc28bcf74f94c7212d72ab6913c1709386c5e3f, 0x1a03af000cdc46ccc12067c560bbda2a98119041bf9ad3ccd9053222fd2eb4c2, 0x2409f6c3cc378966ffae28eb4adef67f8c282d8a902db3ba471d9540c0039451, 0xad59025aa1e7d4a026d1f819695b3f7890b3d9631dd06f7da00abd0ecd94ab6, 0x7591d69aa28fbfb5b65dbb6f4420106f0b0906151307b976f6baeccffe2c488],
    [0xb27ba82a0ffb98368981736ae927a227828985c00c3e5df8c1276b1001089a1, 0x2ceb1780957827f9d4fac39214a4e82e89a82a760a9fdd85393b285dedbd8114, 0x18259272125382f107a04abdc0d968efee527d2242e263015e121fc4b090b582, 0x10c97f58b9ca58426bd89a59173ce8493d2ea8d3c6cc827ece2453ef193bedae, 0xfdb0710ff8ec599e7ad5086a29d53a9d1834e1a4c71f0b6846849eb0dfc47bc, 0x2008c67e2365d2e73a882fe3ffe416e8e0edf4a3c490dbb05d6daf56b4da0546, 0x874dbfdc6d7035655981f935798b58b755c7a9d82876352cd26244518d67062, 0x29d294ae7d02f2371a16b483b2102e0055080956b53331aa171f50de5d9799cb, 0x2aa10edd36798bf46c3cb7bd749017867c029a54e0ead556e2f15cfeffb4d9dd, 0x2b457a5ddfc105f203eaeaaff9af5149e02c6cf80a9327ed502b29f4c3602704, 0x29ccc8e6be785237b8d99009dffe037979c7da79ab22fb062d6fc1f59d48a708, 0xd829ea3c10abe53f0153b4446f6e2a250dbd79f9ef7c45745572826549109e8, 0xcb3680ad25a34e351089474c8ae39b6091e553be4b67c2bd1fc7a62a04287e5],
    [0x4b46526207edc70a0d23c8438bc49a365635552dee240661a2cdeef966f20f6, 0x1ce71edf5b935a231b0ea60402ba756a4bb45d65120cc0845f6c2ee2ba32e7ab, 0xea85373234c815ce2693a734fe28705dc6fd3fb29cacd0b9f4edb694c15672c, 0x10e60b02e5c0abb8dae47efa17b0582df94a3baebc52bcce8820f858341d7188, 0x67ac96b7ae162e5d0b43715f4c24b9031c082baa68ac7638a00f8594bc3b127, 0x293dc450b0e5c560a15853129e238b046a419ac6f0c8ec19a69bf8c409a73cab, 0x7a2dcd14fb017674965e82174a35decdaad75e42acf3d5ac1a1e235257d1fb9, 0x5cf8b0f380d29befa5eb75a0c032b7b7eafa895d98e0bc0e86f03ed066c9876, 0x2d00dde97b4150107fd9bd859c5832844e6be0d5a99cc6752d97585b560c4b2c, 0x6f2b210733fa0605a0cd753fb6ac80a0d893b2bef2d5453e5f6cfcbc6a14302, 0x1588e892f9f2d3c6a7dce89f132b3dbec142bf485e2142ae05db7fb5d7ce211d, 0x14c92dfaa3a1f830b20150093fa670dbef3c0c807f52321e5fcd28807179cca6, 0x1bb4555d8c5f8bbb268361d5e1c22f9555f7c9f4fabaa24355c963edc263af6a]]
  s := [
    [0xd064dee824928d39f2a8be7d2fa583223c33995784d228839adde2559592592, 0x235ce940dbc6ae2af119016151581b3928bbf5dc663dc5f4b6cbf02305a440a5, 0x1f41f49e23f371de6ee0539e873506283ef7303dcf1d6171a47311e9fabc25fe, 0x2761de8796f7e0b5915f56fdff180ddd4f22001dfbf15bfc83fb8b76c2ed95a2, 0x2030fa119e7ea727117fa18d61bebfdc5945b9ccfeb4173b77b373a88362544d, 0x16fade125075ec0ee8bfb5acc676076d14b76e79b2daa5acd76fe6719476c017, 0x154054c752e6e827543db8d8d6baafb02726fd7cdcb71489510e89dd2faf5d5d, 0x1b492c6aa52f42a57aa6d9e9680c14875ca28a129fddb2fedbeebccb5c83cb4a, 0x23d1d1bcdf6c2c14376e6619ef855a718aebf7d9918f578b59025e9808936311, 0x1e509e854698b837ae62db6eae7730006480f64ecabc6189a6e923708d4aa5c1, 0x104a16aecc2dade9539007d7a631cb12e7ea1ab9fa18e4c8d158941e13322bfa, 0x167e341698c1e47880a08b21374178b7e318714eeb40b54504aea93443249f9d, 0x16ff745c57280b832126534f65a36e051fcf161483d1a9ac4d2a882d55c4b3d7, 0x16556da3145b12699852213b53eddd1859bf0c06464a69887a6ef1319cfe3dc, 0x1f52e72aec02c1085861bec46d3c952a7b17e3b859e1e119e29f9d55b00a9d20, 0x1439235c136533951e994a422857fcf8fd137963c823113e777cca92d5772330, 0xa70ec5c87c2873d1927e525972dfef236ff91f79962eac7db98fec13c3ca6b, 0x85c4d1ec109d4fe0daa8548c7b641d62bdcad7b01f0257ea54f9e6371d00550, 0x2f4b2580ce56a2b5941abee8b7f98ae4b89e652a005b6d378edca751823992b8, 0x134520116944cb30a05c694e90ccfe26376a23acdf44719d5e94a40c0cb4eba3, 0x2c6f46236b3de631bb23dded37fe4349e986b9c26a99382a28125b2123e9612a, 0xba54fa736725c45c9aa2edb10e2d160ee499707fc5d3fad092c6f6e60830363, 0x9fec55075da3b0d949af21227dff641435e920034b8f3a054f6ceee03f8bbd6, 0x2123de2c4d9657466e2c0994fc75161b658fccebcadb25d03e1005480ff65dbf, 0x15190bff5104801efbac26fe09882fa5d5aa2bfa702efcd1b9e8ae4aca9f2ee1],
    [0xd064dee824928d39f2a8be7d2fa583223c33995784d228839adde2559592592, 0xebeb78e24789d13e315aed03d6f9a7503f8027ac8c07bb31cab7d9f7c867273, 0x1a7408d356b546b06ff9e11e706fe10311eddeb564d15f77e406c4a17eda0fae, 0x7b909e9b3d766c0562bf5eae630eb1eaa3f486b67385e9f15840dcc75a4695c, 0x2fbfae64d96df063622736669771b3763fe4d7e32a253b2e9a432fd404a5a1d7, 0x2e8bae55338b9e7a202278022d1f4f1641e8dfedcb10173f8ffa47a394a792d3, 0x95cf55bf75f13b6986a1d8dc6e23ef27c6e20049be69d275cca08a95c4fafd, 0x590c80761bacb1996152bdc843ee9bc8d9e1106d6b44143cac61a582c93c707, 0x2e2c9e1b232536be64e82e3fe38c9f83cc1e2ec77eb98d690ed88972c55d4dc1, 0x2a0bdd075038ef925104da5f80d436819a8896b46194b795f9ede6451882f668, 0x25e3f54e8788cc765abcbecddd2326c7ae8720dffc3df2e7cefb06bf572b019c, 0x2c4e38ce29ded57148964df0816fa57324061c515ed02d9f5ca4cb4231e72d9f, 0x17816a3115471f4af63e353a891e5c63a1de21b079324c7376c7fb778162d597, 0x16b1e612a7910bdbb55b44174b22b72b63ccf452f485aadb834a8883f7a1129f, 0x1cdbce6ec5631b7df36d7fbb1734c066329559906cf4c9cc7023b75445f2cdbf, 0x8527bb0455abf9205319b4178ac91c89d27d73af39ca3eb5e267b407dc122bb, 0x295a5be07d3fad3d9622f92a52742786741d19fa1f85424e6bb0383b2b3184df, 0x1d10e15e892ef5c67b06061e9230a13aef08e3a2422e59ce6a7de3bdfced494b, 0xa1cd7913f731a263b47880b483792d1eafe766bd397d6a37f9b03bff649ad97, 0xaef18db0541091f4d0a8c6c0e04bb191c3b3eca9abfe91b336f37688f82381, 0x2c240c1f57384c0eb11da2fefef668be130079616fbe953378ca4cee358ae80b, 0x1ef04e55dbb7768b7ed264223a560b7462d131ac387b0e06e091075b036c2903, 0x19df6cfa53448857b40764ac927e45c59a4ae69088b7bfec231217fb49bde976, 0x1b794d61ed2a335a1b6ca4fb2df93b5de924f51c742c97eb1f45262f4cee3ddf, 0x62906482824c01daf001d0b01e1558d7a2e921bc124099fa704a167305b0432],
    [0xd064dee824928d39f2a8be7d2fa583223c33995784d228839adde2559592592, 0x1ee5e91ba44d3919a02a4c05a704d15dbd6665d3a0caa7534f062cb702e12ea3, 0x124e5670301689bd1d21125260ac980aa77f9927abfaf6625cfc4aea0542c38b, 0x17f39c51b4f9aba0b50cf36cdb63d6485b3f79e0f4c56fcdeb1668eab22d2ee4, 0x1e47876883221f61f5a85cbcf916e4255c146208100bdd75df2550b7f23d9ab4, 0xf6cfbc348d0c46f2b4514fa4aec63685b7b4a77cc187f39f90352aeed2d4196, 0x1ec916f0f8ab3534a45fb8b6fd52a0db612345f94a7d1047b9cb15bc4354d259, 0x2299e8cfa278c8ff8acb571283f8d58b07285fd3db093f52816286f8059d745e, 0xe63ae084d4165ef23463637d3c6c962642acba1dad62f5df322c00aaba6788b, 0x2c652dbc12391bab6e6b1642278935adc57f028d75ae594e23e869dcd807a04b, 0x23cca3a96c87c09a758f977f1e8e382898bdcc82debfae4df05bc7c16e74aab, 0x2f5c19ae2b06aa09ff617a2dad69858ae545b8a63f5c730d50312ca740d538f6, 0x185c013083f0dc7b1eecce3045555f593a1516f7c0486900029a21537acf8e03, 0x2e4ded90ce2c40cad391f536718a6f107838719e6cf002f2e914ee1db3fda861, 0xba3626706fae4da22a59bfc7d0b7c3cfff221ed8a6984553a6b605fb7ce4cae, 0x228687cdc81f4bd727891f41911dfbfe24107d60dda4ea79b5b094886e89c4cf, 0xc1a4374bc29963f2c4e68c51518e098dbe906d9c3a664e24938a403009ee28e, 0xb49ed175ec0cb65d9fb76b9dda5859af6f7eb12e0a4895c3de51228e33662a4, 0x26be812425de5be3e6f4fe6694d8b883ad156e67ebb1aacb6cb64fd41d64b19e, 0x17cd4b4c75b978ac369c026e0e34885bab4c745ef05c471d7975300eff003dbf, 0x28ecb3b468e0867e4dbe29f05490b90f6210108a30624715634e3cd6144085f6, 0x2ad2a688d5e1fc7a853d17ff8e29487e6a9fe8e234b6423425afc192fd6926aa, 0x177b3225d90e7c43f46ea85579f408bb2394983faa33d3eea7b7847e10b71a09, 0x18c733d3fc6d5c4ed730650c512b0b2922fa4ede0e4281279df25cb57faf1749, 0x25c287190fdd3f0fe552c72c747c521b8e47f042dee30f90c88cc49c425e2269],
    [0xd064dee824928d39f2a8be7d2fa583223c33995784d228839adde2559592592, 0x17223e88c5afdce6f98c3d3096fdaeb74fa99a0bf6237bb328466b843b5b481d, 0x17edf7bb609e24ab634349d03bbac5d92a99f1f54571cdac8e155a3767946556, 0x16384369e8e866d47b74c849496796fe485290080acb6d05a78b399906654ec8, 0x38414054cab9daa6484886487f9b1491a0424c75dcfd6e69c00f88391963260, 0x2add2a9f58afb253d9e9729b8510c6ded8cac2647871b4b2daf92c1ed8026670, 0x2f59f831ed16663ae1e72b27df74f8878583b088726e2f77e2a9b71bd5eb4e8d, 0x2c8563397614e4c977762b73467f74812d61eb6c921df0b18bf84dae0a448cda, 0x10844b6d701b264d333ea6d5496ee62b7f99b0f3e81e4774f271acd4e6dfc452, 0xd90e1221b226621bab0f84164c6bd657cedf457c1691c6492548cb503962f2c, 0x675d5268e859d734fadfe6aa6a58f5bd47e9d9bcbf7311d928562f772a44312, 0x231539abaa71d18f3c100449d2dbb5a78c8c6eca61debcf495670ab6881cdda7, 0xc5e674c55e57e981b8de7f89d00aa088f47c5b01c39bce85ede170519bceb81, 0x2e6b1e65cf7069fca7f5ffbf0760e5d2c6acec8da85ff34f2c3cd55f744c8446, 0x348474ad39c09ecfa686a8710a7737acd19917fb66e90a3df84d110b5b26048, 0x22380985f6c92bddd7a02d0187c845fb834c9b7e3664e1b064ec580536d1192, 0x215293044ac2044e97d2d06e714e937bb16844b2c4e834bc3555633a31ce1d33, 0x1076db0b38f462a6a9829ed423572f05d1658c390fca109dc6a5baeadb39ec85, 0xe0b3b39e33b5f0f7689976066d5aca89f070fb078152378bbe4cbf608330e0c, 0x1decd713548d0f04ca0fc3af31ef53eb04fafa773cc696bd5d7959d5b8781f3a, 0x8eea1ae2e1dbabf4e3969bfba914a7a5be05a672d16aee9029c3477ad75c0b7, 0xa3c813f669fd0550005be2ed025fd263f496cfc0c88708c5723fb6d4783090d, 0x1482b39a31e48749f37e6cd63f9fd7498b70623637fae3183f1805deb488df4a, 0x92c09a074272c56f7611ae231544253242fb998f1faf5a04032c897705cc180, 0x218cae97227d24e5501a8c68d0f9b298d102b5bb4870acec8ceb068b219c5de7],
    [0xd064dee824928d39f2a8be7d2fa583223c33995784d228839adde2559592592, 0x19fd38d0a9fcfe44eab81a88bf83e966f625dccfb8c8e663c92783d2f36f435a, 0x105b69e0c16b67fb448ce467efb92c03c0a03d0ee652aa1d3f57276bcda15b48, 0x25d1fb19588b96b835cf451788b64356dae74ac4b1dd04105f4ff71ee538e69, 0x1a3d3f0584d9937628708ae5bc1a677ca0d9734ba13f9f9bafd4d40ed09efd2, 0xda29cb284f0b19e45ddd3688a097cd2fa147726da98e7d7565480753c3d69ff, 0xbb245a4fe17933f1a323de946e9c79ecaefe27cb72746f02dd7f8a12fb97465, 0x12968abc1e49e916dbfd8d32c99add0f2522613fdfa603384acad50adb3c93d4, 0xb72090055db8eaed15c53223be0d59f134b6e2bc190ff8aa145de2bc81fd905, 0x2ec92e332d64bf0a6d53aab3202f16e8f931b0b3a19d08397981e4d67f7e6149, 0x10875e45751b9f7e6d229bcb6035a0f64d2fc266087bb15b46ed8dbac225a875, 0x20a28d7e7bf2393dbf1e8fd1b5957d6696a586df80ea755679bc922b32214f06, 0x2dbcb5a066131fe70e1035acecb96d60a3c48394ef025f9469318ae141b59474, 0x5d382b11621ce81dfa3b2a5b9fce537f18f3e1a3c11b744c44b7daee0f539a4, 0x2aa1cbda3b7224be26b553b60967d1e49a79cc1fcea1e28dcceae95257195fa5, 0x119d098ff4fcd15606264dca209fa31b8f90d343d73408afd99cbc60bf31b38c, 0x2d6a5ec1decfd860f606bb717c2d6fe04d5da0a512677bfb3b88c6eb828ccaa4, 0x1d44cdd7e0f9ff30fa262b991bbd4b25b9798c52b5475288dda93773873b70f1, 0x1a52bfe42c699db0584e9908947654007f895244c01b0827637fff73ee586351, 0x26bc0e722f88daf0ae3100dd3603409108756c81c2d2526d432135867248f06c, 0x2151d6544b541cbe98b57b17bcc32174691b7dede6da01a85964ff4d03c63ed0, 0x1dc401101c1f1df1931569efaa9db035fb7eb1f94ae9ce86cd6dc0540b1a1fff, 0x219d8e0b575d09e774acf4018fb6302ac990e13959c8bef55814abe703d0a4fe, 0x7107aac0c5aff7df10b39501354acdd1ab5dc0091d0166c55cd063c3a3100e7, 0x1541846836b18159c10af51567f8cbd22556df4f20dd74ed1cee58b3144fb464],
    [0xd064dee824928d39f2a8be7d2fa583223c33995784d228839adde2559592592, 0x1a21b2733e57ce5cc36d9770c7eff1ae09c59af2a97deb649f35e034173963f8, 0xaa74005a1aba9f35de88f256300d0f55c9a568a0a3f962547fff0a2ffcf3faa, 0x302cc36dbcf39b2bb8f4ff9da06a95c8a904275eb4ef75a5b82fb7cb80133143, 0x1ba8fadf54ff193f90ce70d81d068ef1caff816cf4298a9e9c359b78c7b3c77c, 0x177e25961a6d2d2538623d70bd43b86651ec63b0ab29b1e706308224a0b7f68a, 0x29ade22a14cb16e95939ac85e6c50f089d187069df8659609634290249efc500, 0xc3cbc360d3cc87126d6dc733e8c0276e1b576ca318d256669a2777f70d89308, 0x138a5c75420e198be86010c147c10fb0b6c882ec10683dfab0ef1b8cc023639c, 0xa350052193a49d3255030214d15b36a10e7b2561890a4c851128603b6a5f092, 0x1002580094079011e6c17ea867b391cfe05b5e73c6de87869cf2545c10084594, 0x8c06521680fa7df05e7c8fb8a3a2ffdc0526051a59411a0cdd29e5f993e8f47, 0x2a3a540122300f3070651e9198f9d5bb0fb52546c35ae90a4deafd9baf4e65a, 0x1416a8824238910444767922e320d38b543cca200ea6c5591db9092e224be615, 0x507def96242fbb9a1ab87fef1da1a03f4c3349723ec4ae6de894e171a1b4af5, 0x2d03148012d730729390a74fec2d3e7ba9fd23f45e801657fc5e2a49b43744d, 0x19446791471a6f03c3e0e557ea0d4b24bbd2930669ed23dd286e81b7fe17abe5, 0x23c198ae993dfc34a55d2cb02226db49afdaa1b8cfb934a05ca594e616f43f35, 0x49ebd2c1b2507a1399a21690d0e6a900184d15280bda27f5b53099933aafe5a, 0x28eb35a44903f387f0b17a692fc99cc80826f9f36eb1b9576e2c5c4c48ccec56, 0x2e217b29bc22f5d1772b5bc1fadc11af5afbe87b223fd501b1b63ec28a77435e, 0x5d617f4148cb5ad818ca83e3e25d1aac33119f4862592430498b6c044ae087d, 0x196ddf78908da3e629df88726541e8f3dc6bf7b3434a93b25434b2773b546eff, 0x19f43813c7b1361c536509de373c74ebd978b0f3613d0457e59295ccb3447940, 0x1dac98a00317e1ad75b44dfd710de43a70e1a99afd151dec478a8d0b4ebd67dd],
    [0xd064dee824928d39f2a8be7d2fa583223c33995784d228839adde2559592592, 0x248389b6c1215ae80412361e031f9d19e83e305fade25b5151787bac24151f30, 0x1d6245849595c3f2e658dff1f825202f744288c73d5b6fe3e47be01c85231a63, 0x2828197fc5ec3d0b61e3cd35b39ff7ca0582844ea9893e47575ac698fe0fab44, 0x5f98baa94403cbee299a7c38bca231773951a9b5ec47809445687c1fbfcae21, 0x21c21725d982bf880516bdd009e9c82289429fd8470ee4f009281b6d610f86d7, 0x25161628bb96c434fcdfed33abfb03d4492060f9c12e5d6e11a30da401f65624, 0x98dfc41ac8db685ac12e9fcb277ab8b38fa0b4b943b5f5863189e57a4ec1726, 0x20e5160dbc32bb70dd2b667ff122aac9c9a209830d177d065eedaa37c238b6d3, 0x2282b92a3302808cdc7032e874419ad5b9445a5e6948c67e35af7b59647e6072, 0x19183560ff143e5d855665e03136bd60d6e627117857e45ce3b170d335d19805, 0x1cb1080ee04da98e9a546b1eafbfac68d7bbd31acd6602818742e1dbd035345, 0x2e08e6eb7f7299ddbf4e83adb2f544c8e2bf1733140eae2a24ca09e8e190ba93, 0x17313eb73d301839abcd85bcb243a96c662a9225d70e923f4966024ff3fea376, 0x115a8fa0b0211dcf5a0625e77bf00d4eec93b313811c61441d04e2e927f99a1d, 0x10671e260167bb4a73650275e517b30cb040d62e5d8bc65a23e2bab6fc0927bf, 0x697b10896487efb0a81d149a959b22c8edd1b130e18ab45dd5e4f287fc567cf, 0xe23561be0a6b6e5616ff582cba30e707dfb2d85aff42daeeebab0a41fdd2a9c, 0xe6c17540a1832e4aa8682e0c1ca4471e2ad131c70a6abd6333268f39568dc32, 0x77e8a2a9d0da541d9357eb1b603ee9410d49eda3140ba9abbe1b6cfbf8d4e36, 0x1ef5a47f9491310e04e85c853bc42a12227721bc8ef99acf866256c6f0ac2b05, 0x2d756bd8508664fdb9623bee29f62db368e7e9fb8c2f8cf806a2028a34a54ed8, 0xb6440027e32df5bd12e4075461952f0c0a169f47e498833a0338776f3cfee4e, 0x103b3141b18d49495ce38d5e0ab2a691e78193978da5888e36604c51eb757e96, 0x4502bc324657c18c59a6bcadcc0735e706677a556f0ab33468abf64bd434649],
    [0xd064dee824928d39f2a8be7d2fa583223c33995784d228839adde2559592592, 0x226880584a57a7c552da325ea532bf382c67482108870675bac5d3d9b6a71abc, 0x178d0b7b044c806c180b95dfbe188f99e7dad714554fae1365264f33b5204d38, 0x110cbd05beed208043ab1cba8a604abe596258c516ea0c68b804d2e262989e28, 0x2b4f9ba6e2d2e31078ed70f6a147e329d1c4b83c76119951dc7bcc6d2a944cd0, 0x1712edcd1662f4dab78bdb08c5d2208e096d26aea6d8b5a2f1ea1a575dc29dbb, 0x20e7ac1985805214842f811423601b3f18c8634e87b1433382bdf397b28b7e21, 0x5e6b0e267ea884c7a767266b614d9f23883f297a9c40b2be9daf6af85f31fd6, 0x15adb275543fbb0e083a10e1ec448b8eebf82185f0a99a06bca805737f0d7db1, 0x23f2e8816906f5fc349e99c8241230167b50d8db22c5e752d640fc319c7354e1, 0x8a8a0eb412422e0ff3bef4e8f9e98d0937293d8bd96c9ed823de14c7a60fe44, 0x147392d188c52fe487d5e14652ff175b37253bd5fb04ec9e316de4cf5100500b, 0x1a1a69d5bda4c559702d87b8ffbab347d61d5d5ffba016055b540409e90d050c, 0x26265b87f8fac4c16383d9763460242746a0fbfc7fc375a251a39e5cb12c8ae, 0x562af273c7d6798ad1772d383417f8baab7feffa3f8fe1b5061e695a63ea362, 0x2277d743f99daccb8223eee9ed2647e6bc22c5f00a0dc9b45c26898227530c02, 0x2ab7551e6b4731a0b2c00c1a1c57ad9dd66b2239a2754f64328d4023249f331c, 0x67e6bb5600490688a67ca30a941a68f15dc97eb418f8cecceeb1d1f49af1cd9, 0x299b048827a0cc67b44e53fb5897f27c57c448ed25d4be88b1b81b22186c0017, 0x4ce6cdf689338f7df3c3ba84e7ef35ef59adce460340ea0d161a45123c4051f, 0x17631e8c563356367e1607096074fcd220d0256a60e1e6d145bd243c5475cf9a, 0x25be84baaea86bb16bc3de4e5578c796e1888ac898d37f1f835ea87f1aabcc04, 0x7fd81c59493a306dec9f05c012a96c113a950a44cea7de572af401db8804f2d, 0x2d71abfab45aa0b3d4689b2518ae16f87cb60b0fd9d40c3567e5dea122815ae4, 0xbf1dacc9ee49263420b6b40b061e1de77884556be4629a011bb73c3cf8fd282],
    [0xd064dee824928d39f2a8be7d2fa583223c33995784d228839adde2559592592, 0x207e38309d97a6bf02d2c9071fb8c0243a8f6570c15c1dea211dcc2cbf45ea49, 0x96401efc3b429395ea5c187ccef5c551ed99043ce3abe10e0b2f6c0fa0d29f1, 0x25e2fb13f405f8cdc60da80af2df8f7aaea21aa8c5ea1b80edc22261c424810f, 0x14f942438d0b6308e88366af640e59b35e7b90dafb9949cd395fb9edb36e57a, 0x1a732391895868212d93a33c0c4de589333631c8260c991f7885b916d0037272, 0x1e29088ed2ebabe07ada9617c87d6ae3eea384cca222ea5983550c9d25bb0648, 0x5ee285acce6181041543d01d650e8314690f337372341336b4fb1b27dc1bdb2, 0x252b8b5dff5e6788b2389b2e55c939e69871912bbcde09be55a0baf9f8c7a67f, 0x5198e4ac3158c2f1f30e9c7333b8f185372db43467e884f9961396b75f7d60a, 0x245a5fd31eed8204f89bceedefb467b89e3cf7fe91d24a33a3207bb6f083e19a, 0x57bc812c85f04480fe94410a106b281d8f3e2d54b39e4fb45e0a5ead0910dfc, 0x1afeecd7c598ce3f7281378c2e514c5be72109df6efe311497dbe12a819e406a, 0x2fb8c6d1000b2bf11eac94956464fcdfb9633a271fa8b070f4b63efd7b5007b8, 0x32899458487c72b4c48dc1f717a0b2aa3ce53b6a4b38558b7737ed21cafe78e, 0x662f06913258bafb5bdf1aa929332c7c97d4c4490c6fbc8e798335ff76e126b, 0x1584478d313986eb0ae24f5d342d3ec738138d749b5071e839c1693af46f3a3, 0x2dba025efcaba3d1c4cf07885e8fbc1f11c012bcdc009087f306a399a7645111, 0x9883180be89d40f292405a2d44f5b9bba1c37613ddf84bf28c4fe593fcf06ee, 0x1ba2bca86f0f3a73f392649f65c1eeabb57e3527588289b4820a391a46475dcd, 0x148b95dab3a784e6f57042365a46a01e5880f17e09f3141bf99c53ee8a1ff06, 0x209b90e92015a18f13bd1343a34d905fca3ed55b88bf1eeabd3e542987a08628, 0xb50cbb98c4c16293795735e6cad9a458e2d37f1c02af95b15272aeadee5307b, 0x28f083282c1dc347bb8049f59580fc82bebfaae2fd4d5c3198eab42357656c01, 0x1e3cfa063b3cd467a69c8a628a627faf26187744a879ed796956bc1e3b1ba00c],
    [0xd064dee824928d39f2a8be7d2fa583223c33995784d228839adde2559592592, 0x22063e51a25b5a045914651b3b3fbb41a432a2cd49fafa1a6da1f1b3abac6b39, 0xed1ee65d2b2cb52e5c72dc18084cdaffdc8eed2dbf45309a9b31afa3239e0c5, 0x9f1f1407a395396be8efd490907e71b2a1e1a761f5599060b1ddf9babe3ec3, 0x24e22c3cd40dd01dea8ca00b4ac1dc8cf2fe8ec7404f09decdb5f2e27e4f6a51, 0x297d190c65439de912d9b19a51a34f3af3062388bc90dcf02c95ac55f827f393, 0xcbc6af2a7286736fff8c442d20accea23f927c42de68c5965be6b73f787871, 0xbf4731c628503367f3a0979d34ebfc4e1b3a6ee8cb90f8e145ea71108f77b19, 0x74ef632df5709022478511a69f0c35f167718dd3943a871dbabcfcfafccb99b, 0xbf311d6ae97647aea1524d5c401392a2a6242420918607c8595073f00163f2b, 0x2fb17a27e5d93c8fa198091d288eb25cc9a75a3cc2bb29c73b7c4962ba6b02b6, 0x17eeb974a4bb33ec349adc4e3c5e9141c3fe5b52b8a9eb5f55897fcd3f13dff5, 0x16c75dafa94b13f4baf5a849aa93deda4486711f92188ee41083f8ef0e2a19ac, 0x122da8189ad70e3c28109ade01566f47039ce2a35d85eee2f2212139d7e6a83b, 0x260972f4d1166f0a53272aaf203d54909f372f9ef5175fa8d15f863299bbac2e, 0xaddc83c8f239eb4617cb1a6a99b9ea314b775252379d4a28092946834ec18d, 0xcdfe4ff760184a4b1e1c7df835824830c35d9ae719993e1c8b61968341c74ff, 0x6cb7b1d7ee8b715c2b325853d8374f2f1edd1c47defc42d560fb1ec2ec4093b, 0x8d48ac917970f6318a8b999fcfa64bd0026915cfbbaf2356c0e68415b42cf64, 0x20f5eca934a922f2324ec4f5cd1423fb342004e24db642dde32d4f49b020f19d, 0x2926c1107b74752a5b0b0326f9775d3c0290079b81f1ee7b3540c857a2e6e7f3, 0x2ad7b40da5583cbffe41e7ba8a9dcfa0aa04526e17a359e380152ab05659aa3e, 0x157176042c8c3678e6a57db77c420cd2aac6658f392eefec6bd96ec3d75d16e1, 0xd6e65707b940bb40ce868be699f58d8f328c635900db4f738d9ae05b337e4e3, 0xd794b0f796362925d3c3f8f7a5fc0fa8995ff16b7cd198a7a4f2978033d3e61],
    [0xd064dee824928d39f2a8be7d2fa583223c33995784d228839adde2559592592, 0x20a525ca48bf502bca0dc9aab020e141e26b38ec47a44e1580c0d1b616351398, 0x1ee320963332762900b4744bd20f6f06d90663c9a45ccf876dfa46ff7b6a648b, 0x22635f8210cb3cd5a5f3d6f3c05db35f48f4dd99ce9689a4a49c1396fd0254b4, 0x236867069537dc76045fbcc34387c0d659f274038f60bd46092c7c5c6d2a93ac, 0x2949bfabb09d51a438ba0c845a569c3cfd415a4767babba43d49b4a7d23efe57, 0x1834d2d0982cc3e0a6783a1817d0a70935296a1e1cf6ced2fb36e49399ff129f, 0x42688f81e90f021c645ab69ead85df5637e8c35e5f747da2b9353fba3614759, 0x2cbf3eaf39ad0427ce377701b0aed081ab11a4d8425a5d85eb6ed545e02a3e67, 0x28ee79339c57962491524337981f039783042a61ba46bc4b6d27842ce253e295, 0x2dc6b0d76d332c582bc225e0e3852a84e670441a34a35271183dd071b3a8b9f1, 0x7cf8620fb65b2763c494dda02d454c32d86918bcd972c81af8896daa2e25220, 0x19d3305037fe6d5dbdb1c2cf07dbccfbb3771dd745a1a776027e76b829c38e15, 0x2e6f19575b0e917c325b5455bfc97e65b080d5ca3b0d866a13315efc1f5afb43, 0x1e726c0acd6e169de2eeeaceff128e7691b7d4fa8a046ed41a828563547a3270, 0x2527a428504d8fbad1a95451f6968dd7750e9b88eb737094d0d22806ea461bfa, 0x1ee0e151bffcaf72aa962734818b53086af9a5eeeaf821fa85a16ceedf5006de, 0x1332d8ea514225643ee26cf14ed13c2936780d3b0df8d13a0d80c7593339dc1a, 0x67440d1b5c5c1e37921583ac6081d7c0b614430461abbce3445fdca1c25e52b, 0x217e15b68bbd0d70328ba92eb9848533a76fa177015bbe167d9648e216d72fb, 0x1d5f55517167e8f4e07ae1d8fb025baafb68072f0ecfc39c2ab6917e2883f001, 0x1ce431894721293173604b5423cf3be2aa2a4c602244ca33cfc474364261e219, 0x1870cdd25b0026ceb6ca8bb7a4abe4c835cc54fb5d4a2bdcab837776e4a41f36, 0x13b6c4c8a9796559718d72ff32d05acd285d4e36b24a0dda09181dcc0b821225, 0xe59398cb50c995ddf9469890c14f7eb35b6d1ff21b54fa88d75105180cc9c84],
    [0xd064dee824928d39f2a8be7d2fa583223c33995784d228839adde2559592592, 0x2471cdf128c6570022fa1786a35b379627cdf4a1cf0c888cddf80196fad77864, 0x1eddc8c186b5952235d179801e4d1f5526b26e72d637d482d34aaf8acdfbc678, 0x41287596ebb654ec2703cb288320c78b03e252a98d304b5c670d6a9f3b75f11, 0x2d27cddd60f27e931720ad20633a2e0aa9e9fb34e53a1c92449c42539836cc84, 0x386464e269edd20cd4abedb92ea083d5251633ec2ed40b9c9298a6b03d0c47f, 0x7b28d6f381e7fb054165533e6c22be7235e01dc2111c2586c88cb6b13915daa, 0x25a51836e32d3111c1ef3a5b222a45a8647f491b251a0e7d548aa579f04dd532, 0x4133c14bb36f4f02735144703cf36b0e6eaec35a23b23a5b3d7bbccce729e3b, 0x1a107c44417a85fe63fa5f32beae1188f7ef9c7e9887840e06c41442065fb590, 0x11963a7f8f62abe87fd0e9f059bda23e56ea044fff31672c16653096035d6e60, 0x63942281da7187cf115521332a5480ea6297764540daf35e844f9a9db14df1d, 0x28323184f7d03f5fdb8c55416291a0f2893f3f8f704345fd197335bab60e6313, 0x1d5ee3c314bccd0507e0e1f3d22cde05f8beef4006bdd196d1cd972a00f328b5, 0xe3e7e1bf77551287cb3436a06bcba1356aee949507c50da7075fba70259055f, 0xbdb1ba75288ad45c653e6731b73fcf8c2e5a06452a7e9b1055349ca1b954a8d, 0x163efbc5313a19dfd299b4f7d24ac36fc09dae316bdaad22f2e7354890487b3c, 0x655a2ee9811be4138b87caeac43693187ba723a4a252e1fe5aa481cdf35dcf0, 0x221ab7029ca41cb3703fd26fdbfd99f83da62e3d6aed9c715fda493e703ded14, 0x17e06a11e4766ab95ae693ef77be2fd5a816abeb8af48e77812af31a9bc97556, 0x24fd79ff869a80007553fe52dae87841d271b05d3465e21632e97808db658a79, 0x2937964cb5feff56156c0a2d36e7d717f5133c52311e8a9250e3e538c6d6a2e4, 0x115b54ca59723ddcf0b8b72e014a3532bfb9461db00c87b805e6eb6f950eb2fb, 0xb83ba59544995c109fe67c59e1c6682df4f0a94420449255f2e42125d1522e4, 0x856ce0b9c472642563a58f67fbe8490d213f1e60c841539d6593ce72c8caa75],
    [0xd064dee824928d39f2a8be7d2fa583223c33995784d228839adde2559592592, 0x1234cde55f1ce07e8add8919dc2786c2a2e8baa0699f9309a24a6977cf4de312, 0x2728518406453c21f80cdfbc5ae5a7e5bc660853c39c07f08f4ca48b866fe708, 0x263c6e870681a568879af7059e9eee6c2107545775a707e5d397e090bb406681, 0x264b910c5d9c7677ca26b01c95b2eabda02155d239a7525aacc9e7c3a1b31108, 0x3626d5425f196e0ecc625c95caf99c1788ab08826db99cfc994dfc07cf7cde2, 0x285b7fc8640c5644ef5acd76eba635788490408488d4c1c7fe5e154882885b20, 0x806dfed34a9e837d6269442a1ac7f06b9329bc91b841651f866d001457a7e47, 0x17d501d18a443c458bc2987ac700a167935fc95c0b43b2bc31d3d1e66f4f4185, 0x1c265144d850ae945f896d29b8d25558fe572437cfbb23c0d2974ed75a8446c1, 0x2d349fcab317e2f10486728b85b73fd55ef9e72913db57a96de3799d79331a5b, 0xe3b16089c86c7518eccbf3e7b5d6c93a7f57dd663e313bd9278599baedbe8d6, 0x16842185b0a19379239ac6fc9576f9662323e9ccb19c73ca551dae5a204363ba, 0xafddf6a0ff562cf8cf83b9b4aa7f77ca5944dc203e6716ee136947b7774d185, 0x1a7b9bf02113552d2267b66a6a183c58bd9b0a71b607424034ca249f48056aee, 0x1b292db8eb2df955d186044eb865b53c345855fb04e0e7aa34728f3a33dc8f61, 0x1166bc2548e4dd1a597827e1ff6b873b8c029056733c2b15524595f6646fb9ac, 0x27ef791b1fb45f73950ca3297ad2eff668164240ca0fcec4d505379347a4b32f, 0x94e36712d3e0387be23f4e8d2e8932333c2b5b329ff01b0bded642875aa8d8c, 0xc3cb8c9451dc65e2baca4021012b4107b1277ec1e8cf85684523a86f4452caa, 0xc16066d636413dba5340f2dc58657da3d04fd4f649280bed2ad6c43dba22557, 0x26f53db3a19fbbae833e6dc50733326512531bacac05e1142b5169e0a6f37b16, 0x17bfb665418fec0ddd649243c3b77515e92eba58355437ecce39a21b3da565de, 0x21ed66971a5e0e1451a9657918e2bacc2cb244d2f101e4a870b7c40400d8e004, 0x2fc72d372345e9a20344054b130f91cc301d409bd2ede08380b1d2cc9296a0a0],
    [0xd064dee824928d39f2a8be7d2fa583223c33995784d228839adde2559592592, 0x242b4eadff11c6d3d54f5372755d36c9829ab3f1ad36cde7fad1b4927bcfdf7f, 0x85e6d5205bc517634147ec300edcf4d8e40d319b2774da859a677ee823b3474, 0xd7857f8c2ef1d3f6cc0b9d269080a8352f716ced9a8541b58047570931c9a8, 0xb8a79f4d635ec38c11720fdb6bca9a37e4ef8bbfd3c3a753815ecc975c6b1da, 0x2d581f4dd4f7a4870f6924d8ccc3aead2778ef1e6dd93b766faa89733c57534d, 0x26a82a89ac34602384406faabac1204664088042b012c62c312d10597d4473e, 0x119c9ce0168defeea8eae1085b57836db28898019661e84f988bb0c5dd3cbb1a, 0x1fdc49eac128a24057128d92ee2b8ae3a28d2ae331e53e898a9cc4baaa67e144, 0xe63791edc085e7e68fe844a1e288175214f53697c447a06af668ebaf9624d7c, 0x8e8a95d72c8b0f5572e434cd1e8f29a22c7a051beefe38bcc1c8c67021b6cd0, 0x150bfbe651cb129452581c0ac0582068914d6b6225eee54f3d041e8a04ee959e, 0x1f67b188cbddc9dfe73228557f41e28d562eb71233399c51a1120b6f6aa84fe4, 0x3a94eec3b3b00da129a13059883d56b89d02876861ccafd677f1b692e74dedb, 0x8a03a992c391bed4739308e90e2039caf26422b0fc314841229d9e65e29305a, 0xf5db68b751ab629eab8876005534376e79c4cf2a3c0ce2c7681a9a67787afd5, 0x14c1cf9ee31fc11c4611f6def094e6928ff1469cfad92b71c27eb02938999dc7, 0x1c8430170e0d27fc8523ca6c5878db717b75136669b58b0582278e4b6a43207e, 0x2eaabbe95b7e6d41e239af122c392f2c8a422309ca8fdf3f73fd18c4e266b50, 0x28b85f746bc03b1a6497f9a85fa07e337b664a8e01bf96a096195cdd8dcfd78d, 0x2eea090dddfab6d9d45f8fdc01e0697db257d6481ecee44eeb736310a57194a4, 0x29461ccf449b9fe3a48b3527a1b792f31761ce88a12a1bd185d02989048c6723, 0x2d1eba58a7196aeec7ff60c922a6a37d238bda29e3578e754940fe55f6b44f6a, 0x1d8488523480035454dd45ab1136e55b48ce729fc37fb3bdf07cd401e3df9864, 0x169904bf4f7348ccd343513cf038cc546cd137c740b77d3df58ada6cdd49b292],
    [0xd064dee824928d39f2a8be7d2fa583223c33995784d228839adde2559592592, 0xfaa555c1adf771edfa1b4f67a73108c7325be034cbc2c2e6d24554e62efd737, 0x1a4ceaae57de9dbb19bb3701ae021b7b246fb7550aa505df8f95be742293b7e2, 0x22d8eb68a906dcad75da8ce62f6763cbeda8004739851057965302696e185ae8, 0xcfc82aa08b2bf7faf7de17be9adb759389c398441bdd294ed0dc25d3f7c4f8c, 0x216a462577d231190606ef2920c63455045b8d51fbc6981a103a5135335f83dc, 0xe63715ac0c89614281493e16b0bfe6d11194b36c1247e22838771eb1ec766ed, 0xd024106eade54b9f8b5874bc7c3499487354afa2db7df3be1a971c8d2405265, 0x11daebdd919b5622e294312a5e34121ae33104fb3e1f9e89dad0668f0517158, 0x274a0198961e0c98ea0f75fe1e38ee5e5962225738d6c8edcdd5623e7b24eb6f, 0x136d49834864e42917bce7dbb0e439d28c2007fbf09beadc78497d1da2593b58, 0x18daff02be933186319ae1bab91e42256c5b56ea3d2d0698189294828e2a9076, 0x13fbadf8255db09ad6b28d0a13874e8586fa565155da2145f80fce40f0c175f8, 0x75a76152cb77f3a74ebb64a8b949d032a2e1ef7ef0f35fddcfd89473b5c1e71, 0x1d1a9d3eff8079f2fd739a8c1ec1a1d2c391befa15c4497ee78e2cca6a327495, 0x29132a7d6dc081cc6d7a5c3524f2805c9ae3c66a7de1714c4e75a9ed06206bb3, 0xc1457b4dc6efd6f506f14d2cb839adb6995e2565223add3079801818a2b3b9a, 0x66406956a8af95c2f8e84f977161005287832eb4860d0e333bc2a6738be404e, 0x2be8ce6965272c3ea5fef305d80056972b0cc10cc89ba56df234736a8168895, 0xc624c5b84f86974e5992e2bf99aa7406db0bfc77db799e680ceed051578bb65, 0x1c9fc7b076255b1dd44a3f77be12b8c0c7136880ef39f02aa002253ff808aab5, 0x1ed5752920052d66ec89e671965ba4ef5beac9b982b7405174c8c2cf62ba9c2c, 0x11a79d9e71816d2f90a16813583dbcb286ac19f81016b01ffa4318be074997d1, 0x2332f2f0231e1a5f4adae2661a4988c773f58f806ad73cec7fa8410327c29ef9, 0x92041cd3c1f24dc8700053b6d0b4d130f9709bae71ec397d1ebbcd08281e1e0],
    [0xd064dee824928d39f2a8be7d2fa583223c33995784d228839adde2559592592, 0x23402a04a12ab3776b14119bbf85cda4e8866dd1c8c2ed209c5cf5a94832d9af, 0x21f6d7c6cc0750868e0310bb8a7fe02b70afad0229fdad5c5cf38f7231d80528, 0xaa11c91a5f547de0061ad5ac646b4f17580e985d926dc48303da965dd994672, 0x2542d51f269de541f7040d7d707fd4d8a045f02c7f0a662e0458abd1c787cfa, 0xe9367b46e6b89363dc9cfd523f4abb4d123a0af9eddd5e356e63e3d49092542, 0x13d2aae41f6b1c1b5bdd9c576c7458709c75eeb7af22fe0b7f5d98ea20609007, 0x19a2b2dc5988a9ffdd458384dd5e0cee7970afb38c1823fe897e485fcda9dad2, 0x8dddcf32490be94e7be38105e717382f7966deefcdbc67432c312b8aab15a1b, 0x1a30ac3889e0467ad2178fbd85b93ccc493565c376202982dd16ec9bcced261d, 0x2dd2470d7ca5e69e5728e76adba044e821425b245bb5cdfd48132b4df5f362e1, 0x104563d762464be13f51050d3d210162ee31e4b14f0e37202aad99f8723f0ac0, 0x121b7e910a0ccb4e4d5f220628cd64c2846fc5f470a7c2b6ea38170b9d058b38, 0x2fd423fe5d1899fe054ff1b9684ff93540bc396589289388681b90fcb8e76c11, 0x298f732a1a912702fa4c4090d00861d99bbd4eb800b20acdf1c9d4a6c8226a62, 0x26f56ce61eaed10294727014eb88ada99fe5015c911705cf7ed7bd8f04269daa, 0xc316eb74780def4c7c08420d1a887d3f3b8028f2d65ef3e18822ba972a50c96, 0x1db5c65a2d669c928e82c2ba7a85213d03976e7355bd3aba90444c8d8ecbb108, 0x29fbe3f0b5d6936f4e42cf5ed294e1a18f7c597faefd0087653f06f1cd7ce55e, 0x133f5377394de76650324177d895cff11b4edb902724138669df63d064254274, 0x1762e6a990654a18eb15171a84030e43a93481ec520b86ff65263055551d19cb, 0x2bac62e64e374a494b9ba34ac9cb872ccef42966e1c98c9d12696e1b7b9caf0e, 0x1dc2f5d192b065461e410a353b6e9ed48f8dd9a5b59e0d4567add1ca1edbbf74, 0x1e78930fbea45070dc63eb82fa3b44feb8811842c8040f584482e5529b9c08fc, 0x1161dd83445bc4ac05e88f82b6d4b395dcb7bc08bef6bc0394e2860e1b91a45d],
    [0xd064dee824928d39f2a8be7d2fa583223c33995784d228839adde2559592592, 0x2d84302b2f1ce369033aa5de5bb8498f718102642636ea98a13d9f2f9e03d70, 0x3aa0b6d1722c2e927078f0d0d2a9e1651a387b0a50aabe4c3e9f9e29ce5808, 0x1851a25520c47c40439abf21fa5b9007ae1557a0d7a737ebd36922e1ec2fe713, 0xc88238b7bc582be65a3d9780b1c502a8b2a6bbfcf63863ea988e4caf6e75767, 0x1231dfe4ea1c60c263b7a7f849c8d8cb42c5506161b7fa87e527e917c942c5e3, 0x2ea0849f20d6ff258c0f184ca8057bfe236245dd4b8642c64e42ef4a1a9d8ffd, 0x1ba62148f57f420101c599eeca0abf930464f2c0444acb90d2fb96d3db62f7b6, 0x21f4a3066fad0b05bc69b92e00cea13278d1a5a67436c1f3f2139a6ee79bcbda, 0x1be4c6e03d2807854d234372f267581058b173ac8b3c7483c6e8dc3352798b79, 0x369cf9d45a15633cf75d2234f1014f60d1ab30cca21b0fc60af3c0fba6cc06, 0x251ba00e6136bd990f4db7457a27df54e6e6a986726cb005ee21e173dc9c982a, 0x290465aa219c5f39fc7dc5b210ce805d70d3137c43ab354abadac718f5357e1, 0x72153d3d9304bcb121e16ac43ba352e3492aa9264e39abd0ad500003b2c1a0e, 0x9ef6ef37f5f703229c7c5171a54a9e7d70151ab47b6312a3b592208c192cc2d, 0x1041b9436273bece36bfd9801372251c2e753b50485953908c35b63979d9fd82, 0x26afe74d2bbaa76d568a55b8fe35f02e5e913285cb5678ad631654ca03e11f22, 0xab136a0298a4bbe0d53250d7be1179123aa3f7390c39c08d76facbcf387efb2, 0x2154df61438fa728853b1e34064bf3bb988f36af48ac6097d2845a4ed924a360, 0x59b12d8356358cdf3690ca2259447a7147e0e6d33dd5e0c62293c1fae3c7057, 0x1a01646ed40505df3ebd020f7aefb2dfcd2b194d697f78eb2c6706193e25c783, 0x27080e00f575ea9dfced456747507b55a0612618d5377ba4745b1a2c007fc4a1, 0x3b12781eea743ad978032243b55ffa3c23ba980f8f1fe48f72ece1ffe09b1f7, 0x10ac2c9f77fcd414c3bea9acf7308733892b1802d061fbe3e5ac7d93a437c85b, 0xea74b2639185bdaa176c285f7e674e4ade050bb08aa1eaafe0a0516d5814623],
    [0xd064dee824928d39f2a8be7d2fa583223c33995784d228839adde2559592592, 0x42b91f98007bfadfc37f8c7be01e1e6d1a5a001f4163dec7e6fa8ecf7e5e9c1, 0x4f0196b4cc4a2fd24b603ca65fa4eb23ce4523b695c34e9323a1f55693f09d5, 0x20687749f9cbe6aef88c27b6bccc40204246a670ede772decba2f34a61bb824f, 0x2f9039a4b8b4ab2278d0fdc4b35679678b1d8243ad4bb814b8b7bc3e1b8a4b43, 0x6012407ccdb4f5accc26888a094e35750aa5d88775cdca0a9881e816fe240f5, 0xe35046c49cc56a7ec8463053e159925bf55109e8fcff58caff08765476d823d, 0xad83c2a587b98cb240f3feec78c6578473f99bf7224acc545793094333b700f, 0xbda24254733d7bcd642ef47c6731761aa67e1ba0ec64e03609d3652e495fcaf, 0x1eb04acee8c325faf51f6ac53200bd56b052e48806bc12513c165e90c0ea75cf, 0x25f00927a77b2fc8aea3e3df5a038ef8249bd29e7f6422529dcce7692efd6376, 0x86ff48a930b5807dacfe436fcc67766ad4253e352907c1957127d6a41b6387a, 0x22d31103b21aa0b791235ce90ef06cf972c8165bce3c68b3714f89446a42f265, 0x21f10bef68e2b8437330ebda744e2c3e1f26a92c3336c7de3b645a8f4369dc8f, 0x2e3ed873b0f6ff7facbee3a110baba8af030fbccaeea386ce3a960bb31a71951, 0x16d86751cd45d37bedabaca6ad75277e9864d3f6d30e4c0cc2dd25a9ae58dae, 0x3d059764e5aac685b59387aa484960ed4ef9639843fe308f8cc3dee87e3314f, 0x63f962a68390a818e545995d2b3d53f8a0a5f0aa23451e6d14b0851ab8bb573, 0x2d7df484595413f83861ed05f30146f9a4efd46b0b90f7ca9440e30c27c9b931, 0x5d966e25cf9cee974e405c86aa2a1b7ae63f5a8928e136e12249dae3cb12132, 0x16bda6eb44145f870e0818bf6f60a068288a5ef23da1bc264e01a11fc1e013c1, 0x287f1bc804ef51375cf720b680501f7ff1c97cbe98074ccc226d18bd5e18b381, 0x27b1edf001e3a0a8562b991a2790a5b48e3bf45f2d637ae7b5f1ba7a6ad5822d, 0x74ee1772d860b6ad09b16d82e458eb305228b24a28c70c5f690abbedf70d506, 0x218ef3d8be2c4cebf3b2c6a75ddf98e77d79729a0f9d6b111ac0895ebdaba6b5],
    [0xd064dee824928d39f2a8be7d2fa583223c33995784d228839adde2559592592, 0x2e130f21aa3bc952d00ba26b10b65c1f55c92f34a51e0d6d6224d2daba241788, 0x1e6f16db6a97a384c7164733400ef142c41deb040573adb8b0fc71efc2f76468, 0xda66242a6a2e27b519dd2335e559ebf8334bcb00614dfce963dc07fdd7612f2, 0x201d2a470fdb240a6d4008cfdebd4b579df34c273ffb66a52ec89962e1a59b5e, 0x4d1c70932221e3983756ed5d5ca38ef603caff2d2168f5f937c1510775b0e9e, 0x2a43db76fb42a082375f5e21c4daf3853e9c57d8627c2caee2d837ee857fc6e, 0x188d71e846b0e63c5d65535a6d121a9648d99af72f72c3f38bc33751e999918a, 0x1cb4d77c20517ccf346b92567ca15a4b7f7079a150a3b7fbc95b474d2c07d241, 0x2de6abda392578254c6c2949559b851ca312e5c098ea17bdbff8815ac4216810, 0x97bac96307e8ecd42940e30d9bde2904025715f5ddc8d6237691c3689635adb, 0x11ef6e021d4e1b51f156a1c1863d497c95fc1df010d906859d510a2c2d01e537, 0x54ed7f2b2e4cfea2ea62cb01379d94041481dc85e94cdc4bde08da9b1ba57fa, 0x16d8390b0ba3174141236bf21283588887ce3eb966b7d45cde064d5cb2a35738, 0x2db8640099fae4b29bc2ff73424df4851e33eb823b577e4354ccbcb1392ee0ae, 0x1de2025f4beb8b5b58acbe6126a092ec0a6f3a664325a88e9a28bce898edf98a, 0x21a514a8d477d92a308095092224f5562af41cf964d34be181e95370590b5788, 0x140ce2c9605e31576e464e6cbfc8c9712ec8fa2e46f97422d52b0b6401aa5b55, 0x20313b2273dbcf225f74da13f3e0d0909f47e77e53e833e4a12e439e185dceae, 0xb8251930e6623b8c062163d973ecdb0f171608c126c7db4791116621f2869aa, 0xd0b3893c4f70d16172884b37d6242f07ba39e4c7180462dbed175bb0db0714c, 0x26917b241a12390182932069a99420c31580ecf06449a9fe7871e3193cda0bbd, 0x179bba9ed0bc1ad6942990e43de2abcd2e7094d7d9fbc02dc2d82b50d9970e4a, 0x2184a1b9adea49757d59d0c17c369efdc044f11ffa1598f2f3bf4bf1dc7fae58, 0x65a085cec70ed53a9d53827c7766989219c6474bc5d415be1706e953de20273],
    [0xd064dee824928d39f2a8be7d2fa583223c33995784d228839adde2559592592, 0x13ec63dd902be70179d9a190f2e5f1dded28d2feda5d6ac4c9914c3bedcae90a, 0x272d4b6c21e2f7d2c83b28588f5b0f462919554cf4faab4bcc668ab86c877eea, 0x12e29b20a5157f1152c41c4e832287b963b6c774de743e4d3d7a5554cc39aac7, 0x2c73520466905c9230aa6968c6ff3d7bed3130cdceb68bc5a24e51da861c1153, 0xb370f950332b70ca2c247e2349d2e2e22e2d4a4f519efed6039504fa2b2b280, 0x1c58bd926fa20dfa0ed3b7e53fde4e4d7bc4df78d13969fac999dd858f0df678, 0x9d50596628e021f264983ab61a7bad3bcdecc9d6cd3ec46ecbd83bab569b66a, 0xad3dd8c790db77df35aa78dc84ad3571f0a70fd70b5ec02fb62f4a459bb7d74, 0x154ec11de0ba022622b33a918364a375f4632bbbd3a6c0c7b8fd77c3831584db, 0x2bedf29086a4a80d125df6fca693c198a424226bf0eeacbf4c3990b7ac08c7cf, 0x204ba94b0e1a592391c9fb397701c62d724b55d28665ff3908d277f2728c37e6, 0x1191741fc0fcbdf5976b32953adea3cf062a2da42a317f0a9907426567d759ce, 0x8453abba1a812cd70189049a362f26960ab98640e98233a9799ff9aebc15bce, 0x2faa16a34bc765b803fc320e5c9c3d60cc7a62bc4317fe5996cb5352ef391f08, 0x1073a4c13414e4f47e3dd58f411b86f1269b4662a27d153b2ea797f3af9d840e, 0x20827cf24daa915decca0be0018f95f33da122dbc9d31890b45831132296dff8, 0xc184be1457cd3f30372671039b63894ec186f79ac12d4155c363cf60da9c2b5, 0x1d1037585c8c002e4fa645846b83aa46d418a7ec475f36a310b5e93ef30b4f19, 0x1bfbe62e3714574bed5c8915cc913e23ce5654d217fa8933208cee6cd2a7a733, 0x9ac8a47968e147d7abfcbfb80e479a5aa83ec32fc9a21fd80277a05e36d6900, 0x6673e8c09274a6b074bac39a9280285cb628f4c90f329c27d3ba1d79b1cc17d, 0x2a513229a77a36862deffa4a24f4e1d5602d52e7abb7734cb6a5bfb006a14c70, 0x7aa8c2df4a2083e46169b3e24fb2d0a9867ea17103a19c13fc08f832aa17dc2, 0x212c78bf0b03c88fe1681497cea1b03064c87db0aa244f061d8135a365168163],
    [0xd064dee824928d39f2a8be7d2fa583223c33995784d228839adde2559592592, 0x3a58dde40365d7a0250fc75c67454329da04685e04a51bf51854954a6af915a, 0x70e75afdcb3d8000ab4d459e8be1c4c0dcac213e37c3443d5d33de59a31a0e1, 0x1dc99b8142e7cc81ec21bc7e5b37dbe2b29e69c290c6c67aa4fc3a7d4d6f17dc, 0x2f160a3625bcdb7eec2ebc6a27f6d3aaeaa28e9ab85df1d2c1a34126d2c648aa, 0x1ae4132fe8261cafe562823d0e2f059cf7917203bd3e1ad0d71b58a0f0804a67, 0x24d5f4bd7441dd4ccb80955ecb60b72e676401239370ad526851b7b2358809fd, 0x494f46648ee996ed2e7f654ae6c07216c090b6c4f3599c6eb18aa4e7cb761e9, 0xf5f67afb9c5934a2d662532a7ecbae90ad260df4189e76f71bf51ce6600ab1d, 0x135cd20c46aa1a429fae22bac540071d4baa5aa1f7cc662549c2a115e1a0152a, 0x10b14b45ef38b4d3bd1247e2da3a65dfe290fd02ff1a15ca598b05548d1f93c8, 0x22bfb1953a1022f21f1738c8067d26e250c3da6d950f0c17a26a420f898c166c, 0x22dd1a3efcada96371c4b909e8c42dc426e0e040d152910bffacca1ec9dc4b72, 0x2ec9e354b5f7415057e69782bd7c0db477b2ebc45909255dc90dd3e6fa157173, 0x1d176d1f403b4a44e598c6dc34fdaf9c08e582e542748d9f18c9c89887a7ca06, 0x57d65c1955ac40ed215d39c30bc61d015e505e3212fbb230cc61caf6dc9ca16, 0xc16cadb3191773117e0038e8fa48c9c200bbfe9f61359979c978de8dadb9220, 0x228354c24667b494d2cd53dbd85eef57c0b3621228cfc75ef08ee11fb331521d, 0x11dae093fb04008a9d994fc7cf27d09ec0e19ec3ad1d548b5e1d205e97de99a7, 0x1e24d8a3371d286d6a87358c6acd6757f732bd816b6c77e2193f456c237f95d3, 0x14f5fa99460312481bf2b2c6082e5fad5ac3659eb5a13978b2bf2a26627d076d, 0x274f78864eacb329a3ebdef354bfba6a7a5d20aa8ca57917c01d5ea57bf5e449, 0x1aef2197b2a3930a466c9f2f8ed512af424ee99cdedf0d939bf5323cc13ddc8a, 0x241e5e13407be4e0e123f9106ba3342a687e6c966d288b3b7feda4af532a422e, 0x7914b11b3cb937283ee3129dbde2435825df1ed64d760a62c30aebf0ea6d522],
    [0xd064dee824928d39f2a8be7d2fa583223c33995784d228839adde2559592592, 0x2ef64fd1945065ca12f48afffe7527ade3289ad350ffe9dcc51b2cb05886b4ae, 0x1e903fd8974ca0ef97c187e30a5dacd75151b3de2615bb2b832a6c81801e82eb, 0x20ecf1440148c2b31f9a3c33f59da812efa0755507284665a1d5d4bcfe47ef85, 0x15e956ab5a1c5a357e9de409a19386abbac37b453bd1ddd174000079b106366c, 0xde22a61fd6607441d0894264777d660bcfa0cdab9d1da887c81e70c7bb8f7be, 0x14a1ab44de8546185905ec2bfb7e9b0c8a330266a62fba53b8c5356cb5f20e76, 0x1427c18b34b9b1962db5e13937a3bbd61a2af9e9b3760eb42ae17394b9c64ffb, 0x276b0876d63e316c4eb32dbb64a4f4db99aab13bff6d666aa985abba4e9c0b74, 0x1856468cdd489ea75e75dfef8d33539afb3c3e8d57e0725554897319c692bf48, 0x23da22d7fadf8ce07944da0d1ab4f4fc9e2d2bb2ba50909ad99c86f556db0481, 0x1c41fdd0f5fffb3d99ddb3a2b67e62a13e0dbb521bb4afedbc54c7fda3406bf7, 0xf0bfb6289d76f0eebab2d4b5fd854e030f11672c8f362334290e0cd1f9fa051, 0x18ac33130e605df004d682d08f9b16b888f88c3e1562bf08a24f7d254ca270ad, 0x2befdfb192edf72525e96cd3aee3a1e54d4068121a0eb34d1064e8b7c8c44267, 0x7839fa38ddc35348448d92a9122d84ba951ccefcc88e2618712d4ef896b7a2a, 0x2bc35b2b57bc9b2be7b8a728125403c5a78c2f4d645da33b408e6cc79674d515, 0x1f38bf25ca2c67ef958d3e92a44c3b4b80b910d3e10c3d0ee768f28628d6d7c1, 0x1cd11f045b25737df9183843f5fa01f7b5ab00714100f0a05bff9372f063b52, 0xa7f87799313df2c5edcaf10983d8abf938467fa5df74bcfdf0d51efeca406c2, 0x718d416b20114551ccde2747cb6b15e889cc3233fad8a339465abc3273dac24, 0xb45368b0cf6a77ac6e73ed23f94d5f8fb90a77421972dadc0d70c17ce39cd62, 0x262dac40e77efee5a07345c63e77e946aa5d7640408dfc0dd0f27be77f97ae9b, 0xea488fc1f7afec912267c19315412c10754a080c11a7873ca4d027935fa8b89, 0x297db1b6f71749696ce48fe0862fa63d5f28306715a19762ef8ba915b9fc49a2],
    [0xd064dee824928d39f2a8be7d2fa583223c33995784d228839adde2559592592, 0x156c90ff4f955e0fc967223524cad6608e4d9cc8715c249c3492353730d500b6, 0x1f4644da64c00905c3a6e15ada27cf593998574f6ee744e85fa9723345632886, 0x10d4e58ed6e17089661c0bccd2c4564df12ebd6c4a88115549e7147491c671cf, 0x2ad782fc25c4f0db520280f8dd92871f7bed6d0e23337d36df2141fbddd7049d, 0x2928371625d6dd4de31102aec7726a15d88df0da173ea8a047e46e4562162e5e, 0x2665ff9e95204c0eba710556e91dbddec9f5060ddda6e898a06b9078d170abc3, 0x110d5e6488836ae4bc344cbe2406f494dce067adb21d69eb96b43bb7083c0b1c, 0x16f7045c1cfdb025d926b966bf994728ef8a9647acd20b245ea1c41ec07bd704, 0x21533d8130aba1fda6a31d4be45e3b6f27e1165cc7acf062d9170a874f44566e, 0x29b6d6e0065b8aedebd2048ffe74b6ae857373d583adef571b7ef4d8c1376cbf, 0x2bd0d29ed27a49e3cf5804bc515475bd2482830530485f253279fe3df313651f, 0x2e5a5bc179f78f549317605f271654bbb727f5b35fa38918a308374a221b30f9, 0x17aa3fb8d187b2f16771319c0890cc9a814c4fef3c8fd90277eda73a7fc9c1ea, 0xfecef506e9a1c5363eaabd2e5d75ff06657ea4a701577bcc0d31cec282e6e99, 0x104e7bc5cb52c3949d4ced53464aa25cbd419273c7159717d4243b8ba3e66289, 0x2e2d87bbd2649ee3d7feb4a665a658432b9864c9a4d3a5b52bb2813f43af845b, 0x2a737d085c1ecad2baf1eba7d7b79f76f3385ec88cdf0d8823bc721e7f7d5ef6, 0x134ffef044d6db42e7de09eb3151188391d4a52ed4df145749fc20b4d0aff94a, 0x1f46b43cc2e57fb9f22aeb6cd6c9d671cfd6fa043702b613f3de6cf5dcd4a648, 0x1427b946ca939159e1f36e6a4e88d850c84f00698173d8ded2dd3a649ebb811f, 0x20efae422eaa4272a255d02f80c304ceb0eb99dbe70e734901ce8303b7e75996, 0x1fbcd3f2b5a6b08a9f835d2c56ed46fb2b9b9f0008e71fad6f072cc23ecf4e73, 0x1ab1d914d85a78fbe7db057ad0251cb103d0f1fe4fa9f1565bb1defeadffb560, 0x185d3cbbbd397b4202e6d2d23a5475ef93aaae25e9c720a849189b38475f3ebb],
    [0xd064dee824928d39f2a8be7d2fa583223c33995784d228839adde2559592592, 0x9a33338a814ca4f92e0eb0145510136d27d1a970e859c461b90350506c0ec73, 0x134919acbc6872a886527ad4607df32a93f8d4f86cbb15cccd389e3cff0d5595, 0x2988cc231f59a14253e978202e190e60904d3641819600eec68e3bad58e6321e, 0x7a7e7e0247dfb327857f6cb9b2cf9102847c8c16209be817cc8988f4aee731e, 0x102415cfc2e84e3b54b636a1125c5acc86ac2414aa2a4a36fca51c0902e99a2, 0x1205491dfda96dcd74d0ea64c9d05b74a7eb0b98cc4dce972e3c65072ec779b6, 0xadef8dd1998f07ebf85734cd2d480c380b3ceee9c1669827f9590f1767dc148, 0x225f99bbe94d5c93ee09123f4655dd2d6bd80aca624e4d8f0a064054e232848d, 0x1e8c19265e6565151258ea11206b5d8a9356cb614709c31e4167046d52dba14b, 0x452cbcfd4d1de35a869a85ac1013082dd4ac1470e430452d4a8ea1530f5a3a9, 0x29bb179886a2e49631442fcaf681e790a8903c96d1eff6647945ed626dc4d68a, 0x1e06f246e926b517f3de008067cd6bc9f52e8d382c458098bed8c4d2cb183ed8, 0x92a8624e09cc127fd7d1a32aac8383e510e37d6beca3fa117cbb1355e6eb8ae, 0x29e31cbd24fa9de5d401438492f9b920ffa56adef762687c61ea562893ce02e7, 0x1d47bb665d1bf9254c3ea59be757187acbc504b5378076fe029c4570f835722d, 0x224f1c92c0c3e84e360222c40aa0f4311563bbf62bc9f255a3d7641378a2cb8e, 0x1021a099460d801d171bb0db1c7972013146d1b09625f028bdb55242d8c51f8c, 0x1cd67c97e764b8097f62c6402fccdb45a9bd18e0bb4b41ae08c2a25c276426b, 0xe5dbdc0ab1a14125d19d7eed9cc36af6bdd5fe07f8ff269842f0aeba902c2a1, 0x1649e0489cb0aa3844e97f61bb769f039f60b9638524408e3425b3f030b5b068, 0x2d8611f69f27f599ac672277c1f0787005b6fe3c162d836637fc1c890c6c70c8, 0x19a828de992f3bb86650a8a9f3844ff27f70b612e158170f81b7e6b6f4eae660, 0x157a427811761757bec0b2decd1c28acba88e70e8e2b3a7b53d732a471572981, 0x1f66ff45f17e0ec5690cdff99c1ae5d22edbb0ae12aab18ba5c1adae5b36e52f],
    [0xd064dee824928d39f2a8be7d2fa583223c33995784d228839adde2559592592, 0x9c9fa00fddcf694e98845212afe04048b34923d4fb41d05f99d24955c609c01, 0x1ac154fc3f42165840c54a350d8243a3a28f55fd038dcdff628c52e17f72aa94, 0x28859cb23ee55c27bc363dae264a0494ae77617ba92f595dfbb1454aa2678ef, 0x1fd179a66fdb3cb0a06e90d1404c50c38d2bacbfa030bcd0b26e6ae454e3f5f, 0x87dc7319f4e880c7136373d13fd6fdb2e433f31e099efdde56de5f8297a69b3, 0x1a93bc3018ec7d3475863fdfdaaab0233df37c3f6da5a966538b13818c15c43a, 0x1174a66194739850644d05a902b25d188c67ac7bfa816f1a3b9b73ac9731c400, 0xfde9ecbcc6fb8a9ce490e809277b9dbb717369641b96f84b3ddbaafa39d1731, 0x21d4b10d2e577a751a1284d0d079d066f6bb300db35a9289c5f5eb39e1e4adf7, 0x1b491207581efedddfcdf23376324b9969e36f6ba8018ec2eb055a5dd6f4f8e0, 0x12490e92c38fc269311bdc1acd2410502ac8d7b3334e65ab644751d1c6e3ba4a, 0x3c569375b94a021a27a56b34dfddd14c01f7feebe14e231e53eb811c0d4fc89, 0x12f5ebe6a436e8551778858bb53f9780439eb09fa2ac457096d7158e7af3afb1, 0x2817dca315e7d8c25ce85bca47ef2424701c91df547407c8920d4a974eeac9ce, 0x237f87fb2661d3a16840d8b115116d7b61d99ef94043ea2fc2e311f63bfeeaa8, 0x13b8b1ac45db6a26c854d447f2750c09dea12c26f6d4083e9e8b3df2428aac6f, 0x1429fffd68050249e1275110a16addcfb1300f294d63c0b50b7d4764f4797077, 0x27003d2b7f980530014a1f5e88c4cc2c4178613f657c2b40afc3816ae14e4e73, 0x1e7c9269b68e8ff2ea5f21c376fff7f3c1dec1df43a0207dd41aad1ac7213378, 0x73bccfee0274ee3704bac0788527f8708883699084d3ee9facecd19acc02d5f, 0x1a23c2e99e22f60e0ecc9dbd269a6f8b56aa74bf318961a085e42375d92823f, 0xb0b38a1ee81114a35eeeeb54d419459b1729450789f14202fb84f009f728206, 0xb08bf53cdcd498a9fca9a0775d19a3fab7cd6f7709f007b0d2fb07d8ea7452c, 0x1d37550ee8724571acc9ff409226d2075544fbe2b38276726ad1c8ef3d096283],
    [0xd064dee824928d39f2a8be7d2fa583223c33995784d228839adde2559592592, 0x8fce6150b67f549ff898958587c36655277440c4c8bd9565a7ba547580f81f1, 0x9a3d90307cac625bce9dd71e513f14642153c7c4a411d59f5db597fde888b44, 0x5e2cba2a305c29ccfe1a49bf1cfaa3f00f097ff163feb7308c40ac654c594a2, 0x151eb4fa0b1ce608925e2459726afddd5ab7982d4749e6185e5f033d1893ade, 0x2e3299bef41097ad9e56203ac25eb52612145c8b411375b15be4c60faf9a0e8d, 0x2b5a4ff11bba3074f0e0c3dd34eb3e21bd00c753717f19509c49e2ca01ee48ce, 0x1ec7a76d764fcac86c55ce076344f7bbc51826ccba7e90ac703216841fd78931, 0x19fe7d31b79e7b1a85ae430ba472cf699a814227f0325d957ce13df654430b3a, 0xc1066dc7ef478b2ed0fe10c9c7a0bcb9a7974a4f782d03f248087fac50ec851, 0x23b371f53de43570805ed4c382a4e2afe26207f1e280bd963347f973cd8e26b0, 0x15b58fbe273944415ee68b4e237fad7005ced82fd6c2f8afd13c84eb29488b19, 0x23d8929ce30fdfb078938a291dd88e7f7a802f172c7f9d792ab7aa6ed0866b77, 0x340691f3b793cee0cadac0b96aa26bc7072c5d1815117e302afa970e6449ef8, 0x274ddbc823611ed63e8cbc2929430d025088373ac3be564a44a739d11e4b6ef3, 0x23a37eb726b1fc29841728eb657191d290fa6aaac92636b177bc582465f1af43, 0x18ee2248d9512725ba90308696beb3102e7ea86de2719d2c52b4efc02fd0223a, 0x40a14cf4ef9e74d44383ae681c3ab35d7c6cd0ad5d94ad8fcc5050e203ee6bb, 0x2cb32996313c6c6cfbcec54c4f5d5b5057bebbc4fb0c103b9d1436726f0b7083, 0x2b7dafb754789ddcb1dec0ce4ec50fe340d6a3a37c8d81bdeda0755dcb14c344, 0x13e442da971a4c71620b80f9cad48d7105535596d4b8f1fe550c3ee07328c440, 0x198e90225a0ed6b87bd847a0102a61267f6cee4d77aa631e355cdcdf93b477d3, 0x2006cc86ed54bf7a5fc389fa5bca90dcd5269aba4ddeca95de1719ed8ab63777, 0x889ec7712c598251a59839e389dee66f6d9946d275a60c2ea2566cf586edf98, 0x511826135536efaf9f5f21aee371125bb78412a608bb6c2b6d97882b672a08a],
    [0xd064dee824928d39f2a8be7d2fa583223c33995784d228839adde2559592592, 0x2f10170d2aac17a22b211248629533d81da00ca55cd8d70c6fe1b0689aa550dc, 0x2a35dc09d4488fcaf436c893a13d4489677901a07f875537c538048ef51dd771, 0x201b1978cbd392f6ce28a5c8d8296732f503ad63e6fa616fa639d7010f2455bc, 0xcfdef165aa6bea35bddbdd97133f24fe5861913c9b6274f61bdb8ba42e68ca, 0x24a14555c418ce41b24b5bf1430ba76791abd955022ba31e9ad2cc3a2bc72868, 0x58d12e15c9d023ea1348b2dc5c9dc2b43c5854d72e3fe9841e1a2b084859ed4, 0x29e5bd1a9bad6bebb5aab55558fc375c88a8a84cc5d7f3a569c7553f6b4abd29, 0x1d203c249094728621279f6b8d53a7d2aca571edeae202f72656ae21c825f638, 0x1cff362b0f9265141da25915b3ff9e4fd8b33d301a1cfb4f606b475fb5d2153b, 0x6c0b55e10a02f6a9e5e8653b6f52029e076963f51f5a7ef4c2483781303db61, 0x29baa73ca3725df97d26afb6e2a1a781059b81f8109082c3db2d2d076ac910a1, 0x16bc71cf059b627baf4fde8702141c5c2ac31a8620a25f36f0f479a2749be7a9, 0x1cb4f4979c4ba37235dbd8de125bdd0bfeeda74d1dbc8f87a9108468651cf8b7, 0x1d9097b4f48e52e207dcb5ada14a004918dca62a16f28760d0516c3ccc9090f8, 0x2cf444d1a5c6ed508013d34ff40f271027c9a9395cac64e6443cf88ad7481201, 0x1af6065e84bc5d9f653c36a0c86b0f0d9fa8ff396c0cf722c97b8736aaf6ff0d, 0x2e2c4ecf622db6f1e55623697c70b3dac0850e0369a2eeecafdca37bc120d719, 0xae82700364dd6c301ef26d8440a1e0fb71e410355cbf7981fecb0e8ebf439e0, 0x2b3bc2007b383da42e4f34269a47f629392643c0fd903029da5d60540aece8cb, 0x9bf1b127c22cd17f462ed4972af3af610b5beb2818a9f405d852a168de34c87, 0x1230f23e20b6011d5c3871017482fd38f82923d9eb4fbcf6c4c12fd744c8b7f, 0x1b47c720f543277cdb27fd57b57e4a88be4a17f9367f5cc58a541ecd995005f4, 0x2550ec7018dd8a12e43571625d58cbffc02e10c95e0e9297ba171d6087dd799e, 0x2d357b96b3252065e81b5f1406be8027ac20d3919c668a746fec4e3205260dab],
    [0xd064dee824928d39f2a8be7d2fa583223c33995784d228839adde2559592592, 0x8500e01d94de904d7223966859b160af3f73ee1f67208935a726ef1f04a21b3, 0xae88a58cd6d7dd1d38d427daaf10cbaf3be27e5abc2c2dbf94e6f4782cdfeb7, 0x2356cf14cd716531ac576e30978c3e9af33fe0f5465c6928a70ab06769fb7c2b, 0x4c9cc7ff1e61240f1c0cc8239aaf4522f564780415fc47bffb1c28fcdd5efed, 0x2ac119534017f94c103fb6199dd0c4bcf237d435294d16269d69dc39be170eb7, 0xf0389ce2af0f62066e0f0aaab541c7f1e013fa0edd0bad0c454a9befcff9b60, 0x1df984d5fed72bed8d287cbe3bbff9ac811b56155a8d8f768b7222620bab2ab4, 0x2464b6b8837edd47eb61562a8c1339d59446dc30b12bfe3feb6a676a5754fe1c, 0x11e670fa739dc17de5939770830d3aca8a79190d413a8a69280275aa8848096a, 0x8241341db938388de2e2f02c9f6dab7f2040a2a0fb2d674bd160c8fcf7513e1, 0x215ff7a8bfce31939d8413ba030f72544092ebfe06f99f61100a6def22089576, 0x2c7cd496518937ec37c1a7ce9e231f15087c0f266a2b6d894bee197b94b9cd58, 0x9bc5b3a291f8de24754a6479956a704772bb305f1ab884a7a57a49c6ebc8d97, 0xb15a0dfc22c6eba5d6617504732df69e30cff2c417d0dd2f1cb49545a026368, 0x299e24a6a2df4e3dee797a9d9b309af7f38aa11c61bec87b3d9e01bc1b283474, 0x14a1683e0ced5006fb58bd5f1e8fe10b5b4d5db8af6ee11f3542683d5cfa0e6e, 0x25595e5888505e87a18dd8e2f3fd998387901198cc9823557e34167d2b6f4220, 0x1a8ca160cb03b1c6e074c7ea982b1bb406e4b996a70f430da8a7855435dbcd8b, 0x48fa511c78d046fa7b3f960ddba5eb39e753e40c03e026a13fdf2509362717, 0x28606b25ca030890e0ab9d58ccb09875465d368c8fff1a9401a18a046d929341, 0x99c988ee50b5a86686570aade7a07d7f3de7d1ebbe4a72161214fe1f59501a3, 0xd423b8393f806bb9445a55f82aaa3663b257bce07981b55a9dcc640f9b3a6bb, 0x20fd15ccaffbde08b904a96f9a18ce5e411128da59c299ce6a1886ba554e8858, 0x2b8b731f93bbfd2ddf132f1b9f37f820ce2efc76485de21bee2229d03d986e54],
    [0xd064dee824928d39f2a8be7d2fa583223c33995784d228839adde2559592592, 0xbcb4654350348f216da47f8a9085a24211feb151a906c5852a36eb7a590e5e8, 0xe0bdd096a483b3c7159aecbfbfa52a4b66e7704b05a7df05c3fc79bec0aa903, 0x2cea662f7c24e8a6111990ca10f7e539dca435c022fa5447ad17f1407b9e2c3e, 0x260494fff3079a35eae887c593cf5791509815ae31538dcd7432ecc6c00dc0ce, 0x15c010a4fc6cc1e54cad7f89188e2392df27f7d6fceb4958b7ac68c23b8deb0f, 0x2f199edbca4bb59669b0e4ddef33a7b45821852699ad8b03c8d3dddd75e8b58e, 0x1b63017c3c4dc94e32f7c17d67a31901875b20dd6757cbc80eefd96bbf73685e, 0x21819c86119eee2a93533cc0557b7095119a6c6347e702aed6c41cdeb5436677, 0x2c7ae6aae298a99a0dc53e2a0aae2cebb636e83e80f8ec2c0ca5e6d30c0de075, 0x241559cb0c89c416bea1ee0866c17aeba29fdeca75ab98d2890d7e10697d7eb5, 0x21de885c1616f460af9be2385dcb90a8a471f9cb4a4be8e76b45d0d0fe3f8e50, 0x179ba320374c3c6c268f02176e13cb0d883f1ae24b145769035ba0cd28879e67, 0x1ce20457c1471d83720591f79a33979ae70ee1e3830011d9494b7686f90434d5, 0x9bc17ede919cfcad02017b4c83cc9e1ca6d4695eaff8e983c8451643cd7eb5c, 0x10993c2085ece5f1f09343dd532543213ba3f046c5a39fca941374a9e8975c19, 0x11e0deb1da2857341a2c4e2e59d5731fd240da2dad90a1e815b706f926a8f657, 0x15313d500d879d6db9446e5465f9c08112330c9d1dca21b1cd298117456dc175, 0x1a3da97fcba266c29d2f3b755892c4438cca1703d3685fcd263728372eb19dda, 0x1ac3bc17591802ccf54210da2d2bf627725e11a8605503966732d16d82c7c0b6, 0x13fd9ff54bff1a560857af2a620b2cb2d725ecdab99603c58d4b3d8311f86bbb, 0x10cb890d09d7922b970d479473995d79d935256c9fd28f62212104d69f3c38f9, 0x131649c6c37c467b3f8d6bd684c6cd121e1414ce5a2647fcf8d29c84fb22646, 0x2784296e81cbe1ba5262170b35d24f5a9f428577c73f51888deee3bffb1245f3, 0x262b646e6406d39067ecf4cd1c4e7d6dbd8f0929a1fa778906f709b8ddec0a7],
    [0xd064dee824928d39f2a8be7d2fa583223c33995784d228839adde2559592592, 0x2b78023b50bcfbb73b4497ddb0b519c703dee853fbb53438f906e8f03379822b, 0x1834d6485429196629dfc50775e881aa5bc653d6186ebeaba1fbfa70d5459977, 0x1e223eca065f07910015985c8185846bc6104889355c02eff9966f18aeed7383, 0x21ce2cc395f1ea9eeb8a83f76d5ef268964304f891db51b907b57a39d40c74c0, 0x3010da41b7bd91017bbe2f73f28d4847f1b15f7caae6f197c51aaad94942d5a7, 0xfc7aa208e89f615b2b5ac6c1c84db0c87ed0354d3da012a505d3718205f8898, 0x13153924c0fe679002dc1912a9669bde6c0bfc56893155fdf2e96e05a186b0aa, 0x1e7ec9ca715167872d062b6a2f92ad6b425a3aeb45e5a44e0798451a5f3c6af1, 0x1839eb87798ae0b89e6ce405734b770fa2e6092b0670b2f59fd93500ba32bc1d, 0x2bd925800a8f95d0b2b6ca1ae4aeca0fedac4fbc889f464be243aef61e35d531, 0xf1ec631ddc6f753f4288baaec5d90881966062d8e00a94d1c35caa5c1f87d81, 0x9ab5e15c1e1cf58d46c55f0df4fa3a56cf3a41e52664b1a125bf3388887a1f9, 0x2048f6f68b4dd0127d915cd6d7056a0104145aee77618077505619117f588ded, 0xeed124614cf28d97c99c85a0a1456d303c6cdd2d2703982a42dd688b65559a0, 0xe8fbccfb62b0842aaaaae01e8418d005687d3511606ee56c978d0dcfdebd825, 0x7823b7784daa9ff5853129e7555f2fadb3898b5c4cbef6f4dd5d7e8c78bb73b, 0x161e2a1db0ee0e75b26abf038ff6ba8b396d0c03d27b794a2eb64394680db0ed, 0x2816d7a51708d99490bd97f5443df9a5203608feb1bcae4268d3da1e5198dc79, 0xb298bfafa57aebe549b8f2b0f98554ae00a1761427298040bc8104ad81843e8, 0x5b5779be0c8c88b6ef985df851f754310267048c6e68139baaa4b41d02cba63, 0x2954e80ed49eb91d655f32571d6ed24724dcd6d013c62fd8daa0661b4c2e6f75, 0x11f97bde1a830e979a7647e0eaf37967f2fbc2952bb50ca4575961a34b43ad70, 0x2edabd7a99b98c5f9f8570c778e460dc19c4accd2de09381db2ae25b87affe51, 0x285b59b5e4153c7188c7e918dffc0ef798d15695c9fa2921aef01e87bdf9bf98],
    [0xd064dee824928d39f2a8be7d2fa583223c33995784d228839adde2559592592, 0x8ebe850428b3b2e7534420e85cc70483a11f33d2b5fdf04f61382f7a12e9594, 0xbc84e22a29a0c39bf8854d51235e45e1857ea3575fce20e891ea92d8f56de81, 0xc546f855e8fe5529a31ced2d538dce04cbcc05379ab4f8dcf5a05b8e0030f98, 0x4beff2ac6db7fc5ba1a66114ef2591000f8822497b661cf15e052719c05209d, 0x17fe23f62d221e08af428582244a3a31d64a2fbb37f58f8e94bc719b2c4291e0, 0x129c6ab33dabbe60b52c9444dedaa047775dd01de878636cb80b7d014fc98606, 0x1ecc6d3b8bbf86ab614c85e5cf2c5dca31d86d2abc8ce91af23d37b52ed78562, 0x2fa06eb4828858d3a737fa5170fc77e726e8a0cda438a8925fd55e593e204419, 0x123d6c4cc8a7fd77c53de32f88e0e06bfdd78986842c8691cf7f3aedc43fccfa, 0x29638f75c4d7ad4d6da92cc3681384bcaa6bda0aa14503de403f330f87700abe, 0x2ca5b3f0ddb7a5c6ef388e33e501e0fc41a8b16858bfeb10882bd838238ccde7, 0x1e7e20601229dce04a57f23005d7b8ad0375d4efabb3e276a38a0cb2cce2b7c2, 0x1bb9781ae7d7cc141e7b72e2fff39fef57bdfb922f8ff88bfbf395738bed4043, 0x2617acaac7e8547ebdae0bf2063a2056e5b42e39283fcef6578b256fb8ae01ef, 0x1524426376418adb2ecbbe82913bcf05a08c0db6b1f3d80b5ba1771d72b80f1a, 0x23b9a081fb49052cf4b2521ff600c471b22cec1c9b9c32097bc91192099f0b44, 0x1c6cd0f87731287ebb12883e63991ce5aa8c768499f5c976285019b41ad6a272, 0x564f9765361d0141a69ada9ac521ba33139a1bec81b1c39f9fc79d56f93d89f, 0x18fba1f537d0bc06888730bcff570f62c8eba352d2890666846ec5c102bbec55, 0x2ecd94fddc5654494fb41d46c4c91d264b3e17d5f37791df25a42cb680e12a55, 0x25168b700310216d4ec9fa5c3e3514e712d694a46f169f7791bf4b01cf23fa0d, 0xddf38a36dac9337b4add0d9a33a2c589134aeeaf141ec5a5b059db0a5466905, 0xee74216109c48451af32cd7914b41734bdcc37c60e505a9845e5689313cbdf7, 0x20b4aabbb4bbb48c4fa8155538d772088fc0ccd14ec9ed274c7f3356f9799e0a],
    [0xd064dee824928d39f2a8be7d2fa583223c33995784d228839adde2559592592, 0x18de85783488e68b46584675ff74d2bad45d686a789aaf80f0ccf3e3c331d973, 0x23ab29889e8aeae37282dae6aee3a16624f058208c74af503deda66641d5b82f, 0x2fbc8d06de03926ff1c3114b375d87283388625872b2966b781d26fb2ba5d7e6, 0x219e0c4d566bcb09609118df2231e65e9e95f6b6e1c6149617acea7083fd9ed7, 0x5b21b2c119617eea6edcd24e1feeb1cf75560b65b80af1027be2e1f14a15d9, 0x5456d41afae3296fd4b13f8a096629d0b471691a4a29d9fbe2493c3ec377ff, 0x14001dcf0234cbe8b3cf799bce377883176a4904360f83fb5908b5b7df92a447, 0x2a5e9fdb1272447d7e50bd0ef668bff9fbc860f191c1e0cad1560e74f6d231c, 0x22949879c5b83ea97413d666ae0eb3739decdbaacf1a33742bdc04f9e449f2c8, 0x21eb23c8742f8d498029de7d0170a12a031c49f992f07a96af0494454e37d96a, 0x70541062150a2f25267a8476f41bdacb2b3579c7856ba4904999f92d0b32bf1, 0x2664518ca87044340bfd8c5a7c2b863601b8226dd566368da36b808691b9454c, 0x14aa81c9279f3505b744bc86c3acafd4c5b03da18129f6a2b67d73a9d8e7b5db, 0xecb94b163b561ad361efd85db88614c69a89bf74f5ef3a9387556ca3343a303, 0x5a6d9a1efabce0a10d3389ed1571283698c90e766363859acc910968968b676, 0x16b4dd09c4b2b3942c0019d9d39d4212626c492b7c0e7178196899f497f83082, 0x460784ded949d3691d5bdf7d6029ece2deccf562f0e12482f001714895cbc9a, 0x2d634ad66906cd6bea2fad599e45912c992901508aa915f0c219d66373c4f7be, 0x1658eb086b54351ec3573b8ad8201f5a4d1f0026b8f04aca66c44c16e7516ef9, 0x135a011e081cbe5475a1d316b78c724e181126ef44a9a352515afce9665a9d92, 0xb4bc94836903c9787cd22b2962a05c42c7bd08182da579e277ec3977418fc64, 0xa0a37d07785069f47e18f245effcfceb19f2405ca009947c9d2cd95673d3caa, 0xf8ecd23da135c880c76d216fbda0267d32aee2b4a8039aa5783034d66dda113, 0xe88eda335ac1a2204aac356a58a3ca503ae4543881ddd282bf7492f253e1930],
    [0xd064dee824928d39f2a8be7d2fa583223c33995784d228839adde2559592592, 0xa4da37955db5d2bb893a0919e4d928361880aad89e87973b93638d9f46323dd, 0x182420fd6b1d8bb94b35d9587499825eb5055d95f24c5a061f56af516e71c5b8, 0x12ed236d1a3dec40061f9af7aad3cdbde95e5d41763d8b235c665d25b01151ca, 0x2d2c50e36f2c2c402493fd98edbb914d591700011d383e289384c0fd26e46088, 0x2e8ba0e65f5ee53abb58da0c792869bc7429749fdc88ccf7a429c1f35575c11, 0x8491031ef5da5f6a50fe3e9fe4abccfeae091ea0992cf72a239d0dcc7000c0c, 0xf4894b8ed58741566403ffb6a468cbe036e365d3b391b72bba73b3f916aed40, 0x22727bcc3e3f1e76bbba95aa7aa2eb558063af92b5f624433aadbbb0ff33c700, 0x1b120f999042730b4d2e9f4e22c528510cc26f6076905f37d5a3a6bfa19fd87f, 0xb37ff36e5153c7abc2c0bd36db33be84dc7378340a8c6259deae5d1422d2f76, 0x1655564966b05b47d171db24f81917a2296777b02cb30f893571217662009b93, 0xa64dedbf4dabe0685fb8e4bfb4db52e4a3e1bc178bf7f49f1335bc3cff8fa6, 0x21a953f0d0ca1d43ee920c54a8a1884a2dc58366e195f4a03270587bf385ffc2, 0x228dc2c9d913d4f4588376be12a9cf6d55d7c59a14a15f9b8ebf8f0cb801a264, 0x2b487e5c9abb4812830141572d8b1936b4b8cc3119a0038f773f3bcca83d49b0, 0x285712493e67ed422052536731a32ab1920437cd807dcd658836beb912022bea, 0x26c1b715b64f4ba9d47c1f97d99f91ea4b83ea105203bb5e4bbe8b3e6fabcc95, 0xc188a42d4758ecbc3d35a73e735f3daca1295d0d93d01eed6c3a085ce1d95e9, 0x2796103374b26554557f1efbf137c3caffec020e1de9d2e75f8a51b5dd52524d, 0xe1523d8bab27bbf5fdb85ea4eeaf57bafeaf50481cdb89b80483698d4b47604, 0x172ac77c37aa38790506830facdab06d091a9a98ba0a445020d87a548e68fdd5, 0x1ea828b052ccc8c21c1417b2479bf21dbbeb8b07f1d294542e6b776c17a46ca2, 0xc530e36f104f93cd29e9d5f6cc76b4982c8f06d52684ec9b6b6dbc6cf3e1618, 0x257497d432a5ddb934157c1cf3218a104aa3fe58ec7de5002f82be85ff4a2992],
    [0xd064dee824928d39f2a8be7d2fa583223c33995784d228839adde2559592592, 0x9b0b4483df9298317fb5b068ecf3291dcacddad122d4f98ca84868cee25fdf6, 0x1569ffd3186a443252de5569661c3f8eac7dfd987568aacb86e576d3f6894290, 0x2335942544da68a26bb05c3c44845f0e9612fb8a6b33a4bd81b0da1811b1538a, 0xf3fec305e46f3dec280a826087df17baaaca704840038f56f94f35406e6571, 0x1c4fb366b69eea6c1ad580af7130f33ebe1ec91b044ea1c5697bcde572bfd4e2, 0x11066a30034b0f5a0ac2e2c5d00720c5e11c1fcb71fa57e7c8dac938e7f4f8ca, 0x136aece7d25ab58170f452dd50dbe69b1f9a77f060fb99b0e299e9bdbbfd244, 0x656fe108785a97dff386df1e4e2edb6d68dcfc9cb961e7d44ab0d14847f3810, 0x2132c9a946b2cacecc75bbd0b90e0fd7f1c864ec818a13cfc266379a48740a1a, 0x26ce19f30359f871b860f7e740e1361a8dc3d4faca80890059f68742b50c1bb, 0x7b34bb73c69a8befc171d04fdc512c2e6d29993be2aa537a5a927503d327f19, 0x1d2076ef57a75151297521fe1aead57b361a0cfd90d9c56e5a4d94a03aea4d59, 0x18b2d7645f44465de9d875354716726e36f092b43e11aa2feb4f749f5cc30552, 0x29d9e936a88283376c4cc4105b7bde94ec648a2b02c4be0325ba0ee4e8e59466, 0x8433318e395064bc720a18cda24df578cab51b13834e03f8303e988a8ecec7f, 0x2981efbb1e761374fcb20715527de197d32cf4d87871619b505d3f5f67e0cfbf, 0x28a84e7609bc4d9de494b53068730c0ffd154de77011ac4baa3a00bc1f565c94, 0xb98fb0a42ca497662d3655e0f0b215aca776b94b0e842e7cc7bd80f6aa01470, 0x92dfb1809ccdde8ecf61a6602a69fd7ab9ea0f883798425b9ca464637ca1feb, 0x2229fecf42ca2b725ec5ab861ed051b30ad8dd362a8445e6e7f6e6d888cef6c9, 0x2efa745708462a56d941659e4d63bbf2b15d7b5cb00f57f7d96de4987e0eb545, 0x1eb88f6512326db22d5bb8e8ab1ce26efb8b551f8d6010438d0f26f972c9c868, 0x357f464028357825ef34691fc07baabc77653105a5f895777bcc9fef6e4ca9f, 0x2574b6b6eac59402740cd9ef0f50e229e4db641825d2fd7f0018dcdefbae67d1],
    [0xd064dee824928d39f2a8be7d2fa583223c33995784d228839adde2559592592, 0x22cd7ad481a520d21e467b2fa248d2cb54462c3dec29de294a16787befb181ee, 0x1ea716292c21b4a96dc9e245738f17f364b4a9dd5cc762c7ab0a24b8ce63a95b, 0xee07db295084e877f193bb734548249c566945980a987e853cf283e0de49c43, 0x237a31e787ffab6bd803d4683ca9a5bac9ddc21219d119d5470a45678d916af5, 0x22d591498fce7c5903d695cb79fdcabebb591fc68fe7a8ab4376279f3c8799de, 0x25730debdf5daae2460cb78aceaac1540d1b32c4ac3fea8494a832c0ab9f4969, 0x2f54afcc0ab9ef598814c0a9f83a16d44ec48ee96a06fb1dd7d8414ef40bcbff, 0x110855e59ebf6c99c61bb7b3728db0141b0c7eb6877e3d867433277bcdb12ef2, 0x100cbb38383038a7f72dc76e0ecb80487a1bd2afadb85eeaa6c4b38a6e2460d7, 0xcf9ef03acb7eeee16d21ff6eee6b658c426551d5a346ec3d2226a74b9bbf085, 0xd047f79f1c409f542bcfcac407087dc0968f9e0b82bc760d1ef72639bf0d3b3, 0xc8d35b27373860acee2d851f3ff195897a5429797a40948ab0c18dd279cd35b, 0xb34d4ccd429b28324635894a84e2d095c29ad520bc5434bbc004e43b79a3f90, 0x15aa8094e890c3ce98ce64cd97f7c21445ceb3c863bdf8a788d49e233cc8926a, 0x11637553427ccd52d28ef04c564ee9af0647215f7f4a764d97e34b3da65e664b, 0xd77424bd2852d485495d929abc8ea1e5c2a07a938463db4e75b35f11646ff09, 0xc48776d02d737edc95da3941a1f78a976c5051bd630deb38b10240cda1dba1f, 0x23efafcc9a8ff43a2ee5067e9a631b0be21c1e4f028e4fa7cef38919e4f149c2, 0x24dc88d6144669f65e8c8b0e0b84081de41ef00c3f872dabbebaa4ae3db80522, 0x27b45f6635340a77f857c72220ab866f70739196835a22952186bc242cd69873, 0x704b24632239ef816e17b12e0b1f95c1cf7b8f3367a263ae87cd628582563cd, 0x176cb4987f9f3df738f3bc87712a4635656b484c52ca7624bd1245c2aabf3e79, 0x227eb80636039b0ae67aa169b29b1ff9966feded7d239c51c6acb427cfb61f9a, 0xc315aed179cba6ebf5470feeace0db2e1693c9fc11931f51265541c508ca784],
    [0xd064dee824928d39f2a8be7d2fa583223c33995784d228839adde2559592592, 0x1b8b75d83e3e955dbb4063f6ef293b4aee18c4a3be9227c3102d29c2a85df08b, 0x62a3721fc4009918e908846ba5635032aa2eaa7489d5d74b13994486e1b621e, 0x1f58606cb7e61fb55157784342ec52455c66fb882e3360b692a4677360134a68, 0x41e93249e317db4958b8849dea281ea81d0e2041006620c78636354e20c45e1, 0x156d561a4bfbc4b557aacf5ccc4701483f4c44c8256e619b6f7a7dae09d23c3c, 0x11ed5fa9b46ad4b3f57a8c5084724469f36ba46cec847825e6245c4537a0e217, 0x88a5d5188be741cd0e0ccdb10875d3fa01889e4f80e5be6ea7e127d5b28963f, 0x271a632b843846485e2ab0f5c7d1e14f7275fc53b8cdcd8a743b7566461219d5, 0x26c0a1c6632015e8689db93c50a3dc2e408d3c0521774aac099b931d7295c6d8, 0x294070b0ef4e6a55e885a12b5874de04df23adf8f0a84f875cb18c4ceb8d101d, 0x2f78931d96c5fd9d0ff47089e98809c64f5aff58b2d70080998bc0fe5e364303, 0x230be21d8ea9e4c5d2139afd1b0eb61d14b227ea864c09175b23ae4a647d67db, 0x23835945ae05c678cb2b9bf9100f51e7ffdaca93e74329a968c392bba321a232, 0x187c39fab3ecc634166d78959fae651ab19b169817b7e508762ee36e8a88033d, 0x194c8955c7e620135e624ff5abad58e58b5332c390e60f772e8b4dd477270dd, 0x651970e3e8b816227d307071d84fdd9f417a2f1b844b7ec56a21a7b0241a684, 0x188d9c9d0fbc3459f6a82532f1109a06c591d2b37df750c287244908f193eefc, 0x3b8367be80bf4f8e3b9008aa9fc640b6cfac804451c91a6c51d60840f9e166d, 0x8762e109aff306b803a0c90ff1031403458429b82dad5066a7c61c4fcd52e10, 0x7e877480703f745c67b8bcdd6a1182bfabea54eec3b62b87f53e9eb6da0d5bf, 0x83a1d0511d5576651a78abb8a14ac92d9d61a43f977cb5dc9befe2150e0335a, 0x108f56572334a765f54db2146eaf1b44fa39b91203a58d3771eea19e46f3b58b, 0x253717f1b3a60553ba8c5608d2e9b33db2e5aae1cdda665006620589183158a, 0xf7d259d6a6986193bb88f21b9f687548b9793b1120e10386561ca5be801e762],
    [0xd064dee824928d39f2a8be7d2fa583223c33995784d228839adde2559592592, 0x2caec1da928de3ef257ea69d514c718f70d8d3820fe135dc81523d2e13494c2, 0xffcc49b0327d4dab23fe993539c71e78cece70c65060fecf775248a4f3097d9, 0x7d2f814a0d52f1676986648041c5ae57ec9b5fa328dfee5a22206c0f554fdb8, 0x563d7a79d5f32dd2397acda206a6fa4947572ed4050aab01dc732ffeca2369d, 0x2783fa364653815b9474a9972f573d171d08b4dbc9771054f0bc376a70eda070, 0x26d7a7687e6c207f5fa597c84565bbe9d511243c1917de8656babdd38ba0eb81, 0x1567832cd70e77ec20ef1041351577510628ac2a1c7d5c179c98315ff78c42c3, 0x1c59c4c25db5ec760ad403047f3182e0c2db7b557883b227f8bd1e384a7b76e6, 0x2fb984c5c36a06d07601fecccbdd1466c38f2ee47b7dd526a34bbb9e859a1fe5, 0x193c691789f6f175105e969cabbbbc781119daac0927a2694d006edbc0845084, 0x2934cca891879574e44e4b94f5554dce2e55070b19de421b4d2b743418b287e3, 0x2223f7dc3c04faddc22f1c05e786dd4fb2837a1425c62d4defdcec15ff6fd6a5, 0x267a1cd4eccdacae7277169d9000761606b0bdadf24dc97b6b50ad18f4084e57, 0x23674c9dff69d9b06d1a41103f5b241f788624c972203d3a4804e2043eeaf97e, 0xc86000f5a940dc4c26b7c2dceca10416c0de08242d8057506a867b181691451, 0x237c120402aba89b701d7db41968e81e7ca9e63b6242e56d9e89b1e94b7b56f5, 0x1f2adefdfe27e85d550a268e382e6af8e51b93d0303444311050a0bdc3a86b13, 0x21026ca9e6c15e7e7754c24c15ef12d36969bb2505ea8eb9d24f21762063639c, 0x257dbf207d8341ebe71a25c67f0bcfc71edcf46f5e655c2f94bb0027683e4ee7, 0x297fc3567244be37e4b1ad88a0c3008e1f1326146b6588add2e12b812c53c7ea, 0x2415eeb2220c514b4b50cee8df2f4f605477b540d75325287fa7df4957c388ed, 0x2d1efae2ebd54890a00e868372dde24a8ab026c7397b54827bf51bf259371921, 0x1f82db95c67b46b630a40310d8081c760e1bfffc39e91f179b99995a8e355615, 0x2e817c24b08cf9346a21658572796f90b8132b6247e43a1d099c17b7823592c6],
    [0xd064dee824928d39f2a8be7d2fa583223c33995784d228839adde2559592592, 0x588c5021b24ccaee3b77fce64c0122f3cf21280619404967af6be821ac9e37f, 0x191e71b4c665fd095461c7eb21794e3770c3b40b4bc0e22a210166e9c74aa0bf, 0x29cb8c9eb9c4cf5bc6e1c2a782ac0503015efefe2d640a154e26b4b934dc9713, 0xec1e3897905c451e98b774b636e1dcb80edbcaec959ba90d20a0286366ff74b, 0x2ab786b7ffa171bb876603834679f4be8a18485f93b7b89f2dafeff334d5469e, 0x204bbc64ac07613fd02f871122b8ef0206d670cff609fc1b2fdef7b8f1e1542b, 0x1172cb8f6bfe22d7851f746626399b3c0536bdc6f8969c3b5ca6b697a87aba5d, 0xcfcac24e6e99ac6a59d2946dfec1c87d4c14c95a9ce2e81ec8c8405f74ea79, 0x25787156a9a5949b6493e08da731b2e15abb30e1d460dc238207d04302a7378c, 0x246ac305851f4cc5079ed10d769d337af9649c46f374951dc674b2734840fe38, 0x2db9cf683684eb9e2cc772571cf8da1bca70e222aab6ca7e60df039de8b23ff5, 0x166212a0652ef46c22f6d8d8d8c53d99fe339c7aadc68b233c882f57925403eb, 0x98c9afc1526b5729198f7f58b905563596143c611e1b2c8ff90dffc677d1e66, 0x2358d524ec260f839956563785d1a727fb364547edecef5bf664e5706301a599, 0x1901be07be45b4f8d3380b0a5e52c1e6aa94dc4f6f2e40baabb9f98fdebc91fb, 0x92d99a4ade91479cdf8bcc22c05309ba07d86401532aafdff17bee681dfd12e, 0x13af4969555a7dd69482d1c130eb70e05f0f9af3a93769f7fb5437173c71e1f3, 0x28d3aae218aa0b296476d0dc373481f4ae746de4aaa1c8328370f17655614a51, 0x14311125be69290b098c5ccb7e7a9534732886959d25d677e564d71ae1ae7647, 0x1454832e2ed446d6ac9a981f567c57663450bb35ed147e4dddf8e7fbe30b0bb2, 0x11055b5dc675e97c22358083da749bb066f8a99cf11a37083c1c991af56736b5, 0x20b2ab6a88373738fec32590661140fc911f31be20d8a9b938717954ce5f1720, 0x2171b013bb62ffa512500bb1ebad0e10cd39cc7094cbf806b10133a9f6ce3d68, 0x13d9ae507067e98e67ca97ac691f2808251ba846c97091c99e46f8c03d6896e5],
    [0xd064dee824928d39f2a8be7d2fa583223c33995784d228839adde2559592592, 0x292e6fe5591c886319d394a3218aaf4a8fc00b2c98fc57a395ed2b52d72e5d1a, 0x2e555bbfc78425a4fb2d9d8922252a1edb14ee448532800a36538eab6d3c3134, 0x4b797fd25379849c5fa7039cbface5d5f01d17102671767c51dcc547a7c7f44, 0x2bae8ca68718d729374e99bb9991ef4399fb9a5a14ff7361c52e4785781521cc, 0x5ddac723ffda8067c2147fbae890884bf8572fb7b30810101de4369defb5612, 0x1ec8e17ebce279adc46dde550fda171ed22736ce4e102cc8e36f3844ac67d77d, 0xdc57f55bf67c1b68aa35126491d6e6b78f9883b5efa10b8f695e2a8fa0b83c9, 0x2d3f4bced64b64b958b8d91bd0b7b168ba52bdfc7d5df18bbc1a176fde11b23e, 0x2f10a6d7f877c814bc7693395dc357075d1c816495a4f03b0ba49d6d8d97a663, 0x144b40fba529a8d725cf78c898112fc3e4826c83c1961332ed3bb0e17051bc67, 0x9708226dc1bcda85d36d65ad6d0ca69340523e970daeceb5cc48c16db6cf3a3, 0x1bc361e4208a017e152377add553852dae1b334c7948e008f7064f499916c154, 0x218d7075025c32bd6ca4e15ccce886ef42a54823955d50d1abf906be69a1a10, 0x2c36609083d08ad8df8211a51e75bc9b52691cf5c9996dee6cb39a13ab18de9a, 0x2ee25f7ef8fed9bfb691d8a5e21717736795bbfa76df861492715c4b41261112, 0xe02bebff560e49b14818c02e1535c5cae326071c0d74703b8ea9f1950e78e5c, 0xa8e935c09bec781f68587e8aea897db4d3e8d643d4e8b65af941e6b56b35d82, 0x24e4c8a3880c07950af15e4dd7785fdff4f46709f7e8a2dff46ea7670af9e69c, 0x2d680316bb7fde988136fafd42ba36dbed8d09522f48ddb19a14d39e2305e4eb, 0x151fc0242f88cb4b820f7960e519aa333c50260f1fac77ee841873ce4830a5fc, 0x2a930a97b841a2680717d8322c463e7b4258340f87258c90f388f322b86a173, 0x1a2d3151d244173a73624601b54782801bc6c0f8f7a70a3afc708a23b0af75bb, 0x30ff291a9139cab6bc0b3568c21ad6e4542cbb3c6ec6970f01f4ab3f4e65a8b, 0xc6142a38ef9e3709c786cf42056291aa1581aa5cb1e1c2aa01326501552075f],
    [0xd064dee824928d39f2a8be7d2fa583223c33995784d228839adde2559592592, 0x4478466a9c94183c431e91e2d96fad76caebc38cf4b6bd63d40a883887aa0e4, 0xd2089c7872a5e0d120339c683d1243e0f56dfa30bd8ee38e9e9020be57cf9d7, 0x7835f14f646ef12bfae699393ca8771079e5e5b105c549a6f740989bc71522d, 0x2eb138b8e96a72fed66f988d76a56425930f788d23294bb16c006c15ba7a830e, 0xd65fc46a4f555afe4d613d16960139d1b0ab9e97409be48d2c7d0ad708d57b8, 0x5cb9d6fb0ea5d7c36af03889077124e159baf3f95d68f5c74b98db89b1fc3fc, 0x1228b6eaa51d6497f12fcf864b7dc9d681b32176cab3dae788d5cdfd5fff3732, 0x2c74a92c8d33ab0a358ff988fce0aa0ba475c783989734c9bcef6aa3d92e39aa, 0x1800e5ce9cf840e32bbbe62d828c95e79c3e1c493ef70ff8743a88431b34dddd, 0x58ff670014f46b7ba4bdbd48feb903fd37fb5eec4bccf5af21bda415478ecc2, 0x21c73fcf9ad1b0107fc527d61e6d1a289ca1eb4616db1bf402579c7a9f141c61, 0x2dab5b1427ba55d3fa1a90d83b0c569978e3ecfa9247509dd3f9e303b58dd0c0, 0x13b905c6ad4434dbff6e782cf470c7f37cc129dd74580eedd8a8f85f984486ea, 0x16542d30db773c54daf9fbbe3cc6329b0f1e30a5f27659b5718e073a6a3ff993, 0x2fb9d2c332734cfd46c26f65328fccca168f58711368560028e2953c2a70965a, 0x1bcbc6b5cb163a446455ed0879da1196a6bc4abe45d7b81af746f47db5292e7, 0x1ddcf7b0e9bc54a5074e021add723164c981f6bd04db9e150e2f0e21a1a6a3d6, 0xe49ca4ac1a6893b61701a02e1dd02a35f49e32a7efa7f297ac4d2c3e545b7be, 0x268309dbe299749682f7030227677e5013880137014437f7433ad9e14ca8dea4, 0x1bac242faedaafd205ffc4e05cecec603beadfe07666a7f970934a2ac6f629ca, 0x28e2305a80b016478868cf732f9013b976fc92a34d1a4dca77ae572c3c69cdd2, 0x145de9f18f59e36a93415b33aeceb48554a84eba20c56044880e1466bec0d0c6, 0x1acb49bb5f0d3c9385fa202a23350e945f57259a6ece8a15afb3bff94fe92e13, 0x26add7d9ed34ea73566b208120678707b1da9f64243c55a41189445672f974d0],
    [0xd064dee824928d39f2a8be7d2fa583223c33995784d228839adde2559592592, 0x16051748ed54c9e8d56e45a45a4eb202c4c91fba4ccfa8a05ee3a99100ef028, 0x1a51e1a75bd54dc013a8365e8be4d93fc365ed1f85a41e451913a035c1a975fb, 0x26dbf99d1718983964d70e45be99a786dc590c2b06726631e73e42cf19bcdad0, 0x1132f8662c582598c12b82db868060fd02ab2dafd730d149f0f1c3dbb5c7540d, 0xd20abd1b87b2dcc09f4abb60b6b936bf3196166849307a146bdda7953270fbf, 0x1312f989d76c6cf93d0386523c2b447be5eee1a76770859a33e08baf79df94f6, 0x28c79fe778abea865b37cb9fb6fcbff83eb5e3a6539a22c18cb0a7bb1ee3fe, 0x19b577228ad8e6ee6c9b669d36ba8e0797ac74616e3efcc9e6a7e819610005de, 0x152dd9b7778d894130a215abe32065d7adfe95428d02982301d4390896ac4a40, 0x47e6db3dad97b60f47207eaa4dbf769e64880abba447ab42a64b4e9bf580f, 0x16f9ad0b2919753c49509ba57e9c915aa32306664ce92ada426a22c9f6360d66, 0x2921d7437d72b2235761183fef2292d581d60883f6f05163c7181e8930598142, 0x361282380fd4190823218380191766a8c2eb6ef8f084426f9ab27ed7503d0df, 0x2661574bc57b6eaa30224ba10cbf4c961ec5d3beafa17d846e660915b34b9ffb, 0x2b50d64c6224a9fd03f14c5142231a82b313392062d70bb835116f71f861931, 0x2e43be4ca9acd39a0b869ff361bdc22679619dbd7fb937ee499ef99c14b929dd, 0x7458dcba827b917c731799c95185ebf349165eb8bd8837ad4c9a7a946acdbcc, 0x2e565ac1c012c9b7001654e5c4b389eef1604d14da21e2cbf4682ddbde00ffee, 0x2be1797b6ee4dab5c76f370802650571f72ff37afcd535e80c02a984257a4a31, 0x13df73795946cbab79f5ab95a1ae07beeb368b6a672eeff9533467574cd5b637, 0x271f3f4aa97903015b64624f4d65b15cd2fe5f18fc8dd6ccace0c520d5daf9ab, 0x45e4c5231979d20d30f98e26acdd05b44c6101af23bab61b22b9f2ed4c2bacb, 0x265d868fd9eb462095cd18e40ea2aeb074153cfc06fe0c62d268fc86e3fa1e9a, 0x1c2acbdc137e6a8af39ad351f8e89255387e69c7d9cc4aa0cc0b4a3c9a2b2dd3],
    [0xd064dee824928d39f2a8be7d2fa583223c33995784d228839adde2559592592, 0x18b4e73dbe4d9c83510458712484b5a88154a64e4f000efd8a5d2d960b4d799d, 0xe2fdde439a5f899cd7f813089c26f68018a3b0ecbfb2de15589e589c77c691, 0x4f2b25402a03ac3a6fd61ba2e73b5acd1dcc221704afc22ab41ba3b158b7a5a, 0x2ce09acd57a7c33da7a3083fd7336f59f1a21bb7403cc3152101127083df270c, 0x1dc51c0843736ba1d7b5ca4ecace075a61486b9781deecb73ec0c9270880a5dc, 0x24c96270bedcecc4ec08285665474ba417e43f1277878e25f64c7ed59d518993, 0x1567b25ea10aa7639e7754e07fb26140e6b196466301266acb242ce0f80baa9e, 0x1b8405e13b06a1190bf60e3fbfc762ee365d6e42a551c9449ac6e78c25c313bd, 0x1ae7fcaa790af2f4aec1458d5e8fb9d2f6e9c4e1b3877eba711ad016a8f75883, 0x230ffda3cf04839dda573ecd6cf6a765f419096e19c41a27e219f7624f63f918, 0x1c821c8db96ded0ea28c83e01769d47e7cf531e5ee167154c5942dd1552c99c6, 0x654e2ce5de54485cdbf636ff35aa519d3bb0ad0f65553c089035b399cd84ec9, 0xcfb61bad637440ea70c21616c0021531b797dcc910b94583c7fa278feb71244, 0xdde58a2d3a19ca8daced15c92f831571b71a3bedfff56df64ee3d3fea7c11e5, 0x121e952932b7e95de7ec84c86576ce61bbb862ac2f13270054fe25b95540345e, 0x77174b4e7741e4131a2adb24c6c9f223bf77e2678d9ae5b3279d86e55f87fa0, 0x5d3eb46a0d9a2f0f47f0962a63d534c9a77d3927234620d2c928bf09ce7e5c2, 0x246f5a9f3cb48cf1f4a13aea5a54ba53d8d3046b61871dfc1fb5d9f358cb51bf, 0xa2e62faa91efb3dc7d4c6482d41ced93aefae8d13275135e509bb3a117b19fa, 0x21eaba42c45ccbed93fe3468dc8b98fc42a9855e60ce78562080053784c20256, 0x1e2cfcac1e924008271b086131dba3dd0044a03a28dfbb2f008611fec230994d, 0x2c97d275a36bfdd250e2e2abfc4953d8e04d5e92795a914aa91a168f1a993059, 0xb1d67cb1a69e071bb57b3f4eaed9fb9989c12e249c0900920bbfe0fe7ac6c93, 0x1f0f655f87c30461e7c2d6a3b55d5092e4542c805f29ded8c499fe4603df979f],
    [0xd064dee824928d39f2a8be7d2fa583223c33995784d228839adde2559592592, 0x1c9a4884cf6e9cc19782fbff77ff6a2df0b1353c2e1bcc80f80685b4da9a9962, 0x2031dbc469ef5d2ab8bbf080e779c81da08a138d18b1bce086d9650d044cda52, 0x26d411c661443edb9fe290206a84618128d1e85e1a8fbcb9908859876db87376, 0x21083c2f6587d4d94351b5e8d4d37ca1ed3bba605bb05ac45151c5b828acc8e2, 0x252aa5220ba089fec5d79e776cfbcc3be42167e2b24ba6245dc60c7cf0fe818a, 0x15aae505663cafd83758de1e586058a24e69295863d59c1221678d0a997af128, 0x2d8e7eac5ca3205436aa38fe08be53a0fb7b57e4c35abb9c8dfb722eabc4b4f7, 0x1d4b0338ca8f97e7f6da84d54af30e30d065138190d0c36098a69db08f44b97e, 0x1af838255d6973d5b0b19585c52f4dc7ac7ee024b541e4c103942b7485a5f82f, 0x301b9339d3863e05daac5aa39aa79eb948f6be9a56ade53ff27fe98531f1ba11, 0x1e03df8a06e4161781c43cd5da85f9c521dd1f5987bcef858048020944852c7c, 0x2caddd2b00b5b15d18a3ecb0d013c71966ca47d579403d64d0b41bd736ddb7ac, 0xb87a369e470ab99e2c4349ce109985391d848aa3b60202f7a17ef6a0e4adf1b, 0x21814ac94b3e32f6f295c65c4b234aabde202d9607b171ec00d826f998a6c92f, 0x29b1228b3346a79953774564fa631d8aa6f2314f2c9216d4aa8d89299909f352, 0x1a5e40ae67493e00371f4796181b9c0ed9f909bc5a6d9361f9b75b4c5f48d270, 0x1ac79eac0e5bd64eff5d74fd02f19cf0a066d6e5ad8d169a2ae42a935f454e3c, 0x1cc1592df343627349a25bda9ff38febef99da952ea6d33014b9e062d0b9c65, 0x246ae2ade241e443bde03d8e2b323db4208434d53428628bf92a2fad2058ec10, 0x18d00d6e9f9ca8e1f315aa97fa121430125eb2ed841bdd81f1efe69379f786f3, 0x2a147b464ef73244b29cc4e4fd24a29f0fcb62711a840ed075c77682801b54f9, 0x30188a7d39b26173b10d7767135b841640c15708089e2be2bf8f5d31861ae140, 0x1cf70ee72aeb25c85554b6de9c01877c8ef5164a1e118250aa14bb0ff8cc5d94, 0x2a27cb25999e82f8abee1351c8083c8393e5038113619e783649651c286967ac],
    [0xd064dee824928d39f2a8be7d2fa583223c33995784d228839adde2559592592, 0x16f3b44e7a69563f9b9cb04a43140d2c51a2a2641b9dd9ad5dd7b942b3898e6e, 0x1ef9dba4b9fd5363a7c5855a1c3ae00c1874ef693336b606b1f25c4fd32c5b3c, 0x3be108cd7d21185b6364bd86883fab9fc63c9356edefc708c05882280b75515, 0x21631c522c8f458394bd234946f326f0a0e0caeb2dab4014e8e089f36b25d766, 0x2b469c787003cdcf37233bdb9f3eed9dabeda742284d6f7286a426bc9022fa9e, 0x409e474d3841d04d8f6a521cae62224e4d15d729a48f7af7357288e1af200af, 0x239db39ca9b31c21ec61b7f3306cfd1a9c20b3aebf0ecf4af7df18c2a498ac32, 0x3062a14d58830bdfe5c97f9111ca779b253e09f8337e457a6c4ecc1ba1bdd8fa, 0x22e8958e08ed54020aeee58d8bd6bd816c3b99f53d664fe6c1bbaac2bb5c12ac, 0x2689f68f2ccab8aba87dad5aaf8f24c89f24d94c33a3554413ec94c9309c2201, 0x7ddcd764dbf337080c16b4c68e93eede25a567bde1f7dac0e3bcf6edfb4c472, 0x293c704451a1aa66e1aa0d4c7dd56cc5392fd8cf7b8cc998f6a54b8c30b24e19, 0x2cbffa47d2c28e5d0ec4a2dc0a168ae258368feea0ba17662168d4cba27906b2, 0x208c5ef46b238daa217fe46cc26ae7460c70eb25fab5f1122f4edbd48318946, 0x24fe6c2e5f21c4cba02f4c15ba1d07c732017ac72f262626eee292a4c3484c8e, 0x1dfde7457418ea9643108cc1d13371791b90fb3a4346f4ea6830fc8601afa196, 0x19eba78507eb7f4332dde5342776cffb8b3f53973e9d191b0f312f7f05c1e732, 0x2be0c4e211e0892ff5d3f3b7aa0281e1602cd23684b82ba12cb61be1eba411f, 0x9cae53a049def9f8088909b1ba59670f0d8a2180b04062eb2c8cb2c3893c11a, 0x2e2adf7ac157ffaddf5ba5fd0b3b009b13c8e1454b54d298e5a50f15ba24a957, 0x960206a1b5fd7f8caa23c6f979a77b2df76e53ca4071a30e96e203f6d611945, 0x1709ed8801ed661f54156b3da294eb591aecded73dc4bab8e884618899d61929, 0x213a699fb63a980c7dd352008ad46d6c423e77fdd87348879208531b1dcf7de3, 0x372666a5afcbe6f5458e78471e9ef6fcfa3420dea49e713a8ce1c19cad53b49],
    [0xd064dee824928d39f2a8be7d2fa583223c33995784d228839adde2559592592, 0x17f4a43fbcf12508a933527a8912f2842333780fd30c0c46d15af216dbc9251c, 0x2c5744c9ae7f6d8c3d5b66d4d43b95afd79ca38594b9049d886488cf10cef463, 0x2dafa6f3c603c4c0b0ab7dea2b559314dff4f7b2a1a65894613d2194595f4476, 0x2f7218004fcb62dc5ab37c7b3803626296dd6f876ea5eb4834eb7626c1d82217, 0x6dfa42020ea166652a7a392a6cec8a63171b943d6853730df3c846e32176cff, 0x23f87a617f1e8f021b83f41ccfe5e7526864953a9eeff56d62d85731ec090826, 0x1cda3fe46da8e3f2595bd22ae9327c2d2968ffc0c686741a13456fe5b2185861, 0xfa8625bd9c3af09956eb74e2f983eb6079a050c0186221b1a32ef5050969007, 0x111520b0f559fe2476e6a6f48060038efb0166ff9f6bda812a02f793228af23b, 0xc23dee172299609bd3dbc9f2ccfd1e3f76e594c5ac2c3e5ddfaa62289ed7656, 0x105f42aec8a1b60c20e7041acb94bfeb6f6b5f8c5b71218fee02047d57c0c218, 0x299f915785e8adc1c2378fedef3083e487db1f6f1807cc7bc66e51b73bc39147, 0x1ef3836591f803fdb8a0bd89373dd79176fbc2e92ede7006faa5d95e9397d81, 0x1a2785db4d9a3409adf3b7ddca9ec408b2f93044338ac23122588de468c59408, 0x1a6ead13bcc1a5afbc63d85db0a41c4a031e480585fe7ae5fce9b64bc866a216, 0x1f5996a035a306096eff22ff3aa805378e9f4e3ed56f9834f62144f57eb2d414, 0x238498bc99b623c9fb4daf8ca4e4c87607338433a9bc2546c9f37c86af431840, 0x273915d627d37ede450dbc5e96ce9489b78ee048f5756082227e62db6b9a56df, 0x21c11618cdbabff657a20c8d84812b984a017810e97ffc169c585ee296fff9fc, 0x203e0bf4be8fe2ad1f1eeb4926647caa4f6e429ce794db082fc07ee5330e7cf3, 0x294ba4a28f070410c4c4f8cb5c09a56252ad05dbe4b5bccd24a4adb4fdf71df7, 0xe403cbeb904d1582f7872035f81eeab4010de844540a9b2bfe5419d43f8bbb3, 0x27c86e516b80bede0756a21db1a6ced3ac126996f64f9f6edfb2417fcd3829e9, 0x26c02ced384da01a247d225b0931e3310f7f689426b3384c65bcfcf1a1e0d8f6],
    [0xd064dee824928d39f2a8be7d2fa583223c33995784d228839adde2559592592, 0x23c28b7d927210270a66d02ce14454c7608540c1c4111989c66fa5c83b953441, 0x175c47171e64b9fcfd9a0e5ff2cbf87d0911c01f7cfcb4287a219dfb65a3c946, 0x2b0dc6705e72fb39676c099284f87987580419e380019cec6529297780e9f143, 0x2cd30e4b096b2ac50182c596fc4bd8de276e1d1f058acc010bfe056b50498347, 0x213717e1ab4fe340c8edaa0f2b003ffa2adf4890ee9ab0bbe6528a2f4e436184, 0x167ce1eb87442469edc20f5be85f41176a2bf1a7e44ad9a920605c5be99bf975, 0x2c0874699b7fbae13046dae49db97858a6950199f9a3f3bf8238aeeb73501797, 0x1a565a10adafab01ae826b619cb79c9c7420a140d41365669ec361b37cb5c8d1, 0x2c8c416f3d61924456ecc73119c6ee327dc717b411a4ebdb673b48e8ccd1d4d5, 0x267fd0effc34952354f05332b71fe925b3548f0159ee361467784ef8fb986315, 0x2bd251e35bedda84bfaff55de37d2835277758a60db4a9bc4fda3571df5ae523, 0xb7a443712b33fcd61028542457a0da3ab1f087b58aacb25439af6e1e55375a2, 0x2404133570623570acc718f19ff26c6b47ba03857394f55d17e8ddafd46cb5d1, 0xda485d8a8d3a97968c8b0789dde653796430641c4dfce40db5cbaea4f392071, 0x2146d7115c9adecdfd5ba061103729167ca82a2e9e58df7177d10645a23744f4, 0x2c957d723ab55cfa5de8995ef9904c3be5b70b5774a12d17efd71d7fb10b2895, 0x80bc3e98f6ec909c5161c498e0613bb736889eeed8ce7bcc93bed02f4bc5be6, 0x19dcf73cfac4b44c2761e024d6cb2678cc104a528c02799bf3a091908ae780cc, 0x199422fe9fa1f5d2dbf402c9bd634d4bdc9cdaf70fcab9d0ebfbafd12a02e49e, 0x1a4077b1cf49f41fc3a2240a37ae60309d6941b839ebf51e1e118c16a23c6aef, 0xe53e5ebd64346a83c1e7f33878ac8753b1b45f0e1747f680311eeccadd89a17, 0x5aeff75c7b60d39afafbcae4f99e77e223c35e301db1dbea5becba73535885e, 0x1f9764d4b036ee9b186d5dc379c2826b17595849ac829e2d52230e243fff309b, 0x1cbd64e54e94a1499df6fd784df7709f93942071463eab3db602a804337a436],
    [0xd064dee824928d39f2a8be7d2fa583223c33995784d228839adde2559592592, 0x190f2a683d41d29fa79f653057c0851c76bf7301c355e46d514e62a2116d7188, 0x358bdeb885279de421d0b5bced75e4b0b909340f8a3445a3dd17d76e4abcd1a, 0xbf755f699b7e4252b3fd62793827e613c40b0c1285a2eacd4ef65e3abfd281, 0x26753dea98885ca2c4aa18a49b9162277722858ab51e3a482275278c53842496, 0x2c3bb4bee55f665db599acbbb270af82a9f8320f7c3adf113cfa86d9cfb4754c, 0x149ba255f720eda11444f804e9814260008b187f26ce17e4152c092dd477b00e, 0x21344c682b1f31453cafeda3081b76096340dac56062762ca80a78870dab3bec, 0x11b6c7953ad5ab4ae16f501101b9b577f0b8a1d7c6a793d66e4fa161b1e06e52, 0xeb1bee9bfa6eac0e22bee9a13fa2155ebfcabd0908e74145bbf9428ae0b0209, 0xf89e6f767ef77ce6ec818807d30706fc114d9e02aa610c0f3f77a3a08aaf9c7, 0x18a72ade9ee9765de8ccff2950b0a3e8c8abb4a336ad417ea75837e8301b8dfe, 0x239367bf5652c2b293bf645bd88f1169b6f872ccf8405c2b4f09f4d135f6fed9, 0x239747dfc96f5ef11b8573b4714b20381ea4ca958761b44e11872f306722792b, 0xee7d51ee88f040e9c21d5362bfa085adbb01485abe1ed5717b55b8687e40b31, 0x216277a3d920e1266639f61d0c22d76858e85daf5fa83d6230c6b1628a077051, 0x43527556626973735d511d252e2a1dd3b55026e3d5b38324a50d1cd44d0f9f1, 0x16e435ebcff7dc72244e74fef07cda6add05c08a52cf07309bd2eff2ea896b39, 0x128020b31dce80e89ac5e01bb13329cea3c62ad115a5d65ce68555e4494a867c, 0xc840cb172dcdbb1502749bb1beb46e0439aa167caa4317282fc78056262eb46, 0x542b0852563c2bf928db174369c82da60d6d41e9c61425d417f009c46fac67d, 0x22452f2d9043bcbab68e526d22af55fb835a3e554e5101a82ddbbcc047411884, 0x11b919c0b7abc6b28c582a84c158d5d68c928475503c312f86ad3a2ca97c0ec6, 0x2d1e6445ea67dca7ec1db0b08659adb177c9379f4569bd3efd060e06d0bd01e5, 0x251ba02f642cd5e0ff35e008a0a309c4c6780dafa9fac55b163256d39a4e4119],
    [0xd064dee824928d39f2a8be7d2fa583223c33995784d228839adde2559592592, 0x2f09e5f58f262c5f4c9ac2458e58dc1c3f5e0a409ff3f095d8ecec957ac50f2b, 0x1315b742c5de4460a27229e970e546750da9ae91fe8ca5e51548c60c12aa8359, 0x60e6ecb8723e793eda04e490c818bd07cc8a972dd900d0cbdc4c28c9e3ac13, 0x1677aa582feef6ec348f1b194f4f978d6af473133203d0d22a81b08bdcf26a9, 0x106e8e67c7213d1c649b08f8163f849d0e0cb36391672b3dc5e632983451f457, 0x218baabcf27c9046b7ce52309a3d6d3a2ca1b3924bd2fb64c157353a88567c8e, 0x2b2717d36fdfce6e134f255adafaab3d1a9f719b3a661cc1fe490b1e190f2b10, 0xb0b2c3bac72604b4c5d568e4f4cf53596050af1e7bac3627e9b2cce934eb482, 0x217a15b51fce1bdfb5678864acc464e95225e47ea40bbc78155c14a41f2be20b, 0x1ba5231ae9c793948686f7dd7be9c44435dd6a981b3e880f344e2935e14b64b8, 0x253e39215ddc07e604684a22eb2e7bff9c138b17d2089ba9f451cee209f14177, 0x291dfe1da2b968d3837a2b2b94f8eea9606535776a260664e8227e212354ca64, 0x1d3a7e1e04c422de9b7e0b090180518372473ae8ecd8d1fb81f4981bba63122d, 0x217d25ca6a61a6551abe4bde579165d171513a7c15fdd69e62b46269a1cefb04, 0x1d65f0b99037a8506c7ac7811c3b8ddfec719fd951a7337dd01e22c6e00f4d34, 0x2288e24daba6872e61c70d8a4b8dbc67c63a495d41649761198efd7e4275882c, 0x29811fb1aa54a2592816797a866eb8126f4b333f1526eb6e25bb626224493360, 0x2d8f4b4f41d9abbc9f03c50e4da5e64fdfe87c5d07545cefcd30131f20f00d9, 0x28d7a552fa2a86a8dbe41059439b0e35614cfdd841e0d6ef1db1af78d7108e4f, 0x96cddca2ab8c7ae201908ba1a671a9117e24ba7bbc16b331babdea12bcad5c7, 0x23e387be7e8d63cd8b769e13b718b560bca4a602c8992be3d75e71747a10dcfc, 0x1f77dc7b1dd84dd7ec1069c065121f51c036a41237408070c45ff15d2462a60, 0x7765f1e2b28bac34ff4c1574654563e8f672a14fb105676a57f2554f49da9c, 0xe1356ea8e8068b1ef8287fe1362ced74d7e1ec18a1bb36e6fd2f22593b51e9c],
    [0xd064dee824928d39f2a8be7d2fa583223c33995784d228839adde2559592592, 0x9d1f2588934f14551f899de997bdbfc9192ea76d1490b6bd5e1d691d3403af8, 0x1d48285a000b66b39acca3bd48ae38d761b590d846ebec486db4899d1d3c4d72, 0xbc56781b0480256d3661ac6e0898a7084005d607165224d494103866e256c47, 0x88867a8bfef1eb88b2ebd34daf3524cdc118d232bd1b91646c11a2a54556b06, 0x29938e679bf6bec4d293fee8615186bb09287291d69bd50953790fb09db7ff36, 0xf3078e2dba998b8202b3eb91f500e8cdf87e2ac9f86edccd8b907b1d73f10d5, 0x2feca0ea4cab180c357b1dcef1e8816caa115f572fb2da374e27b2f7d2a17108, 0x19a53e4e1a8aa7a15029ff45f528f42c8dd0360c8dacfc125ce7d192a0a70765, 0x18ac83f6bde2bd90432ee9fc03f0e62871969e8ba27aa1dee2c72e2fb42e9351, 0x2cf369a36a64a81b17c4521b17c8ef65d09442ac2858d03785fff1f8ae4e3881, 0x16d6acb3b445a2dd2ce6c6bb79f1f61f15019a090285fca38fbe54e04704c55c, 0x1bfa4fdd27298d16aa06bdc9ddb3c29f48aff4fef45b5ce80b4acdfa43fa1355, 0xc6d30e4b903bdb97453a996931ed19b556b3887f54d63084263d278bc2de531, 0x173ca2118a8b85e6e3667d2dcc1c480e163a338cc2d47992b0e6f09f2d363c24, 0xaa825097578d91eacb40da93cb739f9a435c8a9bfe2ef8f63d4d392672506f1, 0x2869d724819d09fb172258ab1fddded25d8f0afb23f1a87b331d229eb61e032d, 0xfa3dc0a38fbb92e5f714183536dd2cec7163726a64117973fd1d927ab7b0c42, 0x1f0f50f138ddd25e9c77dfa15f2201bc43fe818595195782fdce833664fdd244, 0x1a8bd852a6a8a26b23057e5bb85facaf706a6487a0651c7c226d0cdff09f4507, 0x20d045353b22be410aad1286b4a362f79c73f96103392c5c4ed31889729807d7, 0x2830a23a528b1c1e7e277f97424cbb153b3d316fe1b167ea01309bdfa6a0f623, 0x1f8f3d87ef4767679cbf773af4a2f27614124d5270015c7d64c0b13d25ee63b, 0x2843847fdedc907101ab1b8915d7151dcbc7e27419d2cc24490d2020f3193683, 0x1fd3dcb19e924d226e9b428d29f70978d7715bcbda1ec70e5984a67ae61537f0],
    [0xd064dee824928d39f2a8be7d2fa583223c33995784d228839adde2559592592, 0x22afc2a215e589f41511280dcd9a4d2f7714e205f2c4d0b663c9d2da07a231d8, 0x256117a01b4903a52e27a41f92d7a65de53876e832d5d0013fbbfdececdcb17e, 0x1bd505fe2027ac17a51db28bca97087a4336103a375f5d726c4957c63c1377b2, 0x1370beeb7c62a69367b6d83f639e5eb0744df8b7197e44410965c697938a9e3e, 0x1b23ee8b148269858c2f44c34f1058f44e4f066b2b97a357f81a0694bbf3baa2, 0xc11837fa154861251a3c6d09c4590cf5b738abb440c9f221b6fdd86b62b950f, 0x1e41b6d8be08383c6279628ffab3e3329bd391e954f5333c2c24bea41b1b6107, 0x7921a5cebe4c7e339b84f0e635a48591367584d0c12a64b5637d960f35b3d11, 0x14969d5919a6d85c58ba30919c0f0e52cde9197db39681160c5be3b98aabb92f, 0x1d6e48aabeb209860512a8935eaf23b1bafea8797a6a81284fbfe6e81c1f7a34, 0x2e3ce888f840d34ed8c660bfd5a48b4f4a0c040f5b39165e2615427831f86803, 0x3383db94e9d7ac3e3abfe0d27482c9ba837264a10f482ae80f226e51042cc26, 0xaf89e9e5eee9173993784fb566e6d538efe46346ff5cf61b1c993b52a42e46a, 0x1ef03efbffd92cd2da93741eef43a8bed80a76f4f68cebb61493e971b8b7e7e8, 0x274067b2a04222952d6577de3245f38219ae54f0582d9e05b7d8a01330395345, 0x16ba37bbec0a43c8f30d001bbecb30bc3cf3db728da538ceee4ef9ff4ba486a9, 0xce229b9c289b8e7cbc4e020a0372a370a7f282201b47781caff3d01642b8c2a, 0x2f80729c7338be1c0dd613c22e836ee2e9a9d0b06a2fb5e52af024ba8678b5e3, 0x1cdc6d2ae50c1329a117d13ebbfc1fe86d5526a9f9c59a50e031f37b6710dc4f, 0x2530a467ba204bca45d83f9ca4c5ac9a568c053266ee1126607ac33c7e94650d, 0x371303ff0fc68a7c62e17b71ff98bd5715c6717d794b69df439a6d7c00011d2, 0x378305e20bbf96aa0c633930f4011bc20789b5c1be3f2929d693e704c552bf4, 0x1a3636567c1ef3005e7d5839bca900888aa34197fbae582cf6826f855020d24, 0x281e2a06fed1cf5b0e0b6e03fa2652cd608fa474299b5c7d0e59c6aa35c0b17c],
    [0xd064dee824928d39f2a8be7d2fa583223c33995784d228839adde2559592592, 0x2b3d84e5c61b2b97939674b7ef13780988f0c2da109e71d17d0598f080236a27, 0x29e2b9bdc8dcba3617e5663dedd89fdac40bc1714f767f327c6503d7f146fa2a, 0x216f7ae6ccd7bac97e2bb068168cf18b23505999ad5916e52ce95a23894806e3, 0xe8d298cae881515ab0f74ec935567a5b249314023b3856d5f9ec1a5599a9b55, 0xf1e1e45f847cb03591997bc8812b0f422dd0db2fc99c2417a81989f2e46, 0x5132e56caac6351c00de73247be0cf09de357c4780bf705fb1d12954047a302, 0x2c1f7dceb1501489cd4782c13dce297dfe75af4b4065dfd0fd51191e0f03489a, 0xdd3f24843220bcd4a66586631e888956a0ed26f717c556dc5e20f38b455d4e0, 0x2f3224043392306423d22f0e9e5c15889df84a9c1c6e2bd406a469139d132844, 0x2b572f7e5208c5e52a759e04500a1c7d641ff06df5984a926dcab2e17ca28503, 0xb1988858934c8a353456d44c461a763b6c98ed3cbf72a21e2e4690083399907, 0xb0ce76163a25f724929f8ffe5592bf64313660ebe1b160472466bc091c5c3de, 0x173b128e873c2dd53e94e438b4cd066ecfa28eb42d13bedee742efd4ebe4dc3d, 0x22f7d627420794cb514df36097c3dd8d2e92e2890af2c1afd4b5f5bc26a6629, 0x1f343201df3060d03e313eba7690883ba77fdec3d663fc6884ebd401938af261, 0x2472c968883b169ab912d4327cef96e6d4fb7b2c00959bde150b5ed9708929e9, 0x134c248a14ff13c4202f997bb87ee93058de60144cf2f5141236f01455438526, 0x206b6361e6139253e6070f905d6b7d08eac74e4ef2f54ce09643926bf5c8e814, 0x2db2cff5528de7a26e0643b161e7b318e554aaab93fa72f9f475d9aa7c6ec8bf, 0x25e05b8a3965fe0a250aa7ca030e3a7439445478e59dccab16a621928d014571, 0x2a8c5a77c61420b6b4ebe974da7140a25eaf9dbc9092f063111283e773adfd1d, 0x13389b7bf63bef6a68983125b86f93b62b6d9e4783f96b710e2ebed3adbcbe2d, 0x2731cadff040622fccb533fd62a0d43090455881080a898488d55c89083395db, 0x1886f751efed6e401c5851f88bc285e68de3b94062bc810b092c3e4160b0e12c],
    [0xd064dee824928d39f2a8be7d2fa583223c33995784d228839adde2559592592, 0x1a1de7217c640816ca96d69dfa3a9ead0a32f62b2d864c5cf3d66e2977616a60, 0x21bfb88e0d52b7dce5432f55c443964e46e72879baaba7aaa04577b59fbbf100, 0x1e1c9ba5f1413166786c96401b61f687ba50dc735d815a4e811570bdd8954a11, 0x378dd10a31675f7bcdb8018c96cc8da6d034a42cdb62b406c5bc00900a3377c, 0x274d6dc05dd550d77fb31d349b2adb5f38eb4b27ec15e8f9cfaf56fe2f8b318b, 0x24fe1bc328cc95e0857e89e99d2ca97f327c21aa4de5c111a72c2c37235e7d1c, 0x2a98fa37a16d2f8369b3ce72873960006ea67075c023fed5b32dfe407e636057, 0x1097f947557042baf445bdf5b8a92021976c14cd0354ee88e43e8c8c5caec4ab, 0x7734a2111d925edc13496d0f5922ab36acba8467999f5fb727ebfeb37a38077, 0x2fca881eadd43cd4b9b3bde9046f6a2505bc46132b2c24da4e27c102d63eef34, 0x27c952411017987d666bec758d6036c17e440940b77db47b40d539ee1156c1a2, 0x1b329d612f773e77721b7a0f9154b359c24a6ff2ee0f5b9733a78a798caf0f28, 0x2e165793b072eaa3576cd18b9027582368581339ba3dc1acba9cd4a202701686, 0x218665404266df9d5ba6ba1f5a7d9a628ad7c74a092860e287be14f0bf58774e, 0xf42176ddc2c84d12bb3798fb2b3a06e44a4c33ac39ebe036c7d6ac6ffdaae80, 0x21dd47b40fc1e454614ab099787fe65d6d8ea9eb0e4055bb51e34c51bebc1dcb, 0x7d3a26830f8b14342a63c1ab7f713db81ad94ee6e5c519cbba0bf6d2b87b265, 0x13a106fb1b648c8490a71e9c16886e0049270240189d44278c63a46f744edbaa, 0x1caa59825f86da2ce09134f4ad823df1faec3d556f9756312cdd8991c3b56d60, 0x15cdad7e7f40503431e7a8c20a7e1b48ace6d194ee7d7829805a38d04020426f, 0x35c2a4fc2c424ff77ca180b9b522abf519f1fd8b5bb7ef7f1f8fc7d31c117c4, 0xae2ec57575aeeb3814613d2390f8ea28130ed34725d1605b585b4e8cbbfb4b9, 0x1ded456ffe562fc6df999ea5cc80de0ff6ca5fff1b0fb2607273ef1ba5262edb, 0x2ae307a4f4670d11f5ac1c7a3a23b6dac613d3f104e107d0438e2ca6d0ed55f5],
    [0xd064dee824928d39f2a8be7d2fa583223c33995784d228839adde2559592592, 0x17570a15226e3cb10d0e0cf627fee157af900cf4b22d8bebfa0f05ab45d56306, 0xec2cba7becd9f7b3b07b59be1f747b3fe3f40ff31873dd306105ffdfba14106, 0x115a73bfcecc700e34ebe87a02338ec4c9e1bd0d95c2554b12cd5cafa1f75f87, 0x271882e1e88d3a90e536ac91109d8940ae411f75de7cbd43000d6316c5ef48ab, 0x28d797cb88e36cce87e39090fedfa11dfacdf2adf148618d262e46fda6ecd899, 0x903165475cdefc056bf3cea7cf26e39e87e7d1c8e1497271df24330ad02d8fb, 0x521dc03abcf3c15278e90552e8162b2dac92220d99e69ef9e449b5a0370afb0, 0x1f80e4baee043beb212593df11501a79c07c898df6cc578190c679e64c34a2ed, 0x1133a6e8c5d0315d2775206b849588eaabb0b63a8faddc67806ac13faf127b7, 0x22af22b064becadae113b24d113f0cc3dd0d178f9cc56d78e84bf341354918ab, 0x16f91f204c2bd84fb907a7ab7442742ff24ab831ba252806ca7b6e69c77ce94d, 0x1d2c02fb8f7780faa24f3da1f29e9101c1cde4461b7d567b949bff5ce1c71ee2, 0xf8e78d6c9a055af147b74439decce135691562dc5b8bac4e471fecb73562363, 0x134cd1d2c86faa3bff3a72cb6226109880094173ee2cc808abe6f9586bd47844, 0x1b9edce59f36f20f7acff0cd78bdf614f6a8f1bcf95ae9d6ddbf5c8c7fcf625f, 0x5a6771daf1f2b83d0a92a118f30d42178846e5e209b82491656febef65abf3, 0x1508cef9d99fd03d1b6479b90399ca9dfe3792fc63bfbdd35661e0d44bad8096, 0x291cc5c3f65ae5bf17598f432aef5de08724ab30026f25adb70f85fb3bb0d455, 0x2c7723a807b3944705b71db8c04cc468820d3bfb99706528f66965bb8c9734d4, 0x9bb171d7c99e8b5b35def3624957074dc2f0a6beb861bdf417b2ae290832dc0, 0x1943ca5707ee772b8391b577e295dad4f10c2db1c770e33d8c37fc2280d71ae8, 0x1d7852588ccf0c51663abd65b87004ad5880721019214e00190cc8e939eb22d0, 0xee871118f882a42a8acbe733a64b7333a2d14413c511b6a79d58aa96c08ef8c, 0x1ae19930e083754140dd85378ca87078feea1703c3c0404e2776bbfb4cdba8d4],
    [0xd064dee824928d39f2a8be7d2fa583223c33995784d228839adde2559592592, 0xa7c934a0347f0de7e9e7dda8b1ae9b094bd6a309b8323e06780821d7894fb5e, 0xfcfbe728f5c1f06572e5a750260efe423bb6992a7b1bf8f0e761e7277e71d30, 0x170dca9f0f6e9057372e380cfa924e65cb86afad866a330ec9ed35ebdae1973d, 0xa4a917f344bce3b5f92568450a4f17e6a17e251c7357e708ec3d6e559bd89bb, 0x127ff432555f7e08beafe0fedba0ea990b49ca5df42cbb999c3bd7b911195362, 0x65b6e437cbc026c1623071777b10b8dfd605a3598fbda0687c74eaf525dc1b8, 0x2faee8e6ee2f7bdd25ff36c3189aedc3b05c4bdaffde640c0e4d9284f7d9a8a5, 0x1294fbb432ac3864a9c12eabef13d07f732b652836e66a954c485735899241d8, 0x2dd3ab4f03573f3362bb7ddf9648bad1b43ac6939d6c4fa9ee73dc7fe66deee3, 0x2029b79d88ff15c860971aeefb2ebe0d523faafdd6096642b018856793e74b4c, 0x2e5c56ab0934eec6ff8c8224ffeea657f1b99f880a002f6ad5352d30f7c0b85b, 0x24888adee436dd67b6742858809073a5c4393d61283a825b65b883114d44220e, 0x1fb80c654292d64f24d331f4f6fac1a20a76379865a6331e7528de236f44eb11, 0x3e8ff048f23e53a5c6ef02dc7d37f316cd4528da4e1f6cbc4582889e1470039, 0x23a4cda868726fac1665985e13d800d100b56bace43f67e29da05733c2a351f8, 0xe25a1b132ba0bf76f1e361bff6b9bb9fa2d3aaad114f589e100625225a04b9e, 0xf534c5ad59c9d1c4a37bda4e52ade866d305b982309a004f3b2c6f8b10e9854, 0x1269fd5d157f5bb62bfdbf4f3f88c1b2b684e40ce07749cfce657a373e1e4b91, 0x1fb70d1ec4776f91b42677c88d2983442b78ef00e03b82b5de606a45ffd3b4e6, 0x29eecc22d8e5725e00c85a0651edaf5f3e9530505cae2d7a3eff6ef496d7b1d2, 0x2355c9e8fd9fe0eb681e8aa1e3ad43740a79cc9d930a029fd161c3ee32f7257e, 0x390f12f658c6d9291b118f5e116727e2f4a07140e8f3563ec5b12a0ff6f6a7a, 0x140256a4a9cc33d93eb486b96b737dbd17580a77f20924e4a3d87c23b25b233a, 0x2d2be9983d14c81d2cb8665b0c08f89d6140539c712cf4c2ac8cc75b2daffe46],
    [0xd064dee824928d39f2a8be7d2fa583223c33995784d228839adde2559592592, 0x2cdce0a94aa8c1acc2db79358c3e67d954983ef0927dc6b26f9abad820f1d420, 0xf49eb6531ab1674ea9a6ff88bd8148690c04addf9a9164b13ff2c4cf008443, 0x26403014e3cc48e1cf112ed79bee8ee1467acd303d0da5c88b8683e38bcb7205, 0xc5f602b9f3fda8e647ef7a42af34741d11abbe0a99f464c101e534b51cdea4f, 0x18ac38aa55e95efef98c347335a80caf7fc5c3efc95901321e3b13b12cf46a2d, 0x2b1960c727b10b666328f0c37f5cbb3b06a1ad54f61b9503f23b02e5c4678519, 0x16f13b53b3c6a47f01c73f7e26c2fe6ab61b3e1f5e553413f2ca127e53ce4879, 0xfc4ef669021d86d29dc04139b88f55a5a57fe0bfa253631918e0d808b1236c7, 0x8834ddf96f673a786dc5af125eb83c9ffe1537fc773c21d101768aac7ada57a, 0x233f13c0ce9b48867dedb88a15b1461cd1befdeb99a9c0acd863dd45e0672508, 0x2099a619097f9565ca65ac96aff19cbea16a90e056a33b9b49dcbb725903edeb, 0x269898a890a0eb11e9b84db6ae0735714123d4f0aa0a30db183134d279f1a90d, 0x27fb03bad7fa46a625fb06a4799bf7a07ce3bf8dc01860cf6174f5d9cd49522e, 0x1f0a5bd99fd979d0edddd243d6966152706bffc8326fb088545b38d95fda103e, 0x1b082065bfb2e151552d1aeb3f2435ae8c522db79c1c3fb847fe73b728dea05a, 0x196840a15a65ee462a8312520b868084ed0213c1a881adf907ebff992226833a, 0x1bb7d7bc4ea0f7b8fb5a3b059478ce7f5ce2069e7d62a307c21d0400f386049c, 0x2c0b3d687226a36e523c0677e0f3949eaa45d0d3b9c9c2d11b0431d8ecc7410d, 0x2a22096acae1d75aedd8fc843d8130cc869b142405d3967781ecf9ff0062cfa9, 0x11d3df41e1d31751c5b00b775f33925b4fd5f8f66dd2c5b2e2e04cb090ffb97b, 0x29d0fc08ded332bba4a34cedcb8e3eca9d9a6929a5efbf58a72e849856a9cc67, 0x1a0ae664c389dbc11046bb170c0ddb422c4c6c2f10c68ee98ae7ac8c00c4ee83, 0x6f3c77706973637c7f2d5b9bd92d6e2424b926c38a2cca7bca5dfa0794e5845, 0x56965616b2df66e2918ba840e0809b85a567a3e7d13ac5f1e532061af856a57],
    [0xd064dee824928d39f2a8be7d2fa583223c33995784d228839adde2559592592, 0x2dfcf11eef61a008f27f61a5de96abc2e329dced7092f941def6b523960afc93, 0x4f73f5afb82d2297d4e51498f0828eeb3eddc016ae0e15a2a9e3cfff340d500, 0x26290fc492220c99dd821c4a4d1acfe1b7f40b37a13bbd3ab51405a9f958ac93, 0x7b53809466ff55e2e4f5ad0f029ccc5a1ac5d261732ab2b010037e8ad080317, 0x80ca5188ef7378b939057774b2ecd1f98abf27dcd473edebccc06ac7a942e26, 0x2b6b01434a47ed188b43157e1964f3725cf4f8113fb0a6cb4c01ec7dc2bd47e3, 0x2c2106b5cb401bd68e15746349b56238f670e58a021ee2ac8915288d5361475d, 0x88ee10bba489475547984b890d7e794ab25535f1fcc8fae04a33d300a5eb6c3, 0x29108e4588512ad0ab28e432c789fa3d3e0dc0d6002e19cc3fb6795a75d6971b, 0x241c4817a914814ced21c06ec5351e85ed7a90f2843d23bd5363aebbcedde7b9, 0x22ecde699dc8dbd7cd3d81e80d9a81ad023c57bf3aec5a8239871472fabc551a, 0x20dccbfe3e84b40f3908bf43f0512048facdd8686ca5f17192f983599daac6ed, 0x2c96389333c5459ec65960d848b06bad4d6b8abc6f2602bfd81824cf43c7218a, 0x28c59dfea6fcab6ae73beba612e62083a58bb80306a3bc2746ace09d650c83e6, 0xdd478a62c6871c699ecb4ea12e454027212fd8f1e03a8efc005df6d20ecdd40, 0x28772e7be45e36b90c2d439748c0d77c0b523711ea398e7dbd85b0d7df1300d5, 0x2a37740039be074389e76e1ef0095d7d111f778072d4a57334ebca290d667a4a, 0x2f37845d94aec2d63ddcf2cbd3fb56fead92ea8ecd819d7eac3c2b036c6c2cef, 0x15edccc5a7e695dff4db9dacf405612f00ba80a16dfda1b55cf4beeedf90ddbf, 0x2817134845b5ec6aeda4961644d513269f86e07a21ac3b7344d582ed07b5f46a, 0x1ef5390790a2a3214140b10962d9435bfb0b4e6ce24b7a1ea0c9af689234b6bc, 0x18427d6f7cd9bf7ace6341d16dd845cd1bd18ed4b9b8ecdcab36fa45860855d0, 0x9de33bc7e2ef786db74db7eecc7ff8720454637bdf51b281a4a1478f198bae, 0x5d2c63aa2de4534fa4df7a6c5f6d10599412fd247a59f778366bff5706110fa],
    [0xd064dee824928d39f2a8be7d2fa583223c33995784d228839adde2559592592, 0x23aba695154e684ff482751cb761dcc1637ec5e99aaea18d0bf2e2fb26eb142, 0xba208c04ac11ef4543112dbd88212917dbaab5a87268d8158a487ae3241584e, 0x1cfed0b58000d3ef4cac1e6fe54e64af54f393accaca4d5b8cb05f61ad9cd776, 0xba1df4ea027f8349fcb15d1edb328a76fb536ab65ebd535787945634d09c5ae, 0x1e136b44ef141c91945c8768805ce01001958ecdac9b065874d21717da99b408, 0x20643e3f3c68b214605c6df2d802e1e539b465b98307fcdd0f8d5bfa1778db69, 0x2127d0e7d940b3132fab6b1cd719577f51bf8db531e37edad5194875ee74936c, 0x17249cdabe9c9db4a1b88bd5636d3bdb48eb0ba6a17357452c97f695b080d5f9, 0xa6b94822882ba1ca1da954566ad30322e3458a6e0ddb143e4f5f306fc9e3336, 0x2486410df8f9b4817d82adfbd24aae41ebf7c4bbd8708d3a7c3b18a999cf79bb, 0xc0b7684e8ae46845e7766bf7620d2791a3d218bfd812d008f73ad351ba86aae, 0x97d3ee321f0db8c04cede13ecfa87cca6ffc215653dbcdbf62825059b8521e3, 0x2bff71dafae458bf4854d7957865e2362b99a7891cdd38e17f76c5828aa16531, 0xfe15f8b13351058806bcaf16fdb68f3ccdf3c30f15a85a58df2dcfad72e296a, 0x2bd586480aa18c155f688c75ba812ff81990930c1aafa4058ebaf667d41e53ca, 0x2b91cb72fc45f6dcb1dabf0473e2455f28be6eb1b59cff91b5fef3b81d628ee9, 0xcdacb5ed20f18668a7c3f21366e04150d0e877756e2ee1cee11921184a31a71, 0x9239d69b632ebcc1f559752a2fab086bd46cee120504a8c94b4427a2fecd5b8, 0x12bcdb6b20dc77d3d5741b3fc61e1ec6f53137b01a23f48c2a267d6fd59ca0c2, 0x11ea73b3f04690ce2ddefc2af3bf8f8054ba74dc313b09ec09c96fa29e865b0d, 0xdda6467c64b0249d2f065df90fbc7a685022ace6d9cc6d9c983dbd7d29eab53, 0x15d7c61e8a8308e4a43d992947c0262b65bad163a8f101423dee64c22bc3ab02, 0xa825acf9f09d653e06be5dba7ca63648ebd6060377101080daf3de7bd9d5380, 0x2dfbdf5d427e2fe6892fd40d4e97ed7808dd823ead27629d894982b7aba08a66],
    [0xd064dee824928d39f2a8be7d2fa583223c33995784d228839adde2559592592, 0x1c9ea68943d8c846364060646de0e33534d528a23ad82b8ba6870754281db559, 0xa15008aecf43fe4b9a3bdc26ff03e3867e974352926cb3ad1535f7459648a98, 0xab17a8ff84f7fa5d0daac95c36e606fc6e133e7cb04f0f7b5334e8e6c44ea88, 0x1495d888378f7e12c016cab0bee2534903fe878d5650aeeafb3814b3a8b1ccbc, 0x29a054aa447d63b2124f50ddbc4c2d943636ed53f22651aaf90fd93dcedfc941, 0x395b15a827e37a6adf3175a2691c288aca68e16154c2d98d96bb0dbee6a3f47, 0x2f47066bab9349dfa62b25ecb43354246a47eca6216c1d12c36601fe3413ea6b, 0x1b1ad81eede52f8a8c0aff49a041dce0b55a1f06c826b441951b6d654b804012, 0x137f27f0b79cf88476110b34e7ef630d03ea21338c200322990157f50a8f3fec, 0x131ff85cf21b1a68336160757d135e1d605144f82b3adac0fda110084d120349, 0x5f848d592e921b0c3c7a36a84765487b1357d0ec01f8f329aa8c6f266f4a85, 0x2f8999412ae8dcb4475413e72f68817ec1a094272744d32be4b8a0ff74bfdf1b, 0xb42e032237f3bf21ae95c4062868751dd39d0f68c06ddb849f691288f33e261, 0x199c8b45cac96bb0db0f2dcbf92c361191cedff0d949606a140d3420dfad31dc, 0xfda38b5f5bd1100dab719bcfb3889371f5ab9ce9c42868e7bbb1ce2d5a85f58, 0x1bbfe63a7558b0e9a002b3983058c3cf399d479f7e2193d2491d585d541a086a, 0xeb005763e3b3d55840741f0cbfc95fe55483854e817b4d7cfb4549ac79cb34a, 0xae77d49a777e5a22a3fc6aec242a7a80f52af3e1cd395cb8862b09bf3230ece, 0x25c1db48d2561608e3478c8238b3872dea6de1de597c4f26ed8baa958480e5b9, 0x150bf881bbd323068ed07cea87050866e7b29818f3d36e08fcd35b31de21b85e, 0x2e9d25423c272d1989d6ec5e983812e73575f6040b3f775fc9bd1c7817c55, 0x229ed6f052976bcf9f11e48f4fccbfb450a7b92efcfaa532c1c85a059db33cae, 0x3ba04ce72a78038c64773239e8f8c1da608b93fbde21c2ce94af9615ae10f44, 0x2ea6dd6483856ca2a36102227dc147fbb29fcb62ef939915a9db66c103a99abb],
    [0xd064dee824928d39f2a8be7d2fa583223c33995784d228839adde2559592592, 0x29e75237c1ee6bb877b6e95b7355cac03170fbf57421be8dbcc50f08693db587, 0x137b76a84a30e906a38827cc4b62b1a22e942d835192a98c514eafd9013a2dc5, 0x1e2a3dcda8868ab407f15b612c405069a5c1c545af827bb0f8f6e32dc55e0277, 0x5b71c5d1613cd9b6b3cfe9400cb5d8583a16dbc1142cf760ca6aa9f816e9f28, 0xa7603ec122e8e0178a7cb29db181e2a9a71f825effc8415b8d09feb7bf6ed31, 0x12e4a61dd3e9834662b78d9a820c25660926039237ef579fd1eb260bce13112, 0x17c89d0343777a479dea31744f2848ac06045696d8f0017b7fa9d3abf88cb373, 0x104a21bdcb8e49245acd6fc281bb1263976f138797f19634c79423f349d6dded, 0x1e6ad3ab8037bed2e36c872a9757a796696ee2950f97cf31eb83bcd4f63805, 0x248ad6966b401086060a913af010da4ea282c2d1461e3dc100569b3bd1685a16, 0x1b4d21b426441caf2545938d41bcb3b37c32b3fa15ed8ffd1162e65242ea4d39, 0x29c4422c99599bab17470ab9388ee796951c249645ab164e90530fc851ea1fd7, 0x1ce500e40779238422cd47a0a6d7f3dcfdc0c6902869966211b0b6a9acf5171d, 0x19102e3c727844fb898c083bc1ff45d106a293d8dce6ed43895782daf691a7b9, 0x12947f4ac2f6fe4b1125a28d17cc4a3e2db92fab0e0b97728c8b7bb2047078f3, 0x2a7639bcd6591dbafef49fb61db710e9ca0d712cbe81cb86340d0f1698103515, 0x83ac15141e94aa73277ab521d9eba44ee30f4e02d6e9c1568172bd18c9b7e6b, 0x480635cff8314d917d8a55b349529dc633170a143f4865713f10007f7f4b7d9, 0x1c03ca2e6ebcce9a2f4ce66bb039d036b2b7424ae916bda6240280d5e5ed0a1f, 0x15e7db7d25266f604b8f942efb4e0c32c1e45621336d280f1b904c3f4052936a, 0x2215b41943b064cdbc20179c98c4a6948c8cf249f04ddd18f519e9595aa33b, 0xba3d24e5581d6959c2bf9c0c69560f1dcb6486734dee56834898b97e8c04b7d, 0x10de6cbb712419d84dbecd375963ae617b7496be8ca89c5cf3ece9d30f4f854a, 0x2a4f4573863cbfb189e17e80bc465161a508dd069ee4fac346c2b024c88b5cb3],
    [0xd064dee824928d39f2a8be7d2fa583223c33995784d228839adde2559592592, 0x79c218efa2fcbe1cac587faa89bcf970134391c8edadfc9d54c666c091a6829, 0x112316416efb7fa45be2c134395b446f048902531554fd38e0bfbb364d196924, 0xd77ef457994c37f8a3bd0068572311673ea26b0fd473aa1ba9c25c6a627692e, 0x189bfb671bf421730764e771fd68f01e883f98b0aeac6e5c9b623bdf1505ea70, 0xd77f35f4ab33fd80625be829594190adface4ea623ab12520920ff8e707a591, 0x26288f7ab16b1812ff362b7d283539b18dfd08362e2a7c4466744a8b815b0fe9, 0x26f1bd644a7b3118e55d6beed008d72deffbde92815b8871ff8d861153eba032, 0xeb8a1d5ae4081352c7ef3d50b0622816fea17a0fb9cb163c0e544da8a7e8ae0, 0xdb56b6264829c99f094eef0b8c5baf36f6c9518555a9b8ce5845b4d32eb96e2, 0x20883c599a195873758fd917f44d2079778ccb41dc128b8003cc007b6fd664ee, 0x19f29faf9c5393cd0b7c07a902457096ee6543d1dfaf22a4f897d2ea6599860, 0x20a2bbb3ebc1f46f939e64356d5d1609b5e50b5b3fdc7462b4faf735cff66ee6, 0xdf989faa8055df73bc2acd9e8d9842bfdfa81140488ecf67db886d58d2a84d3, 0x1c208f8e89b2c7fd65a95e2fcce432f5da8e71640467d21f351b169d03395c9f, 0x1356fbcda43f79998b2833fe6eeaaf63886cf799f55505d81164c882009151d4, 0x2e99fece2dc2aa38fc4055171969feafb838a5f2735ecba803bb9f4d18a5dae6, 0xe39c64bd29c62c85340ab8eb5f7086e1c9bd733945179b108891f966b220874, 0x8432d0352bce6861217bfb3bdf0a04f3ecbeeaee2d360cd5a28c5d2305911d1, 0x103424d7f89182df35cf2d59dbc2b453542beafd78d95995a5e386aa2e55aacb, 0x10e4ff8e36e76842ca11e222592d318986689fed7328b94cc15104c8d86e2def, 0xa6b0020177e766bb234bec7dee733678251b1c8899c516ed2832aec23623c5a, 0x7514523d425b76b3a7812057725c07333577023bc38d70d079eb2d524d94f87, 0xe666408d6019b0c96d7c9dd5ab9e08a47cc988d93292535265f710873da5b08, 0x2339395b0617cd94dd101a4d03051e9436327044ac470ed0420b6e9bd876bb5],
    [0xd064dee824928d39f2a8be7d2fa583223c33995784d228839adde2559592592, 0x823e9cf59d9e29590ea5d5caa60265f1eefb9ef497a8a653e21e6b884bf380c, 0x25015bc12c22856eddaff514db520795225428b8b63b82d54e6ead88904e716f, 0x147f4836af834c89e12c52da5d778726c878bc2005e78e9c0bb46ed47740bc8b, 0x695c3ae3f6aa362df3220e3b4b230d3aea7ce4dfa4629a0b3da2cf68ab08b2, 0x2de7695bf1b96fcc94dd6b9f46184a9843a90ccf1891093670cff21e6f9a6fe4, 0x21326346451906a82345ff6a916bc7ffa139b3edf1ccea12b1ccaa554eee5faf, 0x112efaadc386b3c1abd2d173beae1b5a9424fe57fbab2c2825c2e6a7e663fbf3, 0x1a2a5c2b2990f00cb8bde45b57589cd7fd1c5e0df587d6718999a1893f0bc8c3, 0x2087e95ae6df27098e3ebcd46f3e4feca4aec7df172d5ef293849f671322789c, 0x254c2d79bc6811203b55ce01f1e8295095201f0f03613708366a7af5f7b9600c, 0x10f23dd383d2ea9524e512e2c7a3b75b76acc7766a95067116493a0d1db0efd2, 0x80154347a02980ff5274996369c7d439951efb11b19c3607010b03de802b81e, 0x155940fc6e3236f82e7b7257f0828b1f43cad68677571d814eeab2a6986b223e, 0xfba722c1bb656ed1c16203506d15a78c79088a9dcbad00a18e707b71f326ac7, 0xa31c81db83a6746fb9747989509010c547d619d1823298f1f5674551479bc09, 0x16a2ffcbe9959f75223188ee2d7bed0c4cb9ddf552c98fea86a6c01f1c7e0dd0, 0x2e7e9b9c74526581808097354419679f2d878fe4312934613b01820d66080fe7, 0x2df5d5cf7d48de207d7ff06b292961084478a6023f4ee1a0da7619008977d815, 0xe1c110badcba8d0d3190b37de62dedfdc2a25675f54d4c5bd6956fa5b6c1d91, 0x1257af1a62fb76f7a2abb3ddeb256bde2cc31596ed9a5aa2da5df05cb56b9ebb, 0x1197774ef4175d674951e91d56afee6229e236a6112a802c20621423b0a66f3f, 0x15787ba0abf814438a3c358e48b84cac38c4dcf66441e29b5a89bb17b6dc50af, 0x10df04b3f297cfd58260e1933420a96f126fe4a3f9d53000e140d4f55c2217f9, 0x26522aedb4ef7245ad2e50ababed3e320f4ec30b43f2bf1904c956cb3b9f430e],
    [0xd064dee824928d39f2a8be7d2fa583223c33995784d228839adde2559592592, 0x30084328d537eeb68e55d5593d350824f01bcc9a9d8cf28558982dde43bb8ddc, 0x5921d17d596463a98fabd2e90e2ed92eeca8b791f75134c9aa7538ecf90e450, 0x1349f05b3e3290ea030b6f2696ed6df35c27205e6bd904b569c363d985c81fdb, 0x1d92c460a4cd6ffe4582a5aa95ff6a8369a804f55d0341dd94d495d538dac09a, 0x1e27ce95b6ad61a67da6b7ff01d06998a5e66b70ad7086962f8b6f6687fbe00a, 0x260b78052f342b0f62c4a6d75c2aec7321b71c084fd3659255713de667cc742, 0x131e63069626670c022ddda083bfed93280ed3db252d51ad6a7ea8948ebc9a63, 0xd89b6c7f1e046e139cd4b937b5f30e293b478845aac1e1e64cd90738dbd2fe9, 0x13b662585b95a62cf47a3d74e971dd1a2195a9987ba5c35349b2ac299bf6daea, 0x299cddcb1afe110299b2c4589888afdfc8b33293a4b4f7cf822a74a922f4d61d, 0x243f933137a5377ca39a64f788a1bdd25027e4c1579908aa2329c18f13654b40, 0x152517da46773ba3a5708a14db3239e59b4cdaf84ca55ba6b7c61e9bffb6feec, 0x1811c08f29173c3ffd29aaeb2d9123a5e2b5bc32e5d74a23f0dc026199f9c8db, 0x2beb86f7fc3941962809bd8c7209613eb2f403a1db90acacbd487034b4e734e0, 0x22d40f04d25617323bf6481a7116f5c77922d4a98d867730e9717a181c24ebdb, 0x7984c5792dff5a244e45e8d9ca13d787cf5725f45513595bbff1405f8a12f62, 0x54f16dcf84267fdbd028fc4e88d51fa7624405920d6f85771606130c735454c, 0x1e14b42a14dc7272d18f47c28dd8050fb3993b0c0571a12f3b3e4a4c49ef788d, 0x125ddc89a4aeecea6d3620f026c2a9372fa856b53d8ad5d8ad495a5eec7ba24d, 0x149d09583cb39f4124a7145923205b3bfb7121c62a39d6238cfb380c782475b2, 0xecae7698bbf994d656a1d3b3df5668350112f80a5787730c8d32436aae6ee32, 0xd48fbb1cd222f052942818e73b12562f7490892f474402274151763ea668369, 0x21ff6e0e9dc2c5eeb19793fb2b3e64cc11233b81df41803b6524ae510cf0a29e, 0xdee76eef76340680e4f3d4a0c51b87a162db5254e981a7684756e55d8b513a2],
    [0xd064dee824928d39f2a8be7d2fa583223c33995784d228839adde2559592592, 0x1c72c610ee727a6dd1e885a0607d35cca9127f006e26ce1f986bad89bc3bf3b1, 0x1d8bff20f53a1b7fbd3ed4f015ca18fa484cc6fe4fda3821016d43a62db85681, 0x1c13c5149e5fabedd52729f4e4502a7d0d5058c532728db8377aa92f1c3e70e8, 0xa2044c5c41c0e874f005528327e695ada2337dc81c9257b6663ad1e37416a31, 0x27a159845c8347dce715b4de7d305d529b7c9bea09d3fb1615b69d5d0e2e9991, 0x28a37316b111822f43ce287c632cdcde70bd0a094fbb0ded49467acf199cd86, 0x69b007be4fffd6c1611b22a1f73aba8d334eb39e36488f6dcaf8f61b07cc842, 0x159cfe01b040d2ed27293355e3ddc2727906018eab4f0be23a0fbf924d74bd12, 0xb538e8f3455ff2d7f95203ec7c7d12262d7d25b224a92500923726f20f4dffc, 0x1f188392740ecb474a4a589a3b83deecab0c1c583c390ae1e3654bc90d0705dd, 0x85e8ab77fc680dbfddd3a41d1f749a5b25f207a10fbb591b2b2b70705d88911, 0x18038e5ab85927a21df17e8a5db6e3e62242f7bdf6e662a2f973a794d132ecb7, 0x25975674afcc9637d27a23b97bbd8b82874bee41e7b84057be13951531fa9fc2, 0x2ff9d4e295691f9979acf589c59991f2f8917c6358b76e61a1b53e1184dd3611, 0xff8d053d841882947fb4d33026c489c53b410dbb7afd04a3461f2c6b46869f, 0x1c6d41952c53460b094bb1d727059e7ef08feb073f1d844845d53b9640a09f64, 0x291c286327312c533d3e244d73732e212202e546807d2b5d7582e7bbdd28b10f, 0x2c29cc08dd040a2ccf3c5ceb34882c68f0c773d055766b389051276b2dcdafd6, 0xb51d6531aef720d40d878bdfb54a8dc43686066cf85e6eb5188c094b173930a, 0x2eff7e9766928007d29d2555f466ae211166ddc034d13531728246b23850edb9, 0x1c856f1e898cd9241df7e1bdb20857061acb1d825ce2b9c05c785be35a5066c, 0xa88dec27698d5f11c3e2619b75601bb5f8bed6c59defa4270341b8048cadba9, 0x171ca4dba69a7f21c315e9ec1d4324f8a365828508d62c205a0c8ab55322458e, 0x2192264db77dda74e05a8c7389bf314447eccfea329054f694fad2ac11a8997f],
    [0xd064dee824928d39f2a8be7d2fa583223c33995784d228839adde2559592592, 0x2f9db1272bf8daf7461f68a046226bf5eb50de5222634ff09f06cd08c8d90647, 0x2dcf0a905f69dcc006ecf519557f50b60cec57e406fbe85ce719240ac8ad4d96, 0x1ef1e8e3bcabdd9c59f5c8bbe9c8eb2fee860feb4aca30cb0339394dd9aa845c, 0x1f11157aed6e03678558e187e731f4e6c70b98fc36b5337562c565680e64bc04, 0xa38ce884c10d28d82a3b6316f30c7fc833f4e1204c984b7c20098a13a0d5a2, 0x1db78e384fc722f1290a337231d3c8986448b867adde280ef5eb72c45fbbde08, 0x1e815a5b2ff405454bffb88b3d8ae428682375fdd858d9fc2fee3f76cd3a6d4c, 0x370b02885c192b687c2cbb330888c9f4b3f26a6c054f70b092acf96d93f7c90, 0x8203f9ff8db7576e14876f45be708f58f48e5f951be08bbdb4e9cfb23c244b9, 0x29dc1ae19a1f06c6d67ad121f185ece6d0751d0ac335a9b7c879bab33dfb0e84, 0xd3c1af0faea85e54e7da575cff80e5c027cf3876da141377410a28026ad4619, 0x29609aac1d88be4d5aff5dc808e01361309a1a6c8c0defde126fb554c79944e2, 0x2da5231bb84b05c467f6fe2b9b3e3bda77854f6de32ceb380fe0309c3c8c5d50, 0x24658abc45d1109f9cb4ef1cfcea11de3ab442f13e710d10c0bb6bebe5b012ee, 0x1f38ead2636865f16a72e393dddc1622ffc5417e5194d6c15ad8bfbd0073946d, 0xde6a95902d88df02192471691daa4ac55617b73f448a4611f3d89172831542a, 0x1cb8cad4994c3af3a2ae4584827640cd9dd5012fe4b55136bdf53357b4c168bf, 0xc4b166f5e4c3ebd2ce9c84e88b3d42cfaee7aad923d9807b04a2bde61151b1b, 0xa125c564bd818b114e3af44a87e694061155e19cbc84c50e0d29656de2a03d9, 0x18cd16fb943e369664b89db857f6787b1d82a17b3940f15add4047f8bdf4dee1, 0x22100b866fb7d36e656990a2c832bd09d7d0036ffc7d2693b22fcf5c26b05735, 0x2228191716f3aed9191659eeda5fe346b80af580b666159ff25456172562c5e5, 0x2dca6c96c30284bb8f7cf3467103d39f922aeddb431bfa3b62a7bc1f61fd9baf, 0xa242a4882954de8d3d1e8cf0984236cd4665abdbb4d980c625c1d470349380f],
    [0xd064dee824928d39f2a8be7d2fa583223c33995784d228839adde2559592592, 0x116c85a250d461dd5bf2249536e50de23ab8e0287f5cbc62363c54c690c6d716, 0x750eaaf76a03769c97c684d448ac7ae2ad93950a75c24f3482340bd29f566fc, 0xde057ca401a6fa8a17d35a643f71515678944f33d6253778d116b55b7599cfb, 0xc944093f1183d2fd822cf70dc124a07ac9397f3a941a50d0c35da8df5e35180, 0x19376e5bb4d2266f833d7fae60c8c5f2f484b203f008003038515c66e2677233, 0x169bcc309d7b6f8c73594d7563262ecd332ed38cb317d2c43f6f8dd704d32178, 0x304811527f616bc8ef59c55565337f63a42094023b3abf89ae99193034cbc9c9, 0x24bfb86617225eddd82f86320315dc68e8a7fad755ec408012968449dbe1ceb3, 0x242f4b3a3535d5307261e9a75c570e6c06174ccdf398c934958ca129e7bde3a2, 0x2b2f283271455095d3c2012a1f4fda54ba8f365cdbe014328e0753d94824f643, 0x35a852e7bf5cf60b00f15be184e707d345fa227d8e44e1f4c37050d79a53a1d, 0x150f777da222071015c6c4e025f67bc356fdfd678d9840dd2c93ba1a43f98ef6, 0x2d8c70035731ad9efba92821a88119f6b8183a362be641729a93d6a327c03809, 0x7b620c8a78e09e49ce547aa783aa78f3e4594c49ab3dd6f602bc6c0351d823f, 0x231996b592528575567d39d00645a83b13929093bbfa00d6a661e4a690351d0f, 0x4e47a72e49b9c5aa3f69f6af22fa0ab640c93fc524dd3c508486d66f079852a, 0xa8cb4b2bf3f0c5da671e48f83e5c1b3018f0d31200a6f19fd5195db22eef7f4, 0x18bbb002b46f2e5fec2b120faf87822ca8e77ace94e03aab5c16c4b931739dc8, 0x2bfae1b054ef2e924d75a8a01283da29103c57bad129ec8396ce274ba4524df, 0x6d101b19477d1627b9542581bf0cdfab38b05cdefdcb81965c5be00d780f192, 0x18af61f6184ff85f104c2bef179b3ec5a5d242dfbebe8e27a2918f620e8a5be8, 0x11e3a7c2d5f74371beb188c6e3d7a14b33128af8ee3287546d12d7777cef70cb, 0x2de5d6a7a27343dd0422ac71b8d409b43ccb0b672e978f8fdfd214f4d7866404, 0x227cb43b9818924f2a2588964a0ad7ddfa3df62284b4b3b10199a501ed970622]]

/-- starky/src/poseidon_bn128_constants.rs L5374-6324, one round per line -/
def c13 : List (List Nat) := [
    [0x1373c771cdf15121a224f330d84b6688ef9fe0038a3bc26a28e3196578a0000d, 0x29f9fbda3c999836017f76e121af3aca5ce78bb48fa867a6a95e5b9db387533a, 0x1c7eb5116a20075c169b786d9dc86a24ee7a2525b565bbc262209a8cda490528, 0x21a549eb554f0f859f61d68f1b6bbe9aa3449a6238546bbdf2a1c308c9cc52e6, 0xb53fff701347d1b9df98b46175800e0d3250ac6d4a1afa71a349ed195873508, 0x2129ac4742415c020db2473999b34dfdbabba3cad4713718f95e6346e1583b7, 0x1d28f305e8b0ec88da37c8251b0c8d230b68bea9401a15f5124d64c5454bc29, 0x1ed301e02e3fc930999fce6d3744c23596700c03720705939d61cee451faff93, 0x2edb1832966e34eaeee0903858afedb13dbba9f7c802c83ee628530d0e26ae1b, 0x123daaddc930c65fc67bc77ca8bf4123fe81fbd0501e8f89ac31a698756d87d9, 0x2bcc36362c90210acf67d5fe21d53104e9d5478d057141d3b17259fed8e4a8fc, 0x1fa928cab5938207e898e61d99c7d616269144f7900815b17095f7ff76e3c9d5, 0x29c2f1cfa72a0fb8f53a631e84cfdf5cc18fb426c254f5a905fd3e831fc7c837],
    [0x17a732ad13f1b6a1aff42664c390b9017c418210273c7d048bf300aa7be9c65e, 0xc18c6e773ea7eb43b98cac66722de9d135484c6cfa084c2a512ea1977a60268, 0x1954c5c238d8a30c9f1ba4fb963e091acacbc3ed7b498dcf6600f530b6545e49, 0x2591ab77813f34d8a0e0b7b0caacd6ef179dd314597cfde78b74869d74dad600, 0x179db9fb8aab4619e67a6a8667c7b4b32f40ed848d8e33b756c9a794b5932fec, 0x305d014214b4107c11fd83870458738e04fb8dc4e747077c0e462f51d1c59575, 0x298723d70694578fe291635898762bcebca9ac4563b12b90e1fef4f76f9b7bbf, 0x2b336e9b38b504c412a683309ae8024d0802a45d06e649a5e53719aab29a913, 0x8687e699b527b1341f9ab7f17113d9e0eca0443251ef35f0a905704f155d339, 0xa5ff9f7d45b3ca9b79b18d79db4307ee7c4ac4ddea9a8da1a36ab3be057c9bd, 0x20e44747601319223535f4566cdc86ca54324c5657265353add7dbf4f2504656, 0x254dc31e3afd304e85c9ef8fabc1a1cd1a4c7b9bc860ce9ce436c33a202a96d, 0x11cd6492dc520c57dc3e55e33f8a387cbc1eda3a1490b6a4bcebd94e0742cbf0],
    [0x2f98b10265a30475bb0348d4a787cfb6603119a1a4fe15c36dc986cb4f8c7cf1, 0x153d814e4e55ad782bccef998c974250c073465ef7077550246f69c58ba989fa, 0x4db11a9ea014aed2ed08e46c06306e87131744d65d289e59964f930d13b9ed6, 0xe9a9a6dee9339f5de7135ca3222fd2230c3f3f3e01eedd3633e606aa0b1a1dd, 0xe6d8e464bfcdb8f9ee60fb1f2f33079911e7a073856faee78398811cb976757, 0x237fe2151186437a1cf1901106ae25aac16e9846f9d41fd68796d7a28ed728a, 0x1e3d3d1eea8b7615a9897ef86229776cbda1d848aa5a680935825e73f1f5aa84, 0x9724144c7a4aec0ddcbba9f9a9e9ec9bcdf688ca3f5870f1ee6e174179fb440, 0x11139987e1147467d927db25eec88f0c1e0232e3486cd9a014be3fc8cf066129, 0x1524e5becef72c2697e34c8055ec81974af04912d7ca1df83e65a080ea96269d, 0x64d1299b11b1a6bb50b3e5ac7592a054fd72380afa4c092ce28ec8c31e80c99, 0x12d9fbd27be24eb620b7743cfc5296567cb4804091a1803dd977788a9f588e4c, 0x88d226e69e1b273eba31d4da8576085cc0fd0daae1546bef30079f84b651bc3],
    [0x15126de187213ebb40dce5da1ab3adc58a3139920c19497c3f47119baa50670f, 0x1169c1fe739bc528eac16a5263d22dee4a66a9961f01eef51684ef792126859d, 0x2a7006c683094f6f84d122ad5774ad2f0c9fa80b6c963e2fa3a1ead3d74f3aaa, 0x2607c22ca9aefe8cdea30fff05b05c4fec7ed8e9302d0f950cd9405ae94bb258, 0x24530b086f441e3834f36c2b11ebc0a809dbdfdd8317a384465931c1c58c2638, 0x6354e02d8c4de97a811481e390c26e5c93fc29a2a1a84824ace50467c9aa652, 0x1f6fbab3e2ea2791c94f5ff43ca128943640692151b295dcf42cac0d8ab0757b, 0x1747ca45b7282ef09928f7649f5cc8337537e2834e6c8905c1ae69008df70bfd, 0x3efd4b9b4d41974e36884e3b1055a705ab4ec3fb1c8e76f82e035991200a633, 0x2d9cd189d47b0b1b32c9a2412db6a59b1b475dc91ebd2d685c96b349c220b4b6, 0x1c9982650aacd1a449ed04605bd65fd75ce393d424c9751814fd03541b4756b, 0x243ffeaa82f3c038481e84b728b459eb221359851ae226c1c6d6a7ba1b1ffdb4, 0x650daafd003bed0bed22bada31bea709491a83b55caff300339885481dc65e8],
    [0x16d20c619674228b767fc625aac650baae2d0cd15c1f9d0164547082b3099df9, 0x5ee8d5d661d39f15be923fa2944ef2b29da3f4831eb1e4f2f1c1230cf5d149b, 0x23ebc8fc40feec52402e18f881eacebfe441de256273ffe551eee0ed7e4dad73, 0x292bb59e7a6c70116ad7b7e11951c3b8b6b1b130f35bc6c428a9533c003a70e8, 0x133d42d9f83d054db43e4354d1bd7ec3a89b8cf94703fdc12950d9f3c21a63ea, 0x1fd6bed0d347a88e46fcb42f3397aeb0cf07a8e71467e6110b94c90f9323745e, 0x23b091a0c1f0822c8156747a907c8a79b8c1fcab4a3420622511c867f79d776, 0x75fc73bcb6ea2c158e721a9aa6c3f1c4d139b5cf1b752c87d96f44420512eef, 0x17e3bcba0b2d22d27cdabbcb360c8020e56c01c079cb550e3f169fb2a9a451b, 0x194299f0fb7951a80ace994a3ea3123e6e0cb72d5c46fee296ea6f8e73ad1882, 0x6f0e522924a4cf25d9011d477a2746c77e8cc77150b87b42c8c118f1473b514, 0xcc91c18c5fee1b579da0900f04e5a6c36d65f0fc977993203d4b311cbf5d0ef, 0x1abd94c2a5b28e661310e3315b67adbf563fdb06926b6dc4e4d93d04165ed309],
    [0x24142c9001a7bfff363f3f67f4a2bd128efb72e846e3ba10344ffae655e56f2e, 0x1931b9d4523cb3f78bfbcf6b1dde68c46012aa747dcd7a3af382ed781252e478, 0x2ce3bd1161a012a572836e97ea8f0694f93c952d11fd11a8e8f9a49dff9df85e, 0x15a09fa373041c239e8149657c98b4f3aa30d192c87c03cce47a2b2453d5a48c, 0xb1dc38f74a71b7d909e5ce7fe5601768738417a5786898da316f528998af665, 0x13ea22f9316bb5694d69024fee2cb95ee643c545496df0bd1c25490e34d0f1f6, 0x1ffe58bd14b12b9fafdc365e7081a395a9614e022f7f4d7bc7dfc974b0aad71d, 0x11bab1f186cda03c01e85dfedd40bc5d406e24ca58b305a6257b7c772bce2447, 0x14007eb2d1440b7b8e0936c79672051ae6f5ca9fd4055b417f00c9632abe30ec, 0x1037f0193d40f682ed9623a772de679f0431873e8e0b5004a1f242ac963fee72, 0x20b18be760e87d7c6149b810fe496abf77a0f840ee57ebcfe1cf77236338fabd, 0x1de835e6623f426711276dde7a2a1c20a61b910bf6fdcd33b34368cf96e95a2d, 0x211c38050b07c4a747c5dc44939ce1f76b0820c4b5f07a47e8b10b05e7a99d4f],
    [0x372fc2cd832015e119c2a12d3622fd7212a4887e4bd1275c205fae2e17f452e, 0x1438dee77b0825cbef6b0f412e9a7277d4e5dc161ce9816f020ae4d1410d0be, 0x7f2ece16c12c9757aaa60953dedd709c513f6f8337e22968a65cd50b0d99211, 0xc57a69d09575d8e1f525e012d73729bc89649b5bc4260d73e4324848452510f, 0x1c8d0a9db77f14f835309f2d3c6821b9921a366468a0d15efb308f57ce658513, 0x169da093e7a5b39bf088277072d4fd58d80215b69ca262cc2d12a5eb30c00b8e, 0x2f3034ab20af0fd83ac60b0236696866f8250bf2d765b10d6da2e3ef1e2d787b, 0xe31b4fa627dd0e5f2dacaf105865a77781543620f3eb28ff7dc102656583073, 0x2a9007126f67e1631d29512f433a6a0bcb8c95a36be164be5fa86be9feb8a594, 0x80af40215b6078be84fb47acd79b59eccefe8a92b6a6033e772c22183bdc0d7, 0xde8a234d208861ebb05ab3812e5c4fdd39e7ada9047c926efb88e1cbf2ebb52, 0x22aaf24c0f1e3f941606a527376ddff91cc6b0adc062efe641f96e3005af3659, 0x1f4f5b7709cf584bf0704861e94234cd8909851e3b212c64a0b3051ffaa2eb66],
    [0x1296d46427eb2e38816a5e817133565d4f6ded4eb72b5d0ab559bd57667aa2f1, 0x3fa86767c1fa2d7b4eb45b4a255b1298c55d045c69627f5d8adeb9683a129be, 0x8022805abe02bad75306d226478e49d25facfbcaff649364352d4a88d928f38, 0x1d58b33a2a9638ba180cd36029308a2e8be7ed273441d5d280456b2d3b8d8a0a, 0x1f8cae7359c800f307a625b66ff2154c6c4364e85ca8e01911a634aa4ad657a7, 0x39ca66f2fd7f80c17171a4ed8c82ae3c3bf0462d1451a9f5a58748958717bf2, 0x74f7e13e74f2b7b316a3839956f4bf2541eaf2497653b6db1a9335da6c882dc, 0x1f63cf1148c0efa656d5af850cd02a0d879ad7886cfcafe1ec55fe6bf4ad5cb0, 0x1d9bf6ebc0464b9cb47583494a27b45763d7a62296ecca17efbea97356a73e23, 0x76492874603b021892e5c2a03c706979be557fd4ee2e040792da16e28bc8ac6, 0x7012338c5c626e267f76d428388940b900e0085c785166d27b7ec8960825238, 0x9c29059e2013d0ce2cce0b24e3946765a95f040526c3c9224d2801a1bd4ff81, 0x1f2de0350981ab374c9ba7ea1a69d81b287c2c9fad9095205ab21582ba0ea641],
    [0xc52bab86e259a3bd8c061197028873b801b4c56ea8036ff95a67f434f3b7425, 0x2f262e06178670c4ff861f670c7b51ef9e629213a6422032dfcb26760426a3e5, 0x2af6aa2335400114453435e97010dbe70786a691a5d972ea211af12d4ce384c2, 0x18cad65567f0322fd6f0626cb5caf567a46faa122d30c37380b54b6b5d01ab3e, 0x145667e19067dddbd4269db6ca76d0c0d7e57f1945eea251f8acad86e849858e, 0x2ebaa7e10194cd2957a13d1a358fc93ce54d8bd3dbed06e215b2bf2623b21847, 0x28b85b95982ebc76c4762654f932db031ffd5376a1299b45ba805c4b4e0754d0, 0x17cb0c473841ed2eb1f1a1ddf021b74f73f34172e065b24c9684dd3cffc340a5, 0x24f46ecb8583ca97c5b018736d227fde7c39d1978ca63c97e39ea06588db07b0, 0x274b5c409ea9809bf7f04a7cb5ee4d322d1a95a86c1d0961b15d4a24a7185dec, 0x2cba8960d543fd9846377348ea55b7d042b3348524d76101836646627ded4477, 0x27f02e416dd70b44907f97d7ecb945cebbab1d4dc73c8a18c00cfb1fb2469988, 0x2ab21865691229fa440b6528ad7c39c41693b1b939ec09dbeedf26f37724a151],
    [0x2910da916e438c04837ce799b81b0e9792c1ead008d92fcf9ca867b165f5e275, 0xf03ce98366111de12ccbe5a1121c9f8309519a7e52300e397d9d90368207afa, 0x236b0371e7ce97213d8aeb6683f02f44044a1fedaca3d151edd3121a44fa19e1, 0x2c50cab6a867b1e801a36ffbcee521b83afbc580be1897dc4c5b6cd5df3b350f, 0xcbf8c8dccd837d1dbac09151e4ee378f93e8548d923d8a49e6df81b9c3f277c, 0x1d18a9fb001245c1a6a17f7cd24ed820b0dbede9ef479830d0ae483346e54be4, 0x1476bb1c30603f7f94493d2e016bee63283b2a7efd999d59090c434c88837ed3, 0x24d565fb578dd252f56a7a0d5d8d4d1c5d727d5234ac4bd9a9600455ccb5ad58, 0xc68e7e9567deab8e8b95051a7788443438e0f5fbe0d7de436fa3cfad596369e, 0x1ce5b25a539d3e1c0c5dcd1ebd0f4ee716840d44c3ae109a669eacddc4a35611, 0x2d3210e66407f6c343eef28fbb7bae59f626db73bec5d9ff06ba9d43ba84e208, 0x118ab3427747ef1a45a609cdf7e7102afae6d411392de254d3b72f1d450ad2f9, 0xb45c70d2856c7e5b3fd6f8f0fde1a7fcb14a2acce4fdddfe50b39fb97423b5d],
    [0x2ce7c2bad5608153c5d1e40ee17cc33ef1783d9b1cf0153e4a2918894faa46b3, 0x854bd46fef6c2e6480b3b0998215f55f4e090a3e99e03a5a64742f98dce5af8, 0x15c77e7600df711f58f2f0fa88b7d435770104a196076b74e6f5d7a96c8e693d, 0x2a0a3ee38edfda0761bb9b3017924d09309478b167a6099e54d2f5a221724ed8, 0xe8c14fd43b9ace2b7e98e1ac65659cd37f8de94198aee42f5be6659765a4ad9, 0x163276e836c4ee6ab9466613c61fc6924faed9cfdc0a458bc95b59ff381e21e4, 0x23d1584a5cb0b74c00071c687cddacb4a632b104de4159c0e00c5352d078ccfd, 0x15685bc903a1c4c031ce016c093860a2ae2aefabfa47d1f290eb5a628522f5a0, 0x1b33f50e90e90b5dcacb1a158641d63311972457efd9485834b83f0fa04260a5, 0x28380c55cd667894c638647e6aa14b857d3f31c0315ab315d6a9457304f21dc1, 0x29d108541f3b451943eacf723acc6886aab18c8e4485808f4b1e55a73cda6246, 0x1d4c2cba59d5551bc3fe976ae5ac09e5b728d305bbda193afc259c99932f95f0, 0x16a8d69970561003650337aabe5e4e5ddfa4b71c1b9db8cc7b82780359c70d33],
    [0x289e50c1f0b0bddedc98b7e8a35be62f14f56dd5d7345bfa6ad0d2e43bf92e43, 0xa41765a5352ecbe0b327ca7827a9fc6495e7b6c142dffca003f58383c6dff65, 0x24c0d42378a0c8a613c0402ede6de9bd3527ef2b82ceea6006e7f71bf77666d4, 0x277cae5057d5b5ace72c47e60cc4b8e113ed706b5d91ea4fb9b13fd19fa4d47b, 0xa303567cbf94968090438a23e2fd2ccb8a7f71622bffdc1c1684e8958c3765d, 0x1f7ed8c267a29a69d9450dc74afaf768a884e42c37e0e6fb4d4385cb027ab949, 0x86c4b8301656b6acb8a735019556a278a60313040f236e815fd22e8473bbc65, 0x27b63fbc29594760dbffef8d30fef49afefddf1504bd487fd6282d9e3d6e3337, 0xb9c0a45621716f9849af8a3c9075b7ab839c282881ede8b0e5a9e723766d70, 0x1b5ba2fbced922c3796d57b4962fd253f5ab6e2b91355d2c0a8d226040652395, 0x2e1ad57ebdf932603f51bb1ddab204dc026e13dc4986791f54c4030cac6f1938, 0x2f865e1df1169a35771f617046485f8fb17afde3b2b97d1eafafbd1862ac6e16, 0x62ace5be380c5e4361b209b80befdcad052146b869d50dd58085ea65d9d141],
    [0x2dbcbb1b4ea08e3769844bed522b92ee01fecd5b3f2379c24b45d59842536337, 0x1ce3d90034dfda11e9bf7d92b65f810483c48b26cca092747b4ceaf07c7ba847, 0x86583a59497474b0d1eb0c3cec4f1df596aef3db638fee1895d3f5a5845252c, 0x2b984d5c91b7b320f7f297bddd68789ef6ca88cfed3957d2c5e8a6fc0e78d76c, 0x8edeaf9ddcd25a730751b32cd43c630da831101eb310399356e4b52df11fc28, 0x28df39cc7f96672569cf86ee373623da9f1c58ff1fd66d930cc234a7e959c41f, 0x15af6a84c6b142eacc58137fb371799bf3aff1780455c32d8d3598cfb91b24df, 0x19cf0dca22781a9bd56173491ebebd18ec8446d6717563bd3a80cc52a1be6961, 0x4e0e0b52923bff8b67b1210f23a11277337996ce50180eba97775618b003558, 0x15ab0a5fda2b5191cc2bd0485a30c2e75b540bc397c3436d2e64b6a2da9ac49e, 0x18e83f7a6bbf457fde7b8ba4fc53ad4810ee071941969f87b62b6c6ea8f55ef, 0x171b0539cf1d6e8519789fbeb31292b6be60c3f93e2b45309ab559a854e63355, 0x2ea76a14e0d177f355f681c822de2b37142ae6e93712492265d2992473da1021],
    [0x144292627b643b5180c710eba6d74a076cda5d3ff836576e983da9b7d93564b3, 0x7ad2bf37ce1ef4a8fac5b44305f1a5d2127d8c6ff173ec42f0e421ea53f7c1c, 0x55514dc9b01480ae57ba24fd5dd12f229bb5597edcffca145156af3324b0d84, 0xb05a45bb9377e1597507fde0dbbfa2d642f6c358e233ecb8ed7e575ec6a34a5, 0x198b369f024a0561af9ad7a0cf7ac107042b42f9301bafe2e1b4c2ad9e46fa86, 0x253f82b21addaa86724677bad4a4c464ac5ec75c78755fbec6f46d9ef73c2f04, 0xef256e9d5e9e3da1f56d7d2115fdf10ed7674e3cecbcc9cdbcb46c7cfbc7429, 0x2d8926570b080260164e6b66afafbad3d925a464e995d7a1d02f90c7264f7b38, 0x19ce4c36c51210787f71cbb080cc340f2fb732cc191618d525400b2fdc516896, 0x59df907c9fe5249d484183f2e89f102e1f9978585c88b57b9a87e8d8cdfc6cb, 0x2afc27a41832e0bd3bd8e947284d9acd1ac7050295b388b6b5cc3179a842f803, 0x6e960a5b2385417429dfa89cd14d7787c0778e4c5421dba2eba694b0854a21b, 0x1e8b790ca2d081624486acfd613245efd710e7a7a908a233ec5afe1148476098],
    [0x2f68d78df4e08b23c96fa9597ab7ba5a1785329a370053300d792a0421cf3ae9, 0xa2e82f0c2f9e345689b2f2da2108d018cce3084ee85dc83d57937facf3e56c3, 0x108b2af65d8a2b8ef81434d73646cff6c25fe8ebb88bb768dc435caa19143111, 0xc2f90eb77fb2855d39b745a85d3c960c3d0c1ee740d8777971c936ddce26601, 0x3daddc5903de3d5302c7a07d4c546039fa84c3da6cf4eac9c2b9cbc94db005c, 0x10f4d48188805d3126738d24976ef4c80596b3c6380effb23cb3b3eac954134, 0x6701317708659ce74515f62f9128ea9a1cff2796e18eb9eafe9c2ec4f9e4280, 0x2dd0349f0f0ef52d77602037a211e5c565e0091e01072ef08630056d907fc6d9, 0x1b15957d8c8774076df16d49d788b11a5ad4690cbd8022437f402a6b25eb5436, 0x2a92a1f50c4658b687f2b6c8afb5323c9b8e3dd17fdcd5c40e17db738a27592, 0xd4cb316f072fc8e2463a4a42d168d6dc04e0b137fa4b57216d1f2ba5e64ad56, 0x1cf0f9bf90e207f3a0aa5fc108538c641c40e0952c6f66e6024fadbd2248e16c, 0xb81c03e6806a49a8a5edfc3db4bf78fd4beb80674d0c88dddeef543d3600ae8],
    [0x1dbd32d049764d6ab6f677b89c408f9f4d3f29b5a18148cc8d5740e48ecc9d35, 0x16d52bbf838448b0e44c2bf05229c3f741b966790438a2997be9cc660103ad90, 0x2c8ef880d5788e5359b97d1be554305e0cf5bd55c293991281bfe5401b9e35de, 0x1f007ef167c9b99e948007dd8060857192b9dc992127c235aec46a2b323f2f11, 0xcd33683ec08207c56a80210d9929731d2035264394841b2b6f65c61519cd842, 0xaf1b0f70f93bb8f5377db6517c4482ac93ddfaf6051e68fe739f161b4380fd9, 0x24d03d522118e544c04d49d38affea789e49d2eb2fddd171613e69f4eb07bb40, 0x2f1f0e4bf9adcd2a4f1aee5cef4c2d3f27c9b4824796953025027a37942428eb, 0x248a412f287cd3b3448930a1039ab32281958f99a2eec0c2f1a52a65b3e589b6, 0x21e374b45da55c1d3d89c6d2173e11469992b81beb2d3d4cd4d16038dcbab231, 0x1c2f85c42f6a331092ca033b4ae06ab667cd8abef24b5458eb10e53346694a65, 0x29eb555ddd4c74ab9031084127bfc25036f177be8ed62d32ed35973d3de94e76, 0x7d30101df711f25364a955a7002fe48f47ec0a7c0acd54ba0cb551c912ec6e3],
    [0x2afaedc7a657941c9e77e728f202d568e4ad1230f91d369a961b4dcd4e15a36f, 0x2daf426a65d37cc81125c3d1cca527cb29e9451be0a5acb7e4fc81b2afae5a83, 0xc774e81279520eeca70f8a7b3d7799bdee8371a9fcf902d43533e649c7bf48d, 0x308212a0a56cac99561515c83f01dc3684be8a37a25197b467acdd367ee030b, 0x20fa9447e92e4f68025e1bec51f115fb653235aba484fa0dab9cac4aa744d295, 0x2f4f647ef450cdc4b3954ad14c7cb1c3e08d140549bc36c82f739293ce8b6245, 0x25a6d02422b9e00b1ca5e1156b87b4cdda56cbbb341f82b4a63ecd41afc79bd8, 0x565834c7cf03c8e542f1c3288006ba9f35c56c95470bb86b9668d0063d095cc, 0x24a6f88d5d7090b24a151c68aede9f347fedffaa584aa431b2d0e90da3cd4fbd, 0x14b0d44ddf5cea576cb82d399c8e4a53e78225b646d25c97b504e63dba4ccea, 0x251d320b7603c1c86b6102493219cb1f737e4ff9b84cef7050e37456e8f03acf, 0x238c2bec6cfad388d477c55c0ddeab2d3268155f3363bcdefd3cd8ae5f63766b, 0x1337d778bf0f0bc001ad9dbf9999379cc08de0ed567568448ca3c0c3555da9da],
    [0x269ae35f7eb384ad1965b82f8c9e8b4f65d3cecfd767ed4408a025ac7ba97448, 0x2b01d8797cfb9616e3471921b610dc78c64ae9ab2fe48701baee5e7853ea1891, 0x1acc5f89dfc24a03458156ff7b156b22f4270746900d71368b1e8afe9a684cd2, 0xa66d6f919f7dce7144ec8f66cece8dbedc62327e0407abdc7bd71060f8d5b78, 0x17978e79a55cc077d4bc92b38ee5d357ab4a6c62146b2a84acd9af50954e8ca8, 0x11cbbbe66bb4d957813408009843b2c96cd7b02fd4b449db1895c833a64ad04f, 0xbc7843529e13dbe304210922ae9515a2f8148eaf5e83bd0686112dc646fc93a, 0x23d644fab01d806361de665c8bc6e972d9658d29a35e96208bf53f8fb4ca770c, 0x48371c6200b923b1a0ad3f008310dbc350e1e3c470d24d3ad23eb41e3d93b3c, 0x21207b1d47a4bac52ba3ae9078c265e5cd3b11a126547f2144e501c18a656f66, 0x1ab86eda61a6bc9606e65f455c3c48d4136b03d8cdce695e750c257104564704, 0x471b41c6418b6afadf0c9517369b01f62ba78d561941c4beaa1de9827676444, 0x1f67ab3d71646c039ce09ee72320b2ad755ffbd7187eb43d5ae0850c923ce6fc],
    [0x1d78da55a4c0c3fd78ef34b4316eddd7f36d5d8db6551bcdbc836ba7197daff9, 0x14b37257c1f8852aed448036afe59b3a12159b89afa5e2ecb35063aa91c3b791, 0xb904b1e068cb7712bb63b1721dbf5adf5b6717e6b0deaefff1f2a988b3a5a1, 0x2fc100ecb79693aea91c6118b70209fb445c5feae4f6d1c5886018a0efe4a8d0, 0xa9d77bc8f430233b59f6737b9c0197aece2939a3b63c5ac24cad31bcc70074b, 0x1f4bdc685882ae1149affc74fa1e4ca614cd9499d75027a6ca7200000a539b9c, 0xdd11b1befe293110cc4f6b5c0de6fae3a67edac4e84b238facb8a445fb73fd3, 0x21012864a44b6479d44bdb1e2e97764067df69e076d1e1c310de929bcc1ebbb5, 0x142cea93e5949c06c37dac88b664ed36a8bfe1abccb4b3145d0087410a5cf8fe, 0x25d074e31dd093d43fa3a3a6b5c044177d43ce7739acb9e5818ae8339e9335e3, 0x152368e8dd72e9bd3f00fa47ad0197096599bb5ba3f63401ae9b3689f5afb943, 0x224450a6f24dd8427d8d6f9dd985630313eca57d57479ec98ed3eebe3a23e50d, 0x8ee8bed1a5338113308a32cf4b8f0a42b9c122cb8ea937cdc1e31878554c81b],
    [0x68471f745758670cada7f230140e09acb0acfc237cf7f31e063553bab156dd5, 0x17dceed9a861ada2970318ff8b9dc13074a1113f3076ed7ddee67845662d5594, 0x21c951b2849f51336da12e1930cbb2cd407c5ca0bdf9cf6e2ee88a8e6cf36e1c, 0xaeb15bdd33d09c780eb1ab6848dcbc1a18a5c6a1f250cee87cf506d46c36e36, 0x37e66e0bf7b7c7f7b00bb5c067215562220044c94bf788c40b4806fe86a08eb, 0x2705d297db4ab693a65d4cc73ed80ceac3a6e10d57123701a52769095647bb00, 0xdf821b1a387e78f8e2388cae0294e88d0c2dff811425a940a60e0285a71b3c3, 0x2959ffca94642766a46cd8340db08ec9ada915d23540688ad1f25e34a9ae3afe, 0xe86b8655306bbde01748175b56e66ca36410f758e1bc02473e4255d88120a43, 0x8f94dc12076e1bd3900705e880245a6149ed38f87baffda0a6f4b14264b5fcf, 0x2968e4762ea9e6ee5013d96babb250d95f300fd80d86d22cc095de9514590506, 0x1556c2665a0e74cc056fd454a85a3fbecb57a23a879dc1cc95b98d9bc497018e, 0xce86a48c05d429be480b9cbcc220f3a29c6ec865bed10a07835c6fe6bee34e1],
    [0x21e6b5e9a5a5c57156dfb8cf5a8785d2117599c247af6feb577bb44e7524534e, 0x444c6559f15a5d6f3781bc392e88e8ac582e487d60de12cdbc357c9623e4ac4, 0x17cdb083db2171c7621198f51b7d189117ab80e4aaab817656342e1b0b3dc1f4, 0xc4fcd32fbbbcfb27be41a9492ec55425969c9142f365351c7d23478fd68b3f4, 0x37a47a18dea6fc765e6ce6ce7bd59e3d1103ab69cbf9206d1c2ff4ec0389576, 0x2c14bab17a78ba001537e37a630357abe06ecbdbd2af7424ce1225d4a4414b5a, 0x10bd8cfbacd505ffd57a2bfaa757ad3e45f63ef37e67dd541ef07e957984e7f9, 0xf2a0b6a66486b55fd8273a453ef622f4c1d4e3d975c34d538cbd8440a3ce9c8, 0x297b4eb48434dc5342e4c9a262c200331480a02109163863805bb70fc7a92614, 0x22cd3cc552b8310954b62b62d4f7a91864e6b6cf79f55f244d384804946a77b4, 0x5cf496eadc8ea0ccb36502f443c99b347bf7023f2d7fbce512e1c58045fbb2a, 0x1e0ae8b082d3726190a6878f4b8889e0b6297d27de3f183aa9a9f2cb2abb90d4, 0x2b282ffef89e1c3a90c359bc7c80133b9f634215c30c1db82a095012793c7c1b],
    [0x13bae7e838c638a41a9961ab81520f408c9921070d9a02a7fe5bfd1da1dadc4c, 0xcdc320eead70bf0db57965b29f9cca28826f6c44d824f7f122e430aa4e746cd, 0x1b94ed891e3a73e1bcd6b7a9fa336b485a5a83e52d5db08b704afd8d48136657, 0x2e8d765a70fd39533f1c456db12b420cac0d7b086bf19596c60cd6406b076c67, 0x2f69220fd9209bb41b0ef942bfeb31137088ff9a338ed283de9ec3a8850e96be, 0x1506e9fdec14a9dc03eb159d011f0baba652db364b0020f3485da40ef8079ebf, 0x2e43093a060a595dc13213ae7211c041b29d39401dbbd4e7fcb0341914492a08, 0x17426eb02415f1d682735382450efc76a05c6a0218671ec4fa3ef2d03980db21, 0x22a8a8f47529433cb471acbbceda9b6dd4e9e57121745b86577da8d106171e3d, 0x10d066af04e7708e512a382310bd9a10cbad751a721c660ed0f807f1693d6826, 0x1322cabd21b8f9826da84816f3599f20a3324bf47b44abeca3d8e6a26bf64c8f, 0xe9033298b7fba81069ad708a401ccaca713c122a7907b9d2eec39ec1e5834d3, 0x277a069d3fc5701249012a0fc2d96d70c58b8f0bb45a1d3932051d4541c9be8b],
    [0x2b6a4d2b44646516e0511d03595b94f5f31b538c8445562a5f787cb7916238de, 0x1e9b7e897f636c286ac7592181135b3061cf02de5eb4c3344f2b3246f17459d9, 0x89d5576bf0677940ec8531e33761650a38edae669b73ee5f704c018310458bd, 0x11d91cb6a7c91f3a3778a457bfbcba977b28eb08b850e47260dbb3d205ada63e, 0x79ebc334aa377cdaf2bb057017b776ad150adeb27ad95031c1e6d6e4585b9a1, 0xeeceb66fbafe2552212467fbd7ee2c535244642c87c54efaed43be19344eefa, 0x1189bb18157591e582637275139eff1ff180217439babf0369a7d6afda53af00, 0xa104e1bc5aef5ba3362773b15d152a34bb66fcad5169061e4c74f42f8082ed4, 0x12aeabc55f0a0a7394844072432e9f1095a79e2a7b8765c0e7f93721f5eb8feb, 0x2d5fa7e448eba0f3f75b82d155d2bfb467c11361536d61cfac1e9eaebf9f9960, 0x11bc382ad6f3998ae12761764e273e8e57de5244008964ddc1ce7d887b3ea15d, 0x2f9de52e1164d578244301dc0f52c09dcfb7b12499ad768a4c91af37f1fe999f, 0x24a160dd3b3f19071f231118426515e7f75fd3fd4d98479d855e88cc40f2a146],
    [0x2562dab01972dcd2307417f8356cb096e5a52b39898d7700c9082fe661ab5aa7, 0xc71fc8544d8bfe1eb57eb8b19344825f2800e7728874c0d4aeee09d37fc8018, 0x1c38cee709ea57a5433ef05d4f3d8fe85d27595ab5f3bd5b1e818a76b17edc8b, 0x1602213816c60cc200e8b2aee509da4de8952ca6f775f6951aa176a6cc78d10a, 0x9a046c67b9802554d315821da1c3d1338311acaa29182226455685b3a6a1a04, 0xa2ac73a3b40f2e8d93b888e15ad9695a07d56f02d172fafdc326e99ed94475f, 0x26497f1cb3ed83f61c32795f5460e2320a0b056117fe2d4868bfcb691acc9d23, 0x1b1a886b957b5b7af3608333c34da124c68e137697ee082e21d6e9f534adda3e, 0x1a1cec97b3e63763610f3fee9e5f884313d66f3fda193985ffffa26388a8b536, 0x24eb5865c2393f7e9d6da7a0460f9fe0a1112c41137007f71ffc53e90fd2cd5e, 0x5ad739f4ae7385d18ae961990fdb8ed3e808de0108cae743d7995a23239bfed, 0x20ea4df643c31b3aec0c8c2cb444ffec0f2351841827a82103a36fef81c2b5a3, 0x7e426d7cfb8d0ed8f150d76e11c42bd7d0d0be868f7cc80740d14d6b6d985e3],
    [0xc284170139a3d32feb893e2e393be22fc5712b4b134e117c9cbf91c06c7a156, 0x198e892e0b6e96942779fc23ac86ed3eaf5c68c79f8f881338ddfb381bcab3ec, 0x4f7274b4c460cc0d5d78d6391700ab706b188d6a4cbcbdcc6ca631c617a4146, 0x257a207c9af017f50c24c8286e99a006f5a9a066997fea4d63cbc4479d153cfe, 0x2f9195e87792cede31f827dd408160697c174a84a9cdd07cd69b4443a45f0c81, 0x2c32457f1c8a48108f1c16491e8da1e74ae1fb598642acebb76d0210d0af7df, 0xd16062ea9a5b5184ae022c568e887e2fd31c2d2f1320acd915b84df1cd77c3d, 0x273821b59fc23f585f423e16c5d9571e78b428e446adaae789c159866c15a9aa, 0x28d58138ca8e1e1f410146ec8401796f7cabf49d41e59f4b8ae942dc6fe0ac32, 0xcbbab4a22963ed50150ae37e8ae9cc139355f83de4f38f01179735633ae3f85, 0x2f29b839fb5759272d1519a17df03310eb9afab12540693b781c9397c0da489c, 0x212505f1db73adadfdea6353b38b8574fd52de8ab3cbe3310f5262a9496a575e, 0x511717ed104198d0b67387b576b020b6b645d94f205f7005ebb04161ea0959c],
    [0x2cd17a3fdff1b2ee153b65554fc06a4edab7cb2d870c1cdac0e9651c21593d80, 0x2421eced65e40f5bd7b7ce147ab0845888853ce9d9e90242ef0ecbe4df94f4a9, 0x2b7bb1c13a605e06226271b1567d8070576b71fbcfbe0e8a0ce6ed9a60be4b60, 0x20de93b09b10f6f40d2960f3ae7f703d4aff7d4e2a309481635693fc1e7b57cb, 0x15f39da6947d0700036090111b9463cd322712f5fc0db38a8098abd4d3fded43, 0x55a10c5b2e1c3d3ac97853d37acc7ac3201c3f69ba770c90736e59910299486, 0xf86f85857f2f3bfa5fa407678359c5e4bd7f68e4f8e4af22314df5ea170cb05, 0x2d57680dee104eb6887c77345eca7a8c131022a4471f88c54d4db9bf7a18f475, 0x1d25e7170e6b92b2bbcefed98f7ccf94c20b97a546408d962e48f6adfdeed55, 0x11dde898034df5d0a50a1067fe3a5b6e9d546b4268043f5998befca980271e07, 0xd96e451da1d5351d3848643cd82ac82a91d297dba610e196992d08045efc565, 0x1ec50e2f05af8bd16955612b7dd0a22ae046db692a340f0b814b472cebefc7f9, 0x12e7a565e645e185f7c9e00f06ade71736d990052e72c97540d79391224c82a5],
    [0x277d5ebf33d14750cec8a5df484fcdb392db7981559aa350e2ba70b3565632ae, 0x227a8c5c6b1f1a259d5fceb57d7dc834257317a8c1b94209c3fb86fd94846a89, 0x2bcc414a720c85a42f6ed14bf7d1e2ca7d3aa5f7d61c4ff5d1bd1eedcec09f7f, 0x1f7864a729e70f77cc1b5cd86c193cbaa9410070863d5da37742d665e2de3188, 0x2add533a1c14b4ad2a4ecd780397391ac9d9ac8068584c3ae69f56a9e4d72ebe, 0x16198d9581405334a13e109b04d9d1f5638a7df278300e56059508f6ef65460d, 0xa060a2599eb696b43d275c43eab0b3b04b461cc4c436cfe8b1748d65d143379, 0x302e7b6c0abbf4f44b1d799791ae0cc857007b28a3748798965cb4b281822b3a, 0x2b8971547ff17281a93943ddecb489f6c091e96ce505b7ba30c148e036b30963, 0x21f67c406780578d1e13c001eb36a4dc2b5624dc3f12b3e4a6a02570b3e84cd8, 0xcaeb5041b8532a723d9c68a990c083909ab94da865e673120f48846ac77bfb6, 0xd576a5ddac69399f06fd5e247417ddb73fb47b533400bc79a35e18f0a51ad86, 0x6dcc4d20da7204e7e8acb7404b6b719cd1536af3616e994887b033125614d53],
    [0xd0ae80d2c03d27ef6d6ac6edd57faafb88adb18cb43cb3a34052c92a8a0d6b5, 0x2217b24cd9e573c8fcba46d3046d830ccfdbe8f69e43eee315664c465fb6b5a, 0x1b037d4657b2b3c4136ff83f2de746a1f314dca33ee2b92a806636e8509694cd, 0x2be7d85266892fa4d49762ce64ef84575fa3bb6212df994ba9fbd4e2c3591f45, 0x2c2ec68b3fdbe4b10ca34ad1f1c9ee5296e4e418132bfd82fcbaf437210dd417, 0x356ae0ee778d427d6a84545bf241a684fd562dea92cd30b0b75bd9a7880fcf6, 0xea67bcd02a935ed5631194f06968434fc9822df791ff6f6ad6c402a0beaf184, 0x188bba4674c2e1a2b8d1f1db4c2b3de7ac2f572e984804acd579f3c22e0e4ce8, 0xd821e605046e0b7efc627e1f2dd84177a66e62974bb7bd3ca79e142f70742ef, 0x19bbb44064dac933d1074ebeab991790c637a4a34c33d1c9ca0ecc9559808659, 0xb3f351b3bccd96bbca3453bab6d10bf252380a1e3b3ac2867b214d063b02d4d, 0x1f657838a4ddf2b0639961c92619eeaf6560243c0115152587fa3b633bc7b14c, 0x173966b03236c921b1b6e4e4e77fba43903f2b68bf83ffd2b00b2974cc4f4c24],
    [0x255adfccf4dacfd943393fd90822fb3e92292b150ae2205f9ee3b6837c687c94, 0x2ad9b647fa2c5d97d6411a5684ef18312cedf6f69fdef8f68afe434442487a2a, 0x26c815af9baeadf098c8be65a9b66936d88a90f47c878e46d55aa41fb23a00f8, 0x215300316d98fb3bc220cd379cbcf4b54133e613ba42fa8b48984667efae1053, 0x51ac2e037a8cb84449738040cb5d92bec1ebf64e1a65138c7f2d862aafbbbea, 0x1b0cfa4c9f7b4aec9c6a709a106d177fad8ffc6ac364914aabf33627d1de6a32, 0x84f5b80cd3806bfd40f7d188bde0f5526dec4a77bca0449f1101f00aad4a4d, 0x2fd6803e516e8737c45bf2f40736831ebed2b6e7e7e643e0d4c67b5e51099d17, 0xb17f732c6d938ac7e85bccf9a8dd401272d7d6d623a8e59ec3ea67e2aaa526c, 0x1b3fb88f6cab80f3af974dd496c9fa5f905da9a079017bc5299080e1d5d4f64, 0x2319f57279981d0a12b06f2f7541826affc4e51a44e1990fb3015ddf9a183715, 0x2f4dc289b5e7f23a370b0f61053bd82fe4cbfc7d1d11d13f289efba3a3c54121, 0x1b679b734eabbe6f8c42ad18dab54de081c89d68c708a81f8fe61438904c2ab6],
    [0xa3453c08842ef3080b3af74ee8e799bfa236790cfda0023b588eca466f19216, 0x11c89d2f5498a788416d0042cefa0d5442dbe55f21226095045168139344f0a2, 0xb3f2c98ca3061f627213760506fe76ffdd88ee755643788837c18dbffb68ce1, 0x2575c71fb8acabc5cb513bf66dbd4a4946f4e21a7b2f1a4062972a08425a03b4, 0x1dec0944dfddc9cffbb55c1902f845725cb92e09545749de3f1a118d41801560, 0x2532b96a8b50828cc619ddce80a2e9930dd8dec6588f52ed5c3e1980ee030642, 0xeb3e072e9fc2bea9aea03cf45eb481c4e6bd67091f59ffa1f4602fc399f21b, 0x28a6e7466dab1f493bfca1991bfb886c2ef920770accabec486b96422698612c, 0x18b72ad6c372bb8b3b52ceb5c65e9d78c04814e3713baa81323f2a1956957b8f, 0x2fa98e48794fdd4cdba8e11d0cde18ce5b2cc9d0db7f65aa1b6c8609918b2c63, 0x22d6d05abbab403b1327edce33024fc9183aa514f69d1672d49ddbfc9e063f7, 0x22ce0a2387a223228a0a86b942f135a59d6bbee9f1b96d3fb3a151023a67fb73, 0xa559e751dfe1415e40d0227d7b3dd1f188d99d935596d3dec2c033de5a22d2f],
    [0x13202360f125ca22c281a18e21a7ac10b196153236f86c5968b31ab50c282056, 0x1e85baa376985015ba63c3a38e7817ab0a39cd28e237233f4c1be35632fc72d4, 0x2450b198b045e4f0cd540b0b74de5ca56d85da5fe59816af30806dd2e036c5cc, 0x1bf04795a7979533886f7fb47d5a0b7edd2edcc1091255aacb96efaac6712b6e, 0xf126ed9490b69935be97110c476118d00c8b07c586ba04cf81ae699607e62ef, 0x87ed4752046c22599473251c53f69b817b08a90f431417d9bce87ce4fd2bc0a, 0x15185030c12d8cca42f20872de699989901e25569863a4b5b3fa2682dbf9cc, 0x1b424b9546d87ee6ca28fb8197a2186b6e001556b08e19002298e05f1664dc84, 0x214ba23a67a222ae9e33b4615a31e7b09fa911e18880bc379dfd20ed1177eb2e, 0x186e0edc096c6253b179102a7c9ee1496ddb6060c993fa9e83616a7daa6c2243, 0x151bc9534ec5f36cbacdd7bdf6176a60c9bb7b6cfb26859c7bcc0d1f7bc4dd0f, 0x28192f62ad97323e6cadfcbb9a99f5bada68adddbac3a4ddc18e69b95239b166, 0x825b1232e6831678f691e7e1eb27888439e12e7baff84db3d18b7bd45172b18],
    [0x99e93500b62b10127609071e75f4c54cad78732b48596d16b44eae459a59fc7, 0xdd5cd3a64731f803da7873057eb0a49a2ac15bd7057485b43d47340a202abba, 0x1d4cf162651067f82fc2124f6d674daef03adc3da75822bed2b0d8b690b6a34a, 0x23a86b440d5efbb0a26a76a9993b6ec01c33b46924c3f601ed79a87f9c464068, 0x2c983302ac40a26cbb323eca868e9a757e2a66053bb081bca55f55635168884e, 0x6e98d3bafbdb42dbd2ea2fcb9698273980bd1c808f1f7de799632a90ff09b36, 0xf2ebb91192276ca7521084cff7a025fe53e14eb884989381d79c06f9fa9084a, 0xb67885ad9dfdac5f5369f6e3181bcc79081981eb6177db27e5d6f6d851d5021, 0x1c32e21095beb791e1bc785043bb33cd94784b6231ff8f85a9edff92f91be4b8, 0x121818dfa76d98589c3274fe2d702da83ad88ced9df449626506be1eeef83264, 0x2832ac9bb20b57ecc969ba4ff5c713c40622fa6b4ebed066c655be21da02410a, 0x917180fbd7a19816e8fc3a45fd43b435bac6b2de19f516b37641a6b1c423434, 0x1bd85f4c4b11ae715f45a17ba21ddbdc7d1c3ba680fb978a1b2ac325bed411a7],
    [0xd0f2a86fb0d48dea88049d2bcb667030a29d721e4c1776d42d783bbcfd22af1, 0x460af88f6d11afb5d191e488712fd79cb96116844491b4277ac0b5ef19b4432, 0xbc1783c36accadd4fba3d634e9f72c5e9025f7784bd3efb8dc72096e2c56032, 0xeefb878f6eb1589d7a687e94813d9d8423fa50db34de8d5ebaac1302e6f45d6, 0x1ac403196501f0054fa8d4b566cffdb7f81f429538db9b408a3dc20b92c11d5, 0x1d5bdde7d64a63bacc2585b8a14082d8d35f3ba8c1e857df1f729c52e6a7e5dc, 0x799dfaff2e7d630414a7ddb0fdeea103e1bc3ceaf3ccce077c8733869e52b75, 0xfe0f816efd74a7eba5c8dd5e7a8943889962492f14353e1afc78efac50ed96e, 0x72561c67ad2fc0793821b50518d4b5d8ac33af26da6d2ce77cebf80292bd27e, 0x2891352ac60ffb09e9c88660b8449def9986f9463f5a81c615a7cb9f4be0724b, 0x206e9efcc46cae2cfc7e866cada0a4c72c29f235f044d56c8244a92e882f464b, 0x2e7c4493e77005f49407f2d5cb46cdd6d04f22a061ac8fcae04d2d93d7c8dfd2, 0xb9e944d5bacd889beef5909a139f5e7b7f23a1ce7a1e55a6c4b9c382a511524],
    [0x2635b8471126523448d0b1bce5d8f54ff5bc988a0a6fe53dca721304f8f622cb, 0x10df73bfddab994cdc079216cb585ea8530c13da58d6381ae0c517f2ddc88e02, 0x2da54f7a7bfd78f40c98e6ecadb665f2644b0a9539b27765df23eba241fffd7a, 0x19ce35c6a104ee3975d4a94908f5b1e0444d7709bda7c5fc59a527cb2c166509, 0x1a47dbbde2d5004a1be0ed7c21f57a388a1c86f8b4666d4d118ee99abc115a3d, 0x2f037e73c7888cef9d7046e58d9988837be8faca34c58bc50f021e8734c5399f, 0x27ab727198d9b7a62e0d99b2d1112710102464c3f5fa8deff2762af8a8699e7c, 0x301176359be9b665abc8dda6783d3bd7730c4b4936a1bd83cc5574c694080668, 0x30e87204cce403ee4e92e0507e8e99cae309599dce18929a9430100fc5c0869, 0x218e8653761694cf49a1f3e275ece28866a6e9963c3ee6eea46c2b193688d3b1, 0x2b219687a4549eb17e29db9fccb5796a11ddb6fb271b5a547946f0de32698a36, 0x221e784939d29eb5442fd1612b30a58b9e555a398bae96d6a2d6d9a616ece0ab, 0x80fbdb9bc4b4e8a83b2ad89383b25526e330678c057f7c34993f27eed2e14c4],
    [0x1601e657a22b8a280d4452d527beccfdb9d8c3edfcb7bd0372d0df43e93e9123, 0x652d1d878dad9d7f854e48066531fffd4773e8a5c61301f581651b50e359751, 0x10db881688e3db58bb608ec993d36ec8531ad3ab580e65d537f4f37e4da26027, 0x1d8a06b51927f0379250e7359f9dab93aa9ccfaf764dd70acccec7177a4c7037, 0x19cbc2ea50b7bfbf009f709d159aa9ef2a2c0f68a5cbad1f5e1c99ea2ca2623f, 0x1a5279e38883b53f313f86ae7ebb07d7bb0cd658be590aa3ac3b413415fe3e8e, 0x1af136d53cdf676c284100705d04a976645234f4397140fd85a2d88a484eab0b, 0xdb8af764eef50bb1ddccfe0583ff730088f3e9c2c555278a3c9a7376a893232, 0x1613c14bc86f95e25e05f8ec72c8ff6aa207bdbaa33f912808ac693f137d5d51, 0xfc47ef92f10f79d336550ab3e0a7545c74d2d3e2b9f97bcc43e4783d1d98cf9, 0xf2cbf40b344707cce101e7797d137a9e8b011797c66fe6fb0474d2b711241db, 0x2efd5777f8ca22678839ac60c1a308703094a9d2be4413c817c751dcf56d8e1c, 0x2ab4e3413795ad9a695b04695db31b6b0ad0bed91bfc33739265bbdc2805b180],
    [0x2e3b6d8584e42666829c0e195571c50d7fa7bfacec12bad7afa242744e00c039, 0x1833f151de5bd86ca68d264d5de5d353b8128a96e3813ed2cd00e322dc91c8d6, 0xea82c252d8d55499ad63c61c47419c8e8e423257732f9f686f6b106d7daf0ea, 0x9857874422693705a7c9806340c6da0777f4571e92174d5f82c07b91f2c85be, 0x2772ac7928af0a79931f88a87e634dd61facccf610cb947724e7a2110d501449, 0x2e62239b790530756ca329c63e6f4338e2631ef4e2cc67e8046fe2e886f6769a, 0x265bef6b92cd962298621e2609c90162dd587f88139bc60d74bf363c6712628, 0x24484c0c291379917d2fd8b48439fb3d70b05b155e8bcf330a56b5027cfdbc30, 0x2b2d449a3ab55ab7ee77d37759db58adbc91d0d50936538cfb0173360a2bd8cf, 0x23663d1956fcf1a723085825cc67cac82d3ebbfd0134f861ab5529e2a4c7de57, 0x28fcaec0fb6cf43a573261d10ed32c1dbb4b9975643fade00532c1bd1ea0e411, 0x145c6e2418185a9ebc72cd8dd0f53dc537851eb5a42eddc04caa52cb3ae8abd, 0x167376a042099efae1cd8988e02c66e8cfda378faa64e85626bfe4636f3c580a],
    [0xcb735de0e612a615759528eb278b1b34107c4a8df58ea674ee7fb719d0dab99, 0x2d67bac6616cc0464d4fe907e5f68f0eced070b8811be72905bf7758f3ebe884, 0xdbd2a2f8d7fbf3ac403b1115523112b7f010a0adf6ca584d7ae03f947d216b, 0x11a992d7e8205757ae36bbabb544e843b010fddc7bd5abaa82dfddcab3f85c7a, 0x230d34341246fb715b784797e9dd8bb7307a4c46e2f4470d2c319340fdbe0025, 0x9feeffc218aafa614e8fb7dc4ec786ed25150ec1d3507b3a7170b9266ff6941, 0x1208ff94f1223bd249daa4e3a0266e079731f7c3f998b7fa707dd9fe53833f82, 0x260ca3cc820f873963cd26df1b8ffec4cf349fabe16e81f2f973663466802da9, 0x12655e2c98ad35ec444a134e55cf68dcde68f14a7b734b3834725308609bc854, 0x290097f2c047a3dd6600b706377d0e1c46145f3a9e9e0ba6d7ccdaf7b7e05ef9, 0x2c62e5bd65381e0972414ce0090a96c22b0555bf7ef8b2aeae1b984808d4f81, 0x233c642308dbf783701420788b19153dcf088a63e8da765c5182649424926fbb, 0x2b7328e368ed4b7a62fedb9cbf50104557b6c3d9be5d0c2745bcc76476f8ce50],
    [0x1738ea94cd4331c7b609f42f27c4dd57d8db78b70a95da0c2394c4ef18992855, 0x2e902d182a1fe1f3d40da28c358c7e89076d2ddadef80e31b9895eed02ca21b8, 0x1683ff7e84a5a4f1dacb206fc44fc92179e666450c5a65f54354bbe8676f585d, 0x132958454e01c1fd2bc43e02424e1296b54b55d3dd3ed1e1cbcf382790d6254f, 0xdeb48b7df7379266b123e0b6d83a1fe031807f1ee37f7673738438aea64eb00, 0x2c683489b3065e4ae5d7106e18f4553762d58ccde006ee96bd691f140b15f386, 0x1d7c17b521e158ad420c9d69237f4ba6e8152541d878e24876415572734ccf32, 0x64dee7f04cf564333fbdc610ab8bf68106329eeeac1b1a59614726561db5bef, 0x21e94e5d9adad9dffcc186e0310ac54ff38b0a29d3849fe384777d0048abd660, 0x16ee0a0b45170d89c5d91557ead0b253c39a842db804196bfa07044ae6e2b4dc, 0xa7009f825b6fa180455fde8a901d42a28250e9948807e24a62805388cee836b, 0x8d5a34853ddfb099fb0fe1df7460ce4a8e4952a148da641d0e15f71efd2cf68, 0xfb198531bcad7bc91489abaf1345a3ebc5f5ded5b21c1d17237cccf9b1a4812],
    [0xa91f50c72a422f3f0c06cfb1401dcade6cb99c285b0705542fdaad40e0b5124, 0x2db33b34e5d9a988af35501af4e137c4717481b673292246d98e7728a13bc924, 0x1b745ff9c6e53c275d378f0a69d6c0d55d598549cefbc7669bb63a3d4100ed4f, 0x114554e3afc96df3b663c62243045e27f6a24a5c26b875e7344014b2a9858327, 0x1aef968db4765b450f098d4e1a6210b7165c53ef336b3d96f55fbac58a542bdc, 0x24bdf5ec4ebb16db47837189172e8a55b36038c50bf1f38cf79055279225be52, 0x2ae7c4a1655975ac7052d101d1346efa10fca5b0f13babddd62dfefa980ff78f, 0x165cd429a3966d1bceda614b06d459e7a0e0cfbe46d63f25521c9af74028a8f0, 0x1bb3d4b2f67440a5fbe410756945b7bddca2ff1ded3fe2108d125679097b077e, 0x18695f0185440a5f35ad74a5451da6337eda049d50b9a5d7bb284d52f9033d2b, 0x2eb1bdb4eaa3fddaa625344ea650afc460306e0e3d4bc618f81e9ed73b43a0d, 0x1de874e713e5c68d2f56d518f8eaa275229fd8fc8a7e112d7d1a24e604d3ef83, 0x1e5a6feb4dcefc2b68a5b2c3d0664daabb1f0735ff2a2d2b68430f4d39b109f8],
    [0x27a4284ee0c6f73ddad02f9d499be90fedd32ebd7af86f44ac50e354f743c782, 0x99d8e9546fd891bbab547a0ec1dc838cf62126788d85b2759774d9de75e777, 0x3043a7ea89d1e4fe14f1f91b584d00c3ba79831ed8d8649b5bafcf75a00cf759, 0xe7aae04dabfa34859024d075a3014e78c9096363690f53eb0e99b7d628897ef, 0x10fe0a11c4030def725ce7684fd8724e06d6cf0d295db09b4199eb3b6a9f06b8, 0x168cdf6baf5e970e1e6bd7809931d487654b42e9ed5d8d92a48f1dae8d2b4c23, 0xd241d33c552c85556e62a7afe49e5a7128fe8aa210772bbae5957cb60a239c5, 0x1e25c0e00db77c69b87d5bcb95cba934b776ec23392d8cceb6c392afe5961f3f, 0x22b0e52f766a702afc38c2c60161e352d8803f920431acf9410f7fd11e9d7d32, 0x12ec9b91f395f1665567318bd3fced7a752ca01ee0a088138c40549a31164fb6, 0x299c8fdca8918c24daf876812258a75527f1b5d1741abd71a82eac0e1fbf20d0, 0xf428bf91d4d31184f35d770a5475debf4353ce7dca9bc22763b69943344f235, 0x1be0549a5470c9429f0e1b6f9482f3c4e752e89c203c25b624817f523a79e9e9],
    [0xfdcc3ce028e96b21f91bc87ad052d78e44ca6c96179ead64378cd356dd2acc6, 0x136a6a9843fe104838dc085992c0eb8e309fd3d169af68af8058dd8b605eaa13, 0x584441581ce63a4ed2174db35365bcb01b93b2ec02fed5b6ced7314a127e66b, 0x1bf9ab90b1f5cf6ca9f0195bd4336e68135a5ae26b6b3511cc906156b621cc13, 0x2b0bf6b3cc9cf023ba13dc6501f00a742d44d26b66e9bd7bdd96abfbb33cc7b8, 0x19d18619bb73548590c00c7d02ec94b52bb8bbf1aa5c2ee06e1f8e875991397f, 0x14909f8c8920f79d4686a14a1aa6e03a71b84d3d9169fb7673317aa6b28433fa, 0x2397f311f598d249e6ccdb9af6ae5beb6f097f5a350886cdaf0691d0a8abd8f6, 0xac2f7a3c2e4a6fd58f9e502f9dfcfc904608763d69b94ea50288dd7b63b3842, 0xabe36a7048a34d9110a463cff2fa23b5aa0966a3c58d3086ecafa112f5001d1, 0x245ae4790107afc9b9bd1f14c20f10d8a745f077eb15a960e5d7af379a18dbdc, 0x14ae110b2829126250e1d694f08436ee0c56d230b489d08d32bc3503e73bf4e0, 0x20a0576ebdef08dbe219160fdd1a7e75d838770c780a628b1cc720f027f61c6c],
    [0x23a05ca5b721e48da57d373df376c5252f66e9f963c697d7d8e4ecdb55ef833a, 0x2813d89a8a9061c300348cefa9447f1a96343f329f65c4e165b5b1387c4c64c7, 0x2bf7ee542e32e28081fabedd92f4b18191bbae48a436273dc04916ae09a64553, 0x25c148fb26cfe4c3d977b17da068fd67ea89cc51079fb5d0cd3654a9188b1385, 0x1d3dd23e6048866f0855741903765842756a627897cf47d91f9f2b1ec8ab2bbd, 0xaf7996cfa4b51163b4ea8ff49ed2ebf8a5e56a44687a8de351efc172c9bdf50, 0x370dfbd98a73e24952f0208eb7e5bfa83ac7761d8c0b4b53ec669c693698730, 0x13aacdbfe05a0647fc158a1306803cbd1ebf8d995d5b27bc5c3a92d0438240f8, 0x50fb4ff23f5677d7f42b0c8184c224bb69d4f30579a6b8e9da5d22a4f7bfb26, 0xcb2f5cee85cc6e0f9becb391b7edd42cafff7c34382aa9e19de473a2c67e393, 0xa146430a98a85f906d31e8ca7b2757570996dbcf40a7aa8b6750667b96a2ef2, 0x231efb23ddd7cc3485b8bca812898aefc8095078e547151662abba0cce1f627d, 0x2ebcc008ed0ecd551829656c73b6ba8d8b0eef871aefb94a21a3ebac83561350],
    [0x1d2902e8b627c0443bea9f8aea5601b21dc0a41dffd98a1516761d400f7b379e, 0x277358dbe09c3bb9570889293f795c41d9c2c90425bdf1a2a566f9e4ee46819a, 0x1fbf692e87da200bc4ffd4898893cefb65a43fca504f6f675193f8d63c6039bb, 0xf3b881fb65b30fb2f849620e74a0dbf593af33bb80a15eb7fb88a09d97e0faa, 0xa116fa32c97610866b3a93be3919080219be6057a4b75bca3a7bd7bef88baea, 0x30384a31b80c532ecca12d2c61ce4eb98098a754079a69b0e44faa0a3beff23e, 0x1403e729814addbcf809e49a5465ed6ba6e4f0354a986cd27e9d03aa6a9fd181, 0x11794627e6125ac465ff2ed71d959c31860aa2d8eac3fa411b68152bc381cd24, 0x70354e3713899b38ad74a7f5e3154ecaaa27314b47f85773b6e066fd4e63dba, 0x2d1e01fe7b49660ecefd093b5ab269ae2030fd7827d6430c2bcc53d2800631b0, 0x11a01533e3713e1f38f94c3906843323c0c88bfab803e135042ba1b8bceeda3c, 0x58e4bcb4f7463bc6d02d6c40d7e858b0e0aacfc3a88dc320187d8c5a015d159, 0x1b2ad38762c6918201e093d2bc393f9fc50fd5f45ed943a8f11b269783335e74],
    [0x5ab9d393a4bb7eee00723e8de668b2404a162a0e17577a6e55b8025b1814b0a, 0x4058adeb5ade9a9c9e3d869edb70322278b09ce1219ba45685bf8f6d69ced77, 0x21a1c7c62cb8ece8d3bd434f87936c3a1842432f2f1a6c66101b1ac8d11c9a19, 0x2028efb9d44e5af38c0c1ed35f9cb843f38184ee0fb9f1c42121210542b00100, 0x24b0792d69eb31364cdc8b74c109223c1c2d244404c64a41d516076ab0240ca0, 0x2179ff52ea2032efd95ac4e7a37a9c0ce5034d3cad366105341e16ec7483da19, 0x29cbadb37f773c6dc580cc0c2ebf2926d598a19fa41f881e12cf4a5edfafa13d, 0x2b892f09ea9f60fd7204852f6bb995e20c3510648bdc400b97dfb7cc4d7fbdf2, 0x13badbd0953e09615a4e13d4b340f4e1bf2a03a2df5e6b8faf69d8697990c95b, 0x2b8fedf8c3662b0a10576cedbd720ced69f862124feb62eec83c7150d9936411, 0x2b3d62d6efea0a22e2d968f919a8bea56791a37b9f21d03f95185d9926c72e0, 0x7037bac8b6690794dd0907f7e315baa525edc729833c89c660406df21bfb652, 0x2cf9ea47493cb7867b86942e353487cd4f4cb3cd33e310e9fd4bc3c3e6b5242d],
    [0x303f5a8faaf2a6aead780f2a13937d75fdb4605d8f5a65522426442906edac25, 0x91b628bdfd4d49333c2a9ed84aba3ec2eab336a8d91a605b9dee9af0af44f26, 0x1f468f6ef5c35d3c95592e27b1de7a213878a653685abfb0d2972fb0f7f9e32, 0x1f5923725d991b36de8557d299cfe27d8b076c640cc4cfffce57e9c7477b89a0, 0xdd5d7b1d0d52266c387c7e111fab8eac4404b207bc5e216ab64b7e10414a6bd, 0x26ea3dc5cbd01be1c06cec04ef328a7d266afe33f76bbb26da8457e966351444, 0x67231875a3d536b4511d0a0b21b7d24958a4bf1cd1eec4c597c25e3a00acb36, 0x724bd4d523a70054c995241b67f4aea4e669458add9a6779d89cf3d3bdd9da8, 0x1cc9dbf8aad45d67178c5b91a0aa44701628b24120990fe6e29026a0b21e9ba9, 0x2b5841453a6653fd30c05d2581dbfbfac5ba89bda78842208e24a03c46fd32a1, 0x25a1bd92c9ca10226bcf7fbd9b1d8e2b227bc2dd4e3d46e133ae268154674f8b, 0x1c352fbd922724897ab79a60e47e5bbf3c4b714a907c63f4efcc5bd5cc6e827, 0x5e44830ec170a4a5dfd9de846e7e422ae9cb98c6f499bb67681fcf60f7e82b5],
    [0x77c2736ac2d0a070a1a1c6e45ea9cc526201d668ee404096b69dc85086ea9c2, 0x303f34f6aa229a5228fec959544f831ee71a1137dedb6a4b76443011eec3149, 0x273011559d239160d463a2b9890096ba4558eff7b6637291082c5eaa9ffb153e, 0xc4dc5efe016498ea823fad5e12d2e003f2cb4ecaaa7f0e02919626e58afa7d6, 0x1cb990d809fcea3daa8d03b3bcdf147a692ff7a0d8f0c114f6a080daa5a3ac12, 0x1a0a3d386c26c3d467f50ba733e6d7901a59b7453a4a34056e92e771b6dd4f6c, 0x20d81618c0e6ae5ec303cfde54346271041634cb3cf22219f999a54bc5033b7e, 0xa39ba8f57c793fe65b66907cc656a97ff523817cfceccbc2c2de5bbb8dec0cb, 0xde056fb319526dfec15d502173483ea35e6057e64949fb6e7690d3c25923f6e, 0x3f82ac12d5be639974794fb3c2322bf6e61a262c7b470ac5e97d20a4a4d8aec, 0x835ac61001ea7950d80e32fcc20bc0c7197d12abb0b5ed99392101390de2a46, 0x120efd9c0663e0ef3b6c596414f018a73cb553266fbcb1564452df9016bb4975, 0x5afc3602e02391bd4e2c5ebdda280085ec2c1f356a3a5cd2fd2372be6f3f259],
    [0xf885829358024fc29d041eb29a43130ec403922c4479c55ab3b346536ac159f, 0x9752c21e2a9c7d6d5b89634288e119a0c6406abe9e77b4ad1b8f36c9ecc8f1c, 0x1d6bb32d414b8f98583849694ad7ab5785d88ec70bde4bcd750287016afceeb1, 0x7d455cd69ad00e93b09ac44915f64a7d5ea3c4c1b3d176bb51859639f924b54, 0x118886890f7d3dde9af1204a9590e10750c9a6035e66b98bbad1fb625181abab, 0x245e7b3643a7766566395efde6e47601aafe307378fd000da08facc33dbb043d, 0x2ceb6176073a98a6613b40f768654dad8d119ae64edd6cc84e4b34370f9409da, 0x1b4e4d410613ae837b7f6a7f5206a03e9eca6692fa970287a53317990ce81148, 0x80057b8e664ad580ea5f385105766fc0e3a2226520cf523604973da274d10d8, 0x1131ec38d8960567a7fa9bd96dfa7fd5083e14f2843012ab36e946d4b901b0ab, 0x1d278e62c58f3c17e14769fe3dbd6c6b9faff11def7d003066d8e6b0fe7fb1a4, 0x710431fa88e036f180f0e4d46e8ed78a7e6361a239abd787b6ce2f54615ccb1, 0x301e86b0693c07df60f8ac15ac6b1caa76f13ef5175535d8f97600b8cfe3b5e6],
    [0x25870378c0b7068041b92a7f44b485605448458c4d2e7a87a26cda94ca4099ed, 0x1176218d48c39ce7b6cf46e760d348871266005cb0074b9886eb2c4bef5be09b, 0x1e1efc3b03fefb1c972891409432c02fb0f4e9b6f6e32b3fc10942387a9a8125, 0x192ce4fb97eec768607210a2a8fb1cb29828d4bd840236f14327e186d3946ce, 0x9d944903456cc43a43e9827368755b938a31d42a47cc6d910ca0b04ee10fd8f, 0x18e4179357588f230ab88e6fa610d882442a89519ca71bf10d8ba64fb2aabf34, 0x25d0f7bff22a9e99775d8f388a74d4ffd70f9df71d977a07d934379fee629378, 0x56ce0d47418e2c1ed7ea63d7b06dcb7e7068abf79478e2b53f402d584f8014c, 0x20dd7949307bc2ce53323022fcb6765379c953e8551f878c4b71205387a17b41, 0x4b97cd5a47874928e8e3ad6de644226493ca3a87a19b182eae89812db3aa060, 0x9374a10aa6cb0b2cadaa21e9f10459f79376f8ad0fd07830045b6f1e9452600, 0x2114b5f038cd400d24959916f83d0cc8273f7f7a51955bdba59df3ee5ea4c95b, 0x2751d812405f13d21c4d5937d20a981db7cd5933822124189615611ff4ba2d91],
    [0xcd90a882276ea2b8a7273eda155a6fd9d63dd094b965024411281ae2babbf77, 0x283bdacc14757e28398e67d6e7921529951edaf0c9872194456195e9781581e, 0x16f179d4dc4f2101cea8d127a6dc09e4f25ecfe4f79fa3e02851fc06108fd498, 0x286f91d1b79d9e681d6c540bd14af83299cfe5254d9a1b3aa634e5456afb700d, 0x15ccdfad34d292269d6734c173e241df98e2fd75e86e61c61369c6f59ab47bf1, 0xac6b90c6b7a47a1eda9d4a6d466b2adfe078dc41c9c6edd0a390303a9df210b, 0x25497ca515dafc37c125efdce7ee66072c8d4c152a2a30f81e195fdbec764982, 0x280948cfe3eca19e1cd0fbbaa5fd23a38e6728547e648fe80ba947c475827e2b, 0xcdb1b6412b6db97dc592bc966c6e1a67fda70232ead9a157f27f6014885473d, 0xc438d5abef5042a0a63ba4318d78911fec5373fba72bec6fd2f52bcb386682d, 0x219ec582c9278e78e48798023c5340d522a0f7e639858de4ca01199c4452060b, 0x3a092730cc3b1eea8a5a761259dd2bea4f586eb09a7beeb17c29a625bba8173, 0x10ebbfc35233d7cd631b6204cdc89ba4fd932ae0581a856a395a8a52662339a3],
    [0x22ce0890d9ef4f2b0ef4e69827dfb68f3a6ea6c30a24a675d51b9e199b6d7c30, 0x18948f58035bb10956bdf6d4667c2e16ce18442a19b8c281d49b2e26534fd8ae, 0x2619ceedcb834ba4008853aeb6a8d6144e281b7ae3678f1d52d352f04a9f0df1, 0x244c74d793f1a16f197a2fb001bdd31e986f094a83e09d58f2bc5aed2c8beb9, 0x16ebedd4b23d468b9f36cbdb35e00187debb15668c180c8ab339ee5b59c87cbe, 0x2bc41c9eed9f63523245f4b412216715d29becf51d660c86bdaf38809677bad0, 0x9edbf534745f8c735ac87a602d806b99dc68012eb7d6c2c1d4c38a0673ea23, 0x18dacc8d13202bf232616f3a175bc021189a25a296efc9977880782b31407989, 0xb2600a07263e83ac076bb1c4b07f48f2c2a3cf6bf7be4af77262d3917354ee9, 0x27f6d20fce0e747cfe43774331a19cfe4c234e99d180332893f70584a17f116b, 0x1050ba20c8f4d797a1aeec9de46fc7f794cb691a9b16868a2deffeed1bb3f62a, 0x7ddd2115a1e35311b052494b9c05ed47ff8fe2d418178ec600487ac8e65da20, 0x152a65b5478e0f92ec3fc360143e6a1cb83d6e99668168febed37160adda8a2c],
    [0x21de44ebe484523c17a9ce162f42fcdbaa71ed4437f8cdeb885e3d4a205c370c, 0x1be37644a1d3a397b6b549810568ec7636a1be4d7a64ae23f7cdf07ec93a0111, 0x18e7b112693223260a25dd17c71e431be5ed4a8ab737f3775ef61489298f8759, 0x23f7f710bc05777402a21bec4372e3b648473f3747f1eb28a78c7e03a3dbd5, 0x2470de23677a016a0004c6ef292064ceec79cd12cb1fa49992a3b9bcd0a25de5, 0x1d1fbf8b2e41000803ef6a50be409987c6f52d8b53b617c4055bd24e7d27bfec, 0x27f5fe1f4bedb064473be4b6eac1ecfd656ad2086abc311b67f3ac8b8c9f367, 0x2d53af0119dfa77c28dd102b2828fee80af9ae651db1014c3f39fa5b9b8ff852, 0x12f19947c2645f4481c89113f4514641f4afb74a8c43e0366036e80549a71fd8, 0x2f0073674bf4fd79d249638ec64786a9445fb590f1088ebe4a4f01fe5f4c2513, 0x28ed45b47e0c45c29abf03b265d9fb7500037a95654eed4b6cf4a185d1c9aeba, 0x292142dc76706392f3006b8f5b45a451f3c37ecbad9f69b2711211178683be5b, 0x17eaa9eef3dc9a7059bf6ce3a51cea4a45ff03b7cc605cb8b05c3edf2b9d67fd],
    [0x1a167d224f703b83f20a9ae1dc90be77516a977e6f2ed07da85b06910a65be56, 0x84eebe766b141d7a2ecfcff08750b04bd6fea80535b2a0e30ae8933d98026ca, 0x2ec0f402c6cb9709e6e3817e2b364285e18cabe290bf8b8387e9d1fe8dedca2d, 0x1657e26c61a0eb6f8bca74c5bbf34a947772ffd6c2c0f9b62836a1e8ff6f4780, 0x1f8827beb7dac86958edddea38b28f99e77180f3c3b959979378c47776616ab5, 0x217a07d6592fc0001fc240be44f71c017f387006131b83f237fa4c9668ed4fd3, 0x596d9d6c84f745470fc9997c5a1ce9d4e3904e17f16f139e1fc6f0bf27ada4b, 0xbd2f1e61a7ed47726482de76ae4b0d7b41738eb06c9e98ff0277fea16c2b0fb, 0x14e4f14b2a7bbf9dd8c3a1b5260c3844519c3bd5d139b7344678f74a36f4e4aa, 0x980b0b3d80710a167df147f9d475a28dcaf918a6aa3c967a5bb55d97a8f6dac, 0x25a6def1f1a79e8d6356671df1ca3350df855069fa1b5e7e86f27bafdee60ac1, 0x2cb242a29724740e63d8488ad7dad6c5d37e9e5d0915582e7a71c53e536b64e6, 0x6b32dc0408b1782c052bba587c379ceb352fb29579b21c6180cd3fb39ab7afa],
    [0x9f20a1375f56e6bee5326ac7563709bff6e90182ac092f12145ca088fdf3f47, 0x3040281c47d3b6edb8314182a595a1f3e6764e662cc0ec878b638826dd3db7f8, 0x72eda160683c3ba9ca0dcbb27f008505e83a85eb5ac753b7a67a23d245518d, 0x1d0c406bd40bb8fe800ca737d501e19f158fa205d9f63a30b487e615f4721400, 0x2e1b6f701dfbe38462061a91d5f641abcc7406a5f463822b717de79344c8a9db, 0x2918d3fd3323723a1ce75dc1b1f82948d298da146366cf0167ad082f5afb2aab, 0x4a8ede82ea0c561443858fe08d2c905dcd445f51b11afd41f4676673d74af0a, 0x262f76f5afbfdc84c240e686362f25cd1f3497d195c79a40cc997225a4349280, 0xe983bd202a424f24a83f8173737dabf2c711ecc05204e1d26b4f77f1f107526, 0x1a8c8a3b13837a4a657c26d0f804ca7ef83aac7e7516184b4c22eb7afefa5169, 0x5a16f27f460719f8b75c49c1cdaf348739ab5a216a783039bc055ec6f0aef15, 0x109a4e202a5d6ee943b2138dc5e3c868188b02ba57ab158a46e033590deb1d02, 0x114be636e12060d317a7f08c44b856144e883dc8a07af1f62caf300d23412dde],
    [0x1fecefae8607aeb2f109239e061d1839dfca12634a4b001bea1d1190e4ec8029, 0x1cfb5006b6281147b05dcb8a08aa54a7fcfe9b121f12bd36e989d2f47cf809cd, 0x2c2e31ca27197590bb0d46682ac10d2009edb57e0a88b4790d731cb34e926d82, 0x18f2a0b00b5449f4bb8265d9bc2b03a31a1ce6abae5eafd9eec2f3745be561ba, 0x431b6c629cebdce444b0af77df0808506106f7657209a9c96c73f6b44da6b02, 0xcf33fc2fde1e171be151ee344595705eec9d0930341489adc6433fdb9941f93, 0xa0743877b28a2a675966e6ad6e2caf32f78fbe830bcb0187aba4c21fe7d9275, 0x195b9d285a58deae30758a177e20a4cf66350cf4becd8126bb5b89e672d39fca, 0x2c3eac5d52faf5b46fca54b5e7c16cd9503bf62ff1e3f7caf95149021544476f, 0x10008396ed7e26097d6384716ddf29931bfa8cf88d0f15406b7d3e30146bcc2c, 0x9d6120d8cefd8db99a2906268fc116f5d31339c11908252ec08fd39aee66c7b, 0x29f60fdfbe0d77c1641825b499e2452f5fca3dfb427be07a32201bcb38019187, 0x2a77d988433dadddfa317cf1a86c2503fe0194fc1595e7f8427c0b83f90b4180],
    [0xc9650f149c994670cbb966f3903e52a637e956b5792fb69a0d7376e732e8113, 0xcbfa17b2347e6821f788e9a44255c13f5032598d1e215a822e3e7ed9b757cba, 0x167c4c995f5a20357496678fc1ac33e08431127aef92a9a00644c61effadd079, 0x17b09378da9ad8fa77b5d10db6cc7b522df95666fb204aff23c0b9a9eba37951, 0x15444b346a2eee40220d5abbda30324fd422b12bd062507887a1749c9dbeabd1, 0x3d08a26f86c97f31c4cd9a01a7f68fec8c208d42ecaa7ed2cff73b74dc18656, 0x1c539c92417e0e11b263d99a0fad8fc61fd1c065e70399aff512d8777d7cf1b4, 0x19b9209e1055f404647d2f0bd4817e798972967e1f7688877f4e857400ff8526, 0x14e73253e3b5d2c90f199959ebf071b189326f39d1772986de1ba79db72f0a1, 0xf76aa8a09cd042559e21edf64495557e806592a1d72dfe8ca3d583a04febd06, 0x7e97e1977f873a0581eda757955c93274a87454a65e6dfef9440bbe12f01489, 0x2fd534af9df31109c948d5a5d9336b8d7bc51895c34bfcdeac48f8b56dacb362, 0x1b7971c644b7fd517033b8df2325df82fa22a3b79a9ee0033237bb43fdf87723],
    [0xc830969ca91ef87be109af46d0ad62c93e80b1ca9307d72709508cb1fea64a2, 0x1fdb86f3412ebb18754a1f9cf4df3096cb11ba89e798962295cca254c565f2e8, 0x2c9a5c82481cadcdea6bfbda30343d9815221e29ae617a30f950d29834ad2654, 0x23b19abc1dbe34a9793537f1f39a3d81944d1b8cfc4f26b0639ca4faecd98d2b, 0xcd6922f3304a4d038833c697b0774147972516bdc8f96567b29a64769715483, 0x183212f2e427fc1080c237bfae4203ef12472a06c827f93dba5d5af24ec336a6, 0x4417a0dd6d3d8cd6d2ef81cc8333322d70f264f5100874a4c1603d1d6f839d0, 0x1ee7fd86ae6bfe916fbd87cf0a72a4be433d4d3f5b3b96707eda0c47a422c3a2, 0xe386dddd870f8041dfe619d4dd8eef851a6391cf49eeef6f1f1443eea173d10, 0xb31a49e957ac3bc7ff0f65ee6fdbb4cf4b145dd8a234f0d7e6c0639bea00747, 0x17bedf9f13ab9ce8a6e28190479939cd27863b892ffcdae05478a0859c7eedc1, 0x1c28fb33d99dd1b3ae37f884f3552546a4f5afae562f4862fe1e92e702409e15, 0x15c6d0a394166967cbc39280505eb9528cdab0ea52f1595c5e7871815ffd02cc],
    [0x236303150f9e76503ccf1be5c90c3a485f90f7c1ffaebb1c4fcbaa82a0519bcd, 0x1fbbe0747bd2bbc3ccbb752ced9897731942f79d9a761d3aba4a169681e30fe0, 0x147146fa6f464f7e58a1304441d2b7f64333e21779cd71f880962a50ea6385ba, 0x217e02c928941516f5a9a78eba51468d93bfb278d1c79061e666df4a32092c03, 0x246013b423cc893a16b68c228b01b9380b47b0afbe4dbeb1b4340f5801ba4c1c, 0x2b5225496c1e6facd5b74f12705ca0d4a7b77c30c1c8311c3c81837167ab45ef, 0xa950f572749b6fad6d6c324f40568d7219e75a884f9bbf941b20ee81b42c022, 0x1a71888e664d2ba9bba5aa22fbc380f29810d0927d286af59110769f07f9976e, 0x15c5c720ef6fa5b02936376c298394bbedce59824d6ca9fc260f5edc8ea5fabc, 0x1c84983cab32fb96ccd0276d25fcb5a978edee693520c0b1ca097792cbd1742f, 0x10759b7a744e81322f8368fffa6845102867e21ca6893d97b463094ec72a1e24, 0x1ab43f1acf28763767e587542a3f399f0998b4d20f532d1f5b3935ef2ca3fc6a, 0x1d32f2e0c56427580de962f147633899ae7237f4ccfcdd52e0d9b7b037ce20cf],
    [0x2147506e00fbe0f6458115126df9eeb1ae4c331a4a381915cc195bec94888d65, 0x4e95ed8d8a554695f2a8441c175f22c61ab041aa4d27e4821062b02f7a29ab1, 0x2cc181f94de5719fe2cef2222777dd98aada9d4cbcd076a2cecb3ea78f8bfeae, 0x1615f6d5826caaa678c4e5c01cef49b442448157d2c651e3b1c99d32b2c51c0b, 0x54b0e2491d3ebd17f7fee0b0dce67b82346d224aaaa477d5d98fde2bf5df5d3, 0x21052fe17f3f83390ad8aaaece48b7924e54b8070b6304f4b4e8ab9f89493713, 0x1b1d8d905c713958dd315b0c84a65d479f6fb8d8698630e7f096342be4f129be, 0x8765df92141cc7b51bd0873fb5259a8acd5a9b5082889ae550bf3ff1e8cfc39, 0x1dd1e2c068b653203542fea3746329eca954b9e28fdcbd895870b32f34811054, 0x50582affdfc4e5c3ce73d746680b830a843939561216767e4ee6342502e2a18, 0x151572a6d1f57de2fa9e4aaa545ffb842bb184ad3e0b0bde29271b55732ea2d3, 0x18d0aa380c379a8e7000532a66d561410e8d118d2eafb6c0d6d3faf2dc8e85be, 0x2424a586bb57c0883ee4ca4ec731969c7422502c8a219cb95ced3a1209b05fdd],
    [0x174d6643ccb632a14b11162fc35700604c59399d3a007f5f891504bcf7d77cd, 0x182104c94166052fdc748d49799011387915b299e04a80e33e612740706e7a6a, 0xb70c1185230e22dcb948428cedde9d7dc9c967ebd45af4d9cd62da07bd522f5, 0x1db44b6e0142bae1070f734522bc1d40b99cfc51e62ff6dad389fde5dc68eca0, 0x23779598119faf923336a2e9fe15a7a32d4600a8b1f7bbc73cddf10fca81aab2, 0xd310d08d48c04dc78bda687d48a00598bb963f09b18df3b8b8d31629b7b8a82, 0x2a8bf4e2d52476ec48829a99fa53b47cb1045bc3fccebeb252218186161c7b3c, 0x13cbb0f381a6e6609c3fe4077dce0da32138966e7ba2812896001837585b2eac, 0x2ae412652e44172733e1939fd32eb7804647d29768a74b335036b24553571b40, 0x3f426a5c7707a7da1a8348f9e6c0e6d5b2d507bbe98a006f715bf2f28c14333, 0x92fd1fd3d9c5bfccbd1581b4a16ec0a80915ed2f56a3d4099b239a9b4449cd0, 0xb1e816dfb839a8b31ddce51963f3521131a5aca1cfcb3d20492f9fa4ff2b8a, 0xcdaa3a637ae81ec5fc6b4f592b5e04f7fd8f1f67b915d7fcb95c9c5bf3d7c73],
    [0x11fed5b9e736562938a571aad6c1bf987895bd25d53efb5e93a89589d638d0fb, 0xd06b9038f5d041a9edd114b3d6346ad5e11d8817dfa3e74034fb82fcfbc8632, 0x22f79b3d9df4256fc835f23d5e16c8f963eb0f80d76b90c47af463b7ee49af2f, 0x2bb2ecd74be3c847c7df14a1c83937f8b24a3ba2744959a2f3733dd4cb777e6b, 0x10bd1d611707ebe4a82d2ca962e0054bb2b7631de85e3468faf005adedc2b931, 0x2f4035fdb1622d23d1b9cb82da64f9f7071d09732cf17a53ce842eaa42f365c4, 0xfa7d8c17fa7018ad14f089eb8564bc9a7c157700bbd07c3a64ba258b8e7920d, 0xb8ca93688bfb7c1ae365aeb344630c19d0f1e74b666dec2b00436f496bcc5d6, 0x10d685614a99a405413e3559d826175205a03fffd9b037ced90bef0af0db1a72, 0x68e162c6a02caee021d6f4461fb4e1ca1d6092a85d90044c3eb14e07c4e4a83, 0x2f6d6a0c4ee21296496f69a965cb8fe239b91ea81767cb82064a8aa5e27bcc56, 0xc6a439aed8ec86b5ba5f2a4a045faf2fe48bb442d9f7521bef498d057c2137c, 0x1e6b0d4b88e393a9d915c013b4fda5a7c3b589872c06dfdda207e1d6641aae2d],
    [0x1b2116f8a7de6981e99425446c1b720cb44955dd4bd46fcc6c522360e1c6bd8b, 0x5013f00c86773de39c01ba3cceea5c0cdb0d882f199569fab37c440e25a8e56, 0x83d430c489ec684c164dfdbfc5a0556dd90abbb11a8ba1037b92e7c3ce42cd3, 0x1b0dfa5c2f0fa739b03b0bff40616c9b5ab246c29694473d6e23ba5c5dd98286, 0x553fdcea1498f28a9c4a586d47b0297b237e59c2c0e7034459f79cba4b29045, 0x164c272c42e1f907ba9fc7af62e5a9dc836e9e7124eacc6dbc5cfeee3b74e5e1, 0x2eeee949382b74229a3a5f86420c596b8224220ee9c1d093cf965c2003c773db, 0x1aa7b899db428b649fa1e4672581909f15a091c301c527ec4a54c3c093ed6003, 0x2844667092565157f2a88a0558450adcc388e6148d2417cac3dff95ebd707303, 0x247c0d8658c6a57ec482adc5e9ee6bb67948d96c781ad98311e279b81f67ef35, 0x21621a3b3c6489991b000d1efcdc69b0a540d09680497d61e96284e668c9abad, 0x2daeaab1259ff6596d09ee4b567cda64ab0fb88a31783266e5d14048118e62f9, 0x1906cafe7df4f4a8359a4818a4ed5b6769cada0a2e046e2d6138bf8f84409f4d],
    [0xc2adb51600bba92fc53dc2165f80f7053a1350be50f6268dbe18b10eba2b31, 0x26b285169225658f8ccc3040cd85c3ce1f447e47eeb7be8e3b6df38df3d44bcb, 0x1c2b7e2db564eef0909dc7753604a4cc5d45d643355e3c60321d24a80ed6ccad, 0x2dda3e9fc09d2c2e6d52a76bda84df106ed236ff956f127a804fc7025bfcddf8, 0x11919b8f4797e0ee89f05e0428f57833d8b5e74104814a6ab664de8a45887ef6, 0x127bb2c1e855294058203de7a73f055c6f42601a2475b1d75f9395993ada7b1f, 0x2c59318cf432b8e499a99a0863c914e8c7836a23b31bc758028182f83283f61b, 0x13b24677e68adfb873ed0f23b0025bb5747a5fc744353025d2128d447017ac7e, 0x2628fe26b4d2bc5f8e90679f798cd9de5a47bd2f0486514b6db4c70cf3c247c3, 0x237cd160a1d6ae30ef20c93476c9ce0d6066c0e7a5abd261faaa4bccceafeabb, 0x1e1ad584ab675d5b5a4aed3ca5b804d62c29733574cb9c9ada2577d876b99c24, 0xfbed731a82174de7be9e047985673580ab6cc4194893884c9f51ea11ffe8f58, 0xb441c8f1423a29a71b1dcb16fdad0316d5334a298fd4480125e6085dcff1078],
    [0x214e573a6c57ff7da396c0aa15efaa21fc0930c59984cf9c8c74dade3af961f5, 0x1b6e4364576e33a3cf54bf21c10a91c48f7eddbd9106b505964ae8e0b48a5dbe, 0x2cb60dc30aafc3a99f1f439eb34c38e8a7ab265de46f45003cf2600f3a4619a5, 0x81c0b5c56711e541bdeac150b0644a7cee255102a4622dd990f3410d16853c6, 0x1920f847ae83969af5be395a459838984a0db77310b2c8c533eb602908321444, 0x1bd14cb5b0950d3b4783c53d2c733a2ae6e914ec6015517039128b154746aef7, 0x2ca16700e67134be0eef329f561fb057867ab0c66a7fa1dad6cd60eb3c0d32fa, 0x23a4bd6bef7f4d21c26192475547245663fbdd3a251afca27636ed1dede95365, 0x90204cbe550a36f11c9d12b2a56a6ae7399cffcbc1682d7649cdfa12b5b3a2, 0x1ae99456d0e8b238516a52067559e599207da285d037bed5c748f39a6f94a04b, 0x2c18b3a0fc4bf35beb9a40064a69c7d976eff45bae2c1691005cb835ac07f44f, 0x2dca944b91011ea9f224fe5e0612ec2021e2e311dfad8d8d52376b60dd2963af, 0x2ea90ce7f34c864596617fec562b4cd9fa0acb71161655957ad4615ebdf4645a],
    [0x7d2a16fad795f38267999a70ebdd9b2b24de85aad12cabe10855c2bd71bda2f, 0x2364415fc864df4c341a8e4267a1f3e832ea5143a4e2686e0d8440c044ff862c, 0x2f5c88b96aed854cc0049a9ba476a6ba61789e5692cf2d7d8d9a7cc7b9d0cbb1, 0x29902aaebf3e38f0ef39c37deb5e4fb0f32fcf23b74511a62146b3f79c25f6ef, 0xe190e057ebcf02ce0360f76fd5b279a4fe2ba80646ed69cc7d568411e81cb51, 0x23097b82c0c75e53cb8084869e51400bff9e1f0d75b5252e988abe3562702f7f, 0x30180e17530b860901b1fdcaf23b2efbc13ebd49574e69aa6df159d4a9dc8553, 0x11ba605959afb5de92d0a0cf68945b5e660a59e6c9dd2ee4838a9e52dd37a09e, 0x19f8beeb3629ca17720e83269c010278231a330319beabe793e9af41518a34ca, 0x278f39897cc83610330db265f6f959ec983fa13838ba88f76aad034c2f90151b, 0x2349cabda83ae2bf55842e72b804b36435a49e0b2f8501f00856605e24dec382, 0x7279b75f7a7c121005c3b62b7d19dacab6e1543f12bd3665c31818c5f2c7aa1, 0x6a49cec0500c059bf61970d3a03c4eca079f3bea76bdb652c9c13eb3a57f26],
    [0x877dc29b504019644485576670f38ca53149695b5aacc5c4d50108e2683109, 0x29494a499fd7cc4e34730c48b22a629b24d74a728300696f523befad8a329f77, 0x62086a3a24f3dd07219b38975c451b48409e3433eca86c0832070c82f6dbaa0, 0x2b00d39eee2b4106a70ea6184d95dc19991a0fc21c472717740c3276a9a9051c, 0x25c788dedee36b381925503dc1bfc81f09876364b764989f86b9a9642c92eceb, 0xa339d7c3399eb0090f9ca887196f55e5927dde8682c37fc9e85005d0ca14e5d, 0x10fddd4d628eecc6bb55ec4ed563c9c9fbd76ef45c591c221e08b66f44c9575, 0x8cad7f09fcd6d0a763b153a6ba13d09e4fb910e98a745707095c42ac32f7cd5, 0x2ba8cf3a07138c08643263e2d4edcf9a4a47328bfda137edd4115ba0b3274d78, 0x280c5aadb92f1863c0ab20ca14b01b00201b21dfb71c1ed32959b212dde8e8af, 0x243c43be625885bfba5754beffdb8c4e2718bd1ae38bac39b66883a20324547d, 0x1fb8a7db96d88075b7ab36e71669568b1a88c0bcc572ab1c780303c569e4108a, 0xf7adf6a27eb979d0a147b417255058e3dd399f254e1d1571e5a6025d85d593f],
    [0x2a9c20bfb0234dd219ac5933e7616040ff98d6f099b53ce9dbb76b7a21c655e9, 0x2db11a75d864992a6df56cbb1eb569da36927f43362e983de12b7661aa91f465, 0x29cd63ef57ff897ac5b7df3ba8ed72d43a24ff18a03caa4d99f1e53190cd239a, 0x14d0521932e873b6db85e6a3aab001469a168e978eeb4c1a9386190dd74ede71, 0x26a3e834054cb4736723d1d15a241869f8f23475d377e69e4a3731689cded16, 0x8bd8277459e8e0a8359ee5323541bcc1465b27b9685fcf0d77e4aa73f4a5ea2, 0x19f6a1b5a8022bd124d262a77499621114c87b1bdc8e8ac715f0d906b5f571f0, 0x1f99477db5031b0ba723b1c0c6d156fe88eaf78de09241f1f59e0834f91c0817, 0x7a87edad5067f361df3b764ef37fc31175e017d9635a6628cef9158f63d44b3, 0x264fe161c98a2c04514b92f20b75c21223b2c22655e8fe2f76e4ce8d2563910d, 0x25bcba83915954bfc6a3fe5bccf6ec56688ec209cf1f976a48454dc6ded0799c, 0x2742a82c41ae2ff68e524803a43e387e425e943a2847fd729227cd01b707dcff, 0xa4bca229eb9cea967db5f8650f3a9213a7eaba0664529ec48cb4816a32f3e40],
    [0x162dbbf72f31e2af5a8c62975d6add0dd747a86817bed09d690d2095ac1f302a, 0x1d90d3a9705c5a9a1e06c777c9158d78603ad4f9b10cef41aad2b8008d86bfc5, 0x2e97da108e41920c71507d3ffc4198f4e403fc080e3193b63471e816d3aa655c, 0x2bea7cfcff46cb79828d1bd5bc4d18a375765bd6927928bcffbea2aeee454519, 0x2e5e54e0fc642d8a0a21df48310fe89d3ecb81bd2d564b2b12d37ea41ce66374, 0x2df4a44be5efc0c61c496a8cb723e9fafd7dca85ef9c5ba52c71a78ff2a59d9a, 0x1dda9c60833b52676cc9476ecbcb34ee7f5b759fc0f8229f1d645e38073fe051, 0x2f91eee054fa514321dc0aca21ff25af7381ca3f4ef09a2fa27355c4fbd886cb, 0x94327a79722ee116aaf8196c4844e442e7f36444ea9c816948410ff111e3503, 0xe0de329ebc013684671aa68f0f5c56a65a3c7e31b34af28d42e7db606b2ec4b, 0xbfc1bdaea3997e63db63e94d43074ea379d5d5f9616edd9f19c1787e4875937, 0x2d74256d470e8f893f5a6a127237c24502c9e10567b892f7714983d142d007b4, 0x108523062a51a8b428eec2a66284bebd07dc1eee904f4347083fd1120649d616],
    [0xc5a805d2ec7e6b3201e4954184dddc7a93d39fc221fd8674b33b68d65ca9e48, 0x172a06215673e0c0432c98acce1c426cfed640850197e72fe848b33efbc8808a, 0xf65d03fccc7537eb1f4fd6c5cd05fb04b40396e99328a9e9f344c5dbd2a2e9b, 0x20c30ad3d6b572577a8733996093d5b939fb80f2e7caa53f0cc967c334dcd6fc, 0x373febde10260fefc6ce9670914a9cec5c205a75d23def62e22fbf31a61dea3, 0x2334bac29b92db769c06308b787943375ba7e4560fdb741aa6569de8d16417db, 0xa3e20c8a61c8bfaecbd65e43b13a59382b021358cdbf7a99805d65822f437ba, 0xea78ba65528ac7035e06fbd9be63a50e0caf8d0628f33c7b229d0931aa6f05, 0xd1682fa0a924b9b3511188fbc8f21dfc6f9ef8eea1891607f22b1f9167204d8, 0x2844a8efb853b2db634a3cf36ce7cfdc331e7f32b0035d6705dec154b824b4cf, 0x2a2a574661f939e6c6a49f90107a2b54a0002022f963c20c1bf8753c826badbf, 0x11cf62ee06e4ab926c482f35525a5dd300a259bead4cd8fb9496ca06aac9065a, 0x29045c7fa9c73fc5b1e13499d171a16f376bc8b812f2654908b5ecd2b8261769],
    [0x57e44377642d4f3c7c1625dec2f3f4d22e915c7e90552879af016f7a1665f21, 0x258c4640ac1da995bd0525fa9162d7cb3a5d9b267d044a8c3c3c4310e68971fd, 0x95ee6ff5568fa535092d74c16311e477b7c62bab5fd585b7d4f1bf65ab4cc6c, 0x806951088d6f83631a371948626f66625800d5b61eeea63d0d53f1c46ae4e21, 0x2e8cac5fe2f70b026d84f39f1bc80f3ebff2093625a1d44d8c9498a3172ee2fc, 0x112aae3d8032ae80dfe027a70961c04d17c99609a38c2a6e6a609ebd312a114a, 0x7f1bd289aaee1f4c2832bcd88746343d2128b9826f18ff47a02c604e04b256f, 0x20fb251f294ad1fc3d553cf9dc532cf2105d28b419cb3379be54f68384d3656, 0xa76309ef4f35a0d942d2adb40042103117f8a92f8fa22713e5c8f4630a33aff, 0x2e338a6e276394e620855137d23d86e73b6a9c44713543e6ef0ca373032b662, 0x11277c021f4bb0566112a62d02989f306be3d6a61a55d6c2bf32b9b2d6eb488e, 0xe416f597798c242813d07f02fa3f5afd3cd23eee8bec05ccf32280d2eaf0e85, 0x1246e80a1e90daf8f50c8e70a1973229c1c0476a262df79136087b3b252325a7],
    [0x2e7f56ac53002afeddd2ecf49250b5234d40ed25924ce04da52fb13d8197db4, 0xb383f460b713d1af2c2721ef86ddb9ee97b4d51281993edb77472acee552822, 0x14c46b4a3f25b85a2d1085cfda812c8ae5586600b476acf5e6b6145ab449c52, 0xba3a95d3c28b392f3957569179db635593a9fe5eaaaa6410259cae7a66ab635, 0x2bbd2ad310bbb5d2546328872c54b64e25ab05e3477e04ce1f03021ef31b90b, 0x1cf0637ff2abd72a4c5d8b24af9998fc29d5f2fa62ab47914df14e897467d0a3, 0x263acdf45d079d43b1436625d9c3229e58d82daf3a40bf89e2672ff6785ba580, 0x2811eb97a600f13912348f4e9af47d30dbe08050ea0837010e174ec3f3acdb84, 0x15e681960836851b15c8e9896e91d65ffb1bc247794c5900e68ae82f1cf732ad, 0x1a1bf5d7b73d6cb3ddb0fcd106550674cf8b492a86440f90994543471d554405, 0x9137e8736492afc6d714d854ec1bd8c0fe63d4029ae840e6ca05fb3a8b36243, 0x10075a0236e3c6938e8acf35759f8c19c8630260bd8e58716edea970ec02ba58, 0x126344b41cb4cfdd9d78f912e02ee47059c09159f97c42943c5d2b735b6769cf],
    [0x472a9ac7f6600881089a175f3287ffdc01fee5780a38e1e088b06f047024c4f, 0xe52b1a8dc66014a14af480b80c8b3fd99592633eeed6cf9506e4f6ca9bbb8c6, 0x190e307e6626ac796ed7c96932800d3f155ca89d84c0392bb48a60b009867540, 0x19017529213e1cb331a1d076be3254c8ee5d9ea4005e9395706ea0f918491384, 0x1889decfad56cb14a6e2928091550a4504fbabcd71a9f4e3895367adccfec767, 0x14b3798bb27713b3f92fb086492367335424c56e0e7bd9ac39b5585fb18d0067, 0x217faa0b7866c660a700fdaf3ef0438acf44fc73cb7eabc5fc190b64ca97056d, 0x2bf465cb5271fe563121bb90877a821d529fc815fcee372474ec02cf398f9bb8, 0x6a83b6f33415934cc47c952b7911c5740d8d56de6a34837dcf8292ba823811d, 0x26bc4b7152ec95967de18162da0400a2b369c91088835659da957d1ce2b49e7a, 0xd9bc3639ab1e9a50234c10d7041ea2220bbe7c94163188fab1f79e656d13b18, 0x13152f0714ede97bbaef3a29d44fb441aee818dac04f11e4e5c6a4dc31c8cb3c, 0x1afc129a674ba4ac7552dfead9ae8d2d584dc7e4a2ff2cce5d3b6f1350e08d27],
    [0x28498b045dd1b9b56e558065e0d7100675fa16284ac0ced1048e07c280a1745d, 0x13f8baf6efc94294c82829f59da2ac86191b031bbe2b2fe332cd302cd5d946c5, 0x2b0314eecfcf61ad7d4c6d8c7b95ec7fc99ecf8a648c21e23fc5f1946432f790, 0x2bd02329f573d05bd14eb5971f8e6df9438e8ab78b2d37a68ddb1a845d4cddad, 0x2f121eea462e2dbe253184030c4c1a59fd50fab1ac5c49ebf621f32347dbc0ca, 0xb11ca165736db53fffd72e0d939b16fd5bde07a03678dbb6fe1302dff3abe2f, 0x244d9d9b9bdbf0a622193df5b53e533ae146aeffbb95815c14dd44340e192b9c, 0x2dff8347e64c0966cd327c431d42bbfa8e43ed65d58d452d2486f2affb4fcfa, 0x22362991babed59c5de9d9fd96a339ac988181b256bf1aec52a3d0cb8952f717, 0xb5ddca04cf6621a6f22b94b90395a58fa8f1cf296fe5beb4049c7565f4f2a50, 0x3b3edc6b3744cf0578b2ec40d13a99debdb6e71973e0a40d265b99a54d6310e, 0x2ddfd9a5dd6daa9051779120cb17ff9046ede5daa24b5c33368fb84b55bee38d, 0x2e928f258564f11bd72156b627f0374bf8a557c49f88598ac940227ca2f59833],
    [0xf970b4e284e95a97909459a34a03b90dc9703b24f9cf05fb5250c1a24861071, 0x27a802eaf2f9dafe4845f9b30907fdb39fdd9c44c5d181610f55882b7b381dd, 0x4ac7bc03182be8029a8440ef875a248a480985e693fd4eaeb92637c73e89e31, 0x75f3191afbd21d51497a26c524665de743157121f093c120d93e180582eaf8c, 0xbd3be9213121f779c2b2b0a024be82b518e1bbc134a65f440c4476a9eaf585d, 0xc9bce95f2d5967d3b58f93d7e03c93170917ea53b5f8b27dc70a1faab474cdd, 0x1e3b04dee6ae6635722e354655f6032d1a5ca2e6d7afa0c77b0be192f4f0c6f2, 0xc1fc33b93195f2aac03fe6eef3e4110784c7c48322e30ee51cbd78f6ce9d93b, 0x2ab604267dae12494550e1ef273708dd11c17666770ff0cc7c077c935bf2af8a, 0x1c69985ff78559519a0052ea05e608e35cace62db7eccbbcec55af3db9156468, 0x16334fcd421256398cdeee08a9345a527decb71a01eb43524f8d3ddb0db24d48, 0x7ef8dd7665152f85d00939cfbabcfe37e2b1ef8a77a84568aefe01f1e9b5ea9, 0xdcc426dc88bdec8c2848f2d88a200571b8a012cd0870fc6ea0b981494f58278]]

/-- starky/src/poseidon_bn128_constants.rs L11717-11913 -/
def m13 : List (List Nat) := [
    [0xd064dee824928d39f2a8be7d2fa583223c33995784d228839adde2559592592, 0x2b2ff5f27531b6f3d6a85d75e3e08f3a2f0dac3680a6c26d55ecbf803ca80569, 0xb658849ce620bbeeff233b7d12258015ea9f87a5390f5614981eb6e4cb4a5fa, 0x118132fbc1cd83f95167cb4473d54c6bd2c417e2782e5efea16e72d47b48b70f, 0xb5944768d61c1b3562a5749f4f06c4dd085bb562b838d7e2ef14a21fdf524c0, 0x2b04d6ffbaf7144012d92c5c6212803c0b5bcc0d7b1950b889d1fa6f3e56445a, 0x29be2a42834ae32de3320fb0ee46b4c102a3d1ae44c5dce152fdeab5450c9c44, 0x1946fe9de0a943d5a716eac08561cd91f9031fec82da9ab72883c7b218b11eb7, 0x1af3ca6240a55aba55df8e49835b92fa17e39ad5701ef70f8144109f894bf1d0, 0x81f58a91a4e0d100e0369fdd81a190035342fd0677ee1bf5215e47f8e58c2c3, 0x22a852af90680a8ca9688b71ed27c157d02b406bd6c7fd8121d7c7793ad2305d, 0xb27ba82a0ffb98368981736ae927a227828985c00c3e5df8c1276b1001089a1, 0x4b46526207edc70a0d23c8438bc49a365635552dee240661a2cdeef966f20f6],
    [0x2d8c70035731ad9efba92821a88119f6b8183a362be641729a93d6a327c03809, 0x9ef3492ad19dd1d0bfbeb191330a880ee7933c9d3b36bb5fa02283bae5d605e, 0x1458de516a534190c5550c6a1bed3af535c38b242eb9291373096ec60e39c1f1, 0x136ef2515955ff6619498fac59424816189f896ac0ed69b59854d105df47c4b4, 0x18cbfde0cd21c183797a2f089594a81cd828f3b0742371ed02eb83fb0064dd43, 0x22757da9e822345297bd060a3f71bb1e70ce977049c393235035677e84357314, 0x1622805125ddf344c18e351d11e82291618b975822ad0c903efbeada5a51d44f, 0x29765d8cf77619a580658d127fb6faa44d6c70a0f4d65dbaa960754b4195d9fe, 0x2bb0b6b08fc1bd11070edc42f23e807b82e8b88ef70355dfc74e096a7ff381cb, 0x4951e747b7ae6b99d9250108c5d2b70181a93ff1d4bf723781e1b938029827c, 0x17780b9469e81ca70c7cbb4347e7fb40c63ef68f3dde51d04cb47b3b83fc299e, 0x1913d51d9c71d042bfbf649d9e6e6ea5fdd82b4fd3173ff2fe02b85582528912, 0x2a9e342a56c8b6466d3fe533b89f1ab441b62dff3153d3ae6500c2c3be6365e8],
    [0x7b620c8a78e09e49ce547aa783aa78f3e4594c49ab3dd6f602bc6c0351d823f, 0x27d6bd18703d7ca92aa24076d3187b6c0028d0b6213d9e5d2c66115237a19051, 0x2969eb5016f24b31accf173ca204668dc2229845bf6446cea007c113349bd4d7, 0x29c67bce04bfd020f4ff7eacab6cbde034b22fb86334675a361f059e50395311, 0x124474b08829d9b717c50884bc895cd3f81d519859d21235d7a74450d0a9427b, 0x2c7e28f59fe8a8a3bb2fa2b2b1e114ce283fe22a978a3df9f62a171cb1d65e4e, 0x165c0b978b4bb646a9ff225ac4900521292be54c879882d3f11eaa3103341487, 0x2066134bb299d9e359cb82a8380feb63b60e4b9859d9b9872edaf9152f92d4f, 0x9372ed18ba1a774eafe1bff6deec4bc0814b0899c6196fa15a7acd15ecc5ca2, 0x1e3a130e8caff9b5e563e8aaf84b2fc73668e351cfd28cf66f5012de61345b58, 0x255543a314afc5a2991413228c75eae398b90576b23b6cd86128665cc3bd9478, 0x76547449fa03845f185e61578a5a8f2683a19733fc04c73ac6a0b89bebb8453, 0x2f98bf081e0eb78f8025c03ee9c199f2e838c51e5a0aefd333e9f7cfb38f534b],
    [0x231996b592528575567d39d00645a83b13929093bbfa00d6a661e4a690351d0f, 0x193f32a3f839f76049c9cbf2414590698a2118e83658327c4338aa3648d8f7d7, 0xa5da659b6fcb1a4273e1b7e3b544d2cbd362cac497afd004b8ea920fdb04bff, 0x2a832ceed3837e742196e09491fe23e3f6e51126eab9acec96e71953102ef24, 0x98bb2c4c6334dfea474d04cb2e9761861f6b18a8058a52b619d6227a26228a8, 0x101749f9dd2605191c1963f25694ae267f6b44bfe2d1af34fefcb65e958784b0, 0xc7b5e09343db5c63c110d3175d01bb498290d971b1e6dc0e9a0e9e7158356b1, 0x116a313d00cf99dc18e21f93a5bb198018bbea4b7cdced3e4d210971dd0a681b, 0x404c0fa1bd1f7e059054cbb87f6b5c69d11457e59f90419ce4bd10bb8a803df, 0xc1c216af33054c497ef04381f58582298b54335f632bd62add29e08067a59d9, 0x11cb20544f43437a688a7dcb573a7da4f8c7b4437349eedf3fce432a6f3c1653, 0x186f160ae866e10c4be0ea7d204cd64e57337c60c40b34c3a371d753f2ff001a, 0x1e1d5920edcfe9d6b2d0ddb2f6f741afb06590340fc07b182ea7c3ebbd933931],
    [0x4e47a72e49b9c5aa3f69f6af22fa0ab640c93fc524dd3c508486d66f079852a, 0x235d0e71a350f1f23d9bb5182ac44ec9e4615e77801e5aadcab8336aadb1712c, 0x1219740c424743dbbf896996f0ee7a4076ba960a57e8d7679b828479218570d1, 0x2b501f1003e27aa809dc9e5cd84976a3b8c169c1e9c63977d7823f80d3f823be, 0xf34db93ea8d2ad7d1eff86db5820cc7ada47bdcd8c82d01821f5c21a3ea2325, 0x4d02ab05826fa50bcc5f9af9e396477e68542d076b683ee61b85869d4535893, 0x2bcc82e75391be4ea9cd0f8a505f9e4f684778fc7a9b1bceb7868bb299cd2072, 0xfe29b5bead54c5bbf426bb12844a2920884ac447906101cea9888986a030b11, 0x1bb2091870a4fac03682fe5b1e2eb56b14ad6e48f4676fe41454bfeeb0ffd4d9, 0xf54c9c522a5c74e0d4e0c63611a7502657575b7a963c0e786d2a761c4e845bb, 0x160f5ac0b2481f8019e95e0b26445ba64dc03a4be8a15461496247e6ac29002a, 0x2f3d6b8e2361166089501b9147e84ab6b09792ac17a5f080d75b3e320affc86c, 0x1b59bb60e986194987fcea070498bcc7c93dd561ce8af5fade754ceac07b1705],
    [0xa8cb4b2bf3f0c5da671e48f83e5c1b3018f0d31200a6f19fd5195db22eef7f4, 0x1df5c9ef694afe61bc253ae908a8f6af0a08cdb9e78a9f322c22388322f16c2a, 0x134431128e5ffc0ab60136c5d851a11dcdd63cdcf17ad64fd77517701de675f8, 0x3ea4e2bffe02da5977ced1f1a6e852e921abe2e015f35b36ce4bd0246c2cd89, 0x6e03ca1146705522bb5e9dc73560eeee6b9b4bf51d48f953fbd1f006d758a75, 0x14c499ee51925b231da17ee7b55a75f96f462e431675ee36c7be4e9b069e260, 0x611ecd1f379a0062b05c4aedb100bc015244c6a88f1631a456cc2acca8930cc, 0x22af37c0e4a88deae9f7fad83819910735cb4b49311e0aae11cb7534d0bcee6e, 0x299ef95aed8c75494db82e8679fbc6d5a3d2e29aecdcf6979a9b272a607dd5df, 0x103cc8384be1be1087b9bb47c0eb6049f85e0413f7b408f1dc2fa1e6fc4af91b, 0x206cf4290ac984434fa774bb0f8901a233905632b793c80b1d59966e96a73832, 0xdd85dcf08fd38d22f316d91d812cb2a884308775afa9f667c6ca80954397c86, 0x24ce0acb522da527d3eab72865cf073d954babbed3cd1706aa69d767e9afe7cd],
    [0x18bbb002b46f2e5fec2b120faf87822ca8e77ace94e03aab5c16c4b931739dc8, 0x1db2021eca3a3624a7d45bb16cf4a44e2af4fae0dc280030e7ebe55394f69d8c, 0x97c6133aea8fe48f3a5fc416bdf5e46d05de0723bc49e53b9fb5e83d350c295, 0x150ef9e932a74b8debf670080641339b12684ff5a303b2fb7c1d8d56f56ab61f, 0x1237f44f036b2da0067a94947334e3afa2ac4cf1009896766f5b191cde284972, 0x2d9ea99d2d237328266d59dd7e018bbd6bcc7941d9ff5f07a17baf0099f614d2, 0x477f951e19f531b8434ad755b6783d61b679efbb87fd956e394db9c434e2352, 0x1d8b8ba772c4cda72e8ef9b19c424d55d57251b247c632bea255271afcfc70b6, 0x206aa2f36e32b2b06d6be48ad493d354ca7468753f526e6bd82549fc36cd4109, 0x28da9309acca103ecf19df72a722134d530bae6c660db3c364d0ebb200c2aeaa, 0x1b9435855d6cc4339240e9fa3819c2ff420980d6cf14721b75e4cb1fe57e118, 0x238832e643158e96689b5803b0b77601b59bdfb4926113a3455f1ff4df6e2b46, 0xb43b8facc43cfc067b5513abcce846504b9395cdc14df96861a528a52ae2ec5],
    [0x2bfae1b054ef2e924d75a8a01283da29103c57bad129ec8396ce274ba4524df, 0x1a46a26691841c26109a32ae07eb584a6b8af657273cdc4d8a112dea0bcc85cf, 0x107da0784dfb314d82859be44d37b4d2b6345c174b91651c65c98449682a5204, 0x2b45b3be2674fd820516acd6cc6183c4fae0f7edfa9afcd02dfeeccd02bfed46, 0x2082e9103cc45245924289111527312860f6e7ee94578f0118f4a920d0f8d525, 0x303a9e22855d95d07e8172f3a0536d4b95142f962b006a8ab09e7bb6335e8487, 0x2963514313f046f844f950ffea80f5e5b424b707f16599662e5a2e3668cbe5fb, 0x4b7f8d1d5ec8bf689adf12d656b94e15b0b229c1638c9c4757faf0d18fa6433, 0x259547168b64b2a228941a542f394a2699c081c149463dc2c3d21fd8b2e4f31c, 0x27919dd2f9d3dc9fcbda1a23b95cf23e3630e6fd5210faca6acf4629b88e5ff1, 0x2b9237e5941e1657efa507b892c3b8dd57fc8d52876ecb599dd5e1052b6b1f2f, 0x202e38e669883619ecbc6a6a45368b9b9a3e9ab67efef50f896dfe48b78d3dac, 0x262758fb3e076936995ff3140ef7d1b0a1e0fe4240a50747e2c3c120d977f3ac],
    [0x6d101b19477d1627b9542581bf0cdfab38b05cdefdcb81965c5be00d780f192, 0xcae80cc05aedb66d6e649b057dbc5ae9759da5d7b43d5e25a400e1f92e9d1aa, 0x12256b3b99d31d8a372986f95d66cc139dd23e935487da26b3e249ea7cbf91ae, 0x238965d658967afa2bce50ff18cbbe535327c65b0b76e50da30739ded25eb492, 0x23a6e143284e8f238c4b632ad78ace5b0dcd94a897cb05d1e297b4880e7433b2, 0x24e13a38f04d5e0fc0b6b6e0f782a6a523a8b3b0127224b8e23751b9cb9f8960, 0x9010d73677620aae1b0fa8023ff1c812313ae9c3bf43066ea60bc1ab477a7f8, 0xa41e5a4421defd5ed7acfd48401395a409a67c3edf4c168ce3368ed944212d7, 0x2fc7d17f3a9afc1de289ad0f94126aeec834498120629cc87c4586c627780075, 0x1f86e3e9d147ed604c71e1fb6ef8459cfc40001bb4fc5ccc2661669b155abeba, 0x182d8f91ee2a9a26215b35f3c0eecf8ec5cc360124cf6b903e70ca83126975dc, 0x67d2b612d75f4f974312d04ae0fef43a35b60ef054c0f475302c55fc10bdab0, 0xeab3f26417e6b53c532072de92d4aa78ccdf1da91660a461abb0f9fd7bdcd7f],
    [0x18af61f6184ff85f104c2bef179b3ec5a5d242dfbebe8e27a2918f620e8a5be8, 0x195057af1319e24df1b905c6e2eb2957003cfc34b001c0e54b9dcf2ea5df6be9, 0x1d952ebffcbedd26036c54a1e8a2828fe320adf07a286e7f2c211b47f6c3ee86, 0x370b757ac6cdd46610eec0c22d43a543d5e0482577bbdc14e71090307b5f69a, 0x22e076a3aa6ebfe996ba068bf5bffb17fa724338cd67f67ea25330195c628172, 0x126851f3eadc0183288a750153910a41e074b3544f0610a51273ad3698be0cb9, 0x361f4082b75a6ebd23f9a6e7309d8c4e7520159da23441edd631a6ac14c20cd, 0x1abe8badb2d12353b9bb98152086a9421b7cee17761730e25ac284d6b1ed7b37, 0x15a7e64a5a46f5973e4e82a263ef905ed64f182b2041baa00a1359e7e9c5eda7, 0xe154ebd50db3c2864dbe1ed72b0816210851b86c353692d1744cb3372bfa72d, 0x25528d5d31dbd77cfa6e7b1847f8e84c81c1ed5bae2a51c9e403cc754c54bb55, 0x21f0c6b896fb14220d811441629c78f8e8e27746026220e331cceb89a0ee89a3, 0x20addeb2afd20e752a39d2f21ebddc2772773b062922dc8dd3ba068836dba464],
    [0x11e3a7c2d5f74371beb188c6e3d7a14b33128af8ee3287546d12d7777cef70cb, 0x2d4d35acd9f28a3e6bfd601472948293c1e4f084c714ddb1a075f2eae9ce21b3, 0x26309b52cb55f6ea5a9030b01378f65d2e6b7a9619926d9b1b1e21cba01fa7e1, 0x2aa84c1ef9e848a64f748b80e279ddcff871e9c4c3e2fafaaf79159b0b4e4018, 0x2fe31b0df04f276a525b619acc4a5ba3eb58d8c321c62390febab05ecdbc798d, 0x27c1b406bd19ed13d533550b8b621186b1fd47f671e6604680317e6638b091e1, 0xcebcf30975b37267aedf521ee2bc753c3424dc4b6edf3984fb02ae1ead44daf, 0x291c0da731c016c0d6c4c75387030a962bf7a2eb35e15aac02fadf530278a3d1, 0x1216f05607e032e49038ac1458100e89ac8519a5a3cee4545b08850d8bf160e0, 0x19ae65945a1dbed3965f2de3a39ff2d54ab1dee0f333b88fb49edb3fc9ac7899, 0x2f996ae620d00a3d4e55ef7a6ce0b681388f1b7ff3875b725aea6eb9039d8b25, 0x2c825ee561c4ab6a22331177999c89806fbc34518387e807c20c359739ba9eb6, 0x754947436c3cded29a60c9e898237c2183a49db7e70e7eb73aefb4b5c693246],
    [0x2de5d6a7a27343dd0422ac71b8d409b43ccb0b672e978f8fdfd214f4d7866404, 0x25eb2ed84c520aba164e33f0353b5131886c0fbd18e55695541512dec563a0c, 0xa12525f0781322371fd70b0928cce6e2eaaa67b8970dcdf319df25e8019a6de, 0x1bbf43ddb5a0b0d2845923b1ce128292359cbb313c5876fbb52f5e6b1fcb7031, 0x23e8c3606aee818d2afa8c4465d5ecb9c45bde78dd819c0f35a620593c1f42e6, 0x158880f5adb96dd1398128b9ff339f3d827da6463891cca129c012c06b16b321, 0x23a1ac07351946a974c8841e92092a4ffc6aefc7fa988e3c1f7e7c87e1512a90, 0x34c460fff28862ef7a509a1750a26ed1e5960fcb58c4f48c7d267c77e58dd66, 0x223db18f31c85e98e1dd7b7245dddda0ff8e319bd7d1a67fdbc7eef56d667818, 0x99b97c878ce35c957d01b43dab07f8003e2c379b41ca61a6e56a9204fb16bc, 0x2c2b1e7c70fec2f58ca01bef5ac37cbb9471ae7914bf08df7e47dd8e3bc3ce93, 0x4625f2258edf0262ba0647cae426a486fc801dc0b59d20ec0f4d0af8cbd23ce, 0x239ca61a6ef7e501810aa89ab4996dbea8fbd47fd2f7a2c96a818e93a3c38c89],
    [0x227cb43b9818924f2a2588964a0ad7ddfa3df62284b4b3b10199a501ed970622, 0x16c7c5c6161eda32c65bb347655acaa80bcc98bfc023f4ab12f5b2a899f37e3d, 0x27e37c68a01530f092cd37c4a26dece2737868dc2c3519435e1f2cb88f07b62c, 0x19dd1c6d45298248ad499531f33ce002505458d76178eca26298e39a62fb9501, 0x215f5563464e2df6a8daa8c34476a465e4ee9fa0ad01fc4399b649b2e07d1679, 0xf36d166e99139b9bfc1ac3270a3d98c4afa81bf97436076f57383da50436a5, 0x1edd7c7deaf249e0fd3f5768aa92e9dad64118b491bcce12340c46f210b07ced, 0x8e1741a97f6348ed6d68f4b7bc6ec8b2dbf03f426769cc779ceee4ba1beb03f, 0x2f4aa8641ea4135031f4d97a7a2f679a8cbca562ba6aa54eae7d32ff7d04dbd2, 0x21a0a43c88ce26effbf8b9ad668056b5b0362e5009f3d80033db473228fb7fc8, 0x31b369d011f219e4a8fb21df9352878d93ff8035bcda834c3dcc41c3c2df85d, 0x20a72083579059cb659952d3f2a01ed90d21002275b5ea11f209c763baa8457, 0x19f11771049b5be81b43ca81e3611f4108a4b9dc30cd122441f74319c3adcde9]]

/-- the inverse of the matrix (not in the code) -/
def mInv13 : List (List Nat) := [
    [0x9c68d7f6f120120daa71ccdd8e0fee00b1fe54aa692347ead7f93b2089d0c36, 0x27419d6592c9921cae797ba533d1e74dfec11563faa9c7b52633bf0aa36da19a, 0xc571dbcad2645954488ca7d315c115d77f0ef7c79f43920c376b701d2269b08, 0x96e6dfed7145814bbfc55b21e8d5df219e769ff314ad59f67a646eb9e4c7fad, 0x2a0bbdd11d7cf4cf5c90d7a406ad94563a235d692ba8b9a63566292dbe5c27, 0x21efbc9d73b2cc5bee4ac5ae8c3c77b7d616aad5075cf3ce293a088a613de5f1, 0xd1381dc5b873df541cb28dec8f6d8c020415ac967a1a592090052790ab4185b, 0x21487b82436780470aa899b8c2f069944473409dd4e294a8cda961547d641de6, 0x869b96a9c054e9213eeec83b2d4190d95356b72a05d890a377658c9153e41ac, 0x2426d93d6db9b83020def78c20940bd2dcc74e42c57d606648193c9bd0b1d9af, 0x124a86f36d17ad4c09729d606fcc20bfacf1833d71834ed2f30cda8a316955c4, 0x191652940d9e5c15e7a756a95278d261913763217aaf1100839d9ea4a16123f6, 0x2b156100ab62a7f691b4dcd59bd4477aaefed92c51db10572c725c7cd4e50040],
    [0x15c6d9796f15bedcebfadd66a6ba5a5c9ebd6661576bc803b7e05925714254b4, 0x1ac8490336e302f4a67770e85215e2a40e20a00926555ccdd7c77e86bcbf4d0, 0xa72c48a6ea80d0107d9c2f88b741b6bbc6c5bea7949e03921d289ae2b41e6cd, 0x769976a5c6edd6eb72abfeb233bedd80ee36736fde7bbe50a8b30a14a21e998, 0x2c688158ee9134a877dc4fb37e938355fae8b65418651e447dc817adc44098ad, 0x265d90c763a2dcc64b2d4bddac130e055307f90a17040dd6f40f2aa8af95ed1a, 0x2bf860fcfa495622655dce31e3a88db26857ae5b58952f914e964ecf051a3784, 0x353696c030c6f9d3410dcb317bc2138b9e6d56c323fbec73e2b9efced6fcb34, 0x2e851618fcbe730dec14c42b15d328bd6859f169f1709864994819bd87779de7, 0xed7e2821e6fdf1a3b80c69166602212a837bf98088ffb051c1db1f4f447e357, 0x14f2261580261a444eb1f78141018292ef5f99d15cee4decf5e9a2971c2407fc, 0x248403c2f4ba2087c35b8ed5e925664114a78aed0922f8063f251a3cdea6e4d3, 0x2bb47ae4b3fe875bf38f408f24d856766efbae3192a7d18e296d2738344f4939],
    [0x5fe9997c8b3e00249f18ea29defda99def9e61a5b439737cc8bdbb36cfe06da, 0xa76bed3a2c8f167c0f268a6325f8090e8bb7bb831e8365d8eacf66cefd5000e, 0x2d137d8eb5bf5581d6362a36e1686365e0532745c8827443cc5355cce4b2493f, 0x2c7f82f4e928330beb03037ef0014f1dc4804bfe25c23cf806c5c4d9807970dd, 0x190e32d531b0abaa5191626966c21cfda035088b2ad1f855c82a915f99bed802, 0x1a159b0dcc6f2bc9de99c16d31de863ad5006283ef27ec4ed6c57bffdb3b469f, 0x67a26fce3937bd49a933dfdc7f62689b67f473da52b9d7338243f0b458b9e37, 0x11b4954f126e8b333f0de56c946e9f7659330f8d9bd6562fb9980c9bd45665e5, 0x168b40d3bfd18aa8175b9fdf4bb6eec3405744f235809d674eaccde60ae99f4c, 0x168debb21838362f8266cc859f5a1526cdc466143d3d1f94eda5bafc6906c3b4, 0x14d8a9c365a4a70517c1cc215d170e7a5664c3c6dd5fc40fdd2ad7c06a46964f, 0x1b5d426d18aa23ff3d8d72a3faaee79e90d6aa7368653e5d4cdbf31854bf82f8, 0x12b627ce650e69843bfe6dd7cf5bdb201b5830447a5b0204ff46e21fd592f90a],
    [0xc2ab94cc08aa954443dddd81208847184598333b9ed57c7f60b83411a7755d7, 0xfe90686ab58783b569fe6ee7acdfdacd11bf71286ca5310bd6f6d180f9ebba6, 0x2250769204f2a08d05f4d1f73deaa85b1e8e4528d265cb504569f20a39111688, 0x570cf54c65918332d5ae901c493881fab3de2975bd28b7716758e25b63928d8, 0x80c72910be15a1c55c1760839b853902819edbcf5724ebb9d4a97d8b983c44f, 0x12fe7b912c6f98eead8f564840cc9b6ce94421ea0e14fe9ffeb598d2da50cdb6, 0x22fd25f28ccc4384442eb230a051d1678b36441aa4cc9aaaf51a3e7787fdd5db, 0x127d8a2b41e2768ebe373212f48a4678436ebda196f39ca07407180699febc24, 0x2179c2271d6a2633585ababe35de64aa490cb2df5104677dd4ee8a550d624478, 0x1a389c939ee5031e71a726b8ea07f21d5dca4c80b3d34f1d489c472bff863527, 0x184d865c287d92f518fb4213fb3d3cd37c4ade6f4f64bf8182c3d93659f55663, 0x2cf37ada40c516ee00e462ada3fde84172bf030a38710bfa1dc513a873de89de, 0x160ff4bc7c23ffecc45cffb6faf4d9874d3412364e9710a76a7def391387daee],
    [0x16580eb693640521540317a0567bde5d884b063fdcacbd6ebbc0e1f483bf3006, 0x2128b957c229613fda660e97b564624250a6701f11772fa27512cf6318287465, 0xf10c2a3469daba5230b96dc59c1919e14f717b958d5f5aaa5be69cff6b169b4, 0xf69de23ea9d1cb866d2e1a3165f61e6c0e131d3cbe6fed647e1b284f0069bad, 0xd96797ea5e47e343951623e1c52f6bec493a78863f0841a22cfb139bcf3ff8c, 0x29df38f1a2b0e486aa9e456deae042eeaf3a19635e5ce865a5fede5e16421e97, 0x43499d297b82f3382d32e73aba5892ab84d31e7530b2b48ec59f9910cb674bb, 0x6860a16a883a387b99473308fcde7814febd0d3e1ac2112099a6091d7e17f6c, 0xa8fcc1ffc07ebe72e1848121dd3d3cf6c426733c9b9cb979e39ead40b394050, 0xaee642a8c381f6ba1ae74664df1fe823fed318437acccee0943de98927938a8, 0x213384ec7094a8fcc7453a2ec02c7229f4853c9fb9c3c3b0db8fbe677a4814c3, 0x44dd079ce6142669e899a051cdb38ff9465a9f8a1756e71ad86381914ec64f9, 0x12a42851caca4ab84d8edbd84e5f73e3831e572034cb9743cdf5f4c623894516],
    [0x42ecb32448354c43c67d5a8e98f0086b8bfe12e5c3cde18025cc938be0fe55a, 0x19957b9dac8ac82405b49594ab14151a659c84657d56f7b1be66a6b43e207c46, 0xee6d5a1a951d598694f5e6a1e2d1af4f6a4871edc4c6301644198f9f76895c3, 0x2dae819d496840950246b789ae79dcebecae6317763da68a52112d9166f374dd, 0x17df42e1f8aaf5b83e218a3cbc32c3b9feb92fbd908654ce17e9626c4455d217, 0x1b6ee82d4fd7591791ad8c9868cf3ed3ad58bcbfd3de0bc91983d65aee16f26e, 0x17d60c1c460d4c88936ad2f9a2c6c6bd16a5b00410284b5bab8c3468cdf3334, 0x16589c3db77e0a361d6c59d7ecad0b7e67d1926ccd3cce8ccac1ffdec50b91b4, 0xd7903de3d7041d2ef88115fac3b193734410a5143c94e4fe28018761c1551e9, 0xe2ad41c846322587bedd4fa439b9365a80d965caa8182f1faa25027012d564e, 0x1b5f14eb8fdd0d1fbe49117392cbed995e744077c49352360a5902726a454129, 0x1d2d9a480428cf72314233942d5d714a4ff48822d607fdc3ee07ff5b97d57862, 0x5a201c9349e41797ac1e38c77a400a6854efc9f160c4bd5b262353505ff7580],
    [0x2fb9da1faf942c563d6debed21a8eb4ec0fe536cdb4cbc137e3bcc3bc4ef9140, 0x25abdd7be1de4f062fc902e30b63479d88c91c2ce682c988f650bd0854378126, 0x1bf3ac2cf56e4fe251c67232f90c8d01636fa3d58e535b71c4cf8dd0ba205ae3, 0x3aabfa2148917a3b2890c959c4abc639d13edb62e048a45c835485865c51d90, 0x234c8d418b5fba0336b83e7275ef7d1d47d92541f9ebef1542d09c776316c7ea, 0xb884c772bcacd5ae813cfbad24f0f60ae6b574bfb7d483f2c409a01d9473611, 0x1aef967746084d0de231e805a1c2271a79bc5ff055e1a6b92945476cb7adb6ff, 0x2959f9b35b02ac56d0a8cec5946a433b3cbb460111d630477b0252e363b08fbe, 0x3e4972bfa8a7dae6e789dcb289a2e3ab335700c608ddb0411e20f13eb4b197d, 0x22a61021fe33c883bae0d8bb814efd9ff1f85d06b665273a0e6ecba83f4c5910, 0x1e4f025a336fa46fbd4e4212f09f9aab98e369281f1247c57e06d60096a6b8e4, 0x26a558c2aeee77d474bfa175b1d32c49aae96d50d850555d12d5567e04c05b3e, 0x10fea91a040893154ca9823ea1a67d346db8ec6d1540f8ab061c1b4cdd006551],
    [0x22a1d58317d4d727bcb5e29dd104e3b630b5c6a2f3aa5d2907a11ba64962864a, 0xc88d32bf7ec9939c4e17cddc44582dcbafefef7162d20c128d19cf0e269c4ec, 0x2c3e4268fd65ed379e94340de0b0ffe9dcebfc990984618db3936f49fea8bb81, 0x1af12ff55c350b4c6e0fdfe4e6740df11c1d78d3070eb092e5c7902f60488b4f, 0x76f8e0a0d6504f176506a90a20ce4ee466f7993473bea12b0ecb2c8430c7f12, 0x2da9e0a4d240a80f5b173f5e09a87bbe2879266137e16731fd7373c5ac89fe55, 0x18bb4fba5db47523808f0c931135abe23998638cfaa164a190e5ceb65592466b, 0x2d2a3e7311ee17245583cd8dc96e9814c58736af301cd3d6308aac0030d0270e, 0x10644effd0bea6b45e37371588b8bcf7c3aaa9faae0dbe818cc9089bd5c82fea, 0x44701abb733d93693524e81ff067ec1107fd61b283ea1bae1a51ba2a99aced, 0x199d9ff00b867a48faaa72b264a4eb408e4e4c2c345720e92f9bdfd03d087dec, 0x1cf84d1c5bc23a35a46b62bffc65da9537a4428e075de861d55c1cf477fd56a6, 0x2da958d09ad0c1754dfb77fb1eaef42640e30812608f0844f7527362ed654717],
    [0x1d16dcf657871e2859aef23f8d641863c742d62f454f58b1ad603fcd05d11727, 0x21ba31962e17e67595e8fd86fdc95100af973b2721c54ecaa301221bcc979ac5, 0x157f646916661ce992bd32bc92e563af7a091fcf9734c61ed77ca74ba601d28, 0x1c36004785d4d5933f4438e3ca4fffff4b4922ec0e50bd93377a9995f0bd649d, 0x1e3828e73e6a5e1da0356e8511a466e6f4703d0783d67b4fc372783e9002cef2, 0x11fe2b34e42b37e788301913ecb1ecd9ac7090bce8ee04adddd6367e638bd91f, 0x8b2ba991cf4d86102c3c2d88d0d30596e5ab849cd93e2acb734f5a8a6743d62, 0x19281c3afaa8de135cd72959dd8b7d32b05564c7c2f9598f8c3f881a3a702177, 0x26f361cbd568d44e6bf4a61c9f7d95ef85dd7a9120c9150b3e75b8e6687e61c4, 0x2a6571dfe3671155d5b2991576093bb9d1d843aba8aad20ef057c476690621e3, 0x235ff6286347fbf2a9890953f02b40600ec273cdb309a67c0254a5a7203d370d, 0x1ec539a01cad736383377f528b4310eb5186c8f81b20f13eb5a9c078a5943ee0, 0xfb915211ad2c594e0ce8bf79f52894969b6ee1b73353ce15e0a83c73325c3d6],
    [0xd624054cdb56acd2c374417c06154ab812f889c1752b02e1f5c6084ed2290d, 0x2fc203270917b69071b2e8a7ba045f7fa7786d159a7ab5ba337aec1df2d0b362, 0x2282dfa36397ffe1f333427291dd7684b6eac0133cafef177cb7cc5413630cce, 0x20df429323b0e2b089b680c99b385d53f1d8ed157013239f0679fa90e7ee83af, 0x14dfe74493461928541cfe2516ab6950849f8e1ee2440096345393dfd062800e, 0x175f393cc81eddff3a84a693bb22d7bd95d7b639f6150b16cf563d4ffa537645, 0x219ad34c6253d2621fb84153a3df2e7d58154401ba7b4bd6c08597373143d23b, 0x131bf104134ad9e99858c5c5c6fa884606d73a4e85eb2e60ec74c0e11180f8e1, 0x7b56dfa2af8e52fa531c4c6accca71b4404b270db65b9bc4594a5a5793c45d, 0xde84025739814b2a4e628da77617484d50dbe7ac353ef9a1f3f605519e30f76, 0x7cca00af6bfa55c387d118a2851a65f783c4c43e7f593cb558dc0bf1fc99dfb, 0x99bcd822f3cb7ea762833f92bb8bf015765ce187306c92882d4ab1143e8678e, 0x24b8829bd5ffa96d31d2b92df7e02168931da188335659145837a8fe941c369],
    [0xe39c05106e167e16a6bb3443616431124179ae4e9e4f30493efba0f724d2f20, 0x244883a15713f7902ccd020b9603bdb126136d54fe603c1c501f0ecccf8f305a, 0x74aeee5a0ac9fef9223132d8bac3dcabab2a6f72920c26cca89be42d31e3f26, 0x5efb739ac7d714a184d307f52ea2db1fe8d4305a609671e07af861b11322eaf, 0x21d667acaa9ce4776f4c7b0b31b4f9a485247ec41c3fe4ee16011e71719c9cce, 0x1723b51c806a389576285194c2d7a7eb1055e46957973d7ae62577badd7dd2db, 0x28948219ca22eb79ec37657c31e431bccd741e5033700819c6ed77f73c91a422, 0xf626036d7caef46f19bd3a6795e20bbe2a272c8499549ec5b9b049cd9b85605, 0x1aa56c90c4563e7518bb03119115483915fa09467186358f0b5f214c5c458f6a, 0x94bf8d353f0ddc9ec313e912510fae2b5011c15c627c767d7a46879ef8cc979, 0x1ef3aa53522b846157621a78fca4e3dad4df450cca52834e140ad6f9eb827597, 0x2fd2a005c5840f2c804f4103af3f77a3cc504b8e8f0bb283c51bee70d3c4bde0, 0x209706575c87aef8730279c17aebca10a82595e6a034f1fbb7111563978be0bf],
    [0x2118a358319a6233783b2f2c4ac1912922e2d7e1c756e0621887e268e388d5f3, 0x9dc83343d59d579dc0db06b35b417b98fa9db3e6d68eca180c966ef521e995f, 0x1b74c18ca45d667fbcecdee23a25cfbb8299d96acf48cfaab66f90d3a43059ad, 0x9604464bfb67ff3da7f43f0b5b09e01c626c115649c3b08aed6611f22825514, 0x73c628c0ff11185517bfebdd4d7feb6d06eadcd3233875871663db87508037, 0x2c7397b3874bbf96adba6c0645bd8e58ab5486de7622cf8f4729ebb079f4f827, 0x1fb01998eefd946699b2f2fdaca65c0bd08f9f14da2bc0ffe746d9f88021c60f, 0x19d8e77527ccae09b736a29f833c8f5c99128f529723677b7a6c17d274aeeddd, 0xf59c1e26197dc4efae5055990a8e873d1609a7b53a1a81ac31c5dc49a8fa8d5, 0xb48bf74b6712d9cb7a702a33500d962ae1ccf4151842b937061f9742f28cd7b, 0x3057d517d34093632c173985b7ded2936820df9fd91a16316f9949906d776ab7, 0x2c22e9c4072f22250e4622e8313297dbacdf9457b444e9e8482c107aa036eca5, 0x14b0f39e7ce37a466162780a88395ef9648c28b5881bba14a87db5148a5554bc],
    [0xd98a5ec8a873d7f34f7397acca8a45827dc102170fc49082b9ff2b72918527a, 0x2ea63441461b5cb066a3aa7fdb65e1f17d621cf25f02a277779481c639538de4, 0x29174ae42357dcc3c60f82139696c31d8df4f63c5139702849a6de5d3b8f5387, 0x1319dc37eae844b93dac2e15a0b184750d35369018b66eb2755952b18f6a776d, 0x8cb5e1356dbb6ee2ef0f629b0150e9d6863ad52d159e87fcdf00864c9584104, 0xc4e639fa7e0d622d432ef39398a24ddb1b619ad69050d2f84e3aaf42a2cf8f2, 0x13b49b4974b0b3ca3ec5bbd370e12997c80e295a705792bb7b0ebe2c0bbbd11d, 0xe9b2d55ffd820b27f31a9308cfd80370bcf10d2abfccaa4d7ef0fb4e3c0e646, 0x1f4b1aa78763fdf58d33772a75e90559fc9108b9cbfb9fdf7af57c45cfe7c94c, 0x2a25838f09692e55a58131b6655cd734ad1d77ab37b372cd9b017f6ab6a16f3, 0x1a5e831d396ab95811b9d1a5be1bd9b7f2caa0f0671de31a076d95e3ffc53a4c, 0x66633f3dd843a6a35d86e6a6f763284d5ce3bad4d04df9a772bb8556ee8458c, 0x2eef707f3dbb256e695e2c858a6add2248b35df0ab62a6e5b78091170fed022b]]

/-- the tables have the sizes that the code reads and load without a panic -/
theorem sized13 : (opt13.sized 12 4 65 && opt13.below bnMod && c13.length == 73 && c13.all (·.all (· < bnMod)) && m13.all (·.all (· < bnMod))) = true := by decide +kernel

theorem ok13 : opt13.check bnMod 12 4 65 c13 m13 = true := by decide +kernel

theorem inv13 : invOk bnMod mInv13 12 opt13.m = true := by decide +kernel

end Verif.Poseidon.Bn128
