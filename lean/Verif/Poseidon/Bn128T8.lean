import Verif.Poseidon.Check
import Verif.Poseidon.Primes

/-!
# Poseidon over BN254, 7 inputs (t = 8): the tables, copied verbatim, and their checks
-/
namespace Verif.Poseidon.Bn128

set_option maxRecDepth 1000000

/-- starky/src/poseidon_bn128_constants_opt.rs: C L589-718, M L2456-2537, P L4578-4659, S L9371-10332 -/
def opt8 : Table where
  cF := [
    [0x123992df3b9daa65139ec13fbb52f7d348e134333684c1596feb0e8d8c3ad596, 0x2fa46f5dba9909ce9984a01e2af30b550dfec978be92b49119a3959c7f623703, 0x21d8f94d3bd98f0b63a7aacb175b2cca13b2dd8a8cf68fc36d94ae29401b2d2c, 0x1a8c06c61046e0f8dc6a39bc57aea0d07fd7db34e68f73579da89e116af87eb8, 0x298cd7046f58c0cab77523a58a6fdfd1401b89e7ae5eef4994442d167f7ad1d3, 0xeac737966715df4a20b31ab693eda86a07f3e830fca475a6574d67fc5f19f63, 0x6b9b718bb3b6d45e0cbe6d5d9a2f096a77beb056821750d072262af2a70a33e, 0xbccdad6e8b1fdfba846a9553fc7905b3f96e435d653eec3972565e1fbbc302a],
    [0x21c2dfe20dc5a72167bbabdd95a18c147f8483cb7c0e2e684a1ee4012f4bd92e, 0x24ad6b2755a6a6ee51d92fa30df2489320e50a8ce7132504ceca30e9480079b0, 0x67a46fc4c52c6ea102cd37b4478fdbdb5e749877ec437bcb7acbfb64e61ecca, 0x1a2623975652d476f4b9cadc4b85219268910c7c3b2d0ae12fd47eb162257f35, 0x25f8ce30441ce86e6b21d52ca87463cec299a3ef543220d72bc2491fdc04c4b, 0x1acdf0b48d8a4789a9b3ac5ff8962b16e9a56c880e223668a25018657834aa5d, 0x14d3fa7ee1cd2b8be2f42eb6f4b95bb8b1d156d77f143fae3e82bb8c5610ea77, 0x3a224f6470a64f294fa4dd67524de58b18f70812e093c0e1c06b31d758a113f],
    [0x2c822aea71402807ec21db11a089668fce2e6c2d23174de3eb69484a53148527, 0x1305b66e890e97e11d52771a60509026baedd0e0bd5e797134259c748a289995, 0x2b1e80bc5e3f546f4b11399e77a0784eb7c439c546e9fba26eb6c77d89c14517, 0x1562326a8b0d5436bd7bd173d3f9e69c3be74dc79270b4fb1e8539d584eac1d1, 0x8c9aca89b447e7468bf1ea6db080346b6a6827eff1fb81392cde7f6130910b4, 0x138e002e8c0c597550b72acbfc9c50952175ba85c061b7e973d87d979476b54b, 0x317ee43e6f4e38796821ad2d55844d012bfc5c2b990fa48b491ef7c6372bdc3, 0x1b60831fc11521d122d9cdc6ff45c7005e6a166717e7aa1685cb286c9ecc992b],
    [0x2e73d35eba9b43a5100de17bba5c59d871ffa2a9b522b0645e283a89259d446f, 0x22a4d3cb7750e5f4d2f0381294578f698be7d678311595793ff6f1ee3eff2df4, 0x2471b7a969af295b9d407634a486a1c82cc273506d89a9cd5c80a53b40e1935f, 0x197b73e1d792a106452ac3d31fd02b5e1617f5442fe26bef5fffdb7e1497754, 0xb2df733b3541c788362a5debf818a087bd9c9a9d39c1fcf2564ad3980bae8f8, 0x1cc66ea285b3c09cb4653283b9c6ee66b7e7a3cae20cd50315dafe3a92113a2c, 0x25b6152ba9ebe836c2f5679d0f891b30b96ae3e06a6132da2f6f6d212fc4b52, 0x1a889aa16461370a4e75ea6bf7ff9405c29656295996b0b5884216311ecfd7a2],
    [0x1f6faf41cf708d8307442a5194c1d38dc3e833ccc4ecdfdb8aa44c5e9fce566e, 0x170221e35fe04da2303dea141113f7711c651dca57beb7fa3624d2881085d7d3, 0x1f4fd254340f9509fc1ce072bf795c9abcfedd5f80ad8ebea2726be474197b1b, 0x2bb4fa69cd631d5b418837b9155db02d5489e7feb92b2eb5a17bee8031058780, 0x2fc737a4c1073c018432cd0f9e8bc5b75c19f94f554314251d510fc788b79d5f, 0x299d38d16803616a9065d1820e2b8608280e8157f7e9ef5b954eb3d2beb2646e, 0x6e8fa64f6f9e2a66650e0f002b2afa7e0c2c9ae417072c68b8f1f31b217bd67, 0x151e2effa0eef7ae28945060179f4aafda3a50635be3b3cfd4252b5ec9c29449]]
  cP := [0x13f225ff220789cf3d9547f15ff5f6bd6b057570636e25cbffae7b707d6b3a6b, 0x75f0d5b2f3aef1e72cbe0d0b406505ec9a0c2b61f37ac0fac82b44d9fdd5f79, 0x26f491b65ef18ffd2382c44ed506a506a375a9049e2f6fa392a837f3004c50d, 0x26916c460b0e2d5697914d1652fbc3da25179b010a1158e546de85020742ae2, 0x178e270b0c35c5ade3457fa5985c1295f64d458a2a25fe849c7eb5b4bfc81348, 0x12b5fb7e1894d846ff3999b3f9105329a9cc459d5b605ed00f333da7b2130905, 0x138f42f4f01f4b059cd6cbd6afa1aad443f29893e24313d2fd3b0e61a378cfa2, 0xaf68a2bb5f9b6fb492356bf6a80f40730056bf1d85424614ae9703ebd20ae87, 0x711a1f848efb7d202068d15ad1825720c2b82bb2114bc884043bc38d727f6b3, 0xf7275b3afe158fde58367a5036fd26eadb8cd1c646afb4dea64fbf1d80e1f50, 0x455acba2c77be3a518fc64f7977ee3c646b30b534294726ec896976d6a16529, 0xbd261d1d46c99febb2cb1bd70ac8fbe0129528be059fce75cdba328f73d7348, 0x2e5aeeb04dfbbf5fc35ddb3712549be8e643ea1429fa000872af2ed500152719, 0x1c86ae64c468a452e8c1c2d5208ba6e17378cc3237380a48279889bceaacccbd, 0x2acc9d15663027fc5b4fa467e70c3b476f2a07a6ea585caf7287921100567a40, 0x230d03be86fe9114145312605773dcafdf71b97d8e2cf9e9ef246106b5fb1459, 0x2ab60a4154e2261c6e4e82b20be3e08f7613cd334dbae29586e48c1df49ad592, 0x2328aa6369f0af736abace3f7885d7dc566c39ef831508178e6d62bd4380cfc1, 0x1164b8dce7e4179ec0e294da56e5ab43de2c20a75d57b8e583ffea2349e62539, 0x2491cd6f23416063e77171095c0db217248a2c00adc3e146ba32d9ac2b941742, 0x1cdc848d353fc772de151f8656a7e2e24b7fda385568d6596fe81a303ea208f4, 0x2a398eb8ec4d3bd99bdc3520db7341946d4eed3a16f6faedf167905e6552884, 0xb07f73cc8432e1f9e4095e392359fd46467f9bff3e24af5bc4cbe9b17b43e62, 0x4e964ad5ded274940fe678e4f72079ebb09f289b8381bfa71d7c8ef0605954b, 0xdb2a3aab326c1344771f4c5f872a050465f87469ca27704fd93ef3fe5a5a1d6, 0x27b044fefd92da8972a60b0297f9b93f291786a749fef1e29f8ccf6bfde72564, 0xc6c0bf5ece0bb9be0737e0c94f9b10594489ee5c00676e51f31781155ee8729, 0xa36c8af931781acb11cc6922f0bf6e28ce01a1a18ee990da3421a0a9aea0147, 0x255f76204e6137ac12ae576fdc49baa054ba182678d75a0a3cebd01d0cd6c286, 0xaa31a68117f221fbe1b609d8e269e9ba1e9ac228e2e0a512ab9c774a3a63f79, 0x14151310e656644c86a5cda7620c6440ad2bb09688c70530c1ebac60d96d56b5, 0x27b953b1de0e30a1a423405b749d830285bfea294cfa1d3e11b4cc5801aaa640, 0x30476b760f0b45ab4e5b7bebef2cceafb2b06f3b4193fb9938c946c63115b008, 0xb70ffa00f97a377990544d9501602376ef9a496ab8dfc44856306bf28a1b920, 0x2861adb9067f446db45b36bf93ab6345f53e07746c063546df691604ec026529, 0x33e9b4274c357a8c6dd61a3e30236735b5a23f396acb52d92d6685a5f03ef67, 0x28b4e505d5309e29a6da8f94fdec039ac44b43110bc0f8bcde42bd833dfb0d31, 0xf6fae1122b219ee0b1675ee8bb5c7c48744954e3dae2f9d5d1ea71c0edb0a9c, 0x2b4173bbd542f1b89fe8d3478a050e81d42fa495e9c96af263aaea3c498e917, 0x8d72f5f016ab29391344f20b821450da912ff016e4da674ff97c5d92bd3a1a1, 0x1d9e387998377d9e680b0b55e8309fb8a29719551de783c1cf817cff9ad6a90b, 0x1424e2acf5db0d91956e15d5b5dc4132ad6c4fb863c9c8e572bb49feeebf7e22, 0xb3db34e4253558779669b849ef2fab55ffc654d4f9f770f74cbc45ba117f483, 0x1269861c49d7f3713673f6fec4b57436c9059aa10b541d64aebdbc11e6513f6a, 0x2557b7a318681664ac27c48349b1b5f44892e5ad02c8b81493418bdc66517342, 0x650dcd4d3610b1d776d673024e679b6c76b5cde0b985091ba00e1cf4eb26062, 0xeae77312a73dc3ecb243143ba64f7cfdc9465cf00fb0872958286430fd41aa, 0xf43d99f10bb7c8d851384f5215bcdbc90489bd63c9b4fa3ec48bf1851012d93, 0x2d95bd041d1b5522fed823a5d9d607d7afd455461f33bc8c1404ef348221abb8, 0x2fd83f519597b7e807ab80fd8701dca3f4085957b8f2955f5df79c24f00a1f53, 0x25c0c9abd576c803e422eecd77a3ca4f63a32b9f90f5366ed37658eea86f271d, 0x31509bde9a7286eed15ea23537ac72dfcc35a9f4c8cdc92baf39dd7cca4939b, 0x2f6692e9fbfa0ad64b3f748425ce43c3c69cb5e4c13a0ff06c14f2bb75141af0, 0x1aa375c879966cbd87d4ce7089e354786c6f2a58e26b97c760dfafb72df9c5eb, 0x2f14baf1792365a476c4c193939244a6a4edf35f41616bb6db4b2bf511642a23, 0xc1552511a3185d9730d9ad3a86c6dce629f5871d7e9ca38399758b587830ece, 0xa499163b884b67402058e13910d1c89873c952ea1a7d1a3eefeaa22d2a37d7f, 0x2cfdadc4634dc875e4c2be0f579768c85b32e5a19baf3b5d536a3d10a3199bfe, 0x2ba9818b35db18cb7631164687c593c9badacb53bf720607b46212330be420ca, 0xe37b0ae73060dc2b5f671e27e14a7cdbf6f37b7a03e69654bee75a9fbd52c6a, 0xfdce2fc3a75a381f6dd84b4ca5f9753a5f0f8bebf5cb6e606c59717aa7b814, 0xfb5a2ddc03041dffb808a10877d437c2764240964c2edfdbe545854aae282af, 0x1ea4030900b9f74c33a53a950d21f40738813f69e8baf44444d6f0a1368c6d85, 0x2b26ae52bbf7d41a66d984ee37a40c95129c4949cc74ede40fd7df3f3bfc7714]
  cL := [
    [0x16062ea8f9c3d1bc9acece3e3afad961eaf765069773e679240dd723dd4530fa, 0x78830573fab36a4777b4d82c044a60d06fc2abcaac1826fffd2ce0630d00eb0, 0x2f17fdbeedaae54d1409c5cee2a3f3ded005fb6f84db8eb600111679e471be8, 0x1a01b0c5b209af90e35799cf630441b0fe38394300a1dbdadf7e80230425ce03, 0xfa20a26a6950d031e20c9fe19f1317c0e694eb4397a25fdf97946bfd66e5198, 0x1b63869e274926ea2e91c0fa091b7074d5fcfd9987e887614da86eebd6b42c1d, 0x728043328557038e7370dd984a822050199193a7da9c0a670af7af9094382d0, 0x9570a7f7a06102b55bcfcdff64c42cf2ae994a20254054abecf6609318b3707],
    [0x1c2ff23fd6d0090161db54a99810f76ec767e2db6e830afc9aabde9614829e6, 0x7faf7d80752f501cf0eccc6bda01cd349376330df799ca842ed4f452517f6fd, 0x2a25dc90d45e36b9367d207e45be38d449034231ed7c6422d2795baed9e08d3f, 0x5d6d08e40d2741bc318cfdd961e62bd5b1439145206f49aeb0e8bb68a244851, 0x9d7b3f8a46f030b3b0b27bdc77d990cc642e4f3dd667b085ef114d08bbda9f0, 0x2d17960ecd06706c37ddcdad5e4707ddc0385d883f08fe7c8b36659d94ef85b1, 0x15f2471564848a163204b074c1dba4c518b1e9a4052a3a7e5d9c2a0e77e8ea99, 0xbc29d644405d0cf3ef18b311474b8f6d0e5bb9856059ea6b908d8eabbbe4a3f],
    [0x1f3cc2b9a666ca5dab8bc17436762dece0ea6ef3becf39214992627d49595ee2, 0xc5c7ec0b72c7947f7e1129191a11ea5c2d21a431561b3ee1513d0fe07b6b5d1, 0x1b02b02f8547bf62c0250622fdbf6c094909fc25151c3941b5c8c2e06d675be2, 0xd3213b732109beeaf102b359db224d86031ea2bbe1406f70b654eba980ab84c, 0x15848ecf21e60c3ec1ef45998777202b708426a72b03f8dc4e5696dc74eefc8c, 0x14dbf6efa7caed2cf9ec698db97e7552c62b386a3483ac39028be9fb5d6e3b0c, 0x2616126b746c3d8a4dcdcbee6d4bb8c5ab7a3ac8c5c5b91a654747119bc70ae4, 0x191fe12396efc23ef8865e32908d76c09ab0fe52a4665554020b7ba659386297]]
  m := [
    [0x1aa4d470abeaa2357079129d114bab1170944f929fc178216ad847d4430f3f27, 0x254b8126f45243f14dd8211df41fe5516b35952d56c62678c148e73cdbad3718, 0x270712f18b1518fafe093660f492cdbc2fb70ffab31d8a4d8a1934be68792369, 0x2bfc3981a249aeaaec4ab9001727d32d4e6fe75598ee964fc85cf30d50df584b, 0x16060a17e1b11f851ceab20464572b3d78d582ea050014843101485f65ab723d, 0xe73217a106c402e4c6c166cd9ef1fd2a0b16ac1cb43646bc1c726f83177770, 0x4b959ca07e7182ca08f2351a03545bd7ab676f740b02331637ea1434c8545ec, 0xfc9cc95222f92715cf7476010225e14cc38f314071e50e0f3bc9ec674a8aacc],
    [0xe1f4e4d26e9da5f8ee3deaf48b493610be61d7d3db1d9754feca30879adc644, 0x2089c597feaa4ca9a202edfbc823763100e294c9e33000e513b2a216491d474a, 0x107cfefa1e864045a668396526ed9f675b2bbf272ca635d8d3e8801099bb97d0, 0x21630ec3f236ed219f73cc617b9f8b267dbee99a63c528544ea31b27cde49fb, 0x2741203d66c523c7639ea713b20346119c961cc1e9659a458af74cbee16d71bf, 0x17b2092b0f634576b654c6de21a1a8d812bd4c01559fff83217129082e2b2b20, 0x68e8e63411df2b3a9d7c567f66419a580d3ba15bbfdd1226effa3fd6bd47b3c, 0x2f5a2a0cd0cb24896c94878a8106d57e82c68dcf1e209167a45ae9cf8570fed2],
    [0xc298c14356a5a7f226c5a549e59184900385aafd8ea41d9746729964ef75f34, 0xddeaa906cb65f3e9c9bea6344dda8db90c253c0f7f99ecef88786fefe0e5cc3, 0x4b96a296a35acf415929b8784b6bba64a630d29dff28b628fc98ef708230b57, 0x28890a03199b727fede5ed0090ed69494c053c97930fbb6c52358b0d7d104c16, 0x2208c5004806c7aaf58314590bcbea16168fe62ec0497afc6bdd2938c12d9a23, 0x2f24d609cb23720eda55fae29ec6f19902c42d8bf904fb656202736d97b2eb69, 0x344d0c772c2f053664a7b9266b19d48ae5d2ab3d1c1a18150754ab4b836afd3, 0x2cd19b5c55bab1809e52cc9fc1a038c08935da19cfc563e7048d6bd1970a0c8e],
    [0x19e070982d3ee675e1622ca20d13b2375e528b676706882eb8f1afe1c5045ea1, 0x1114c9120442750493d999d4dd45dbd4f3b75ab183209235396ce83d8ee9916f, 0x1f0465a9c133a1c6805d705be6b3ea9912a2d062c34dbef92de46955b83e7bd9, 0x1b80f3f439396c2f466b8e9b25765a014970455a1beaed7a6fa308dac75fb582, 0x1c01f6db435dc4885eef9cdfed193250b9d3eb4cee366674b07bdd194ff349fd, 0x2df183fe2bc9b8b75773fa961c8d4117e582a80b656af5c58763e7024ea4189c, 0x7e0cca1a35ed15fbdb619bfaecc7a9a8f4c51293927562acea8eab817c6b84b, 0x24ff2986781fe40ae61e8f5ca0ef17c5a5ea7bddbc127d431547c1f6a8f5cedd],
    [0x333e2923992e89dee570a650125eda75a20a72e69e10863a19d17b7beea9295, 0x2e8b35a8c29e639dde8dfd49b4b347f00ee467863f6efcb355fa1534ef70783f, 0x27a2b7f5549e5eedb90105c0f8e20f0571ab7af0801f1bdd23eaad91f2229a13, 0x2a4bbad245a33e5d9701537f751410e4ff297b8f1d1d9098fe9c518c261a1b0a, 0x1f0e36c2cf9ac2c4388e74966d9ee7d1a0b3186916a08cfa306f6bb36d21e548, 0x15fe963f5bd0d92878c10a894e118018db82e63528afa4d4703e9881eda118d1, 0x222edf3e26bf74b2f503983189201d4ee8e6d6fad341d7ff50748dd739749df6, 0x12a87d0c5419f448419840e5e5a92d276ace00963d987f2a1008913d98a27114],
    [0x1944aac72bf6fbcdec04361238c3c4d9510d5f07439a1b6ff41f652990be0139, 0x20e6cc613ae6cb0a518425f53db1298a7f8859ee20aad08320d0a4f9bbfe8512, 0x31b0afb7ab2f1d241f882178f7dcdad48591cc67905d651dbcafce94b14d073, 0x1e431f2b1b7edae4f8cbb5d307bf5131c352c2a215a870d739617f4b017c6d16, 0x199fc2be60e49e679ec2ede6cf3345dcb3b918e5b3e07c2cd8141333934e178f, 0xaf594dc4030e8509701fbd3d8995f73126ad72a7af0fff344eee82a31ce77ff, 0x2d4308b4823b465db653d36818181209d23cd12f844f72f7548d49e55055a601, 0xaf3ceff2c865a901b9406d5d9b2fc58833d642f46c6493ca030ef595061ec6c],
    [0x27d802ad019a42fd04892ad167d9e83596a730605890401319661675736359f3, 0x2420dd1281fc0dfac176a752d15906b55f137b9cc320d5d5daa9df3f3d43d3e6, 0x22e0323bbbdace5fbc74a0b3dedea6e1e3bf10e84dfc71fe395089ac197af744, 0x255639889a259ebe59f74a8fdf2efce7fde1e3a666b35d8e6ec601d4d0b22689, 0xa38d163b8a2fa3092999c1797b1af909bd971a25a656baefbdbdfa3628e678f, 0xb8e857d9fb1d554f3a4ec307ad907de7a436438603af1b28d4e4ee379960ce7, 0x2e8e67fc85f9b4d00e9e1197b35bedf55afd7300a4c370987c83c15cf73cae3c, 0x27f42d86842f4d8a8c3aff2f47ffc1e179f097aaecce55bba0b0fdfd5b190aa7],
    [0x2bd05a040a0987ac6bc01f67242d54b7a2c527a970ad2815b273471eb9623e73, 0x17bd4f2726748d99925af9a2f2929e231c1869428c13b1e397bb0099191723a3, 0x1eef36d62f3f864eae67c63324e47a6344e33a2d5bfb82f05bef9900c54e745a, 0x2d0d8a814cfa16c2323f174be2dcbe0c295829fc59bf2a89f13b4ead0eb056a8, 0x198949eef2b27c2b9c3d699e3fe57da3d5b509c2b670afce400aba1aaa9ed51f, 0x7ebcd25a10e56693a28155fcdaf7b3519d9e0e08241e21789696cb76ee06297, 0x22f1bc4ec138b596128ce5ee5b8184964cc262318e17ad21d45c552477f53e61, 0x2b6b3bc340d4119e57831e4a2187013f1216ab3b639945dd92a984943241f1d0]]
  p := [
    [0x1aa4d470abeaa2357079129d114bab1170944f929fc178216ad847d4430f3f27, 0x2ed795314c562ca0b6d7070712495423ae6bea218cd94677d06e1043327d5d11, 0x1c700c219b9fd0ac323c67f0960cfa94e637aec4a5b68c8c8c579da52123752c, 0x126587f4ddc000b06931fd6bb92c2497aebd10bf7d001a3f664c6d6934225f1d, 0x1d322025a71f8a8445b7c50d8020f3d755b7ecef465abebec16e0d391bf9bb8d, 0x1d3fa515e56ec187ca7657d279ee613e0f993ad146ee2b37f12d142eb8108e07, 0x146acde01679ad962ede1caeb39836b4d818c68db52a9a1cde771be24b2e5e20, 0x48997cdde9b1ec6f3bc2ef708b27929596d02b366f44386093108703f4a6106],
    [0xe1f4e4d26e9da5f8ee3deaf48b493610be61d7d3db1d9754feca30879adc644, 0x17ad6adb37b2fdc36e43baa800fc4a0fca98a20a2ff9c184a838a1bff5baf530, 0x14583143fe69954ead766939d693b018c9c6d99e86ba2002e2960640f993f19e, 0x9664ce4670db8421617eef97a4619d9914046ced174c5907e7305424656d460, 0x51301752f12f6de8c23dc31745b2b19b9bb7c39cc1ea08d08738c36a5e85885, 0x226238a28654ad973e1a259a8263c6b4aec4209093ce8e563b3eadb0f1144170, 0x1fd98a7ceef4a6d3b32de8b124c7e024e57c37498fbec5e451b92f5666a9e441, 0x1f471d25bb7448b69310b975678ddae2aa9080ef691242dc6871e6a680bf6a44],
    [0xc298c14356a5a7f226c5a549e59184900385aafd8ea41d9746729964ef75f34, 0x4ef313ca88e6a46eb38c9aba804ec4264f79f1dd0c05857bbdf427a86de4483, 0x117bffb0996f3b8796bcf62f00e93cded9b3e7b07180721f2c01e53c98502f42, 0x36d342dca9ebe248ef3674d1399d5cb02a51b6ce92efed9de36f2adfc837cd9, 0x1521f1fad861eeea8bb068264dcbe68a93abb6076fae2f9e17066e4ff5be87c, 0x2d6baf82ccebf60b0fb1632990d9bff876ce740798a6613203cb078a9ca1a532, 0xa2ce4bc27cb25682f84ebfce048f14689f31b45e346b713dfe35716b9447431, 0x1e1b9c1ae86ec688bdae2fe7788b7311114a3a8d6f8d7fd8ac4d79a3cbb38e4e],
    [0x19e070982d3ee675e1622ca20d13b2375e528b676706882eb8f1afe1c5045ea1, 0x1562e5b3db42e4e28c9c3c085cfc8fe652b68e8bce182e6e1c84ab02661a8cfe, 0x1abaf63769a9a837a0d09e1dc6efb2dd1dc312b0c1c4a8c066663998ae04bda4, 0x338e5e98906f68a17cb1852bb77b5f42f287cb74e3afdb066fe966889db200c, 0x2d74e6c13b0856c0dd85188c8a80f41dca1e9791b1042521e7bae94bb36d499f, 0x7672fca8816914835cccdbbee62aa422a95d77118fe52444b5af200af0e00b2, 0x276718d84a065a288179b23b9b2d8ff3f6e55cbf97d873ad1f7e9a2cc8a09649, 0xa1bd98c224950369af79941d860914b7cfcca9596899786e6bd0889482641bd],
    [0x333e2923992e89dee570a650125eda75a20a72e69e10863a19d17b7beea9295, 0x1a197674d40c43447787e6079278b5812ccb17996403315e0f06230e2dbe016a, 0x1ae4af74d44320001b70a0a230327d586b0319d53a839f5fd27fac9169085169, 0xb169fad164bc7690cbadd1ffb6ab2e67be46376d16629d663b0b83ea7b7e4f5, 0x154b82a74672e1433c3417f9cd1c53d4ec0e4efc9d4c2655eee3c24e4449655d, 0x2c54cb56058d37bdfac59708d54a16c1c7cef8012ae5d1cd83d87140ea73adeb, 0xaedbd439fc8a60c641e55ba0f17880e00420bbbe5ae332855e7be146a0a0b24, 0x1b87ebdbf566fc8747d2430b3c45edfa8ea4f8c9770230ff4091f58d6cf6b61f],
    [0x1944aac72bf6fbcdec04361238c3c4d9510d5f07439a1b6ff41f652990be0139, 0x32aac2605d772f1fa6f328379ca86f4368bf679a39937cfc508a58e982db9a8, 0x3a38b1fc1f632c027894c17bbc4702d45616649d8e3759d1bd4239d89c9cfa3, 0x26492ca60cbc803da9930bf40b24ab2136a9275fa8b299cfc2674ef08234ad11, 0x37a36e914e568f3de0d6be824fb24b107bfc8c77ed767e707f8aa5f0199b205, 0x5de377805bca799a16d073b79fdbb07a672e7597d16df2739345938a20c5b3, 0x2eec7d749447d3df1f1c2da415cfc4b448b3fcd473b9cb5891f36db1c33b5c17, 0x5c539bdc0b98fdf23e2c568d8aa039f8d4e200a6da374c8e764b530e9b65d2f],
    [0x27d802ad019a42fd04892ad167d9e83596a730605890401319661675736359f3, 0x1e8382dcf318cd0d7f58ba77c1e4641ed3412a480f0b779ee6c9b73147b09d2d, 0x5fe56b2e7f2cdf071f3a588f1c604b2ab62cf34ffc1d2c72cf8a86079f01fd4, 0x177bd045809197d7bedb995ae85f213e19c1e301a646a8caaf7c9f3492042b, 0x179ab9300b69ae8b9b7540f256c0947b8dee0e53289ed0b5b7d0ef09fd10826a, 0x2c2ad35579f01d21b61c81721de5f2787950facb1755abc12e63b0ade9c66e4d, 0xe78c7c5a33ddcd2ac7aba36f3b50757bd7e867f9e6775bef50c85632f870959, 0x2010d6aaa2a1cc21415a72760a1a9d8e1aa82111c3f91e1a35f2abe8b79f2085],
    [0x2bd05a040a0987ac6bc01f67242d54b7a2c527a970ad2815b273471eb9623e73, 0x2f337068a0ab32fb994362be568487a5c9974d9ff203f3db13234838c8246469, 0x305fc4e93cd1c823068e5063fa983fd71a9804864231e37d61035bef75f60188, 0x170e3b120459d017daed43224c80f6425f59ca2260178321543bb556d501c090, 0x1e1ceec2c1097c4b47a0523f89c94a42f52f2e011da379b6a0e57ad09973e16f, 0x13e72b920d7df0336d643ff47f37bc44888b98f7ea8064d5c96f8d39d11834e, 0x2fa9d8cfc04dba7c7f80eae1154d535657bc7015459a3df9dbe47ec7044ec009, 0x288ac5e38d20b5159d4c37374d8ca702decbc6265b6396d30b2c2959ae2af9b7]]
  s := [
    [0x1aa4d470abeaa2357079129d114bab1170944f929fc178216ad847d4430f3f27, 0x1aaae08b891f5b2046c0e697f481c70f34b0c71e81cadc7603c7e5d31139d196, 0x2693bc2b2377f44f7d8c291f332a6bf184d993289445a794fd3f815824c7a4aa, 0xfa4b8bf58974824edb3fb2d26038975f49c2cf84050c8208ea7a30aec1cdf02, 0x1746022555831c140765eeaeb08a06bdbb7e2e65f5a5f70977d41f0f2a18b757, 0x3004430cc176cbbe7f33aa7eaebd01856b009f291df0567d4fced835382f68ca, 0x6406c73da9aef2475718a34075970df351312c5203526d0e55bb00aac90c6f6, 0x27db71cc71c8a22d6133172f19b8bbaf0e37ff0772a58aecacd25e869675c3d2, 0x25a9cb700e5decd6dc4544b9c5e3b49c0e04a8d1f8557e231da51d8bc228082e, 0x1f8b293768d050b67db5fd50be414ea637f6ac51998971b57ecf4e4db972fdb3, 0x537fd07b3ac0757eb471a2745efbccb327fe00df9da4b4b37ce2798d5441343, 0xf3d208e42fd3d45dc0bf71a72621a3a1f735caa82faf0c3829e666889211ccf, 0x21b6ec876fedb5cabffce8f4386966e8f1bfd0bbac488ed7c3a9cc73afe3638d, 0x95100091241dbbbf7446ae4b3d1cc2e00fd45c725456edfbaed74111168db13, 0xf1cf912f0d9e8be188f3d193aa91b094e79780511c3a3853b6f20c771a1051f],
    [0x1aa4d470abeaa2357079129d114bab1170944f929fc178216ad847d4430f3f27, 0x1c0b352556b629b1e64c6e3abac4b349c05801e9fa43439fd61a8392cf186509, 0x1298fbf78e8967359120670758f382a8c951a8d2186b96e364e9b221d7b121a0, 0x32529e49b3721ba593bd059db34fc4c01b5d036d2495b6d3221456edb02fa3d, 0x2dbd37ed630dd234ae12f4c3dd4d106e277497f79cb16a71b4ed871d708729d5, 0xe9a1b9cef20c937bd369647f84e2a310bd5d83e8d177ca9c7ea457169745b77, 0x2f25b164c0610b5cc1a2ffc3e962a54ab01e0632b062e87a0bf249f8f7a51cf5, 0x27b73694b83e0b1c06069c9cc1fc20dba1d037e481ef2161a30f4de74c4979f5, 0x1aca98163961aa6b3b4bbb40fa812c86822948bf91d38e606bbf5e1dbb732f2c, 0x23f67b87edb5d48126bd42b7f2a9f8be7db2ece0206f97d840d28dc3a4967c0f, 0x2d7104faa91a3300e3ec93486228f3657b0aaa7277f0aff4760d0aed02ca07c, 0x2f948955cf159477c7b411b0a868b9ae9a56a240cc20e40ce1a097a4749467a1, 0x105151aad6d4d7960ffafca05d4f8ab4ac1930b222fb91eb9eaae07ddc18ba84, 0x3cb3379d04500d1996cefd61c5032852d43e41e87148d92329bd98003fe5d8a, 0x12cc617757c857678ec716ed94050bfe192215d9fd76be3bf98b65401e8d12a4],
    [0x1aa4d470abeaa2357079129d114bab1170944f929fc178216ad847d4430f3f27, 0xc8716d8ded0a8c521da019c24594a1b859e53e85311efae748ec9312a0697d6, 0x2e082be597fce21e7ed641c2a50feab6a4b26c6050cb7733979656d9a71988f2, 0x1775849fbef452ce7a0863e715a67ad4361b9a2b72a055469333b0b8b8175b21, 0x1fc8ebac9a5cabb10ecd4fb66339a2fec1ee8af951e69f5837775cdf4abd3e0c, 0xc92dc16c65e5fc74d162103763ac39f2ca7ad692aa9dbbf9132b8d7af4025af, 0x1e5b7963f79d2bdf1f857f13e667e9d7a97b4605846db4f0a26baec8daf691a3, 0x19172d7e44ac5b1b381c2c893dd30cfda08c46fc6277dd38cfe1b1cc4daaa8b9, 0x184154d48a6c6cbf9613d54a604aebd5820c53049749f533c0efd168e4e83e60, 0x1ce093daa2ab71b132dc2d3bc1fdbfb91292c35f083d350eda02629f66eae2c4, 0x12b07847ea7982e0e6dfb1b2864ac2e8f04ddf7d766c33bee75749015a91342, 0x1b96c0239c9b6643850b8a653486e0df1d4c7f667a59ede3064e4b5068b44200, 0xb053365816d9cc61b7e857531ea416ea33d60c4d8a529317e29a73a3aad422e, 0x1fb9b2c50a99cd788717b3689d46c05e0d7dfa13c58f725a54851b1174c2278a, 0x2c34ad3345bff455c0e461587b7332e19e0a9165375225769e8dbb2087391eff],
    [0x1aa4d470abeaa2357079129d114bab1170944f929fc178216ad847d4430f3f27, 0x60718f37a9480c0837f5a5e7c13eb75c07f60a8d8c1cf9ff30ae132251203f6, 0x4f4bbea35e9b9001e92d6cf690b28e9c0a463382cb76c5b4e6acef622c0436, 0x304a3b30d2300c7bcd5a2b7ecea51942b79b7d04bf346f95961d37dccdfaa238, 0x626de3124c2c8f04ef55566942ffd3a46f2b7bfc898ee9c5313e50a3810a397, 0xaeb9945d06bfb644e310b3109297f03f2ac002c31dea430b2a06666f4d93e09, 0xb9264fb57be56298cdbd2084d379720375d397ef5d09a3ec90f29983f0a1538, 0x17dbef787498ee541ccad5751663330e379ec632306e689cb3dd89480adf582c, 0x15e36a3829fcaa26cec9655273017e83e621b84a1eac7be9a764638202a1724b, 0x243a86766734068afe7659f078d7384e2ae7a73c2e2b6dbede12dd0ac2b71a76, 0x19f171461fb4bca771adb125c689bdf519519dc2b7960b5a7caf07c1700f0921, 0x1f5a2974eab40b787b5ffb6de24e939ec04b5bc31475cd803bb2fe0395a6ec5b, 0x96ee06e8758968f1be067fb4582c810694a7205d39ac72247c3bc4e74fc02a0, 0xb960361062101863b600c67724666f71ff5acc674628f46d840329eec2a20db, 0x54f72b1aaf1f0531eaea95d0148b0525af381f598b075f56f86ac0f7edad99],
    [0x1aa4d470abeaa2357079129d114bab1170944f929fc178216ad847d4430f3f27, 0x15d5de1e8c0f0d18b7aad179279727eece9d2ff735ee49e3634167d4d440491a, 0x16df68e36d342998fa4818e065c50d575012f4203a0ee73e155fb6f9c4ebc049, 0x283e201525e86ba0ffe200bb698683a35d51810b72339aa3773217411af1ead, 0x289ddd4c7635287baba51ebee25b7e42f98cad532e2f57073dd7e8465ace409f, 0x16c3afd8596d8515eed82ca10249d26aa036c6abdfaa26efb7c98841b2719d33, 0x4d76016f612698f913a86dc0749646b7f4517d3e668903f76effaa95351e90f, 0xd021dbb869aff3f4fe189fe3015d9d5848393aa6f76eceff7f9d9a72a736843, 0xe769248c92dd03d46e9e6ac5835329f2d5f7af5cfc5d1bd920f097379443e98, 0x189d6ee4a5b445947e0efa11690f186e98a54d3e6406d880b7706f7defe167d8, 0x2d9bcac46f7ca9415b13759c9b4cad42a113bc19565a01cb889e1d2d698c76d1, 0x684c2e542b4e0c59a7f03a6d361369a5f6421a91b98b1fcf0ac1b7144e631b8, 0x1f6608bda209f29ea2d9c7df3a924b661aa614e1fe034f6ff1ec18bba7a14f38, 0x203c71fb9d4f1881845f258bf12de6153df99d35fa3da8cda1ef4e18ddc0a65d, 0x2bddac5720ca5c69a727c029e4edfc393e4115f898b9da856f064321ee8e37f7],
    [0x1aa4d470abeaa2357079129d114bab1170944f929fc178216ad847d4430f3f27, 0xf415650a23aed782936a31cc331b3856b64768dc9b29c9a68a8904a08a2366c, 0x2a3272896962e7d3fb7a1c783e24ad141781fcd588f4cdc319b3deaca21f79ed, 0x1aa729490f697568fa8cc7587c9d92bd19610d8712eb3d31a03ee9a65bd443d8, 0x102aefa3ca3e1722980dae564122eac6ed4b1534b65d6effe5503b615d7b76fc, 0x8fec616df09b477c42d44cacea45c18644a68c59183933f1fb67ec8c452008c, 0x6b5b266f1fbe4ea9237a231f8c28ea19723adb47729b6913b7af9454f23dda5, 0x2d4a264e748b499d97b3320cffb56648af68616fd73bd29e1225e2c45c1163b6, 0x2224e659d1d7f55a80406d270debf092f713eec67aa001eb50cd8b173a766988, 0x20260ec25a18f49225f3accf1020805f5982f34b658c553f5f744d360d50d571, 0x1a692c93319abaaec066616f97e14c1d511e86965517496540cc0391490b1b57, 0x2189d255d9ca828ade6cef86f5de626fc2689904db402a6131066b41616c23c8, 0x43059b6857affa85b90d865eb1a9a91f036aabe5a12c9a03e8ad87934991a09, 0x2a32437cdaa6a32a0a3c060c2865abcd8cc2a79bad7efbac1cb8cdece412be75, 0x1746046edbf4fae210a3f0273bd7cf58beabba4c210b3617b030f7b51e6f8f44],
    [0x1aa4d470abeaa2357079129d114bab1170944f929fc178216ad847d4430f3f27, 0x166371ee86c08d7d38a594cd70011ea1ecd01154007d555fcce5796dfec39e35, 0x22f89213a0580e56569c73128c8a41351b42106d11f08b6f900f8c61e89e3edd, 0x1b3bcf6322de40853b5647f94ceafa4b109dec51c81cd7a38b51ad6d96ecfa8d, 0x2fed79c7828b5f8fefc7c73f312de0739c9a2081e432cf2f62731a5f02fa16ca, 0x243db465df5d6d34ade58f233829cedd38dfb57101da284d42207eb4df69c7ea, 0x1d49c10bee07998c64facc37ae50dcd91a17966b8731f2d1a34b3f78559bfb14, 0x2d7c4a750b7000a296da599f89c4ea7729cfb85883037333e1b4526aed397cea, 0xd4f4d2dd076db4bd67ac279bb51826a827742918d35aa52a5c1df7a3ac5d339, 0x228901e5388a5c10531d4122f7e0772759d1e4d026379ec16676f45a64b818ed, 0x111e7f5a746d046f4d7c19f2fb49c31255ba045db988cddecfa0e4172fcb2d6e, 0x1595f02fae7bf2b328680bc0ae805194fe9ee83f4fdf4dd0d35e84ab29a122ec, 0x2d22c9fe81fe2db64f3ba5cbac4957fada1f0c6a6a4cc883db4dd922d35906ed, 0x21587d485b2624d0549a6f5de06c009ed06c5b48201d8f9a750c5e5a98ff19ae, 0x24c33e212e7e9d3faf0ce44a3cb2113e74ffb7c28b45c7b4ceba5c1d6944a64d],
    [0x1aa4d470abeaa2357079129d114bab1170944f929fc178216ad847d4430f3f27, 0x187f5db526575c180e8adcabdda34e701463bf8b1596130c0c6b815dfb5e7a24, 0x75eccf8b0d6ecb184e0f168c64404e50e013ce0df06bf31cbcef2421ed7b0e9, 0xbf2f82a1b14f888c48822e147e332a2bcaf77ebb32d7cb3cdde813f0b1a373e, 0x1f587a1be361522f8568d2109e0984f059a87317a35f7ccd7365c5d97d447e62, 0x24a69effda852c7d20fb4fd8c3f413db1b6ff3979409e83922789cca594a462d, 0x2ce67cebac6bc12ace86bece70ae7a5a59a97023cab6db35a0f8cb7110552ad4, 0x2ef4852f4fa73b0c40c37118ee2690692f1e7101a78a38771a8686ecd37023a1, 0x4ea49b4f2225a5cbe53c157c56f62973f394fdb3076954bbbdf30786debedfe, 0x2e874d03cebf495782ded304d1f37903b06c3f834f170e96d26812be0ff52466, 0x23acdefba9e5cff344b212629dae61e76e03a8a8eecef4e6c0588277f53d81fa, 0x1173808e27354b4bfa76d6bd920cfc8309f1e9e99f997f773195070843eda183, 0x29aea310845b4a505ea34932e7bc2a8f2b936c47fec5f2269a3c999413d048f6, 0xf5536e4420b891f4cc82c50a833a17f0cabb89c3ae4cba4c28fdd5cb02e3d2b, 0x7a3576f0287b2a1c0d832be178d43b6858a4c8989e30041cc143f09e2012fb],
    [0x1aa4d470abeaa2357079129d114bab1170944f929fc178216ad847d4430f3f27, 0xa260dcd98e220b61c2012dc6380f52adef96a11d38e7371c576d54563f7bfb9, 0x224028c158b4b4adc53ae913cfd9ea42e4456690be5dd8d4c459779945157e4, 0x166151c43e43373467888a2ed4bdaf3148d8ea2432d998162f62f8159cec690a, 0x556f9ec39ba4bc77b183cff006a0a582adb55d52dd0f4a8c1f156b33898b28b, 0x201670bf6f1fa62050110754b53b3d0671086156d9890ac85f40c69aa4aa297, 0x18a78efc7a694b6e957b209c42d6044af319f194dc16451c6da27802e7f1c85c, 0x28efacaa79a0af5fa9ddd71cc6a711629788664849b96ff0b42a61e2e43c87df, 0x1d07f908b2ac7783f0d734e871a40be7b2e164afe885db6fd312bcecf4cbe9ab, 0x8f97fb3cc640d078af3d17c569f37a9ebfa6f49c48db74b3d948a8675db96e4, 0x2718e729e940dd2d26c6a6fc7de40b89927f8c9df032cdcc06ed4ebe194fd596, 0x2c68ea4120e5abbe11f3b62801199cdd8686dbecdc52ca8a9458ba48b19aa6a6, 0x2f39ffaf54a4cbf00809ff50047289530732279ea49607ee779fb149b87e10c6, 0x130fb307c6cec609ab7c5f9bd5910a9ed9958fc11e443705609ef3066197a9a7, 0x129a1c66d1eb5e84211c482bcaf70789e6d5cc473e1001dfbda059379f7b58e1],
    [0x1aa4d470abeaa2357079129d114bab1170944f929fc178216ad847d4430f3f27, 0x1cff973af21d88635ec9afbffd85b1cc595703ae5bd5f4faa6ead489d7aeea20, 0x27ac0db61623f033dd102e118d47d847f34fe11826bc9d23d7e3e43386ad16a9, 0x25ed2b22b59ed4baed8f5c957caed1fb52630971092d0af3ac8ffe5fe3a13904, 0xb634c3abd9ad8e1b2da84a144207c4ddeb62c8f4860f65aa2209c1c0d0d7e75, 0x2158eacda450c34d62fe6ed5e3c9e211c170f4c3bf4247c5caf0b9e2340e409d, 0x1c0e715ac64d64535fc97e4d86b95c6120401f5c2697332b1ed6a9e83710afca, 0x1a491a07ee1df9abb02aa300654e59bd34f593a15b74306b41c04e8b9530986a, 0x1523cc6481931e85611b1844832abbf8763fab9c85130f50ab3075fa4f60762f, 0x2816926c129f5c99a970733571d5c01be1cc18ec0f45bc5e46068f0d188bc9e5, 0x2d94c81e271fb9800d333223a141c9e904476dec1f8f1e6d224ed49467e18a1f, 0x1bf8ab0b8cefdeedac41738599d38ccaee7c03914364eb617b5421e9a51a0b27, 0x21fd6c59b0f417453f2a4d669851364f5156b6adf104625f857681411bd04c64, 0xaea3c50afc0806b117aa98c104499b4d84bee966a94865896a39b9f8ebcb917, 0x29a8795e1f8f1e27e7e04b23788ac40e102536d56b57aa85fd1015cc21970f55],
    [0x1aa4d470abeaa2357079129d114bab1170944f929fc178216ad847d4430f3f27, 0x17e4ac7e489fb7da610506535bce04186426722fe24a261a3e286df2f3519b34, 0x10ae4901e443ef76726afccf1c9099fc18001fbbf5d144ed721196ac9f2cc130, 0xe60f58884bc252084c93a18b4feff245175727c03003f025100d435a0debb60, 0x17de16da3692bd34ac4069982a1fb163da3119cc01d12c6f1ebf64db787deca7, 0x78d14f36f6349d1af6d92afc8dd98ae7322f3c11993c59a225b079c7acbd4fe, 0x2cfc356c4f60781e3cc83474da74607b9567ed3a08cdd7242ffec76f7d36cecc, 0x1531440db56edd521c68fd2dffb627155130e6f3a2b47fde65bf8785ceea104f, 0xc9d25b13772cda116107dc0c4fe9818b74f24a51f4bbca5a63bc4fc6441996b, 0x28a4751755712b3d33f9eee850ccecea47ebbc32a1fd199fc256b69c04456500, 0x1eb00cff68143cfad376aa8ec83216badcd664d55e990cb2d611fcdda52e4407, 0x1bbcd528cc66eb76816135706b090ea3b46d45f0db08af962f17df4eb996dee5, 0x19a41df7dae052bb5821aa4f32e9103dff752baa24b9fb51fcbe4359827f8cdb, 0x6f34fe490adf4a07fee6398a39e84a0c32c04259c9691daba54ca4bf696ac5f, 0x10cebd9c9c4b941425619aacf24419380dffdcc7f5326e766d38e72838be3120],
    [0x1aa4d470abeaa2357079129d114bab1170944f929fc178216ad847d4430f3f27, 0x214aea2850fed7223af80a5906052159cbfd07a30736ae5d95e6b60cb4989d14, 0x15595aea45afbcab1d4d2e73c0a36cae9d2fb50d36cdfd5c0c127f95862add38, 0xc4055b948c4a9fe79aff19190da8995eaa7c537a20cdd18f5bca5371d0c895f, 0x202dc56d64cd4dd16ba2e50781fbf937803bccaf08b7ba8733eadb427c13989c, 0x2ef4191b7deb37e92edd46f965bfcc66bc5a8539957f319958d91066c3fe15da, 0x2f6942e918adbb191600a517edb486cc96e355737961c85e0d8595ecf579552a, 0x2cd60b5a15f37871b552d8095cd8a6ffaf033b539d7bf1ae5f671e2ffcb9f2ce, 0x2e05c44549c1ca99a8aa9e5ccf4726240f75a4060ad8a71012deb2ad55486afb, 0x29b52fb3d57ee05634b2864e7b2977f7393906c12e903931531f95c5f4ae08f8, 0x1a565be54d3bd12bc9a46a1e2853a18ed26d6744c98e5cf53c83e6600cc56a60, 0xc806f9ac20225e54ea2ff82c73c6809497b46d85d51a4b05c46f667bb3ed592, 0x2aac8b1272085c7986012bc5c7612d5b7eb5933a9140498359b260116290048d, 0x1ef1b93e5e0c4bdeed8d40d74e84fb0ec5e8bd52af3ecfeaa54105e674611a3a, 0x1a1fe313685a247b03cc9abf0f0ca133ea119ad01ef6a090baf774491a001296],
    [0x1aa4d470abeaa2357079129d114bab1170944f929fc178216ad847d4430f3f27, 0x694287a5d6c2f8c7e6ad899f7960ea1abd3aa7829422a66be8e8a1ad6bafc0b, 0x2aa1bd4878e2ef8252ff42d595d2d0b59d774a98e3439d05682cd28463e15104, 0xecb968856d9c8a1317c756d0e48d5b1c365e6eaf980989d3cf77d110237314d, 0x8a950f1079254aa243fbd11fbb4d25fb0cb8a0c39bea71a3aa1c0df80943907, 0x2ca441a867e40ca07b530a40b899052427bafd17c7a31d484188f96ea21cadc0, 0x60117f9406bde6b52e0af3a54444fe9cb69bc9ef22405e2b85d223051852c23, 0x18cfbf11b6c20bd7cb8fa67ff4c032c39fc2b3610cd8f90bca3e6136c6b04f4e, 0x14addf2c0a38c601d30bf96a82d3fcba2ee369b0d2f232adf5da3e2bd2970a43, 0x2677d87f29a2a948ca7e8f5a5341b56947563be4acc97c46e557f5c60eb84442, 0x2f423100c2e9988b6cf5e9bcb1b2aac09d926458b9f1177f841977f39109c1ec, 0x2549090369bcca257da260694265b951c15643c8103c9cc73fbb6b065db979a8, 0x205c0e6789ef1fad3b8f1367cf4eb199b400b16499841e1feac1cfb774412d97, 0x116a1eb2caf56acf7308b5b7a7ca6b98224c93a655d78ca7867a3ee170b33fba, 0x319871e083a6e2cfa6a69f480121787a71853c4c6f772fab9dea2e267f3576b],
    [0x1aa4d470abeaa2357079129d114bab1170944f929fc178216ad847d4430f3f27, 0x5b98a534aa4041bb0c7e79ae6b2f5c164053b4c0a65dba7fa318a5aea8d22b6, 0xdd5bbcdcf0d6fe99e9ab4774911a304957b461e3e2d809775da6d9c66ff2cf8, 0xd5e13e77b22ec3447adb2487c15a4ced671076f0d0c0e8ebc9072f1d8e37b87, 0x20468b6dc384b134a4538c25683b468c877cf30b1321dc7c39e0fc942dc64450, 0xe2bfc13ac065e251caa703abd5362783941ed0060dd9d1b81f50c630dca8376, 0xf300f277165a02ff123b3078e87e6251de0de93dd81e76e8f8197b949960e0d, 0x19ecc98c331d8b440400e5a71e1ca2f830536b1900580b3348f3b7ce93f75a5c, 0x2b60e2012b670944ceb50be1c78808ec4568c7c442933b21f125e9cdfa7ecba8, 0x2c3e3476d128db70aba892a46c2061ef24df0ac74db004e7731b167f32697459, 0x2eba0701ccabc0ab29863c74c80f1eb3f6a6ae79792249f4e4fbec63b6282e0c, 0x1b821e2031ccfef578878ebe3481c9b5db9e7df929755b98059ae847b7871a1d, 0x12424e45b885060002f66118e487a97bbb10ca97ee0414712f85f2154a6395a0, 0x22dd55670c91344017558b62f32c530ef0f3387736514af44cd43812c3c3830d, 0x18c607675f0a99f94f2e7b161c693472ca5963f71823a62bcb4545249ed116df],
    [0x1aa4d470abeaa2357079129d114bab1170944f929fc178216ad847d4430f3f27, 0x2d16a32d5c9663139709f054159cd7cf6f93c5f9133007b4ec8de3983231be32, 0x1af2c4175ff13a4c27cdf6f91e6ee2d81e56a4d42d6c13f5e1b41d8f71a985fc, 0x244100fc9f31adb4e58ef3e56c2fa32b5b534d42a226880d78eb3be202c9dd07, 0x25fabd23de22009b978a089414dd805837cc0e1d2d68f919a50b7e17418f2151, 0x22f32d43c35f5cb33a857ac06d5d9777a42b92268f0c06b26d68f7542a6b50e8, 0x20b44788f504781a9951e09b497f1c1c2d2f723b864b84e74c1523527f48f996, 0x17192ddb8a67bd2ccbb940532adb6e376759800df7429c45e5a09314e64cf7b0, 0x116b6619b40c6172f572650a9566ed2b809164b994e388b6fc467637b61cc2ae, 0x1e0133f2e4adbf08938a9ccc82fa3d3693316aada3b052fb02ed3900e1d730ae, 0x1664c7e25e5a7d2f285156dee897b4af0c1446a32e575fce4d56a3cab23deb44, 0x2512c8e3d7d525edbbd4bb03394bc4ae7aed7bab5ed55ce3fc4aeafc329b7f49, 0xf5800164acb67ed0f6efc527bbcdb851e66995c9dd3ea18cdd9b54259f64bba, 0x1e4dadc5ca72e83a6f54dc097f0c2f72d506ed77d576abce800858d48cdb9cc7, 0x398b2ad87a996aec8db980123effebfc59ef1d35be0e6a7fdacbf3929551bbc],
    [0x1aa4d470abeaa2357079129d114bab1170944f929fc178216ad847d4430f3f27, 0x2e351fe58b5f36389df6c53ace1a5366d9c012a2ce2e0c4a9dcb30cf75f59869, 0x290c7b5e749c1532ba364061abbbde22272b62ee90ff19be581c4ea68f58c5f3, 0x1313fd3c761307310d30f5aa63cb0733244796351a9c6077ab5ea343e996a778, 0x2c31bfd37ed16abb1583c403f09dd2a064e4d03f9487a076f496e0c8c5dbb3ac, 0x10cabad2beffecd1d735b7284037753a85845e6fd5b7247f3b457ba9cc9a323f, 0xe02a96e2faec73e916458f940919859a161b6b85894abe5ae146ea4d3736d10, 0x1d6e090f0acd4da143b23f3ccc565567bdf49353b3416207af2096389b791b06, 0x45f7f1687d62eaaeedbfe3fd4f725c85176968069afd815dda5778563ae1a93, 0x2874ad2d5ff34d854490d2f41eb79295d0bd9befdd54580b257fb4f2da1cb9b3, 0x201894e0f41d2f3f21a6641ff9e3959584a749648f98c6c6b3c3dc6e8285239c, 0x1e51409dcf81bc661657b6f0cac27edeaa209baffb0c862fde7c0d0610506b73, 0x2cf3f549a9651db991a798c7392afcb8cfff307af338cee2a501dc1be740598a, 0x1b7aa8f35a2488bda1d6ee416a8be05035872fddbb96fa56645d0f63bad04b69, 0x182132ead4b05f9e1a44e7422da93b1e0e94d5906a78f63469cfa1b0ffd06a02],
    [0x1aa4d470abeaa2357079129d114bab1170944f929fc178216ad847d4430f3f27, 0x863bf81ed562159fc915b628bb76e3bae663dc10556dae9cd432ef8de50b6f9, 0x16eb9ab36c92c197c99c3d11ef6d1469a9c4f9779daedbe99a8e5f24c8f5c0fb, 0x2a0f1728e8a783630378d81f1509e94bb9803a47a112d99f7a58c60943c5c97d, 0x20b391efe82379701a0f86af56e5d22cd881f98d0ac433df14ed990881cb5ac, 0x586a52cbe0c5a8a0c45440f80dc7fc52451e815c5b0f784bb25f0ce319a1c01, 0x4af2601360cbbcef49162688f13409f2fb6026f4137a0b9f85d4e2272106766, 0x9ad52f4be13ee678536dc64d24eb019da0f5cfb36d4c35b667c7ef4c85ed800, 0x177a0d318b5c0b226c15afa0ebdb0f3d582caf9373d45e73c25ea6dbd1ef0e8e, 0x1ad9d99de7417cec3a5d831e8a8cc4d633ba770104d76f19740f8483411bc837, 0x69f24d59c4dbc2351edef37a68c5e0133da60eaf4ec85cc174f5509e4676f2c, 0x2f87a8a8a421081d17480f0363088e6604780562ec2d97aa1780a7be1d7808f1, 0x2c2318745d149dfbb796aaed50048227cb01c1885ab2eeec9897423d824e65bc, 0x128ec586a98e49ffbb2a98e078eb12b4c504448f53a7c59a7e2944ce6636ac02, 0x2ab7de0aed5e6302873d6cf0f642ecbcf4b84d263c5f60316ea0e434f518e270],
    [0x1aa4d470abeaa2357079129d114bab1170944f929fc178216ad847d4430f3f27, 0x642e786838ddb539b8b481d50922cf6acba80cbb8cd74d91558b4f7a59cfe41, 0x1e02bec25bd53fcc6becefa234ab7a591e14d7e1b9dded90a1bf8bdfdee1ae72, 0x261a2baf4b655675fadc57ed29369e831a3a236768779c26340007d048dabfb6, 0x10b56d5ccdd0be5391c62cda87eca6a70f12f8465ab4004c6742beafa69afad3, 0xd1e13710db39230e576013e5b339b6697349b6102a915993648b2097ad216d6, 0x2d0bd075d622a9ffaefc6998e1d3a845ac07e8827ceb27da1eb79ff36386be91, 0x17f840bc566db8a3debeac087e4c9d5db07e4eccd0871c09c5314fa935243f1, 0x299f4beec86f210fa27d718f78fae4f2d94a7d0b1e029c92bb0e33456c572506, 0x6aa7db000f3f4d915c35090ac9b1a90b269c8d90e76269053befd34b76c41a5, 0x10dc89ce0e3e131a594f3bd90a12586629af838d2dd7cd9566a66785cfc7b8de, 0x14e4b1cc172d23e0d5fc7f219fa43fc301be8d8702dc1311fd97f784d0d1d773, 0x26390978a65b917ecae0242affc450f91c4649139b132aaeb1406b77a751216d, 0x19aebfa3fa2b4cf836f3d9f5b672a682b20f82ef9cbf8f092608c22327f1663e, 0x2917d6cbc77bba7388d8c43278a57baf86c1fc54fbf57d0dc985238678c404a4],
    [0x1aa4d470abeaa2357079129d114bab1170944f929fc178216ad847d4430f3f27, 0x2962061bef3a0b557f60a3af8ca0b4e6b44336359bbfc9d30149435deeece130, 0x1ab2e3bd8c03c56d30372867a29a5017fc95e868c228c456e318ebb2a7c2de76, 0xdce3071ee2164d465e882c1f319aa89d169d4216a2b3a29dca0d74244c36a5e, 0x1c7ff77683589db1c00e5303d9568894c240201761b546d2aa38e6c63831a4c9, 0xda3ad9016d141320edf78fb242fc386662fc9183a250242fbe72997646ede8a, 0x108c858506802f97c0a8a005b6f3d0e73e56ade83d3e1ef9291783cebeb0104, 0x18a041ad99415766535e735d35e2406d99f500507d44c121194ab5d62bb3dc73, 0x804d788ecca64fcd1dc6eb9594fb8e91b5fc9027c2e0542369f2a125b1cd397, 0x7731d16594681b792f143ae2ef1365e94c7f0fe15a472a29d71aef1760961ea, 0x2bfa3cb90f13111146c89385af82d9051c4e02f738f2f996d2a5f1db712ec6bb, 0x1fddcd4b1429134574b4f66c202cd63a4214580e654e739ecfbfa3fc3bf8b41d, 0x886c258df023184bd7c942c2f273140834d867b8def498fb10218af80d66425, 0x19ccae1db1a9300785f134702d3b1c8d13d9ac87b9c2013e5285209cb804e1c2, 0x7a4b8155eb76363e05e5f00ff95defcbd37b94afd901c13045979dcb63d6ad9],
    [0x1aa4d470abeaa2357079129d114bab1170944f929fc178216ad847d4430f3f27, 0x11526ac8331c0fb6dd4e34233c163073d83300629288634713359b2dcfafcff0, 0x2ee5b7cdcb61f59988e2794312192b8afddd8f8fa1cf883c998f7a782891dc7b, 0x2b88c35e9f5dc25ddc81bc209216b88fb526ad94c189d5300c9476d0445426a, 0x1947ffebc3ac4ac3ccd1d57cefaf6190f1c1035bc5ba84706dcce44d9706f1bc, 0x99f8cc64e0503354ea12b5a678143fd74f1b4d69654c9a8baba1d58101a3147, 0x1afffd8d0170799d162462549921f3c7344d8a27eea55b4f9397c509f59f0e83, 0x2fcd5239954935486f68514bc4cbb30282b25171bb9227ac96ce5ec9e6486732, 0x2ca2a102b6561ae65db852da22c3b486fc77c6a2f5583506720a328a3aed8e20, 0x1002dc58bfec0fd85333fb805a44eaaa1b478ae253a3d4a57681590d0b52ddfb, 0x139557f5ff664db54d6be4e42e0b4f7ab92b47d9d81da1307240385200759205, 0x2c89c5c93e90d0a7039ca638e7a1ea5cbc2358e61044b6a09d103cfc9ac4d9c4, 0xcd0d79c5b4c6e7875b58f2c619fc727aba63df991c99d25ad2f24beca0df141, 0x184b385669595dd8fa774311e59b2abe04f59546686f74fec70c9514899894c6, 0x1cf3e5292afd10a90414741ed3287263f4af9515b8cae7f41d45e4109ab0ff06],
    [0x1aa4d470abeaa2357079129d114bab1170944f929fc178216ad847d4430f3f27, 0x2e764ed9c7bcd1b4f7a64f1afd3efad5476eece0cbc566617cc52bc51885cfd, 0x2e6eb18b75b4908c063a9204147ea1e9707791f2c6fd201d081703b4cdc97ddb, 0x172b99d8419fe0858380c2295d156c711ccf85f150ed4917ebc0942aba4ae961, 0x864eea049a1f9510949a12d9a6e74537b3aac9f670c50d4f4bb77a7b68d73f0, 0x1f9a772d2f96ded0661156db1ac0bbb7829ad3cde0c3e63bb95a5a47d4a2ca23, 0xe72ce0076500c498994a78879704743def13b87a1c78bb60557598652e84051, 0x183ca9c331d42e15818e0dd9fe4cea99078e0cb54013eb596f798c3dc22c4e52, 0xcf4da57b9a9c07ecd1427b2b437664b5a2e885e76e1eb08e234c7b12761beba, 0xc7aeb1957239cebeb8c3f35f94ab2fe443234d88b99fa1a77cc669717410a30, 0x120218ec06b07045ed6b079c2fa91b68cab9caf72ffef5816c4bb77cb3dca124, 0x290ab4acbb20c93cf9c99d07c9fd3189dd8a395928cf9be93857f3be7a4dcfce, 0x1da24af446511ae52972f6cb9490df5fb5ef6f0414b514380f9c645a78c8511f, 0x8eadf51c905e829f936a2a68786a45c09296b064ef0764b59e05398f7601d65, 0x19b72523f030bfb311fd94c66cb20d105ba2f1ff248bea6c3bc314cd4558005f],
    [0x1aa4d470abeaa2357079129d114bab1170944f929fc178216ad847d4430f3f27, 0x177f0b80a1de3ab56e24bf4f8e63b45b31685e1dc1da5e30553d6be482bad1ad, 0x5b07ed986c2df68a97a40e1c227c2f72d5520271666cd41326394722b9932c2, 0x24d2c3f8955b7a068cf9a7bf1cd3cc1f7daddbf2a99b581f3af4980fb1d17892, 0x25838298a0cc4b774b6bc89dc923f9d330599a9d122629aa96ed251b5bf10bf5, 0x2afd3dd5e0fc21f0d9a2926ae68745e8c7bdb307a5e790ea08872e878cd3bdcc, 0x80f2fce3bab6286e19d950f3372e78d4afe22d2b2757373253b424858b37e6e, 0x29ad15ea08093d81d74c6fef9f18aefa1a6915eeb05e47f4779c8c44bb17c8e8, 0xe004451085075e404f3daac34818db8878cd02f134592adbed0cc081851599a, 0x2c1793f6782d38379e1e1e3867db57bf514320c0e37fc2961e50ce2cd3a61c82, 0xbf3dd46be8800ec0b7452c61319c2aa365307c9b7e9d955aa7aa1057e91dad3, 0x2dc74ff53d61799295950b34ea3daf706a0acd6d5cd2ab7461ec706dba082402, 0x12d0bf8b8fe9ecbabdc9464854f9df7fc9950388a9f68bf7920aebb5f0285a2c, 0x1e939676347eeeeaa96e3c0bd51e14604ecd97336f72eb054c61fa71309e43cb, 0xa5c3db062ebf2c84c384588b0e97a0d2431f7334ea9006436f6795aba6423a7],
    [0x1aa4d470abeaa2357079129d114bab1170944f929fc178216ad847d4430f3f27, 0x41b75c1586f0664a618abc2e19231f4230761fbbf90746fa7ec06d4a517311f, 0x202eb00eddadb4c0761953255195ee55af32ca0621e408a73eec96f080f07d1f, 0xf0cbd02267d601b91a1a62e5d54246f07b337e84661c9a7f40de79f8527e94, 0x14f2c248139059dfe9f4d970c661fd17be54e8fcb3a7e2cfc1160288a01d3904, 0x1ba2c5f95dfaf2df18985f49b0be1c1892b59dfcde7afcf553fbde41c2397183, 0xe0b040e8c04374f4ff9c54e6ae1cbd79cf4e46a5a32d644ae35f95b6c924540, 0x3d017d86b1b62da699920b08e0bcade7c6c365edb3b9b2ed28e1cc5c37351eb, 0x23b785d6905e142dc5f955a2ed3b4f57c0f18c79b9599d1f21a9d370d323283c, 0x860b1ccb980266b5c9800d56394061e4a39bb2b31d503e915c8e4f2678a66c9, 0x1e3095884e8e3e82a4282d39e2020cd3f4dd4c14def98a1bb3e4dfba4f372cd, 0x1c0063fdf232c7cacaeaaf3243b4acd8511f8b784129c8d6a7fbaca45477c377, 0x2de234571d455023bde68bbae1fb69b62b80b889c8c8099beb25adef8da9f879, 0x305e6097b1a9cd0761e08a2509895f2d6ebf453aa7f3841bd97809cfa9a46635, 0x2bcc7b73e56788e3f70565b4168248b0321f65d941840f199ca849402bd52971],
    [0x1aa4d470abeaa2357079129d114bab1170944f929fc178216ad847d4430f3f27, 0x1d437882b57028c88c69eab64507b2649e1705eb397a4069781ac10151eb2258, 0x1af1a36aae7b181df7ddbfb34e34a53ae40e8529c224ec940907fdbcf97522e2, 0x2785516123326658487ced2a9e864d2a9372df4a480d96a810f3ae1246840a50, 0x27d476e2c174e2eecb790e9d96acaf1b17c675fd85f84923f0bd1744a0f700cf, 0x1eb090499e37004464a5edf2eeedeec40e2c2becdb31426992f382a1e1197753, 0x92fe84aaf6c1b773c1e9afa8775db02848a85bed444d4133e1fca601c6c68ca, 0x104d16cb816ebbc760c4b3e28fe8c18aed972dadeb94896a2310ff9d61d44e3b, 0x2fa387f6bb06f1d9cd2e78be84286a7d58cfd870c5c1e8315232361f2b44cd0f, 0x176b64eac41dadeaa403f9ed5910f11a419372fd90df93bed240c8f79ae5c550, 0x2ad76ba01e94f7bb8412f271b92d24ad2d7efe5eed06b0852d8f53a7700022b3, 0x1a8932f1b4cfac9286ce27de3faeaddfa0733d07261297a38cce6399d96fc38e, 0x1eaa55a6354586d0087e1d042859f63927cf27def44830af38905e3d876ffd15, 0x34c7817421f2bc213fd6caced95f1cf9b176473e8721a100b1b6eef4348b786, 0x31efc323d83d4deceef06774dfe798dacc4c5946664b0431d54e67acbb840fe],
    [0x1aa4d470abeaa2357079129d114bab1170944f929fc178216ad847d4430f3f27, 0x9e3886c90029fe260f4a2fec7d2e1c9a0d07abe79ea3598a758ad63c20e807, 0x1525c95ae08bd592e2e428803d4e6a493016a47943488b02a78f2d552d16c4a7, 0xb1011a90a452ee3a6bad8aa9e4885a62472da29771ebb98cee7117ba1f0e77b, 0x2fa5ca0f8d2c52fb2b4578e1efb6e1a77fffd1bc525809626d3535833c5001bb, 0x1db0397e4ddd02c509cf2ed25df7b81dfc5ae489bb9415ccb7127a205d3e876e, 0x27a3012fa6ee7c193ece6fd7692ee96b8e4c89797792262db8d6d1efd755dbe0, 0x274e23c2c097373e9a0d952f34b70020e233fd2e0a67c4e20729a5fc17f88c, 0xaef53482e7e1c25fb664756df6ae69506b5e7aef718b3b1486aec64c4078ab9, 0x457365cb68df73941a3ba80edae9f25aa2250e63cdd3a3b86b031cca2134d8c, 0x1ca262a197b5402ad0640e919508176a3988519d3bcf91b55930fed1fc89ea20, 0x2131c2ae4df6b479dcf26ed81a1ecfd47e351d7dc790ee906dbafbd803991c4c, 0x162bf8864391b12a2b1dafcb658fb94cbfc90e0bddf199cbbc66564550036827, 0xc7a2f06399f8766bbc313a2f1fbda042eca4ba85734b4040db27cf4ac1e8ef2, 0x2f9fa0e3320e9ac3cf702f8750b5bd1c71c697a583c34cf417706738314eead1],
    [0x1aa4d470abeaa2357079129d114bab1170944f929fc178216ad847d4430f3f27, 0x9f933726715613504e7cdc8700fac64aff61cd1899b4754249b7e61bdba19f4, 0xebcc03b0c123f471bf2e57426211644f0098aac347c81fd12621c7187bb787d, 0x246aed0e85ffca6527d79f2e223c37b5d7df029c52d38b340bac3b2d3e2257bc, 0xeed1e00ab5b0ecbf337edc63d27cfcf9135997f860f96befc4198c56e59c72, 0x4df1a4aa55992245ce955d325c1c08a841f727b9e9ce11cbe54835d575c56fd, 0xd5e59bf9fe7755023aaf344298440987786568aa06aa9d03f8a33f70b227fde, 0x2ffe56ed078cbe07667f7e48e1a360d4710d046f0bb51130f9b924eee01dc332, 0xd13ed4075159b29a4d4ff4f9fd7d768fbd28dd4487a2bdf2a813540bfb99907, 0x173512477cbd6d2a69801143d1e7fce3a6ce79cfe3bc2a2ebeed24bb7e6672a4, 0xcbd4277bd737219d8739e4e818cecfb664e369782e296a56290020877778329, 0x14588264fd7d1fdd6d4ae3e372417fc1ebd7fa434fb945fadc55ee805b81d3e0, 0x14acd0cc6605c0c722a1d399ad5433d5450614fc3231d5af742ec5926c35e77c, 0x14320d8cb13dcc09670d6e93819b69d7e66504066f9095ed4ff25566d3a066a0, 0x1b3e47537a897026a989e433fb7c4eba62144a10781548577de3f370434b6578],
    [0x1aa4d470abeaa2357079129d114bab1170944f929fc178216ad847d4430f3f27, 0x263d424c886417f9b6ac1de0e2c1bb2e32b870fe671b11e8219760d1ae4ad0b, 0x1545d2c32ddd1e1e37103adeeb116e09275624e964f6efba626787ea0b1089d, 0x287183d246f54265d2283b5bad5c4dc4ff3e5765025efb643ed93015c1de8a71, 0xbc24a36833b64ccaa323f7622d1b9bedcc204bf19b7f83be4c62b8771a2ecee, 0x2ac5f667d34cfc3cc80a3788402696009dce7f61ad3483b54de3246cfbdbe164, 0x269ec95973b00d3f96125e7daca220f7ebd6bcb6f08df2d39301ba36c6ea4fb, 0x1bda71d6e900e79196f126cddb042592ce1b6c0c0b92cd7d86bbb8613c2ee0ef, 0x2dd51fa2045a74f10e86b8301210f5acf7bcfb7f40b8d984ed23a00e3268219e, 0x81f8b7c05030b310ec5adfe7f6ee0efc0c44b6facb8701fb1aa3852aaa29db2, 0x12cd7c92b7efc7b50810ad410dee511e137f3c995e4b8080e98902c5c862452f, 0x222b991677686866f2059fb4d66bd16b9f3fff5b65df7c782747dc0bc7dfefb9, 0x171f3e3c2562f120982c7dd903d7b74665f3e8d085e398dfc4d7f73a837c0ae9, 0x1b7b4bd3c56e17518b850f06f15341f6e610254b420dbd4873030c0f309c3c72, 0x16c84ba6c4962352d3073fbefa9034f5d7d1035773e84ea47a70b5cf615c7147],
    [0x1aa4d470abeaa2357079129d114bab1170944f929fc178216ad847d4430f3f27, 0x3928b7c1f5234a3ef4caf7d19b815c0ce64a8e8906f2dcac43a5ad59c24f14c, 0x254ec8b72f52e44c83734b672b33b630e8931d1522f5b25c69273784b997bb46, 0x17084c1eb0e0ce6e4baf294ce40d5b24ca44b06ce6551b90d9f0ef7a5caf4339, 0xc57ca90acee1624f9315266c48c653bd44400b9424e172953f044338a77b27e, 0x5c7aa15848b5250efecf2eefb8b6758751f0e69ed1ece426fe6f85666b6a5a7, 0x15ed7d3733abe5c01bc9491e0816d11aec10b0dbfaa86fb47279d7a1448e20b6, 0x2fcca33e780707db84102f6a8f1e9a652874845769918754db5d936fbdbdc5d5, 0x2d23b90c995b3b2956fbdb6448195ed441e717a7895dc1e433815b9a8077d315, 0x138d37c5ccdfefe044ee28894bb422f29e9f3860154ac2ddefdc900bd5b1e2ee, 0x801587f5637bdf253298bdb8c8fa556bba51f40c6c4713d73e31a0f0e72ce6f, 0x23cf40715c260876a24e43b5c314c2a1cce16e1f412ebcb0916f2fea18e5893d, 0x2733d53df2ccff16c87efc741114e39ebbaeff9f12ba0376b931b402629c525c, 0x23e801d5f635e9af022f077b1a43f877db7241055d3c71b771ffa75cf6eee4ad, 0xd094fe93f2bf4cd4af61d10a7bfe2b145692cb94337ecbff9c91aa88ffcf890],
    [0x1aa4d470abeaa2357079129d114bab1170944f929fc178216ad847d4430f3f27, 0x93b40efe6c068bfde4c0c198171a60e496e1d834c28765c9afda090405e4a56, 0x2305950150a0b9c2cae71061661c181c1a6b3d5c87980b91ca959450e5cad30a, 0x2107ba64be5e7797def29bd72b72b8bf0b1428062ee8902aaa58f0676ed03aed, 0xed4b91b00cb5bfa594ed5cb57d703424a8f2dd9daf5f54f6fff74e5cb0198d9, 0x2c7df01a6a701115c6d07756e4e0359ff5191b58300db58aa98cdf3c985252d1, 0x5d54d23f2d684e0c609aaf56ce816de9d5871924ba47ea7025885674f2bd411, 0x248f367c66a05a93adc27d36acc9ecdaceac63385cc5389d01a8d7bed9388525, 0xef717b148e289194b332dec7ed2ac824317e40beb40d74ac7bfddb23d2b3cc9, 0x1559abe59817b0a24492729506cadb87e76fb54f9214ac87346f8013c3032b3, 0x3bd5cd6f008061a1c0b2da097013ed88d28caa10de0036904ca03a4bcfade75, 0x2ba9dabbe0f9fdc8efff7060142fe244cda2d8feffe907ff23cc61c08b619da8, 0x139f0add5443dfbe642f4f60a57ab2502a2faeae1b6f12e1e5e09b1909050fbd, 0x8965484ff559d1e6864e3abadb5d8dd402ad180059473b76e9bf827b7542463, 0x240c21fb9f6cf7f02e733c6609f9773970098adc7e21b041f7486156b4f78e3c],
    [0x1aa4d470abeaa2357079129d114bab1170944f929fc178216ad847d4430f3f27, 0x151923a505f13bee4d368e9f471b79b499975b00aabef8962a861e7c858f2999, 0x20f6374e3f28e5665b4288c722551c898eb41fd64f2878b47ffc9188812c1e3c, 0x1f26fe05c0ecf99843cc88c28bf5c7bb0f744153fcb405c37d4c9e5c60dff349, 0x101a3d68872e2a2174e1e73cc53c3034532ccbfc8645ba9bd17744a0a9b7c7ab, 0x1015cbc312d356c0ce96131b59584b0794aa717ea120efc994512c1dfdeb4226, 0x1a7b53d07ebf6963fe87166c26f5c041019f2210f4eb48383c9abe98a35c3c77, 0x8fd8a0e2a1df82e44da83d916b870960f621aa62a5336b9cd0bb124bd30ed8, 0x2c43cee66409ac215740bc8b1f684999679b5e240301f8030ad3fef640e05c51, 0x2c29dbf22349ffb1635b0182ea7d3ba41c0748fe4bf06b44a401cd15eb0ef330, 0x1c13b6b5651a6d7f3929ab0946246f7366f5addc9d360bc5ddce3599638a090c, 0x10171b916d8a14075abfe7c468b01d239c7043a8f97df103701e716bf5a73f29, 0xc57c3d6c68c9d2da843ac9b37adcf1c46a3e0eac7c42fda4dfe0ce5c799ae5d, 0x131e361e5a8725d01e57c3c77bfa27d1f3329533b82ef4b01a1ab3ddad098856, 0xfd9e076ff4f5dc71afbb2743c74f080a43853793f8f6d80a93f3cdd39012fa8],
    [0x1aa4d470abeaa2357079129d114bab1170944f929fc178216ad847d4430f3f27, 0x1573d9a6d17cf8af947c125da5f9f64516344307d15be028600d7fbbf3a99080, 0x2b6645695f714c85742f738822c21a26c8906c1bc19f98e0c34cd1eb463da48a, 0x2fec770ae63e759af86d0742b049eb76e81d45f6807728e66930d00cb9e1a404, 0x24ed0296e066560c8dcb239e7e7f39ddcb1898e5836543f8e98aeccb6f6144fc, 0x1ace8484c0d96d050ade091dbcf0c6cd9bef86884bbec6f8ee56ca5ff46b9325, 0x110a7faed51892c73e54c654f2fa35e47fd2647d90d6e5e5a8afef6dda4da73d, 0x1491aa7f36d89ac133fa9992990af2913b71196cb0d0c3511c34aa52af7d4fe4, 0x20cb0c1cd1adeefa16498b4673c4596b37f34fdfe83a41065c1fab66c42f34b5, 0x1ba292539d1568ec6a3e2615134dbb5134c73e6b14deca4c1b1a993f9441c830, 0x21bbe75d7c858ac948623d0de8c35924f28f466ef62a7a473d6a1b4f592a007d, 0x1c96f9fb4c6bc33d46892d8826bd0c2f24d7dbbf38d9dbecf09e77f69bd701f2, 0x12d33ecdd6482928f8aac0987910bbc372ba2f107d6e2a25fee34e82f10be2d5, 0x2c1b610ce987acbfcda328fd40b56c209b6a944bf5781e3a77d1af9fa30baa6f, 0x2d77c3f420a31d59dc0cf83c4518721eca03f4c8913fac371b553b966cfea46e],
    [0x1aa4d470abeaa2357079129d114bab1170944f929fc178216ad847d4430f3f27, 0x1e081cb9e91ff3eb0d111f2be59f4ec3febd9407a69ecb0778d7355ed3048ced, 0x2e0888b957e0fcfecca2a1157dd74cb01a1d8545d15ca25f937c554195da3c9d, 0x14434487e62089ed7659870346fb4acabe0f9f9ead2a19657a88cac39f773bbe, 0x9299821c0f470cc59fb688b6e57522d7f57aff1e589dc15722869ede760a9e1, 0x1f1ce2cba9b4c9aad6bcaf3bf03f690e267acf7e335863a54e6987634279b9d2, 0x199fab9479b7b342dfb6dfcd8adcdb5ef8cd9cacd897ff15a3445379d86fd826, 0x2bcff4e8008af4e04f02c3373fb37247aa873ce7b7caa35030fba7360479a6d6, 0x3b2b37e288090ff11cd831c00b9fbedf6d82e97540c5607b59a1a5ab4e305c2, 0xd3c39eb880cde63d9a4fec82a68313c912a25d4638a1f6177adf9d841d3d84, 0x121da38157e113a3b3e4060acab7e1b40b36ce2e2a677e5bef5abebd6d4c94b1, 0x1a5923736c007cdd31311b26d560615fadc7e01e86240033e1f2465e93df234a, 0x90f568d806c5c4b1b5e61542ba122cf1f5d4aed3966c26508d824c3228e97a0, 0x20d2b7987c326a68610ba3cecd0b4dc54c90390df012b7d96170d9693c29cd01, 0x3020b14b8e1529cdd9289680c5ad441627632cab08b206759d28e76a0fbfe97],
    [0x1aa4d470abeaa2357079129d114bab1170944f929fc178216ad847d4430f3f27, 0x1aed16276f89ca766d4502fe21ccce046a63cd2f7d44a0aa8770771e2f012eee, 0x29a61b71b5a33237899eca4e7f4e40d008c97a32bbeb0c7c09d8f24d6ca574c6, 0x301dabbfd4bbca914d16943cbbfc3ebf006988c86b054d6b613f07ae1d092afc, 0x2a3c6d1263e470cca3ae533107339b8dfed7700c910039b2b45b2bc67575f9f4, 0x20ff2a6b8212735ccb82ff59798862854e3244244cb0566f5d3d59e341aa36d2, 0x2e5dab75ff69d4a42e745287c98107ca9c3e423dc6f41096c039eb9724b8252, 0x2f0f8690c7cd4737e913653ebd84f51d5f727bb6ec729c78c42972aa34d6e4cd, 0x2be6c4a5efe483fe0a737eb77df7815a6599f091f021131ef37fd192305c4c53, 0x2f18439786b79df3460f437b9fed74ffa5d899e2fc7774ac78afd1c75d7d98b, 0x257eb2e8a7939be6bfc59d3fc6fba75da35049a36277c37513de03f6cae91538, 0x12f8298c4a68070f15caaf500879659d02c3aa9b771106241917cb6638608133, 0x22aa263182f19c8abe727e87a2291fdd6af7014f5ee5ac6c198a108dcf02f539, 0x14cee2715a061bc708337507b88d099267ffd7d71962eba1bf7d2a117106b111, 0xbea09b03b5e03d2565e9b4f7c43a91ed8137de6dfa41f70ec7b24d58eb7b1b4],
    [0x1aa4d470abeaa2357079129d114bab1170944f929fc178216ad847d4430f3f27, 0x1c01114013e2d2cc0f452ef7ef2b20226cc69e57b028464e95228e951d1cd855, 0x25c7e0412d2072062684e96b656c4410dd5d77f644c64b1b1c84ad5e882cde60, 0x1231e9e375c85c424c5fac79600e91904f849b8fb71c7ab4c37a7ae58c17d5e0, 0x7a0a63d6b544338243ae9c846b542b213c67256036a719a44a451b8e621d846, 0x2894d383becca5a477263e188d30dd81d7a41e56ef5c85c10d97a309b8daccfe, 0x101c0e6bc868c92f99608d9839fb6263313c2ae6efe4d9efc642d577577066b3, 0x1d2a84f7475ba65bf319106ab571e734611e0aa742df49e03c98814c215582f1, 0x2d2913e61d8423d557920d0a4ce230a35e6f45df0092e1af389d420902295e2b, 0x1eed01941020a3099668dfa81b2a57c1639ea6c61ffd2cfce89f696e78023df, 0x25417306ef421d8d0a06515c241b62dba2f16368b56c0a09f876850c4d008621, 0xbd0953d640552207b0df37f4ab00cfee2f4585286e008d53eb0124464fd5506, 0x29beb31dd4af45a599dbda7e3014c88b4b0173b369e9674313022ec3c39d1875, 0x25305ba821d4ecca68275fbdfe54f068a8e3b5435bcef6b7bc4a8da67f912917, 0x1bfec9a5d8a1c5ed86c4e7fdbb6b96e302602d14f55488b1b98644e612208088],
    [0x1aa4d470abeaa2357079129d114bab1170944f929fc178216ad847d4430f3f27, 0x177f31701c5cd86c2135c582fa22d1fa1005ad148e125c80046a52f99a278a07, 0x84b44037ca846dc363a64737ed25eae81e47527aad42c8b860d2f167fc86299, 0x5db3b44bdbc42b1b4f26c99fe1a2cf645f28e6ce71253d92a406dd86a607bcf, 0x1878ea943321eb7644a12615ea82860ffad4e28428239902a7f4fb2fd33464bf, 0x124df4728f64270968bda5aef3424393b51e84bcc672db75983ccca6e6efb12d, 0x23650e1dad9d21e3b5a1140b178f9d57e838a0938bdc88ad7c23256b09624fe3, 0x201a52e3c2b36532a496eb42060c6150fd7dc3ac2db72df850c3a2e3f254654b, 0x1f4978ca0763083af095848af1757750ea81d782d96385665df0b60121ede60, 0xb98fdbb00789a5b9590ef157c1907a3e9bd3cb67887bba7a251b58cd45867bc, 0xa497dff0328c9b639bfb1f441586b3db11c09773623bdbc12c40ce544d90504, 0xeb016dd39c878c0b09b6c6e86c6527f9cbdf0992e71d929855f0d4525775008, 0x18efdc04259cca1130aedc7167097d26eea98c38db92d699f7140d3148b782a1, 0x126f37ef258caacf14662c6e1f6df9dc4fc6d1792a17be1af28439b6b7c98de2, 0x288928203b020d9e6a57ee9e15ac29d64e2777ee080493070517c1a3338cbbf9],
    [0x1aa4d470abeaa2357079129d114bab1170944f929fc178216ad847d4430f3f27, 0x296ea4e3760ee3d1cbfabf9cb73a506d7cd78b9a28ea959e977d056cb07185dc, 0x9a7542033713ab98cae7b350528046a818dc1bc4daf2c2119d38abb2e0877a3, 0x3034706ae9245292d2aef241b738bd3b0b211757e4c2e0137e2c65c1e3c67d17, 0x104ca211af2cb44baee1525e9c4887c1ca96f2d147148d6f8d7083ef975b4fd7, 0x1b523f8867ec145c19ff50d4bdb5606c20ff01ab3bce0c0768fc28a4a3d595a6, 0xd5edeaf84c1e75e0d4f670c09dfaa070db33640e744336c60b18d1b9b90496a, 0x5124b407c8fb40067ff8163af388ac99b168031ecc22aa7423e756fef6c962c, 0x8ca29ea50b36354afce9507079a06f06753a3e21362599c3b72d542050c49dc, 0x4c3626ce2dbc4d64f6ab695c59f8f51f383a183e5033700af83f83c3189c1e9, 0x14bf66fe46f1f1180c24f16aeb7dec3f4ad00c1b6e9988c5642b549609b37573, 0x67b2bfe7bce2dfbfeb90eeedba00121ed2622c38d4044ea6de739dfd5f75d16, 0x9287eb9fb34d9ff43ebf373466427795393823f8d70c88ea76dbd7ac989bd6d, 0x16ff59f0d679ae8e74aeafccd0714d966c4fe1936aa0c7fbaf8828168850524b, 0x2051d8ce6c5dcebc2d7ffe11130757bcf7cd14283103d3fde53e7f7a880a8519],
    [0x1aa4d470abeaa2357079129d114bab1170944f929fc178216ad847d4430f3f27, 0x1d360ee3116f0744286da43406049bd1b821cfa4c3e823752c00f0451c942254, 0x1f6ccdc7743ba72305a0491a306aacf4e3b036b0f0602daa88feb8fd8cc62cac, 0xf8507197161fa267d0c68cd381d423f3880ca56ebd0d7ecec6ae88fa68d7a2f, 0x18b4a57860ae5f6b5ac2d4f8c924b2bb3872dca3db783bae02da366fc84b7a14, 0xaf716e6f1286cfdfdd93f1417a064cd76b1a7e2347d61d9b1821eb8a4ddeebc, 0x14f128af47080db5d122ae1a8bae27475c1933fe73cfe2a80d89380b2147915e, 0x1f2f97cd81cfeaf9ab80320e688f2af45c9dfc4a74f7227c7205fb05697ce2f2, 0x7a985fca61c3346a08e8fc31167636507b13885850b9cbc64798de9b76cc57a, 0x280e7d98a95b9e3ebce1a4d8325d69f42ae8c7f7325a04bfdfcd531a70d0816b, 0x1cce1cb692b8c6c02c7b6a2e20d1fc36f031bcc44ff6bff0c4abb5b1c743af5, 0x2ac9fd902f4b6bc5f917228507b403859cb67077ec2beae84ca18677858e5686, 0x1b69cbf6f6bcec50e71597c63a62a8253a63412612ce4e79b262753831b970e, 0x981ecb674c4f9996a0f8f019d64520c9d933ad0c6375f17a643430355113cac, 0x14faa8f8184c8aca46363826f864877722020035970dbf1090d4d3911db9a9eb],
    [0x1aa4d470abeaa2357079129d114bab1170944f929fc178216ad847d4430f3f27, 0x1a6906fda19b094b2bd4def4b25eaf4d799cf919d0e1483d9380180064116cf1, 0x1ab6dc94517f1a235d1107902b6c034b5535cfbe94ca9096bf72330be04b179e, 0x15669b5e4dcd66cf29b6c06a9308f8672f88d069e7e8eac7cb11808b82913038, 0x132f02aebee7db7f69fdb68ca8fbd57f387664e6420fe20060941344fe5b63fc, 0x46f52fecf6e77a95b31226d34954f28b9d0e2e8008de5b3d11c274d7e44fe1b, 0x2b69ede24d4e37f1a8c1d58edf35d0a7f9a0716c3f709cfe5cfa6f069fc7dcd6, 0xdc2cca8f0d3eff4d287722ba1c50b9062230d5b6c748aa4d7003385ec5424b2, 0xd1b03d009a6a0295cdbc9f23ef32bc2933f30a8baf2360203ab064b69388339, 0x1a1972438cf29f99b6802d9a1b24efc501739c6d7278a5f30b1667c2b7bfc5d6, 0x203dd92f30579361e8ecfe9e084cb41cbaf7b93fad6d7f7abc9d0f73fba44075, 0x9d6f86adffae5e4fa6d5dfa644e97a5b382a1c7e90514bea8ecd1da42773380, 0x12d40572e1dbe47334a16c73922e7c4da9675a76d5fe099027ba003cee8f2b8e, 0xc3c34e73158918b72653147d1e3d059b256c1657fe50430a778e63f6140550e, 0x6973060f725dfae61acbcf3171f17ae957cd862e86f9fc6a47fc7ace24a8867],
    [0x1aa4d470abeaa2357079129d114bab1170944f929fc178216ad847d4430f3f27, 0x1b3a5512b18428893b48c2fe915756e7cc7aeaa8ca36c2eff6dab81568264de1, 0x2ab9670c18ff8edc1c84c1ab36ca686990f07e16b567bf9642165edaa5a6346e, 0x10660d5082b8fcb7f5f4eb051f926e99a5fedbd706fe191bb18c26d34be30763, 0x1aecba1af9b70281bc2722c0d82a097305c208a383c68330a1633fe3b59c94a7, 0xd23a06e79761902a6ef30749c86998c3d20bc827cfbe2f22bba0f484dcc04d7, 0x282b6bffb062fbebaa4772f808780b00b77da1c52fa648bd74ae0ad49fc62d9f, 0x27d48b15b151378a1e738977abc4ce2d8bcab816dc32797ca060ee009ac74444, 0x2552efb9ecebe9e17a82574887359facf5cd61ab2ea64bcd60c50e053124376d, 0x2e505630db4463f1d226d0e1fcc5be4ce4577e3911bd3262317a4fb32d7f8ea7, 0x1d85ef93d9f0524c0d579400f62d8fa7f6235c8631bad07509d79e20db614ad7, 0x24bac63bf16607fb32c48e942d0cbec8b7fb18554f342d6973a6fe3a309c6248, 0x2403a33705855d9d4456779033eeb1938e9c9bcedc4f1b28f90c7fce3e4f39dc, 0xe661908904f5e530a16e3c1184aacd43ecbbfaefe6b55899026b9fc9940db1b, 0xee6336e66fcdb3a64d86b979baab0bd235291bdfb213ed532aefa0a72e5c3a8],
    [0x1aa4d470abeaa2357079129d114bab1170944f929fc178216ad847d4430f3f27, 0xbc63f41651e844c66007421b547d69d694573b1343b8583aadeb8f39b9c5af7, 0xe5cdb3465f12743f71ef5f504e6a5927eb824266a82bd02df035efe08e921f0, 0x1a0af69734aab2e4304d15e7a69b2e64956b4214c330d935647b2b127f6afd94, 0x2144915f6e6f829e7179c5c005ffe6c9ee3a796e32de5577225696a77e7c381d, 0x24b6274d2f945bda6058c3366b6d91e33740897c6e6f133304487b63bf0ba435, 0x10efc44751f6ba491452b84a92594336c6ff4012098f9fe85420242cdf082baf, 0x36ebc6a6fcb98eed5d0dcf87239433879d99acf6fbdc570510ed6c825055dea, 0x17a1b2378fea94d0b1a96ea700505bb45c4318c9b911949a7107414f636a91cc, 0x2e455a7518e54ec2e0fdcdd2821e488877c594f854131e6a9aee732db95666d6, 0x1e7397644ed4f4cbb8e931b0db4904f29102b50a3ca839c43ac4c0c399c9a8ae, 0xdf88ef1f1a67a39feb725316726c97b084981300a496619a38d3fefb6d362f, 0x24e11fc9c4c7763829d801dd3a205359bb3792da2ef8b2741ab3b2c54acec8ad, 0x4920b3e800f77d7cc99d8ee4d0141a45d27929e6e4a7d7bc4193ae25ae82033, 0x20ab7b6abd43a88f684217ef931c13cc11908564c8603e01993b0e277ab29f8e],
    [0x1aa4d470abeaa2357079129d114bab1170944f929fc178216ad847d4430f3f27, 0x10f8a59f8273eacdb9154a734653e4ff7fce0da404f36b2fd001b3f077ba68b0, 0x1652153e375ecd237c21acdc3f96d39088fd656dff8d66f867de878470fb391f, 0x12a4756111ec068e3b9c4a1427b09f9a313e018d831f7ae5efe9f3f6c61c13f4, 0x11243b19f113241477e4790f89b8ea79666796ebaa31cc2ce3700ff51ed3cbf0, 0x93d6ab40a9a4a3bd74f097120654c82fecfbefd1067f73ba5aaf031b1c18c35, 0x2f26911b23466c23bdffbb8aba815752b6d0bde3d12088becad0b08fd1dc4976, 0x1a03dabe66a3037832d93a1c3c33574c5b28787fa643ec5149830f81ecc92bda, 0x223b10c2c547e1a2ba41fb918bb5ab602a9ff21a19c37c157ffaebc95bac4870, 0x1f271876f17d7ccebb222aa3da4cc09407aab4dfdd453f1ddcf248631eec1088, 0x1adb58add70e22de5100c3f187057e930c9d122e128c3d1159874c304dcc1090, 0x27b3f7ea1e34373d8183be5e462f0ec51d5d0c8bf049a2b48d30ca821b368afc, 0x1e5ab69a6f006ef5ff38e49fc34b58d101ae90bacc8a638c353a636ac6e0cc6, 0x14ebbd0ad1f23e2c7af18b8c43a41e86492189f38299783c3edf8e9fa8a2073f, 0x939c8f74cf317552b74f7ad2ad5d0accf3e02ac3b9e67a91964539bcf09295c],
    [0x1aa4d470abeaa2357079129d114bab1170944f929fc178216ad847d4430f3f27, 0x1a55cdf6625cb645cd6090c3f525f6e297864a501041dcbcdb37b6f15af7e36a, 0x27af5f96cbc32f217ffe217d4d478a315f2095286d6589ae3510e847a7741009, 0x2210a4f1e6607e23b90a45345ccc56984bc8a6256c661f04292b78523bdcc7e8, 0x21f9fb0fc7ea61cd6d0ff2d35785d6e7d15c7a9cda7cbd3e39c44166f4b175b4, 0x1ee5d14567c941c70d07adfb6dd50467eb0668b7bdd1fce1879bdceeb059f94f, 0x246ed97e4eadebe50c8a0afdebd6598030f27e87b89f0bf73090da4d95f12c63, 0x16f44dd900dd9f274617e2d614733244838171bf0c89ac30256eeabd5c8ee945, 0x1e45e42c3dcea63b20518075c16745af5e20536983b16f632d3c15c91b3d7d16, 0x19fac5ce0028674ce8bb40058162e50f9f9f8b8905540fb7722930cbb20112a1, 0x1190997dcdb0f5772ca3de8b876a4be62f8ee0b39d6c233c95848d073a8ed6a0, 0x96c7db7d0085737934ded26317191715fa6c789de3df7e68f00e8af528530f3, 0x1c21d771cd0338f0c0c00ff71e4af2c1d7db81922ced098fe6989afe7d1e4d19, 0x2dd43d3c40b768f5625758dc35668efb3ba747347d5ffc980ec0b0cbab709c8b, 0x1030059f96d75e04bc5f81b89fb7b5b0fff0361adf04c4f0cede89630d2f037a],
    [0x1aa4d470abeaa2357079129d114bab1170944f929fc178216ad847d4430f3f27, 0x1635019295b65b0190fdd718927dafe4c0c965772665800cfd539d559f0900a9, 0x2c17c890b715b3bbec14cfc8f060ea84d7c12df2e51cc1e8a6e987f45c01674a, 0xc8ffea42dd7b206033427a512377d3054fe4f8f86357aac58032fa2dfe7c7ed, 0x12fa55dfd670309af2d98c8de77c302a5ee4ca3eb08b90f27230f05ff4287c7f, 0x9009662a5a28a89ae9d6da9b3981767d2cced18677e42773fd4334297d6efa9, 0x25caebb5501e77f1731a54be0e06f8c005176127f3556ddcbe24fb5804e08206, 0x195e006734786e591acd92fd233f784503f3fdb5db18299592de56d770028a9, 0x47885b986f4d10ab44463042a0bfc3adfa3bb9b553bac96ed40f616291bce26, 0x930f3aa1c5410395f9b17a20a1753b721a0291fda6f32bee8aaa6ede298d720, 0x24af63803104e8318c3e7a41cf8027ad36a631ea11d56552bedb5f00239f902a, 0x27c63e725d17d9a44f47fc73f02d7bb2150ba0f6031f004e600ce008440aef5, 0x157270a74e4ecc8bb6f976c5bdce70912cf64fe9c8816d62d42b0eacd9514dab, 0x2190e7e822c0508c71e3ab7134fd89a40775be99a1b38c2767f6313835eef8b0, 0x234f3cd5e0cf731da507c91ae18d28061082ae9aa580746149d1a48f6a8db2a6],
    [0x1aa4d470abeaa2357079129d114bab1170944f929fc178216ad847d4430f3f27, 0x1433fc6bf42a2541e40c104a24d5cb9d462fb71bf094bd998c85933874eee2f3, 0x10a8445d83f3b7ec65128083a39f5c759b9f52bb8ce5c024be8e2d300e0cc652, 0x1a1d8481d39a772911f9bcee025d79049764dceb488a8275f03a39870fb4c909, 0x82dea281aa11435a7429463b3fadaa3bc680aaf49f02ee5c40d110f63731a47, 0x13556947fd0714aed251e0fcf91cd0e8d0fef2dac3db4ff9f3b6c5365ee9ba2d, 0x29508794226e7cb06bc170032d377edc210dabebd3a254ecd4df794d65f8cf47, 0x3cf4fecc54b529b247e48048a963709b22630ce719ac8a9e9d1f8e74b73e702, 0x16cc17305b3d333276a9cb43d51089ead04dc2f1e197fff0012d4c7c4db5829a, 0xc36f031884453fce7824bd724f25e8fe71d3e640baedd9398a719d8f01c560a, 0x50ff40107aafa9a2e30ea1a24b64129fe55da84a294ca8d0afcb9956ab09797, 0x28b18039884a6d69dafea66b723072e0c55b1fdab6b247e801d6cdd52c7f81b9, 0xbe18fb2749573c5b7b7534ef3cb0ad5651a801b3c6bb875fdf30cf8b155d8e6, 0x2ed3ba243fb561e308a7da234e581898983172e58ce98d9a94aee5b6de925b5f, 0x248eb1ee129d515abdd9f65a6fa7711b708374187faa61acbbb6d21b2e26dc7c],
    [0x1aa4d470abeaa2357079129d114bab1170944f929fc178216ad847d4430f3f27, 0x89fb8b0837e0b7c9598c3bb5efc40e62ff31e66ea4f5e51b9330a20f9d5e553, 0x2c17324ec8d80ef220016641f18bb8ef3ad0d18e4de8dec2ca81215591dae7be, 0x23c089339439d665507c0e956ab3208b27d643526045f4afcbe6364c44bf1093, 0x32af6e9b670edec4744d9be16c2fb05dffd7742b035c5d5e34589f5cae382e4, 0x13cb85e74878132b6a20784e3bf61df1818c4d6141651d1dad1efacd58774174, 0x2db07c1bff2eeec8c5b9dbae586d6a9e7dff129340512ee92c27fe3acba78c1b, 0x9829878aad19da18247b6ee680b5d3f8d94c0b046c24fa5641cc07813031830, 0x1eb00d50e3b0c3ecda0b569d961583ba3ba49a3fdf62eab4137ab4ecd16515e7, 0x1c92d7b2ab89c954d36a5da4466d4ce8fe3476cab10bc76716e6fa1469d3c881, 0x29412e4f79957b5aa484f896baa95977808d2ea76cd61e0be6e705aa9c31c419, 0xba6668da5d5bde10cdc9aeda5a050d864ee2f72f84ca600a303aa2f380cfef2, 0xe3041c5fe0dabf954e6d9ab5519e5389cb3ed02301755f24be4c400844a019a, 0x46f80bc5455aac3228986ff1910d988a8608cc8eea186ab821e5b8cb88a8a9d, 0x886037252df484b3b2e909f79ef69e24c2b0f0a9b912d666cf624b888d7958e],
    [0x1aa4d470abeaa2357079129d114bab1170944f929fc178216ad847d4430f3f27, 0x1e5db2e40041ad9d844fc08e4932c2a893f14e107a68534c2f70fed480beedbf, 0x2d0e5945cf1ff11b864b86659e60292c1d76e29a88d35e2d25007c3aff574837, 0x5eda1c9de06b29e901b43f4dbeef95746bade9533d07a22b08ee2cf948bf827, 0x92156bc60919beb0e2c262d9b4ca9c888221b1236839a25a9457b4d475754a9, 0x20346a64ef27480102685c39833600f03276e5e4094eba2077457246bb5b0920, 0x10807d847901c2b7ae90b281bf84af1645abbcfb22fec7626418273a5c4061d8, 0x1a02e561e4e6c7e5c33b9eed477176c2927cd2331f07d9eadd6ec80d2d77c3cf, 0x1a20365486ae8bbffe437fff696c78cb344622ae0d25c8b6b1b1deb62fd03bb7, 0x10f6bc198813943da2300d26f081cabc8dafd92a953077575e8e2ae4b5b60fb3, 0x1d7d5aaea8bfae19980b3c529fab08e7187cd71a706f39115ad1cf0b7f57f556, 0x1df1dd45ad494f1a872a88240c1a9ac86c18265890d36f5b57f84a6db388b35c, 0x1c29d88c5a7e44b8511c878720f8edbd2ec09956d2a47125ad08cd791a72a786, 0x2aee9b55a2f615b6fbffcce84c652a3f41351fcda1b830ff3beafb075d0472b4, 0x1c9ca1baa0f3d242d39a3ab72580877c176e28a5c887c004279a59b0bcf1e66f],
    [0x1aa4d470abeaa2357079129d114bab1170944f929fc178216ad847d4430f3f27, 0x1e2b6b0bf7b3b4ed5126b8e8be6b6b070efc28d062f8914ba1b5fc68ed14ee06, 0x2b00a882fcafe8d43e7da424366a73da0b7cab19478446f56da7a29bbf24abd5, 0x441070dc965c1abb15cc4dcd6668cfa56f1122903318ebadbe52af6495c4e9e, 0x1804350e3abaa426cf301eb0241d2f1726387efbf0df6f0c303cd0f983997d57, 0x1eafed7d64d1deab8a1b3ef80d833b3aae94efc9f89286a55789c6b87d637b1f, 0xc08b894acdae0abb3e1c1f653a150d96e0666a92e8a6f732d8b438e2ff7e631, 0x2317408517ec88bd778bae7b26efbba777aa1b4460c3af71cac88aa1d4d2d7b, 0x17dccbe73f5a7b036e83f6233c651c883a7957861eaefbb385468785b5592d3b, 0xa9ad70b9945cdfa736dbac21e4b4426515ed32fdf0476217415ca4edcdec1f, 0x12b21302572045aa13728b65b9e6da2dd6a00b49c9acf7418d03431b663ec316, 0x2f73e6061be74d0dbe147fc3de191cf54657e3516a60a6da650dca53c6d4b8, 0xb907e76289b21473c0e6491744411e520896aa614d955fa3b7e73d25d4f560e, 0x23c6f78eb1f358e4f34d7a1d58577cd8af362c8d7a650c9c70b7cef28c8b77b0, 0x1fe537054dffac7ef4fff98a49f253a17562d32eeb1903ff3172e8089f88a5c],
    [0x1aa4d470abeaa2357079129d114bab1170944f929fc178216ad847d4430f3f27, 0x22420a556a4009accb54c2b2266ba65776d5455a7944ece37405f2bbb849e352, 0x1ad1968f9921575a75470f22eb1f2e2e3a6b973c58e22ff30c731f97064bd055, 0x2d709e99d4fc4d59e9dab4baad17bbd75d2331e8a448c2595c835e96ece5930b, 0xe1df1d829c920e063cdff32342f223e7b4851df78ffcba180df460988e8570a, 0x23c4fbbe1b0de3e8b57a6137c331e3b284504bbb9f20fbe9dc2b304194ccb264, 0x2ecbb2ad59823898278473d8a768598a22d2be7922c292a964c953080ad8a690, 0x5dba95d04fff06245d0f4ced407a98571bb522547bfbba6c61731884c4d4e30, 0x1b6b4761d189d1e2db04e13f1702f4a15315e1b4061312633fbd2f7d9c943b01, 0x1ee6c5f07a003e7f7cf05ca63ec2c5cb85f0137f55e1e62c81c9b4a40d9bdc29, 0x802b4548da3f90ea8a49c26cf583724835d8add489da81917c17ff7686c97e0, 0x1a3089854e45defe9e953808e58f14cd0f0edb9d65302732ce5450c92ca79885, 0x2133779fb03912c1f1db22b59f3a8e96d396173ce7c5abee98f05119b914b700, 0x18dcc23fdade276e5c1ba4f96a47cba57ccbcd1102fb8d063723523e2d819b39, 0x2a1b87020f3b905940f757cee7f0b459217ea429b77a9ed2404cf9655763e105],
    [0x1aa4d470abeaa2357079129d114bab1170944f929fc178216ad847d4430f3f27, 0x47bbdc4836a3ffd940aeb2c8608a75fb37d4e0ed1929fa893124a87046333f, 0x2fe188cebef3df8090f27fd40d4e1f557b2a13aafcdbd36d53cdb99ec48fa13e, 0x1eefea2f42ed57d18b8bf7591ddfd0f54a4e7434646e84e7c79a15d2f879aaac, 0x1394c009ab5cc43d8ea089286a43d30c904d227e9a151549bbb7f4d0cf930aa2, 0x2a0bb922c5a36f42819d00bec63da58d50b6dd46ff20d2a3b29c1c2e1e0ff837, 0x270b2526008fda515788b4e38ea86c9c9dc4d650ffce9638f91b85453deded4d, 0x2ba1e2d2ebe659e779301d63ecde988d55432d5bd7f8a4f76a03e20fa31fddd7, 0xf56832b7f06a8a3a1c287b8497ae10dc05f216917450813f21ffda4c0effad0, 0x1959a0963b974ace1dbef8ddb09c9ccff9ecbf4dfa10c2c174d42d523098cfdc, 0x148da04f0aeb03cea78009e2d1192865f5b99d630681b71ce71f9ec05ed55b69, 0x51a40af416f4fb5f9f0f51faee0ae6be210f9b93c4ead16f2c9a96a855c41ac, 0x20973f1fab9890ed48723af234150d1ecca066629dc1d07031c6cab5e60a3efe, 0x2a28a24ef1bdd75a7e501a4f035c1b431f4d7554df5facd800ecd3f024ec8152, 0x1d2ee4e18fa1575fb3ff723b3f9ad35cb0997b436f85746c6857882068333148],
    [0x1aa4d470abeaa2357079129d114bab1170944f929fc178216ad847d4430f3f27, 0x2629999fb52514197199686aa4c0b0961d8aa48404241177e131bc2396fda732, 0x1f99369d70a63bad0b76652ea69f388fa92ba1658836fa3aed366744ececdec0, 0x4511f41649be85e455ce74338ebb425c895f88540244a554c9947bce88e6edc, 0xb696f753615462876b9efe2ee1fed79c49becdcfa3a2d0d04a29051334ca110, 0x214f09b5557846662636de4679dcd965611c3d78e8d50a2cb0589c3ec90c9924, 0xbf5835b4c0bc4b13a3dbe0fbd68fabd6ea6749b70450547f0c2e3b658c01301, 0xc48c640e88a6442ae5ac574221d7f10eb2e67ca30fb0bf169cde004f4ded504, 0x1a5935756b57bfe02a3efedbae26e5a13200bee0994712005589ddfc1ab5b8c, 0x386ba86a06566ae39b56cda79580aed0647b9636896a47a7e0e9aa9919d9c02, 0xf00775e400bdc3e8685b204f07964e28163ecb3c63165d46c3f463e7baffe8, 0x1a662d8ba07d915cf7504cdbc01ec2a676ed76347ddd4e07f370e249a7b8ea5c, 0x1f06133283ad793171f99a4e8cbd2cfb465d9d6af9ffb4592d90293421750faa, 0xf83059507c852c9750d5280c440af49da9bb328ee63d1daceefd0becb214fda, 0x14d1ebfbc4c284f016134d6ab56daddb4e647593caa1324ecb302a77ef0b3bd1],
    [0x1aa4d470abeaa2357079129d114bab1170944f929fc178216ad847d4430f3f27, 0x5d4c4270c1e940348df545abf1e79bf647658d2e79eacd5dcbf97d68d05f3ec, 0x275db6ddf370d2f7e21020dfc1106254f1c60fbb7de07efeec3d6722b04bc54e, 0xd8e04364c5a23a60f46b4548459c7e7c002b73efa630bd165ab3b6a87f96489, 0x17f1de99ff5b961493bef67f162e464c42481e448122fa5baecec8cae0b2192, 0x23da50aaa25b76f0dad9f50db23d12f64a4819f547027b6bf52768799362e83d, 0x6d4ab87edb0fa0ea037a4f5ea1583c4198129f067829169c06e7440f354499, 0x18ff576eac16541cea173c61aeb541e0761cddbefb4a90f144818947d16013aa, 0x1408d644973d6502f93fdd2f69a71093a9fe50d7f8061acb474a0a14ba304f44, 0x29e8f556928e09634fd0b950e5bf4e90470d45e3c16b13864d598c555e57b1e6, 0x1637adc0e2bc513402f3a8b5314017d7ae192c809c41f3348226dd50ed82542e, 0x73235d0a9e96cf86e0976953988a3d9a260ceb59ba7633a40cbd7fede78a51a, 0x6dd5e9ba875bfe6f6596ba3cf35ec2342bd03422f134ab99ab7dddb9778b830, 0x18f491c6c3b12acd06a117563f067440ac753ec468a5df0c123498fbdf0f143d, 0x2d09fae126d15952c2b91d311932c93cff8cda2b44ce74c5d1d6dd132f4cf0bc],
    [0x1aa4d470abeaa2357079129d114bab1170944f929fc178216ad847d4430f3f27, 0x1022b57f4ec134a8f7e574fb62093d415b876af638133d32d366a9b1adf620f0, 0x14d51a25fd8d1dc5c7720bb793a275d83d812983965bc9b05d306794cf1dcdf3, 0x2c6a7b31575f327009eed05f25f94a4f173a544a0d8fac673474177b3b9a1413, 0x304d2a4701c43333827db71975d9c2c4e675056a2ea1e9b72a0eaf127b25efb0, 0x11f7c6c76441a67bc5946687a40a28a6cdcbd0ade84c389115b744115c627fb0, 0x9a1baacd8b557f09fc35e6434ecfe9182a04537171ee1d2bd603f5378206804, 0x8926a69b2d5a4200ee36f786770139781eb60a7d272d31406b75104efcbd3a1, 0x21135de3337256600fabf590e04c29c5e0875991a67d17eed5f5131c567bf4d8, 0x14b248fabdbbed0fd66c899e0a801bbbef4e1afc9bd0abfef471884bfa160841, 0x86e20d28f53332b9e09c5af815694ff83f10f379937f09105e98529fd4b4b01, 0x1271f30b82cb798656e4465c44a9ff204325f5fd2d2e204f2b5673f78fefa4b7, 0x2224a8d0963f1ac4f3e85695e2692e386a3c1492aa58127086e1385b9c2cde80, 0xfae50434b1bf26f790caa16ef2562cad5d238130522db3a97c1893b0c81ffc3, 0x3f2a142e4084164ecfa6300a4be6abefbe155f5ad84a684f761e75275926052],
    [0x1aa4d470abeaa2357079129d114bab1170944f929fc178216ad847d4430f3f27, 0x274d4d833700eebb5cf7c8f4fb81c174a108932a0e987d2889d9b93a95d187f4, 0xe9bb8c9f9306791b77582a16c53947e12e0dfed0c2adc1ed2116dd451598821, 0x26a098e91130e0d10603be0507dd975431923b338b6c0a3890fbb815af28f7b, 0x26d653ce08eff8f162c1033b52ea7e67ba0f6a8036bc64d556a75817579698a0, 0xa8ef549b90bbf3af6d9fb4db8656b7de9cf14212989422778c52691a0ca83f9, 0xac39f4fce06a27f59b5f434e7ae2808da542d1cd5fd18bb4b90e4d15598676e, 0x204aed1de3b314f39afe27b3b1bd589a851183aed39cb3004e67deca646266ba, 0x158cb2e73c4aec4c054f1759e9f3293b62ae5fdf18f69be4f6ce1c65cc1c155c, 0x13040aca2fbe7c001c14ad386c756ba465796b9ca677735d95861600b3ce6b53, 0x2674a9a8dffb96d38295f6edd1c5c008e9320ac1e99672b9d05289ce45fc673a, 0x57be234d78a86ab47e3691b67a63266519bb62985701f2072494d6343322a41, 0x12bbfac6aed9fbbd81254753e8bf4bd4c562e4af62548e577ebc973f77d9af77, 0x103b3e26bbc4767aeb96deacd771b5b694b4d57339e351c10507f61bf55d915, 0x5f918dc84cbd6a0a32a65b188e3f1c6e3412b76230fc7f6e5b17612c1abe8b9],
    [0x1aa4d470abeaa2357079129d114bab1170944f929fc178216ad847d4430f3f27, 0x28e6b736e2337dc438ee643098ef22b69c869252509d605d6799ceacd28d6cf0, 0x17326264714761dfead5cf52058e2559b4c57d30fa68b4162ab616d4ddf70448, 0x26d0b9ad617c87b600e3b27cb797f4b0ded965500a6548b554d2445f49cb614, 0x1a57505d738aff598d51ba2c25a4ed8b41f9479332bf95c4a289537dd22a366e, 0xbc9463f62daa20f0f245379c9b36c48c26b8f2e7d393e29a3ab5e30539764fb, 0xd2de2c5e221a927d1e90617e8be308d83a905bad2c5a5b29ffa06186bd62c96, 0x2acfa6917c256caecdfc13513b404367163017f92c68314e4cee7c465c016bef, 0x2300a55d94c34ecc47785790d4cebb3ee14f43f36ed26b8a69b1e7641f5703dd, 0x1b18386cd94edcc53b5fc04a4f6463badb0b6f1908c53765eb2953449d3bc3db, 0x168523fcd8de4e51f21ffaeb5194c5882350e2926f76d76b4908d3e0932b5ea, 0x230836236981243f35eca0e25d7c73c4aad7b8b0375ebc53200c5a169d1ba5b8, 0x1644931eb3e15ac27e176ba4a0efa23a8cd2cd0a495e0ff1459ba562c39f74a4, 0xbdba47f648104678694d1dc3e485f87821387d63b40b643681f6920ee153dae, 0x2934ee754f94b9cda4b4193c2da7abf8854286bd37ce1d10faff250466663729],
    [0x1aa4d470abeaa2357079129d114bab1170944f929fc178216ad847d4430f3f27, 0x15bca736827fe042d7bd64f77821bfb98ac7765effc787fda6427a9c1a3d7817, 0x1702aabda38575c6034b350e4b88a2a6ef6a5bccaf04bc9f99321753dc12b1f9, 0xfc69497af71268ae3b232540f8c9e5b16fe351e779646f5cf34bf7d41893078, 0x13cf63991c3ea2c423f0069eef61d41d30b7a6d907a6cc3f723b241f676131ac, 0x8212316344803402735c663b23ffd17261728f9fbd3d91b2f86e227a34cf2b9, 0x1d76ef5ad83cca5d452debe5dd11a2a756924c26b546782299e7c9b9e7f6802c, 0xff4763e1cbc755ebb7308094877f3ceb4cb0d393e00545eca169da0f82c6c1b, 0x2ee17d2391f5e2ada6745b0a56c5b2915abb69437e28975e466d218efe4346f2, 0xcdfcd1cf5fb6f404d7686731a9a326dcbab662736555ebe2964d81d7929c86, 0xdfa35c85f23318fa0188cd8ccf7a174e89b324b94484e9f1efed3be25eee2ba, 0x3020e7189aa0392850f96adb46c8476a9d62951093438a948858a8bdc3400b8b, 0xf7d3dc3a1e33f5b68e2b84d9da05e7163b40e8724c46befb4030fa88768e536, 0x2331b3e5f7f1277ecb6ef3e862f53047a7cfbfbcd001124d96437a7559e4d954, 0x205334d2a003f29e2eba4a0f115f491e159af79d1871614252a23ec2c81ee321],
    [0x1aa4d470abeaa2357079129d114bab1170944f929fc178216ad847d4430f3f27, 0x5c88b264202385a48b939b006669c1866bcff2ce9be97fac1e2b7fb13ebd8ce, 0x34938d22d020660d0a009ac6a5ed48bb0097cde47bbc0d8ce942fb31c464584, 0x22162ccea7bdf2b786c635b0bc7132a04f76645b467df815cc521e977cc4f80a, 0x27b9ec9c27c0f868a21ff55cf455c2b3a392dd5e57ce6870b90c217ed051b792, 0x1d40a01732b59bc72804d5be3dba2fd2be8208fc2f1ffb9a44fbeb30895d6b78, 0x25a3c16bb29635132684ee4964e4f7364c9edb73ff5d41c613347f90519098b2, 0x2264db5f2b0206e0b97cebaef9ae578d534c98b8a20894d99ff4cc52dd4f35ea, 0x8599a766249f3c836cab54623833af8da7345e0f976fc683d04699c33de0097, 0x23a4e769c41d56c98af48d9d3eb4e65d5c3cb8f1dc50dcac0895f70176c65966, 0x6863319f9840fe8a57bd754b58b7fed2466e86365ef6e678dbe7c495054551a, 0x124f8b0efe11009c8a15c7830dac00743a617798bbabda3df6ac877625f3590d, 0xc399275a8d3e83e832aab6df8b0849b9d1378376e90b8a24084074e85cc4e32, 0x119e48a1b4a77a3a6f7c61ffb60b93c904286828355b63b3fa1f7efa5cba57cd, 0x296e14fc6bee3bc2d9dbf89f2482f9891cf1f7df9ddbb7f98292f2bc7fd9a50b],
    [0x1aa4d470abeaa2357079129d114bab1170944f929fc178216ad847d4430f3f27, 0x26a69af895a05a3493040f735b754e16de06fa2c04c7d990fa5ff5747f83b413, 0x9d38fd6121029734acccc26a34b6c0a9c5472d921ef1db0545ea0d2ee58dfc0, 0x9258525c420c9158ae4a5b72f73cf036d988c7dd50700b1ed3796a595c5b6d9, 0x240b4844e1a39d4cacdaa8cb96df170cc306bd32b46539a155a91d3dec72d330, 0x2f7bfd78087629319d6485647f8267856ac5974200d94d165da35c13dd0f1c2b, 0x10c3c9daa9b917522fb7c6bc6c18a2a70968ed139a349805a2242d8587b98160, 0x42e830892fd09a016aa5998930a085f20871e7305b361d30690064e8680ad2f, 0x1bd229a43207a8eb670f87a25910257b4d6e99ba62c30eaf92c41c887b92eeb0, 0x179259aee9804902a592512d691fc31fe7369036e50df52f17899e9f310ad8cc, 0xc94864bca0ef906ce0f56586a71ebf9cb21907610f55d0d597c910f1832f04a, 0x1b8129aa9b54faded8b6e4594ac9c66268f761b4579bab75e4b84565ec6151f9, 0x138fc45fe0e94d2f56d913eee6f4dc8362019d48b48bc11d566fb136a034e7fd, 0x11ddf7e5f957f4348bd38cc6c2b7b21db6e688426842fe2790dee3e5c7970350, 0x273e3a99347d8bb4443f8803f3144b1c79081762f0c89996e8ca6f41e2ce9eb],
    [0x1aa4d470abeaa2357079129d114bab1170944f929fc178216ad847d4430f3f27, 0x22e161940b597798709d5732b35b7a4a6b5738d60943450c0fcf0015f74a978d, 0x2dc5270b47eb00ed0a19788755286e5153486071d8676de57bf1dcc0c95b8269, 0x1a70ccda609d7bfdcd04227a1c7b3b5dc51ed832b3209ad05cfff7f94bd17d78, 0x1acb2e3c8872171cf04e8e12bdf4aed98903f30427938ff2ce2ac2ca07e89b36, 0x2adaf126a0f5fb02185e741d6944b194959178f84bfcf24c66caa70590d009f2, 0x1d3244fd2a96a3c547cbcb56974d8a6286e71ade5e026544cfa6a239e32a4a14, 0x1bd9988f3abf3347a931f562d4c26b2c6c7c3b157929f1d3529438687ddc9748, 0x1ab2d592b1c45380283e92034c93e5a2e4afdd8082525f32728c8bef6293db03, 0x25cb1ebe5ef8d7fe207cd159cf795ceda6553f6819f07ccfc9432344648093e5, 0x30337709090c96eb2dd63569df081569d7cb09cbdf4a7c8c1a982b1a502bd31f, 0x26767fe5b44f802d1ac590b4af55a4cd28f4a4565a03fa412dac54a2d953d6db, 0x206a055992663ba140839fb48dde53a37509d75de3cffe05e543ad10e2a6a880, 0x26f63a141092d97b431869438f6f4f2eafd3587d1759eb8dc51129be57d1c9e1, 0x651190f970efd04e85ceb47f6bb491b2391e7e4c0229354bdd377435decdf02],
    [0x1aa4d470abeaa2357079129d114bab1170944f929fc178216ad847d4430f3f27, 0x16f9cc64f644433e68a60294430fa2cb5932712fbcf1d867628561f9057b714b, 0x271bd08af5ec9271663f987e6d26c91b496975cdf5a2c6a7c5490b62c94041d6, 0x29f3ffb8c6f14251d4e4e6479afc22e84b5c306798067eb2ca8530c01ef8f00, 0x3011f9b6793cf8e594cffd490b2255eec2d7c84caf1fceb7276fc50d598c4631, 0x1592b0301bc7a225be205d464faf0f2620c9879d06b7c97632c4996b255e8b1b, 0x1a6cb5aa790973bd44ffb4ed2981c633750d9df8e6a122639648e0a305870d8b, 0x3006f88fc72833b83c57897743bbdade1ab69f52bd8788b4406e17ec42bdae3f, 0x2738654c515bfb4dd54512aed800e6c044bdb1d4f77cd438945579a03ffa1416, 0xb321f51e6793cb25dcd5261f44260a3b7c9f9c44c5ff3ff64260a81d68eb977, 0x1477b46d71b8684f6448203310aaf0f8948c1232cbba64f2e6372b26d3b96f59, 0x2e11978278f26a764c2c61c66edb6f2964876d189ead6fdc76731044355d9086, 0xab2312a0dfec5f56d70efde481c1222f08750d97f0f378e32416d8911347f32, 0x293b455b67ef83fb98b09994d43c30ce29dfb9b499ca17c6774eec84412eae78, 0x95b635c8679c2757a0299fba438ec55029818e3de0bb66721004d4fde342a5b],
    [0x1aa4d470abeaa2357079129d114bab1170944f929fc178216ad847d4430f3f27, 0x230291320aaf817c9bdaf62fadc83c8e9d55690dddc6ab42884102fbb8c1313b, 0xebf9d983145fe427a9c98d8467c649a6b6fd0666f80cdc3edde2d6103a0bcb9, 0x1b8a2f071acf45649491b58cf5576a862c45978ec121aba4cbc2b344f6adcca2, 0x24287f43b82f4a84f3a2500829657e4890974e8321736b074241d6d4c6714cc4, 0x2ce1f1627b642c8dfaad03fb46498d7f85eba85b778efaebb2bac14d3d4c2f0, 0x11ee152a99a5a0de87751aab98180d05db1e64f3621498bef5a821d813fc7ae6, 0xce62d91eb6161313ea7e48273122d6a1774f96e571277109302b68c53dadb0c, 0x19824bcea6e4ccef8b23d501840bc4f3d40837dc60b4370146a4b68f6f889b91, 0x2d1fc70e199a73668b4d0c37356f575269d258aae7199a266e63c88ab6eb4cef, 0x321c2b5f8938df1e2cb30488e61521a99706c58f4237e4c61500bdfe47f5626, 0xd7da06b4dec9fc5e1dff140172e0a84a9d147154745f2678a98aabc3f7989d, 0x2fc41f67cd32d7ec4ee517c8b667c9a0ee2308f759ebd889f6ac043d8aa82f40, 0x1fbd55b07a5725b3de1a9739d36114c9340a987b1e66ac212b12795249bd8102, 0xae9b9d9f2101c972f848f0a2b7a8916a3a2987bcbdcfa1d300e0b781d2da062],
    [0x1aa4d470abeaa2357079129d114bab1170944f929fc178216ad847d4430f3f27, 0x19f45db7aec76df1b89fee8492cb760e8f6d298cac167d2aaba4702d30f3105e, 0xeb3de3aa60a1e43df813790a7b02b5774bb93b654bb4f690bbbfd8b2e19c155, 0xb506abb65dbe55553fa65bc43d1593be440b9c5227fdc84e142ee9365742ff8, 0x1725cf40cdabdda24e0cb35d12315bb0bcf61a681ab3f3b6ca2cd06bb6f9d899, 0x5b2e0df1727482fc6597c7ada0624819471e4c4f2dbeef58ced0c2e5a2844fb, 0x2cb17d3d8a51790efcfaee971ca9155f0074b2e7622abb74d7b8c984feffa7f6, 0x57cbe9626c16bb67d7f00009f1e7881b53643eabf6abf3f4bfadb6cf9678388, 0x1d5a175df6dcdaa9375d954c5df8ba5bcfb394070967a231cdf753e2277257d, 0x27453d445a464bedd2f943123064cf0d6675c8946f077957772f32e02a0fcf29, 0xf2e2a7f140c38c5d932d2d6fb694914a060efe9e6bffe14fc1dcbb840bbb466, 0x240f3c285bc1a1c717cc08ef209175ce1efbd0aaf894599c629114fb05024f77, 0x2dc62be8336218eb9152ec653c5f2d0eda10ffb07a974bae8ee5a370aa497b55, 0x1544549442e755807a39faa19a9e88cbe26fe1f5f4cd27fe68fa952806a6e72c, 0x26d85311e5bb436e105c2eeccd768ee32acbcd275b22c135bceb61f6fcc99696],
    [0x1aa4d470abeaa2357079129d114bab1170944f929fc178216ad847d4430f3f27, 0x2d5c06ffb3d2b7cf9a0dc797193cfda855060c21de622962dc73de8bc7e5309a, 0x1142dc3dd8bcfcffce00dc87253ce16475df11a72de8b35070e2a947e8df89bd, 0x1ef9d5eb72934c51099404ef52f846564f9d5956a61fa690c1a474ec6dd4ad2f, 0x1f875fbc8a4be018170a281b3f9c0dab5e91371ee3101e6eeece15ff9ba2a595, 0xc7ea4455b4e9ea7958d0549f098eccc22e73f89b049f48558910bb97226db31, 0x1781c95b5bb00bfc0c5280da9bbc2d16aeb1ddcaeb2c45644041366c0c57b8, 0x7d46f4970f0af1bddb0baa2b45ea78c3e043c402b34fe44600919ebb3bc638e, 0xb97d904e55808e8d3d847315766069b15e4eaf6e48533679e0d1dc00c70e6c4, 0xa424cfc9ac1630f815e1867b2351bc8a7a0577a06a1b3eebf8e1c012883313a, 0xab4976c40bbc9fe9106a7610e3e611f88e46839e484ed2160086e0e83c2e4c8, 0x2bd44e217b9b1bd7c5c687ad7653730c6a9cbc73ab2e3eca6533ce3fb568a339, 0xcce891fce830619bc5fefea2258df3f5653c3ca6050fd8efb3a653643334ed0, 0x6cc269de739b7f75a505392122069f46ead236c9fe14dad4b89ed3be765ab46, 0x2ce5dad6f8c706a1e48ebcd989cdb6e79161070d56b7f488b1ddaeb207d81805],
    [0x1aa4d470abeaa2357079129d114bab1170944f929fc178216ad847d4430f3f27, 0x2e77cf5ab513e1badea5c3c891925f9638bd14587f6e342c5a92452cb2216d10, 0x1f0a2a3c8f119ff5dc221cd21cf450ccfd2a13a51992e227a040294c78d05bf7, 0x8af508a7bea4393d740ddce0e6f0fb819f6e333f12273739f8216a7de28c19c, 0xb7b0b5adc8e5b80228ddc5a3bd90a11a6a58fa87ab21faf6b5ee6b4786d3bad, 0x29b2720d570c648e23e12c70c5d903c08897ec38e8f79e3dec9f892429df3f63, 0x2b5d0114e15e9a524981ea2e38e06976616413a966172a365e702aeb81a3e8fc, 0x2f04e33808a800ed501c43a1cc6aaff9ed0b2431f111836ecc36db9fcaf954d, 0x75afde514ea96d4ddf31e02c2e3c59b857e12bbef9188703417fdff2b73f0ec, 0x294c6a950fcf5693a8241c957ef737cb0e9a2ac3b7eb618a1bd1684db4353e99, 0x2b5cfd45d895ab09fb03ee623cff22321018031c835f4bd9446d13995ebc2702, 0xc9cc48c4d979b1d5267a49248134fedc8c18e6678c52f82e0ead42df94bc3d9, 0x1ab81cab0d091253489ee59b36258e7f07ed92223988de2adf4f431790b7fe73, 0x2586cbe245b6f98d39e52d3944cf6ecd7f6b02fe5125fc06677fa3adb5c4b3de, 0x13b2352a38dbffaf3d06de3fa376edf5b2ee4e53a57be01229dbac8729a4fe01],
    [0x1aa4d470abeaa2357079129d114bab1170944f929fc178216ad847d4430f3f27, 0x3d877056291c4194282a1028b33bbda54c8c56539d25d3813f0992d563fb344, 0x708818327e42247f3895bd0af9998a7f3ab275831a1b7ffa2c0266090f86b75, 0x2f6df4925de2c8eedf7a0dd36de0e83bf0ba0e6649447d6fd2a8dac7d4b1b819, 0x1333c9e0db6849dd2fc1e56de942f8e59e6ce70f9815f74ec75ee7a710ffcd77, 0x12abc89e5164e8c1a20e40cba62920df78cd0d31c641aa3526b5387aa499d864, 0xb976c6394d0a9ff18c3ce234a56cf8d9625c11d0fce863278457cb08e1c4983, 0x268b0a4cff7f67119358196bcfb46348ca332e1af2efa758b59e922a135d7e61, 0x254b8126f45243f14dd8211df41fe5516b35952d56c62678c148e73cdbad3718, 0x270712f18b1518fafe093660f492cdbc2fb70ffab31d8a4d8a1934be68792369, 0x2bfc3981a249aeaaec4ab9001727d32d4e6fe75598ee964fc85cf30d50df584b, 0x16060a17e1b11f851ceab20464572b3d78d582ea050014843101485f65ab723d, 0xe73217a106c402e4c6c166cd9ef1fd2a0b16ac1cb43646bc1c726f83177770, 0x4b959ca07e7182ca08f2351a03545bd7ab676f740b02331637ea1434c8545ec, 0xfc9cc95222f92715cf7476010225e14cc38f314071e50e0f3bc9ec674a8aacc]]

/-- starky/src/poseidon_bn128_constants.rs L1839-2416, one round per line -/
def c8 : List (List Nat) := [
    [0x123992df3b9daa65139ec13fbb52f7d348e134333684c1596feb0e8d8c3ad596, 0x2fa46f5dba9909ce9984a01e2af30b550dfec978be92b49119a3959c7f623703, 0x21d8f94d3bd98f0b63a7aacb175b2cca13b2dd8a8cf68fc36d94ae29401b2d2c, 0x1a8c06c61046e0f8dc6a39bc57aea0d07fd7db34e68f73579da89e116af87eb8, 0x298cd7046f58c0cab77523a58a6fdfd1401b89e7ae5eef4994442d167f7ad1d3, 0xeac737966715df4a20b31ab693eda86a07f3e830fca475a6574d67fc5f19f63, 0x6b9b718bb3b6d45e0cbe6d5d9a2f096a77beb056821750d072262af2a70a33e, 0xbccdad6e8b1fdfba846a9553fc7905b3f96e435d653eec3972565e1fbbc302a],
    [0x1b3ff4a6bc8490993abb7a002393cd1c1c007f49240ffc2ae1f1057cfcd8c7ad, 0x17f0c9452d70eecdf5cc8b6b0b205ec2da1de59750d6d1709751831b7e4ce26, 0xcf1ab805bc47a10349ae77135ea95a4144a6ed0718fdeed42971c160791b269, 0x18dcacac61318af644ab0f2e61ef48c29a8aecfa0282e9fc325b5c0287103ce0, 0x16fbb3bdf4066e2b2f050b89b685d408711685db7e4638dec90ab1cc794350fe, 0xeefd0b8617a1ecd7711ffd5f6c4cd0496487a1b1146e9f3d53275af18fc6c6f, 0x3c707d1835066fa30e7295a097a6ff463b85b778ca11d9bd2988d41b600aae2, 0x63ad3f6e3f8443e0908af99ce32d2c09606e84aae5e3ad30ed60d7a660738cb],
    [0x2cf67cc9cd3a5313d992e315010d90cb501f790bbe35a166392a51d90d117353, 0x2a6e7a7bf7c190d4e4f7f258d890dd41780e28f6b71e893716f70140f4406b34, 0x26140420009b6d8c7314723e66925badcf98440da6c2b97b66a52b98cbdf1d41, 0x212c611149d057b2ffefc9938ab1498d3b265392c73480b9cb02276906e445ba, 0x8918ab686c1a160a55db12010b20150f82632dd5933e27cd01129518cd9e952, 0x173ef7767749a3249b004eac7aa7e94dab20d465c65ebf4bab422f743f17d8b0, 0x49d90fb549e0e25790f5a6570755c68c13c97b18d67bb9199dc765355fcb1fe, 0xd1aa7cfe6ca9e048ac6ce2cda40c6d64afbb8c15a7cd9e0222566f9922a1547],
    [0x2d82e2ccd8bd63b2ba44bc0f4cb5ec88142a4408acf1dad452a66e8219f667c9, 0x2ab73a842e0bbfe229ea1154bf8aeb48cf2fc289b939471d6b465b7202eb2354, 0x233f36bb205dd59d045310064408c6eaf710173a118f9ed21153c99a6b0783fc, 0x18c14a50595b8df32124bf57f8b8df430449f35986242a2ff79a644f510cef27, 0x186508d6b75c7902ed6a1948f91088c7cddf973d8cfcdb4e5a5b0cac6b5b22d0, 0x10bf42990104c39b27ef0ba451b510cbb001f8ec39a313d259be4309d6429bd2, 0x163e875fd9e04b255971072c0d2e7614ee1f3c7d2b93799aa1570bf73153f3ac, 0x2925a59f82c1472b8120988e3af6cf24c2ebec9a9f0f830bb5c826061c65eb8c],
    [0x25caf9ff6543dcc34e2d0b8c2af3b36ebef3d4c3fe62e2937ce590a38df2da1b, 0x14cc417fd674083090f4463f66180e4a3f38ca5ba87f4889e510ada924f6b799, 0x182550aed7fb3b7d92ef0b91f4916ac7f7db3b943103ae7ba2e09ec0f4a08517, 0x216305852467475a9f934d3b1132a99642fb79fb6bb91d948f391ac9e1c3f1c8, 0x423b771f7215716cf97b3a72ccffe156bb9f8097c77a2b6dc67bb5848689b8d, 0x2247cd5af8b5ce0a983aede949f81dc7d3fc5a2cbbeb8d16ad43fa2c3a882537, 0x4990ce49123ed1eca92df7bca2b271d07ba4ae5a30c6a0119f77b51c3643d2f, 0x64e8bb29cc072af727af1b79af50896a6548dec41bac10f0319fbefc1bfef9d],
    [0x5f9be83351a037f574fd0f54d4e9ae5cadb930ceb51c91b07894f0160f8fa42, 0x202ce17e96cb24e8986cd09351ab9576d5a5167168f9d5f3877c4c5ce03629b6, 0x98a2fb5cb01868cde6424c4211b9549b8f550a7f03e7fcd8b5121516b3f452d, 0x2cbd947e532cda0f8f1b899ffbcdd5e0b6b08451e637fe53f3b4a8ea7832aa27, 0xe0fa4620cfc943da81b40b6b42f86fe74e55900f800645ba66137b6b7c728a0, 0x2e1ca081c96d5abf2cc40b3797c38b0ae8a8ef5d76e6d03e9bb06741c2184123, 0x271cf3ea7b06b4e743585ae68997c0143542e405c70855787181163e4ac20b45, 0x9dea127972d2109cadb7e96abba7577c0ac0077312b9550f81b7716a92f5eab],
    [0x1982cc716da20b119525c64a3fe85f5e31baa97c76c82376999637d8ef1c8a07, 0x226600de8bb65b38ecf996e5bb26fd6288c690f16a5eedb730d939311d0c3ff1, 0x20f7b77fbbcad998e7744ca27c0f7c0c2550a3db90fe28944e73d01d24ae6cb, 0x1c2e445cfc98637aaebc2c1ab7b6d790ebac5027071d1057a945bc90437c49c2, 0x244b349502df4a33563b30237ee750e79bde135f0b0896f0d9cde04f1004171e, 0x10860a875d80bd71c6267c1d54b02fb58c890b1cffc35fa707fe6a94941281cd, 0x2eec5addecc4e24650dbbea531a0fef0dc327dc694f229b2526d2f30b2c499c1, 0x188bb7150b6e40624b02ea2821aeb6b52b1e85b5b724bc0ec512f8fa641182ca],
    [0x5e56007dabde2cc83d498371e99ada953ecd69e135ef0204d2d3b6cc1f49aa1, 0x2553755b36de611ed557768bb5513731474a0a8cdc6dba8f04f3031b07687b16, 0x1cf267dd9bfb6e678a82c7745857a63e2b57066a8626b52c0fd5ff42418aa65d, 0x106b2a40087375ea2988b8e0700fdd71d3716af2bfd0b6b0ca6e24ab4b4c25e1, 0xb978e4a10dbcdcbc7e90aae2ca19615df674819cb611d93b4cbf5f2ff9a0a16, 0x2ed68ffba6a646e5047666b8ad69f6cb35ad096d6d34fe1ca67e532b5186bbf4, 0x23c632c2fe68d4f0a71b1ee63951c72b7d349797f07053df2ed33520ea3e94cd, 0x27fda5f826ce6a8340d12a584d4b9c84f0a4ea3c9d33eae8d6c0e23a5a9897e3],
    [0x2d24aa4c0772256e90344d20d46dfbdbb5e9dc132a4fb07faf8eddaa30da7674, 0x48d52c4e3d71485ce6af122ea136e60053e387d77369eedf8d9bbc663fb98f7, 0xe0c1f005a1759dd161302fdb233cbac5fe151b5c2192255bd757b3ced899f92, 0x230d641c4552e5e55416e360eaa32900751de5ca53e8654af8d422eec627efb2, 0x2ff6fa8364a8cfb19e30be87d4cdeed9f957dd024f8138d535c6380a8b5d38a, 0x1689a04762a5ab1388f6a7257e7c72838513c57da7f546a2017ff128afe16171, 0x288d8c7325204250e8632f42debee8a31a470312ab2fd00afbc7694f95b827cd, 0x23996135af9f3a42a6db33fd55319a7caed8da2e6e338068d78f5408552c83c1],
    [0x15d052dadce14506fccd2690c333f8ecac382d2b6734726236cf9c7be278bbe4, 0x1494fb65e5993d96c30bf0bce3f56dce68a2de52299b4809cc119e37d8e042e6, 0xb800ef8749f91b307947c581095ec9283c3b131be5ad5bda4200992fbff053c, 0xbac1f53d5a7d39811bae7c1a79dc997fdd5f1270f72805fb05f5c52d77c1cb0, 0x179249893fa86ee067b47bbe8335b8942bc921ae0e082c303e32b809d939786e, 0x985a7c9b42805d910a89e2dc9563e7e3449fd5b401ff4d5eac75dce7fcb420d, 0x2c1905b5f00c927a57a154c474427e31f3caab81981d621fb7fea525ccda9bfe, 0xb23502ce04c0f4cb30c0bdb6c4f2a4f81c2ef223936f07ef57856f0a9bb4f70],
    [0x2dc051c1bcf637233ea7c5e086aed7dcdeb51b7a3525820bdd6eb65e578519ba, 0x273d8a4166dc3f53b1ff24c61f1a3b3007a282b526c7239eec81e92f51c741ae, 0x257988be7dc257a0c5dd7078b72f692c755f01ba3c8e57d82d9b969565dbf0fa, 0x213d0fe5a3e7608fa602f5b5ad5b8260654445ebd72492a32ad3991f3a5a6218, 0x7a383e7a221bc76fb14370d4b3eee8de502601a5e4d54b3370c4c502b097a8a, 0x18ce7b3e647ce9a3a90d0ed9aa57eb9a895d596a54958cc9702d8da219623e81, 0x12320ee10efc1f8118d3ea697574eae2dfaf8f29c183abd123392e3c2829900a, 0x93d0e1304c660fddafdb48295928fb6a83114827566cbcde26ef4c87c9fa89e],
    [0x2931b9295d96e5b97364b37daefda7dcbf3dc9f48ab3364da9dc6a7234d714c6, 0x1f533a1e4b4878c2fc2e9706e541d28481ce43b1627d0ba46596906cf3281624, 0x2517cb724d12ee6ebfa7b4b0d25cf0315466e98d8cac3ffbfb1a1bcdee0cf064, 0xe43dc983bc8febeaad40130444ab7f9187185624149a7f274492d9bd8389ea, 0x186bc09a7ffc4edd291579876b77c2fd3eed0b1b83f21ddfb899039ceb77f379, 0x5d22a2f48f64658e181b8ae5e72e1a942796af2bfe6ef74ac9abf53ac65eeb4, 0x1f006e8d2463636bca787f765fd6ac723ad2c2e466ae6324f5d39f3eee58f0cd, 0x28913d42bdf680478ffd17374e895fe7799d9d100196f6ccc30dc08f39a479f7],
    [0x11b557c8d7e97bd99ae5f49e823308bd6e22694225d4029dfdcd836cb7c0ad7b, 0x744b53926e1a0ef395bb04908b13326ae1866a68983c41de56fb7cc7dcce297, 0x2bfb2f2456a70989b165fb6a3ee6f944d28362935cabe516114980f141422a03, 0x3027047944ec82cef6240d1637070c622c5d28a74302de0efd6d4addd4dc2db2, 0x1ed0b5e4b29aeb0b5b3eb128cf031759cb3bc47cc1286657cdfe88c5c411d4a2, 0x263479ee77e44e8b2ab953e82ef63a7e4aff48f0e730f4782b225cb22777104f, 0x19904c84e55e1af3147cdb7f3a428265e20c1bbccbec2a5c8b950417ca2ee471, 0x2fa8468fea3204ed2a934a1eef7c78580a8da30c5ec5922fac89ab92ad81a3a4],
    [0x267c0b4b19662cf09b870e05f7441e042e5b962f73dfd78d23384dc7ea71afa5, 0x2f1504675041755409946e8c5f5432d35849ba7bea0d12512547ae684b83ac2d, 0x204199d64982f574327ff3f400705e0a53b25d59ae91ce0b9d31fdbba1ee2b0c, 0xa087554e5511426780e457757c175cf6187a2efb9568a3d390d3a51c2297ccf, 0x2ef9b88428465f535cb04119f518d1c2052268455f1ab145ccf1693be92416ab, 0x2a96c9f200b477eba78316fc4497e08b2a4384b26c97c7b4ce877cb65ff5634f, 0x43293e61ef1b614850bc015dd316e2c7c54f12d2db746f7c0cdcb0ec551cfc2, 0x1d81e0e280611bf30989c1a74088493504b818b385d04d96ad298dbed9a7bdfb],
    [0x1ad9cf17b8368d98002ced2cf6ef9385a074c5e3aa0b2e12f4b768cc4804bde3, 0x19b30a27119ff50da2734b127ab83299a4b099694c31acc182ab453fc000ef95, 0x132d81f00bbef2804901c4073fcd9c817a63832c30d653063f67fd86482e1998, 0x292ea3ef2313863a1276b1f0e4973fa784dea78a1ec98f4d593947f6a4e73924, 0x28cfb5e0c41b0c77d987e737a5018787079f2ffa650102f2feb735c7d9bce84, 0x11afd75dc84353e2f9c2f05d1f3ca734eb45546b92396233a3f29f4e8f6791b3, 0x1aaf43ed6da39b453120bd0312f259294ea101b678dff427843c0fc816409ed6, 0x19db09df83387b1e4185cd79400609e79f37e5a4658dbee0785dab5dcce32868],
    [0x29cb3dcaf2ebb0f5b0b949e84278fed2d11db8c1fcf35e38189afca16c0cbfd, 0x2881df9352d274f0cfeb55df8ffeb1d0d81fcdab794082e2107e1b0426a730a2, 0x628a0f9594c159206c7627a8f10748a1df2ce582b7604a8e64a7015ebddb65b, 0x22657393eb7ed9f4572c22cd7b9d5134d1fbce295c2a95f1afc6441de60d7fb8, 0x6325f509f0362714c4850daed8744062fcf8098608005e7d08b509bba33624, 0x171d6498b42b39345d56e8661ccc2b576ef449b1f8e5bdc5ac72d9f93dc3dd9a, 0x1be82f3b1cc9d849595d85e3398331186b6e4b4cbdf43ceeedbf04735315a8d2, 0x154711be62f23cd46086b9311b28eeada8d26323f8864de7e36e5543bcd7a38f],
    [0x19ece5d8c0b6cc07fa0119746e7f36c9c8d496ac1e1d95cd5bb8d769a6745cd8, 0x26d6162d8d9c9c60244cbcc1bb78814265fef97a53a168c62a43b9e6f4cb2d16, 0x28bb85fef9f65884e4a99a63a59a906d586cdd88bba7c51259b1fe6a375fe4af, 0x267ccac1e34271971e474179c5800526ceef2f1a6fddaac1de2299e92d9d8ce0, 0x2e6b4868d15390d8014248eec0c7f10d8ee9eebfa64025f961ece49a9ffad985, 0x17039023ba24e37bc4cde497e95d134ff35dde6fe093ed788e4839d2bcecf840, 0x214455d91fc747c6aa9908ad92d19b2dc75a84651183dcf43b9a256320c33e57, 0xa07405f036d30ec77ec64b034b9fc5df2cff5877c3c67b7ab23b9f2d8dad2a4],
    [0x29f6807284b6e435ccc2fc14579baed0a60617e0ee33a358cb316811b3d8864a, 0x246894f6071fc9630f69187cb5ab506c05084114d2efcf231780b5d4b5c4a0c6, 0x4224081b90a67774d15ff98e6134493c01926f7ec25053de56215c145e5da67, 0xd99cfe7649d1dfd292f11773bfff1ce3645ce4212787ed369c0a06b602bab21, 0x1fc76023333ba4dc0f2a8dbafbba1bff33b753fd77e6b1bdc4c796a031b7815a, 0x2f60e05fa1f7446735a3717a9d73728a5b20166537ffeb65707e5f7503e8acf3, 0x1a2b7508921fa054f58ca4d6eeb133453663c8979d6216ec9ee1240b8c894e80, 0xa0aca4924bea6979a56e47af0bfa19c1db7d756bb4aade0a58e5bddd7ddcb4d],
    [0x262a2365cc780f62557c854566fa2c8822e6fdff8eadb90949faa5abd63a7f82, 0x19ad5a882f1dc4971429545dda3db1857b1ca0a246768b3a2b0014ba5a302439, 0x261e3360fb23c08e87b8f588bd59f08cef07bb48a6f1226a64cdc7d4de7e95ca, 0x69cc67cae46ded18fdc725c9cad9dd64e445c990271b0e2d2ccc42fdce0bf59, 0x162e21896c8d1f6c2b7ec16fb7ae7ef8c8ee19216ae189a6ef2d7ebdb1ce62c8, 0x128d42c08444d8956879995a105a336c4248ff9581139122ed9c9d55464ee9b3, 0x12e9391f7f131f13c39725c4414669bcc64c7a41b6764e687cee8e507433e3e9, 0x1de988e46c2c9a1c00d85dfafb1da7509bcb36422aab6052fd1f927df741c170],
    [0x2002cb8a779f93de8b44d7fb08cff50828e0771d65011f9954b424e67802cf0d, 0x28f6e5af2752c79d01a3c6c7d2930fdfb164989c20f905ccfc0982c29365d631, 0x19ebacb5354f7f272f5c12d6c71b39d89e14aaa4efbf987377337ffa3c026b2b, 0x5dd47c695cc6c95e2acd1bfc0ce335cb304a3c3380a94e8b7c070682ca869a1, 0x246bc3c037a3c9ae2bba7e73578b1a825e1672a7418801cc0743954534d9c0c7, 0x1b7ee255815ba7020f0cf78ceb9860815c0eeba268a72cecf9e3fd1a6870b3ae, 0x1ce04f643bc9513316211fdc0bc23c9a52bdaf4bccd9ca18590c1703a2d120e1, 0x2e3a6532afa95388b41ad59d7c2705445d7ce10c88d73411b7271f52ed4c44cb],
    [0x1f91121f2cbd1ead2f70f4f74729a25723721a895a87d73394cc9c1809fccfbb, 0x11082403388a99da0de3ed7d3b873f5abcf71f8bea6e358f5b0f17ca5276d926, 0x3962a691eb42cf5ef779bee82508641329ed9eeb7857f1cecc46dc93046e1f6, 0xa67910e294583739c2b6d18ea5ad74e141bb2a353fcdd93fc3ef83f4fd7863a, 0x1c20f9bd1323709fda124f71e88901235f44c5e48287bf0f43b45443ddcbae5c, 0x111ab56e19274efd47392b70171dfdab0c8cef5b6de579de67f579e86b506fbd, 0x6e6b88e6f0cdf982de483aa04bb9d0fe288ee5863a6892915d125eaed786b4, 0x29bc59d6fba6d692e2a5e85ba50d6fd9bcfccc57e2bcbdddd65881af445fff84],
    [0x261d13ac441b2f30096c1f7f66a6d973244c2c070211275a37d49b1d70340edd, 0x77f8d9273ffda37ed1ea683f69349715f95986d26163f00d41c9e3c366ccbfc, 0x1678f9fc6c4502c235267f4b841d9543208542355ed7db420a609acb8e8ebdce, 0x1a65b41dc302b906fd144a594bea6d909f72fb707500b270837c9a249590075b, 0x265359bf0ead777264d18dbb4c4664301a23b10579368f40b433710b97f807a9, 0x2e944ce0eb653745a45632c070b931d08ecc4973ea091e5dc67125cc9045e41e, 0x27e3025a2d3e82614a4dd0550f59359f5643b86835926aed2eb0a7aa4f06219a, 0xd9848e0d3b8bc8d43e5e6954e6f0181986e575054840f238cab4cb5b03fffc2],
    [0x1ac3aad815d8ec13b035decf67a685496a87b104bf57ef38cda855877fca7c75, 0xc910186f912eef95fd673ead2281ffd0d5ce9c80cc51f6f931d0c75b9c0a3af, 0x248b63a76a024d5cf2e42a1bf70a954f01b1849dac31fd545a7cd74c5c3a1e54, 0x1a71fba60cd363b0be3ea3604a386cd1df466b5e69f93503858c69f5a868695e, 0x15a2869b6363cd02a472cbcec5c91bfa17242cedeab83084f0eedf28343178b1, 0x2813c10731f7694540eacde857786ab2443fb1891619243b8d4d9a529a733548, 0x2aa96905ef42bc1e8452087fe13dc3d55ce94062936fde48fc29f8698ed5ec50, 0xf093d369fad0a0d255bfc311c4a58dc98a1900cf359b3e7d9688f6591b8d384],
    [0x68dbbc530967765cf7c7e69b8bee4ee08d486b420d5339626c8411ca984027d, 0x1dd0cab71570941ee962bd61dad1cb68a8ed8022adff356a67fcab3a6eaf5aee, 0x29a857f084ae7f2b506efd6cfb0672d63ae960cd1979f78d7f55d78259553777, 0x2081f7713f51b3930dfa0a6df8e83611bc8829cd1f8471b7e2e17f480d853c33, 0x2eea374a60ab1a20648cb908e605c6d8599ba601538635c8ccee00cabc85727b, 0x1a1b68bd2951131e6d71952233647e4165bc412da6d99c2197aa397d8d3ee5ba, 0x1defdf14415a78d5e6f287ae6e49ebb11822b8734c9df91c80e08de57b2d4f2b, 0x10040cc4fd20bacca69e26287138be4dac94040cc6224e2bfdc76661106a7249],
    [0x20ce67f32e823b988011d0c33abb0f725be96fc9ab5b2eb71012f5f80a55ff40, 0x202ecd50c82c9e1c79f0fe136518b22551c058c21b6eece43585bcd28cc4ea87, 0x10fba50c060fceb989d7536c3692f0c3243338210d145d6187926798b747087d, 0x2680936e402765dd6ccfdfe2dea719d3c507a7c551123c0f9dd59a58bf8dcb5, 0x102beb4a5c4c903eaef9ecb0d5794154620d7e9de84364fe0583be79b4de7cfb, 0x8d01db18faecd1a26c285be65414bf18ab012d7efb2675f4ae1d6f5e1370622, 0x112fe5d217f33c2d2d19762d286841366ba782b4bddfa33bda836fa2de419010, 0x64885f457cfafe6ece2944a9a935efdc717affcb4449ceb31a2792d5eea6765],
    [0xbbdc371ab6d4296e73ed2078b99fa47d00c44cf51eec0ad4ad0aab9c09cd886, 0xb9e59b699aa688dd12143e890b6fd0e34800d6b440f5f6b6c426b30ad078887, 0xa5aa31d4fab8e109b0fdfc55eb14a5c2d9267d7f986b610170ce5543bfb30b7, 0x3239d50b4a0128e39c7673f2f99d88b5903eb1bb7704c6c0cdd4c31408a7a6b, 0x11a6945949a182759b6f1da60eadaf2c730cce66ea046f8f5eb781e7c45f8c9d, 0xc502ff1bed8a68726803e222b87d59074956d834f2d63817f2a9efed3dc931e, 0x222d9daa384ae2b40e43e274cc07d2dbb9eb6988d03894b6fbf51336634c917e, 0x1df8fe0dda8e51971b917b0ff0f3e05ed4b00c09545351a1177805c50f6bc009],
    [0x222bb8290405c5b3373f1b199969c6d0f9ba8eb772f2497c55c0f551775b2635, 0x7902bec23d9f91a003a928eaaff9647ac030289dd5eacd8cafdd31b93264d10, 0x2c706f059d6a86ea496c2e4693d1717e4098ff87d05a82d738fd8883a82b9d5e, 0x5ae261694bee2446a1813608edec696f252922d33e94280aa805bfd843786f5, 0x186ee2ca779c5c26a193adf0ff47d9f333b750f99b77655011c64b3e8ccdf93d, 0x1c2ab6e96f68e3b2cce6da3465b19e3e4a437b1f209c55e6ef99a1ac0736bd11, 0x2fd17db7e1827169c32ccfc0ad14d9f97c7507f8ef88dc5d6f04b02203c37e55, 0x241fad7570628418ab9748ced53646c2e100aeebd62a6c73804f080de66d9720],
    [0x16b5b53403ee6f47e6100c2778ca970b40af6be277e98b71032f894e6f6a2f, 0xa095842f718e71645b2e81c90b3f0857c8c935b135b0cb25df1541d38c7ff, 0x303f2ba04eedf1425b5d7cc4be2c5088b9d2ef2bf478b9e9b8ce6ff1668909bd, 0x1494435142c96fc94e8d66d9b643e019163c6ac2e4e162056fa8feee51956667, 0x31cdbb9ad28ec57c4e1ac8ff66c791d04b25a28abcadae83a5573e3f3d4bfea, 0xc787dff012f136b89ce3516c1cf867928d7107d218d62d51b0b2d8cc9850498, 0xb20b314907f522e17a9d5da8c10fcf88cb956556cf077457c1e4a9ad5dc0b0d, 0x11d5cadfd04189c6c14a49e8ba6783540adc7ed70bf25afe25df9e2ffd9bc35f],
    [0x852309d50f14538c8b7d35658d89ba30e29aab6626531aaa1185ff0cab8a1ff, 0x257395e7c190b3cdce5f934dbea907705008a30593c69293fd7105622602604a, 0xaae37af5c3a542202935f590b667f979fb414273cc87931610a4b3144aebfb7, 0x1c1654a77feafcd7feeba94c32605f95ded03e13c08a6274c47edb41134e2444, 0x1480cc4cb3b9d9fc97b99e340fec19823dcd2edf198f7095ee5c70a9200995e0, 0x18711057869189126f88536accea4882a34797a9dd96a94cc87b8ea462417655, 0xe9c4735ee797b9c70833a7a6be7c2cfcb962f070caaa649466fdf9bbe5828cd, 0x2e2e38ccea7ef6c29a922b027d31d9870ac0f9d27de19d70039bbd1f90ff74fc],
    [0x1d66369e95c2e76030e380d6538a93278f91ea5dd60e5a316b3dced27fc137a3, 0x29ef9102b5e671edc05f87bcceb6d900484e7ee7402a32ccc77fde2e7866a083, 0x2103b04c1735f7511eb775c7334a0bb6d626fb60937ba3761dad73a84478e3dd, 0xdd1b6ba84a3c29b62923765068cf63c711bc1d6bb28eefe38a0e4861ad13963, 0x1eab4c7faabec58ab9b73b2baaf21e42880b77b0f0dfd30d38e1c955e9dd721b, 0x2e1a3f669dfc929b9cc84d96d489ece114d5be5db8571469f774cf6f6c8022, 0x1214ca424ea151785150d7db57b93cc6bbc8d75d1929938460a7c67f0c791f11, 0x2e174dd4aafff6103164d9165ff8319d9260c86218510a4d910341f0b4e01d38],
    [0x20b32f4a423617fef146da5f1a2695fcff6497ffaba30decf6ffe62ae952c435, 0x29f4dd468db0873491468b7009dbafc79951f3b83ab64efb8dd2e56cc9b31a8e, 0x2519801de4e58e4164f7f0d86994311c87f279a38afc4cb3c4d26cf41c642af0, 0x2ca123faf875de4eaad80eba73cb2a00f22eaf5b6109ef41a65d2d286f602cc1, 0xefed651a61fa30b70937bde9d02b9b6a302a1aab706687b2233ae9b20331267, 0x13e21dbbfd7e5526bdc5075e73dee0aef45a0ed2c880b29b7dbd5c9e6439ee3f, 0x2c2486d85aadbc358b1065dd7b14957e8cf5bf7451afcb394659741cf6be5821, 0x2c97a5d5b9751943bc11e04c2d60a56c43d945b96b0982c8a3f5e63b73550d6b],
    [0xd3876b0553694380adc086cc9272e1770e2f86b336ff78040419e5edccd8cf5, 0x12365c7cdd616d258f9ae3504b37d44e958c816a0bba374278e8b7ad79ab9679, 0x1b60354d16b01843540b8fc6961ff84a58ebe5e42b46d22aeb618e2db4ade65f, 0x3778fc723ccd03ad8c90c311c141963dea639d2524ad972d8496d129e1c2434, 0x2ee721dde852879e1238cb7a79207147b3d864e6c8a14a327e2e558b9df57662, 0x11020d0581ff8e79c8f5aa4d50be2dc792a038bcb61aec4ccea2ec4df2d0af4c, 0x1e0e921193e35b3c42ded003dcbbed8eae46712e15e63aec715f3f7031cf4f8f, 0x2a6c13d7afd6636c2d4d5d36f42c09ac3286b67703ac4d2c24dcf5a3add9020d],
    [0x27bddedea7d8d398b4b6e9152e17c2d092217609b109c14574f932bb02c88440, 0x2e13f9cbc356728e6d2b7a5c593aa9ecc9b900bb98901593d021d61eba6555a3, 0x109af33773e416156885bab0513dc199a0045d405d81bd2a151690bdafba3b66, 0xbf7a121a985d20eebebf624f3837307415ae480954bf49552dd8c5f3e50301a, 0xf78ba7c3e6d15d11292dd121aad459483271b5fe2ee56a63814d5db19290567, 0x1625df035eaa992f424ddc6dc88c1b700ac5e6d5981e2ad0df9b290a56bd5001, 0x1ac7d1f33bb598fe9581ac73b0aad4e9ace99ead01981fcf2c502a71afd56762, 0x2d37296ef0cd5676d0809608ba340cd7b202e2e1c2546d989417d303ec319337],
    [0x19caa62c5238e03ecdf75bb2c276be1805be3fe44a957d8aa3bf07cacf1c114, 0xf32dea104320ce0f00919d90f9c6c76d496882791146c522a8acaceae3e4a48, 0x2ce5d2452c0a5a9fb65a4a6482f34998865be9a29f266f88a8affa850f5ec6e5, 0x135d590de80a0e717da7325c781aa167a25e5c310d92df83120e891cced24a8b, 0x1d3ce96a7cd79e94492e32b8983d62fac736499850722f7fe7dd1589706ab693, 0xea3a1e1f5dca3ff7d8671f2fecfb467f6a4e6516c8038a9306b36dc818321b2, 0x1ed08c4f0e16d144059100f05fb463098e3d869f342e0ef8b4a47afe74a83a25, 0xadf612bc0c24e826135c7de0dba90fbe1bd249f7424f1970b52e8bb24d986ed],
    [0x240c424a024e59bea3a14fca73d7b63869eb9b68746ad9c356b93fb6eaa3e22b, 0x24dfab7238b05bf08f66fbe599763f63d5c70a181a7e9fe35daf0479e2b1cbd4, 0x160d79a03959c968dafb76ea3e08ffd2ce117d094e820d5e9f7ce1debd3bb08c, 0x1b65216187a1ca1679642d4c40aa05bff725bfa50248aa89d57f570c2fe9345a, 0x243503bad8adaf14a8e565013863c13a77f6f7a0fff571c1275b18f54bd77351, 0x6c2ad47bf4de574cacfba515d18ddaf782a8addfad1c18ee4391163c541a62c, 0x214366673d387148578fef89434bcfc7e0ce4eb08661904026b30ba10f3a1341, 0x1db81d98b4d4d83226ae4131301c8e3622a32e2b7884860e85257f5f7b7e6de4],
    [0x29d2bdbc19896e8faf0ce15d7c883bcbfaa38861d7c92299a6bef42f7c443f0f, 0x19295f72c5907e8d9f8d8cdecf7d193fa86404cbb7a85522f7fc33857b7a9c88, 0xbf015760770cbe8e6f69080f3aca18258f2cd092e33d3ed62d8d19d144baca8, 0x6cb21aac0be8dc2528c3974724b38d73a918530976ff118d08764cd42e0b240, 0x1276fe2c751ba49fd5b75cab5b71f64aa0588ede807db1bd583c3d6ae6941356, 0x2a17fd8041ecd762f528d12067a09204f9296ea57374806c39896fe9499b98cf, 0x1904e2bf9c0512c72559e71e3f132f65259058f7d68b9d7d6da1a8f9f5caf674, 0x115b5eb99233a8a2200170733c4743b804c601b5d8d4656a138212d66eb89d38],
    [0x6b58885f0e09be6ba91176fc8a6172bc16d680f888a3d92f31a3bf213e7ef8, 0x13c6704e90535352934dcdc0483b4bb974d50beb7a5b6be30af0e46fbd7325ce, 0xfbbcb96ccaf43c773ba1ce70613892543732feccc872975b8eb73e3fb4d54a5, 0x59b4df63dbd2bb66e0b2a826c5cbda96c338fcc38dbf9e9c46041918bdd8bfc, 0x27d859e7868c99d80f99d181e6ef7ea93a694623a89bbe57a6c8e7ee54be21fe, 0x21eaced08f9d0b42c6fa51f59d65f96598e9ca50d6cd1dd49b84fdc0646ed68f, 0x6815b7a3b80971d05fde6d7dc5cd2823363f38d0af5c0ff8abeaa71a323a2a7, 0x6a778d29aabebb5a3cd940b1c33f05551217b6005248e0e716bd5a10d558c6f],
    [0x14fe9fb1f167c6257ea010088115769e62b60ef3add0f3a22c9fe7a4918e94c7, 0x90305dff314174e27edebe574bd8f0c8fd85843e7d2627db607b2816e357dc1, 0x2ce23dfbeb8e1874b9ba894cb85f068bfb0497555cfd3dfaf3888aa492d20445, 0x1b0fd94dd9cfe774d9146be584ed0b25cb2c7495a708247f5763c2380e5c1cd5, 0x60bb716ba723a4e5f5faa179363a36774619d1e0cd91bf4789a1aadb3e612aa, 0x43b10c508e8681843eddc05e73b95b7f54da5a93b701cba4d6822f9c9dcf436, 0x126734e9502ba9fae4a314b67ade6ce8890e304a430e6c9f4fd60cb8ad69950d, 0x26edd35db97c2ab2ce27b503592859b4317a25a688f9743ef0dd9cc2619db7e7],
    [0x27b225e4a981af36cea863f591c8bc5aa95a4beb6d5c9abc5e03ba906ed72062, 0x1102728832f751c313ac6610fae58b9cbd511b51d6121b3bfa60f47db12518da, 0x18276cb011bdc6d75eb1c7d5d06cce10c7c9079c8c9920fa389b116620ee4141, 0x2502d7dece8cd7d7a04a1730bfd2868fc64f835dfe143cee18480c7c3fcada76, 0x6b20beaa575dd846254695068484611bbee1ae48285ba2c3d99c14e62581a2c, 0x63ab4a078fcb212275ff5fd06042bdbd17aceae994e2c27a1ba876139f8ec1a, 0x6372d5952bb69a460bf1333ef4ac6b20b07ad4ab4124dd4066a6cf66f406993, 0xf41d4e3ef55da71cf4037c49d44c0a641f52a5a174f7abec522476e3c623ce0],
    [0xf0ee9841b21b9b223c1d1a906993bd66b0ebcb7dafbe2b802bb8165c6011773, 0x1df2eb2fa423f01396e073390104cad8004a6a5f140a2b18ed658068167521a, 0x1ce05bc55407c883a5a41792ef3486ff22e403d38474cfa90f5ed30c8d30198c, 0x37f1fc7934bbd5fdc34388bfbd0f95467254e5df2b5b62caed0500a2594ddad, 0x1bd6a614004398f329b7080ffe69d3dff6de06c819fedea24aed16e4c47164e7, 0xfc2e5cff7e9efd46fee62aa3b3f22bcc9f1a3bd8917e2e1cf5aa334d29d2a06, 0x274fa4e3d86e7ef8b0fdf1a81acce8f9ed2f2eb4627de75781a813f106a377e7, 0x193af1c5fa057ce682ec728cea90735935a22b5aff46ea2f803a29421aa950d6],
    [0xe72c33ed6055471adad61d027c5ac1bf75444fc4e14988b42268f0787e29875, 0x1c75804a4ef1c81c83684d688c4429ab1a7e517dfc602c9a2443c59f32ee9614, 0x8803f69d83e0c3397e09dd47a80cf9f4e423437008cabad2e50110456c8c60d, 0x2d1214ed17bf81162a5dd43a3fdcf195fbf47426044cb22db538478e942b07e6, 0xc85b24b79ab57504422135fb1cb0c5e1e3a5f0a06103c2486ee6a3eefac7288, 0x2e29f517dd1b30b791bfab03ce747f950202f0eb8267ef3f71ccec40e91d95e6, 0x13281c94a670fe5ab09773af42606740503509efd74c1ed993bc6afaf3d64174, 0x21a211407cef7b0442160acc9dbfce1a1e1d58c9e98f381a7eb48f7bda0f1e05],
    [0x85ef1e77f929bcffad1a93f920c1d8c8b3632e1e1a1ccd4ecb01602759e087e, 0x2b6f796de3509ea703c8da6276e3ea154b504170c59a8ec4581e9757d74ba759, 0x1fda5074fa5bae5e16fb4f2d18d589a7230b9a1c1e4d08a8069fc8d45b1de3cd, 0x2d22a3c0d324750d3be31219af32a8282c372dfde4861ef86ef15c3155dcf14, 0xc21f4f4bdae07a79bb3a98cfb351aa629f3239c4d24aef92ea79bfac9c2fa25, 0x1b721ec1c1df81c83acd7a95ace16b3e2ff4297aabb6f58100b5dab06d3dc404, 0x27ec9e9e923edee58189d6c7f303ee3e5249c5aef78758c7f511cf87b953561f, 0x1ecf1060366dea9506fda0d01cba016db9620090a160d5a760a75d12d5d72e78],
    [0x25d432df312e005c69a06a1f004ec899575034da26392760d17acc80c39506cd, 0x17a0ea51f9a201ba2a0f857c9969a7f6bc6f5d5bc0e4957e1c0dfe4b202e4a24, 0x2d34c47b847d67c9b4dc313bc714ff223ab01127806ff6c922d8763f142024b, 0x20e59e5e5bb0951a660122fc1aefea294e7ccd5f9c79839282ebd9e119f96ca, 0x249c9c850173dba0ffea3568c28416020121c3d9990dfe2e917377467759267b, 0x1e8ec57b7681d631a02d530c9aeef93775869ef093de92014cdf85ee2d459da, 0xf739dcb9f3ee6e7b5519774b540b2898bb6cba3629bb6c60e423b7eb6b5ffc, 0xe016f0724fff85d781aeb1548d76c566e5c26aa7996edf504e4167285fda66e],
    [0x275270828b9ddc964bb8d68a6258543568c844947ed5ed94b3180cb874c68325, 0xf1ca3fc28aacb8ac21a5b44bbeb0ae64cc339de13e04c74fce820f4f93e48d, 0x216b2f89c90105f570e0911bd1ce20e0664ffe01811cb777f90376719c0e20f3, 0x1a91edf90950cb2689d2c29cb22f8dea61ec41fb061f1b6002f72265694c784e, 0x2da3342eaf39a2b242713484462971afe53df55bed5f5d50d67d9138cd78fe84, 0x29f79c86f5a9c96fcaf2296be36425b72afaad4865cb9090848249158e2ea4b1, 0x519426a15a599f20d2979302067dbd1454b46539c9499c65f6195b55c760337, 0xf9c475cd72b7e2e3865e96baef89a149eacd3ab340210a9c5e0de6fc082e89d],
    [0x15f1d711979dfe13e45eeb9759a89f51db3d27594985890b88c9bf276922173a, 0x1f083ac0549a1ab00d4bc9066f05494148f60c9569e7989941c3f50fd6acf760, 0x1505ee4f79bc8187856d5f3f5a24de97aa082b8d452c63b17ac3a591451b747e, 0xf20876d712f147e2fb9f7be6a51f346ea28447df529eb41342948fc2d8f096b, 0x1696d12d9ae779c92120ee715f6b8da11ea93af2673715a2df7731db91e360dc, 0x28485f438eec133b0be36b32fae82da57fb4006bd7f5bb15a267e7746b37bad1, 0x2780436f9da12461fbe31d979656e6d1a13386e0e6a5309b050ca819e10ad945, 0x271ea863673332df2bf2471e6c8935b037ea8318ea5b32379583f611e06b3da6],
    [0x29f1ba4b29c1daecb9839bdc08431bcabe68391ca540f68b484a4f8e96a9dc61, 0x294f4cc728dd423fdaf37377e069aba66f4d3000f1a559bf4c449103306031e3, 0x146b521b1c08c9181213ebdbc2a34fc3efd87ddeb1bfc5e5d17ca951f55abd17, 0xdae0af973ea0b0fcdd8158ea51b9efdeed5eb664b84ef67eaa255fe4e55f3e2, 0x2604cccc370f0a50f3f726edf1242bcc131dddf2697853276c079ebfb883d8c2, 0x2873b19db1d03896d3d52d6f9361e3fdade5e7b2e6833e4d5ce4661186bbbb9f, 0xb04d090bcc4cfabfa47f60043859aeb5f33a6de205dfdf0e3d099d4a8394e08, 0x508a195c0ca583ec10156f205ca1bb6f6917318b8ed6ebb7347b77d72dcf748],
    [0x9262dfa80aaa0bc61c5891c237a519d3808c53fc05dce3d71f17c0e3f2a5eeb, 0xce6d25b1c6c1b89fa005c23619d877f2ab2fde708d30923669a49fe25b3c7dc, 0x2e69685b46c8050268dbc1040e23c739d7216b2c5e76108136d6895ded3ddc44, 0x278fb3df3fe913657bccceb553138fa7b8ab6e062a5ddeadfdddd5b305ff822, 0x16da892ade35754e57d8f03f3e6f4110a9dc1639d9b6de65e479165ca49f7a4e, 0x159754924e7334854ff803a1782ffc059927a3c26dc43e661e09a1261bd7c94a, 0x2212ca6487b845ba4d16c09e224297d4b1a16e341e6c593d7fabadada3929d7a, 0x2dd088de831852d169aee1d6be69b52c5dee0b73e18fca91cdcef9b90396a047],
    [0x24ab42ad6749a14fe2f707ec53ac3b0315deecf421b9753032533e28491db30f, 0x2f6466e50ef3c61a0e6493b18d34911406e2e97d3551887af808d67e1ce9ae27, 0x1f5886fb8618c8711ec08de9477571f0eb6e462b8f5e5349f85631f059594480, 0x5ba34953959784a57c0019e916e2ade5d6a523110437cea9c2b94453dcdf2a0, 0x27aee67a3c6ef783cb55915165a5bbfdd86bc06c776f145048bb2401dcf17341, 0xf57efc05e9f97e7f68c694ba2b3bf216eefbd5c71710a56f460682a6ba5d5ef, 0x1d35eb4a40a41dd77506d872a458ac93d7336dcb72f15b182a6702ca53b94eef, 0x18a33064586d5a702bc4bf64f70b44b5a77918255c2dffbefc537e40bd5951ff],
    [0xb0ae5716e42b440b7423bd899319c880a4a674550b7bd036207e006ac7a2d21, 0x1136a0f6c004a2c57d21a00c40dec6f027b140b36d3594c1cdc1b0e8707b62f1, 0x21cec52ac4b2aa7f80f98eb75b4e0280591977d50b677b8ff10b0a3d028532ac, 0x284a636786fa63579b1541746901d48e440cf0c586f1b089cc45e8b830fad22e, 0x1d4a0aba0cac51c3261f7c483d89628d76748b0833cba6bbfcac5243e4bcb4da, 0x410a065925e90fc70ed1aaa46477a8ac8193a10c48b5d84fb5e9cf2123ae24f, 0x301453b23d055c184a65ad6a6acffd9f520637fe751ff7b769409d512fc92f0f, 0x37827104287d94bbdc06584d36d4d5e2c46c4ea224f4e0dc0c3bb541f053b79],
    [0x294641ba8a02768c5e3b7f542d281c69dc2c3f2e8032f864295a64b08a93d993, 0x1c12f993f0f1edd809eeefae6932e5b88738b336bbe6f976f5f7a0a178ffeab0, 0xcb2d948d38fb8e17c60ba6c67608c9ffd912e0a627eee756b8d22af8b9e5e43, 0x26f1ff731268d9bbd26ab33e588acec09fd5a4b70d60b553904f5e2d05e894c5, 0x9aef8a2029f82b76d80ad8a3926cb6e1174d8b8b89c59707c123473120b4c7d, 0x1be80cab12f4bd1737796bc770f17073c6b0046c327bcbf3a36e26406c775c74, 0x2476e7bc637f243d23d762cb3e2cd8430dad89762576cbdd918428a75828836a, 0x196d707ca5a9edcc0e3103aedfc60abdd1c9e577354d930be0d5b6d03617c209],
    [0x1d262487237e8503908d5375a1a798a9b8c0faccc056eddd8aa87d0a66b07d24, 0x2a21e03d41154bf3191f1a834b9af6b23d40bc01d027c2b4841fb23dc9ff715b, 0x29c647822a1ae565b2bf1249edaeba0cbb3ad730deb6d2e6618fbf9e74daad9, 0x23e1971175b8fbb26c0989dea82d8f4a3f708774c286e4ed2f8dfaedaf3db5e3, 0x1306188b792368ebda1f2e31e846854cbb34f175e01c92457959ee1c6da0ff3d, 0x127d0f7eb9804fc20ab4f8b9409834ae521645fffa86b0c221d9223fa0e9d2b2, 0x2441985bcace35a81b1f81fc6621215df0ba42441e450fc65e3519a0393b1196, 0x2df7d4eb115114544ac4f52fca36d6b33f09f639253e9e3549d5987b0e097136],
    [0xf6c5518f92ee2e549d31adbb4e78036ef9aa3c2164c317aca92203e3b99f940, 0x26e2cc9dea47dc6807f87cd87c531b17a7f2f5ea86ac094e5d5a22fc3433dcdc, 0x1c71e33c864b0a8de4d10dc26f76bed55771d1601a0e04d399cb2397064c5cf8, 0x2a2f0b563b4083766c8b6c60872c32eeff2b207a1981c05b1f396178f01207af, 0xc1af0bc5546250a7fddf1cbd3e7bcdbaf74ebb979535e0b343676dc9f9433ca, 0x18bdf2e7078dc40af1cbe488cb562fd32120499c4c972a6d43b92ce167ddfe5, 0x22b36859a16a8cdc3df10af2820715891f779660a1f9a25ef652019f640bef06, 0x10e697dbbc43c7ae2030f5d49974f8344d5e48ab66d635b41e7b96fbc7c6289e],
    [0x57deb4fe56390abbbdcd8822cab5da1207a0ad79423920622b0c4a12fef3552, 0x12b27c1639f162f846fb37ae7144f29137682ee7eb1632e791b4628aff4aac23, 0xb2c7c76d01843a2d14655c23e8091afb6f3559d66c3bbf3d115dc9d70db5af2, 0xb7d9684c0c8eca0e8c31634c9fb68b2e83abe72a3679b3678a8c9b1a13a4895, 0x13ab0a7fea9b2c828766d2fabf574248d2d7f7b2f8e60e261cef29cd916e9a2b, 0x2de3579d790ac367f66d90557b54668153a5c37d5391e92a6a5615c9d60be979, 0x1ba010b6d63b9538b281be3764e8e6231642c6a6735d89c9808fab7bada21f6e, 0x26ffdea8a8d9894ebbe02a705fb7506e12b1a7f100c5902584e4dcbe1f2119ac],
    [0x11ff1619a49d6abbb56390e3dbaaf0c1cb01b951a734218b3cbda4e8052ccba2, 0x260c36b80890befae89cbb3478b9f7b5b3f6b11ded47aae2c0d5e0c48d8e5174, 0x5ca88857cb0dd5f380e592aa37f6f94f7f0c3262131cef29948a1a49fd184fb, 0x18b3832a19eb7ee1a9dcf574302ee063ec19046b3b9eb7fb277a48ee8390e485, 0x2535291f03dad1e3c540e7f26201c2e330188fda58be783067698a1739f79369, 0x14f832b38a9f43af26e5ec2fabf6c4250083cf87f0ba86b95053e9182d1373e, 0x2548e6c4767c67691af55162d9ce0e45e89ea08a4232fa0a223fde869bfd3ea4, 0x23ecdaa3f942bd45ba46f528cbc81a51ce1425039f44781a7696f48d29dfbd1],
    [0x1611bb59a3b28756b840db3189a3a5ea22ec16845472abd68570ac771c8f15ee, 0xbf7618845013330ff465f12ca95079ab72d0ca9d8a7e633048c11bf2c46c7ad, 0x15c88fa2eba3d087fd29f6de6fd864b875662ffa438144352d684717cdcd3ccd, 0xd58d12798ab552f96f0d951e97cbeef887d858656b1f6af4010c80091b0c662, 0x406eecd7bbc21eb04fa1e565745cc65445e4f82f4a241efb8bab06eaf9c7cbc, 0x2fa88eda065714b9ae5e18456130e31bd6f48d02b2415ec61ed209ad8ddc3164, 0x1749863aeab13ca512261103eab93b43fac53df6b04022c7cb7f17638f51c29, 0x1553263a318edf34429d901f3879932b72f5c32ad56e900abf47672f86f9a62],
    [0x28b7a8be47c2239079a01dd6d0e57ddc03fca9c6a58d3df6f234dfe82f96aca, 0x2c489bef0fac19bb187e5f8a064e67636f34b289c2e8adc76ecbdbb5105fc1c9, 0x1ff548c6690f5227d576668fef6741f999c9914cf4842e793fd5b5194bd0c3dd, 0x3c1b551c84903040faf3d6db934e83dafc5f0efdeb7a8feb27547724727a344, 0x1ee3620e8f0dda8c6f155ce81a9376009bcef2c8d8f6f266e04b7b80ac8cf867, 0x18e45fe7ea171fb11d0c4af5338568990f22147e14421f336fe6e0bcbb8a0014, 0x27393404521a55e0e1a4e58c561180040c18682814882f45aadd131b9f08753d, 0x7ff6857011a24b20d698ad43a5f959acefff729940e346ab18f9d2600f83d05],
    [0x2981b3a288b4327839542c5796ce2f09af9d022a604ffad61fe0077d76748bfe, 0xdd5b0b8158e8a73995efd0b9d898d4fd3587011fa586cfe02ce800f3064033, 0x84c05fae73cbd6432e622cf9880f0d28337c6874b87b88ec0b45a55d393623d, 0x1e2ee2fee9b9bf8d3f3722e7028ff3af8e5ec6319fa6d8997dc115e5de2ea8b1, 0x3418fc5909b62b0296e6eb42aa07a971050939e99ee371f6412e44e0ef577, 0x1c4994a2d41258064376be5cf3c99887aab74803f67c12c64e65aaf7f1ef56b2, 0x413c2b38733961feda0a68493d3cf44febcd77952b8806ff583e8c40b31032e, 0x1c46ad39455255525b267b8a0533c5c66504f81ae9534bdd091ea98994997f1],
    [0x232fa2c090ff3ddea83adca0b9cd0e0918c9458b75b0ba3b7d677add820be289, 0x1cd5701c80a10f420eb34f534738c0dccfccb6c87ccf9aece35abab37cf05fba, 0x3b981fe0c71882c6194465537d5e402b816118aae94bf8518eb07a529e4ea54, 0x168a588900100006443658a61ca9d659f0ac451d1e0bfd5a6c6a3aee85723bea, 0x1e51f558bced240c65b7cebcdcbbdb7a9ab06e3580d46f318de84edc795e6f88, 0x1afa5a8c5fce396de56ec97dcf0317a6b7cbc3ee1f8e9a3bccd6d870022b750c, 0x1135efd63e8f8cc9cc0661dd49d36ac8ebf7900d90d66dd5fa816054d4017dca, 0x2914d21c2d2845ce2b14e951f42103599c8755015641db03c54df337103440ad],
    [0x20c87a2d759749aea9b2f0f8cc01452452e711e39eaf5a8b07100a197127eff6, 0xdb07920dd779c19fc1ea8ec5323d5af0d511b869db67dee0408785ed922905d, 0xd631f18fadaccbfdd3b3be46772a3bcee276378cd2e46baba90d56468cc50b6, 0x2c500f790d463fb136f2d8d4cade62296e7d7c49bce18395b3014c9fc72d005a, 0x176a9eba97635d1e59b19faa2b3325a5b1a27376a16dec7317aae4afee02bfb4, 0x1202fce1a501b88b455ca44788d55214baeb3b54e37d1cc80f3d6ec0e09d4747, 0x222948377ee9d27fc6406007e1727b566b825decb95096c9aedfa8e6453a5cbc, 0x2ec66fc27d82aab2c98eb50e67a0932210f3c6e12456269d57ea9095f41166eb],
    [0x2f5c233dbe3571836fdac0915ce6596fc0844fec3d0bf5a9b968ca58c45846a3, 0x13889bb59b9c07953b52f66123c8c1380e6f272426103adcefdef4dbd2865da2, 0x1cf78f25faa52c747312d09fb4e9abb4f1e55a3da349cc8dcc6dca81cf99ac3a, 0x2c0eae2866d65c97077047d0f4c43c28c8d7f36af6a9c6fe07ec89219f1cc735, 0x28b816cd8b8c98163380066d0a50d8b0e06ff1c690b81b918c7ddd08a6b7066a, 0x1d46d91669ce5be6554fc3ecee895d41fdaeee189adee381abfb75ede1488cfa, 0x1841e03b9fc527450e4470aa8f0888d9ec8599db6b0f7222dca26cd43d22bb05, 0x2d2ead7b2078b09085805c2777c90f6c55744b49a73bbef04c899313bafa0f57],
    [0x1830a8db342676cf7492281b4cfc7b138c55d44daae47b14fc888e5bf745095, 0x74e4ce32bd14b01fe9f6729de2a12f218fe443fb708738a860f1910bdfa4678, 0x1fad4cb140fa4d559cf9525fb24e7f17494d239af679a030e7d1b7c9cffa949d, 0x1e50c6526c7324b97b7f338752bd700ca5bd6c0efcb225260224556d76a28331, 0x2cf0359b8da1abffffd73f90758645793f5d1112fe898e8af0c61e79e673e5b, 0xa14ae497b49785ae7771f0dfef4bf41857bb2fd1f27d15c3cbc8ce3df9895cd, 0x16bfa02f57735662eac1c1f520b4b3f9c4bd26cd2792177b276068916954cd41, 0xf6fa95e0117b734579f68dc59736c7f9afd9cdd4a90e13629eeabfd84525e9b],
    [0x1d59cafe27bdfd78f564894300763436daf93f863c3213c1a849d1c3169ba771, 0x289e39d6a2d4bc817ab104443b89b8a608b13bbb93b3ade772a63bee300bbc3a, 0xd47edafd6a8d4651c27f6bee48e9756f5d6515af1a3a3512f59e9e3ebdcc331, 0x198d6aa9072a06de13128d7b17157f85994a10c4957262770cc4f59e6c6d332f, 0x174b80e4210f9d81be7bf70e3ab0b21de8065f7222e80cbbd3cf985d6aab0f05, 0x2d78036ba0948752ae78b1138b4b9c4b67f0d78a9c8965e1bbbfa356158532bf, 0xc1ff404599af823908f32e607564f521b75812c670543e390cb02e3087ce924, 0xa561b578f4be4c533151da1a529bc98f4940aa5b48f8c012a9c181d811b8f34],
    [0x2012a6ed245e48cf65030289a1cd01d26d3eb2e439bbc4f16f256adceb40bdec, 0x824422abb64b758f600c18e6b998c19d82a9ffacb95f9eff9e018d5afb30baf, 0x250a091bc91301bb1393782a7e21eea81c0bc8e68161a3a4e5e4a8a7e30964ad, 0x1a4adbc8530eace4e19696d77a06e1eedeba3dec2e44accd3acfd7fae6d076b3, 0x25a511f7b8595b12278f2b05b4ed6684ee12b1d298fce27ccd6787b5a86e26bb, 0x7df25e8f76f32d99b99dd04d927c1b2fa1903776636e38f7188d8c2b73c3a54, 0x59421ced9bb92262f97e7c7beb8135539dd66bcd6f0bd41bd124a929823f75c, 0x26e1cdacde91e112796df70dd3a479b595b8cfe7c4c95b5956ed477a07813842],
    [0x298083deae9e0cc40a9b60e494e44e6efe93a8e0fe21181cb1351d97fc0d954b, 0xf01fc7bf4d2f1ec8cb1af8ff17715316fc44387d515185f49a2443ad2a14ede, 0x186049573b3286b17003f9e5b27b8a36a78b8f32efbf0510d9fcc8fa7e73c5f0, 0x7335829d8e3758cbbfc4cc49b655ec758086676b4d3912da39f2ccdc4a28d14, 0x19d072d6e66aa6e034843cc3d7ca51c47df51f35dbbf4a99d34293fc3d59624, 0x2bea340a223b6665f5be6dde2eb55b40a05aae26d349a6c4af07e3458ab9be5d, 0x1b90f5c0e53409f8b573056438bd9e6395f5256fabb16006c009bcade1eecda7, 0x1932c3f3e1c4481420c603e23f16029d8b97603565f6314184776d865ba2e7e],
    [0x12e4e9f31be336777527af3ad443884e353552da362921074e023f14580b5e73, 0x25e7a09a55698b0c7323472b2409654ef12f2959a7656c0dcf35ad9a7926f3f1, 0x178c9238fb91fe512f6885e512e2a59b7686a34aed0fde1ddece6b1d08d422d4, 0x2b568832e6262628c31e405305f88402948b515d28861f0dfaef24921e7e352c, 0x146ca0dbfb0fbb98c162eb84b37228cfd7311e0d15d2e48def85f9d207bd175b, 0x95371673ed3ee55892e373d5ad5c760268c83df7f50d44d29d366e1d7a9373, 0x51c57cc37343989744272869cdc94c0660bfcf6ea1c1c7ae51427fb298c9db4, 0x1c8bd96ca390714a2b0079ec38e25af0fe7a69fce1620f376f770e1325aa65df],
    [0x1712f67e82f90446550d51c1d2e4ebb1475d6e6043a5c46eda3170839785072a, 0x1c3363715dfea957de9614b6cdea17066c385a8864dad5b43aff09c963573925, 0x2672b8adef74adb0b71c0166de766a39e5e1cae03719aed0fccfb7ff432fe916, 0x10635771a37850c2417c96b7f5fa48a98734ffa59038d8b7136cb5d0c646e1aa, 0xb16fd5ba97f28f5619f6989cf0d665e908cfe8a1fc24e5326461973d09bf0e7, 0x27df27e1618278ed22497590175692d262d4aafddfe34bf8db619c37a66068, 0x36ab8de1d7df77301d16cb576a1346fd196d25534b22667f50628769ae136ec, 0x49ab0f37ec5bcc724a3ea321a91951f90cc00afdad5ba3d5081706df5e75e6c],
    [0x112fe3f664849af9f494ccf3ccf0d4b8f1e4a600c29631d059bc6ec343450c49, 0x232b3e1d4715272d5f18a036c137f0c6fa56878c9aa054cc33064e2a5d30f567, 0x56c91dceace41ab131a1c59ce4a320857224a09657ed82f7141e7619a5db545, 0x144cd983cfa259516382148e290dab14ba9b5d8e6e76b84ddae2ab086e7a7952, 0x1d21aad5c6b407e6eee7d0b55aa92ce0a32a39e918bb32bc8d45c28094a634af, 0x176f60be5a21b98d3469e1339bd5c7a0a8ee84a0d34339bef675d064e6e0a466, 0x329d048658d0eefed7f3aaa9bc143b0c26636f13262176d650a1a7a2044d34b, 0xfef28f114d6420d1a288f960fd9dd40bd4a5a02d58081621711ddd2887c757b],
    [0x8818813ba3e9a9329254e78e00a83b360c905c7202459cfad0ab47658276a81, 0x20a128b7112994e52c4849bba8d1217f13a957bb4d0ba6a0d97cf1914b65b07, 0x980db3c7d2c8866e9ca0902c3b8e0a078585951ea4acbac245b61cf55a703af, 0x14f2bd6dc317fe19126b583da18e2d7175cfa704c5267b848a2ff9a12bb188c4, 0x11226fe9d81faa6c6a35d3a12230d63245061f2045361e757aa0c5ba7c5b3152, 0x1fc144aa275cad950ee4e3182bb87783dc45906b2e846e2703228e5d5328c1fb, 0x7858a3e15adfc14141090d972cdda3461908dbfd1c91b7e9b991760c1d47749, 0x19284489d7b53ed2549c5fc66331c71b9b31446eb3668c65d85ad094727d45e0],
    [0x587702c19b9737857f99cfd021f8fc6af71b428e3ae90f9f5d2ec8e7140f5d8, 0x30602b296ce2450d72b00ee8cece9f896842ff3470b98e1cba2a1b3ad87539eb, 0x2776dbec079a5034700cd9c6e21404eabf7c13fa17d065a2d69d2987a718e78e, 0x28bdd009549a97fd0c29e9c30f7af9555d864aee05ad1886fb918d371ad29e90, 0x29791a2e17dc204afe645306f584ad767f2be949aa6d061f886f21d0401aad14, 0x22a667b65908699a22edc1697324bd37ffb0f18f00c0ba7292ec8e05470fbd76, 0x200d4863b2f35a853b7d5dcdc22bcffd8f45b60bd036c2f94907d873e5d95ca2, 0x18bdccaca11c8a10a12be6f7cc96d4557dd9cdbecd5f841e87303e3a312e9e23],
    [0x126ff502714b58c3a40ffa3d96df0de4e8aff3543975235bf3510c7ab22d897c, 0x570fa4d1c92cf2917036fb2d477727e55b569b4a58891a07f96c500c28bbce2, 0x8c84000db8f725655f47432db3a4dde514dcf49b40fc4d301a17ce5d7228feb, 0x7212da8afb35376a4b9f93c20f7419ec704b22c898b20ebbf3ac9f1bf513038, 0x28c6bd8667a7e5336ebb7e53c724990fc8af6a059390353bee16d8c8dba971e0, 0x1790e7a8c59ebbdce18ea7b9be261b8848a8f5c69b3cd7a7b63a1b1e6d4c926, 0x9ce10751c2b7b90bce0d62e8fcb29fd3c8a0d286e93411fc66588a70a14a4fe, 0x203ec579417ebd5f056e1346a8c5be34cda66c9901fbb0bc27b8d773de7f665f],
    [0x2297981100bfd0bdbc495572aae5ed5676ecf2b693e33913b8fcffe65f57f4cf, 0xe3fff36bb554a017f94e88130957a975d343d15c0772a67ce88bb1736db3e5, 0x22214f9dc31c1766784846260971d051aeee92226b6f13e2c4678689ee1304ba, 0x1eeccaaca23a1446309ca4c3d9b7d07962dbf8bcd8b3b37218f4199281263327, 0x1bd52cf0abbd32e888d402aac0a358309bc83eb74256efa17edc1abad196bf63, 0x26cd8ce2ace79114e2ee96fc1ca3801d012345c68750009745735edfc4e29d71, 0x1dd921013e6519e29b9aa0f52cc8c02fff3ad7af6a187ef0e90635008406dd02, 0x10358e1cb8ac12e54988a64bee4f1e94921f030a6926a00d57236283ea0c0ac2],
    [0x1ca1168b167aa5298bff96d82356b7387ebd1d70431c30b1c0c0df81fc0408c3, 0x8d1ab2692d291aaef2e50985c869485061578a2dfc37997222c81ef301fa942, 0x2d59780dd0a00a869516c6a0b300ed06f6fc39e0f9ead60507cb24c14444899c, 0x19b30f06355690afa779693f7f99c4a470f8ab8abd6989993d489a9b17180cb2, 0x1b93c9367d56b207bb1a2f171b56208c6aa1279be2572c1a59e65345d873768d, 0x2f8b45e1e079448ade818bcb785b0c8bcaeef004d956142347a08467e1961809, 0x239af691b7d6edf2761f88deeaec665169de99399cef819dcc37b4609b6cb4e0, 0x1260bd299d9e99321561090559b3f90afed3a36f36c4d397072de293d34cf8b3]]

/-- starky/src/poseidon_bn128_constants.rs L11097-11178 -/
def m8 : List (List Nat) := [
    [0x1aa4d470abeaa2357079129d114bab1170944f929fc178216ad847d4430f3f27, 0xe1f4e4d26e9da5f8ee3deaf48b493610be61d7d3db1d9754feca30879adc644, 0xc298c14356a5a7f226c5a549e59184900385aafd8ea41d9746729964ef75f34, 0x19e070982d3ee675e1622ca20d13b2375e528b676706882eb8f1afe1c5045ea1, 0x333e2923992e89dee570a650125eda75a20a72e69e10863a19d17b7beea9295, 0x1944aac72bf6fbcdec04361238c3c4d9510d5f07439a1b6ff41f652990be0139, 0x27d802ad019a42fd04892ad167d9e83596a730605890401319661675736359f3, 0x2bd05a040a0987ac6bc01f67242d54b7a2c527a970ad2815b273471eb9623e73],
    [0x254b8126f45243f14dd8211df41fe5516b35952d56c62678c148e73cdbad3718, 0x2089c597feaa4ca9a202edfbc823763100e294c9e33000e513b2a216491d474a, 0xddeaa906cb65f3e9c9bea6344dda8db90c253c0f7f99ecef88786fefe0e5cc3, 0x1114c9120442750493d999d4dd45dbd4f3b75ab183209235396ce83d8ee9916f, 0x2e8b35a8c29e639dde8dfd49b4b347f00ee467863f6efcb355fa1534ef70783f, 0x20e6cc613ae6cb0a518425f53db1298a7f8859ee20aad08320d0a4f9bbfe8512, 0x2420dd1281fc0dfac176a752d15906b55f137b9cc320d5d5daa9df3f3d43d3e6, 0x17bd4f2726748d99925af9a2f2929e231c1869428c13b1e397bb0099191723a3],
    [0x270712f18b1518fafe093660f492cdbc2fb70ffab31d8a4d8a1934be68792369, 0x107cfefa1e864045a668396526ed9f675b2bbf272ca635d8d3e8801099bb97d0, 0x4b96a296a35acf415929b8784b6bba64a630d29dff28b628fc98ef708230b57, 0x1f0465a9c133a1c6805d705be6b3ea9912a2d062c34dbef92de46955b83e7bd9, 0x27a2b7f5549e5eedb90105c0f8e20f0571ab7af0801f1bdd23eaad91f2229a13, 0x31b0afb7ab2f1d241f882178f7dcdad48591cc67905d651dbcafce94b14d073, 0x22e0323bbbdace5fbc74a0b3dedea6e1e3bf10e84dfc71fe395089ac197af744, 0x1eef36d62f3f864eae67c63324e47a6344e33a2d5bfb82f05bef9900c54e745a],
    [0x2bfc3981a249aeaaec4ab9001727d32d4e6fe75598ee964fc85cf30d50df584b, 0x21630ec3f236ed219f73cc617b9f8b267dbee99a63c528544ea31b27cde49fb, 0x28890a03199b727fede5ed0090ed69494c053c97930fbb6c52358b0d7d104c16, 0x1b80f3f439396c2f466b8e9b25765a014970455a1beaed7a6fa308dac75fb582, 0x2a4bbad245a33e5d9701537f751410e4ff297b8f1d1d9098fe9c518c261a1b0a, 0x1e431f2b1b7edae4f8cbb5d307bf5131c352c2a215a870d739617f4b017c6d16, 0x255639889a259ebe59f74a8fdf2efce7fde1e3a666b35d8e6ec601d4d0b22689, 0x2d0d8a814cfa16c2323f174be2dcbe0c295829fc59bf2a89f13b4ead0eb056a8],
    [0x16060a17e1b11f851ceab20464572b3d78d582ea050014843101485f65ab723d, 0x2741203d66c523c7639ea713b20346119c961cc1e9659a458af74cbee16d71bf, 0x2208c5004806c7aaf58314590bcbea16168fe62ec0497afc6bdd2938c12d9a23, 0x1c01f6db435dc4885eef9cdfed193250b9d3eb4cee366674b07bdd194ff349fd, 0x1f0e36c2cf9ac2c4388e74966d9ee7d1a0b3186916a08cfa306f6bb36d21e548, 0x199fc2be60e49e679ec2ede6cf3345dcb3b918e5b3e07c2cd8141333934e178f, 0xa38d163b8a2fa3092999c1797b1af909bd971a25a656baefbdbdfa3628e678f, 0x198949eef2b27c2b9c3d699e3fe57da3d5b509c2b670afce400aba1aaa9ed51f],
    [0xe73217a106c402e4c6c166cd9ef1fd2a0b16ac1cb43646bc1c726f83177770, 0x17b2092b0f634576b654c6de21a1a8d812bd4c01559fff83217129082e2b2b20, 0x2f24d609cb23720eda55fae29ec6f19902c42d8bf904fb656202736d97b2eb69, 0x2df183fe2bc9b8b75773fa961c8d4117e582a80b656af5c58763e7024ea4189c, 0x15fe963f5bd0d92878c10a894e118018db82e63528afa4d4703e9881eda118d1, 0xaf594dc4030e8509701fbd3d8995f73126ad72a7af0fff344eee82a31ce77ff, 0xb8e857d9fb1d554f3a4ec307ad907de7a436438603af1b28d4e4ee379960ce7, 0x7ebcd25a10e56693a28155fcdaf7b3519d9e0e08241e21789696cb76ee06297],
    [0x4b959ca07e7182ca08f2351a03545bd7ab676f740b02331637ea1434c8545ec, 0x68e8e63411df2b3a9d7c567f66419a580d3ba15bbfdd1226effa3fd6bd47b3c, 0x344d0c772c2f053664a7b9266b19d48ae5d2ab3d1c1a18150754ab4b836afd3, 0x7e0cca1a35ed15fbdb619bfaecc7a9a8f4c51293927562acea8eab817c6b84b, 0x222edf3e26bf74b2f503983189201d4ee8e6d6fad341d7ff50748dd739749df6, 0x2d4308b4823b465db653d36818181209d23cd12f844f72f7548d49e55055a601, 0x2e8e67fc85f9b4d00e9e1197b35bedf55afd7300a4c370987c83c15cf73cae3c, 0x22f1bc4ec138b596128ce5ee5b8184964cc262318e17ad21d45c552477f53e61],
    [0xfc9cc95222f92715cf7476010225e14cc38f314071e50e0f3bc9ec674a8aacc, 0x2f5a2a0cd0cb24896c94878a8106d57e82c68dcf1e209167a45ae9cf8570fed2, 0x2cd19b5c55bab1809e52cc9fc1a038c08935da19cfc563e7048d6bd1970a0c8e, 0x24ff2986781fe40ae61e8f5ca0ef17c5a5ea7bddbc127d431547c1f6a8f5cedd, 0x12a87d0c5419f448419840e5e5a92d276ace00963d987f2a1008913d98a27114, 0xaf3ceff2c865a901b9406d5d9b2fc58833d642f46c6493ca030ef595061ec6c, 0x27f42d86842f4d8a8c3aff2f47ffc1e179f097aaecce55bba0b0fdfd5b190aa7, 0x2b6b3bc340d4119e57831e4a2187013f1216ab3b639945dd92a984943241f1d0]]

/-- the inverse of the matrix (not in the code) -/
def mInv8 : List (List Nat) := [
    [0x2797ffb31f0bd9f533403a03b216b68bbef760762712bf749fd2c18b6d0cbf26, 0x2aaa17f0ff87c542b54d40ccd0baebda6504b3cd3aeb05eb9cbf218cdea21186, 0xb5ff3683d922eba1176e8b30c81c740ea25504aa56f1630835a30fd3830579f, 0x23672a15b8c7fe2980660257027f15017aa6853fbfc3dd3af4b8a544ee960f7e, 0xc3faf70a5165c4bc4c9cc0333ab91b42234303ab891a6b94d5e2d9f2660c250, 0x21da780e455f15cd7f04bb46e2f03d4a56d56ebefad110ed2eb0986cab928ab4, 0x2409db2a600019757869c86acf794eff4df3815200b48280a1f68d003f12ceb4, 0x25cfdb8552e2e0e4e5ccaa2bcf60eaf78c140a44f557d4ab8d7fd66d8e6e83d8],
    [0x243e36233ddbc316a5b69e7cc5a1668dc90ad823d5060287dfe74ae426dc5398, 0x312f0b523d76cd580a73e862855a8f6e2879c8615760c7a3eb15f895387d23f, 0x2da90ce5b0c28ddffead998d3981d73aa095c140e100a85f76b05da85151bc83, 0x24b60eb485eba928a84784e1f4d00c407758e1790d256d69daaac7e61ce6a6, 0x27637fa324830f5057e6327d97a4c871d7d7d2cae2c227671766c90a844fabb0, 0xc48fdd91e70a74e7778a94c2d5eaa9b46ec4bcd44cecd5c023de4c2520f1117, 0x1158adb853a691fec022a41f09640feef1276e6d260bd46f855270d664753768, 0x2d624e8cd46a0054fec14291477ccdb87dbaa1cc4357293dbef50c6c139f5bff],
    [0x9fa3586f38936066ab0c4fac156dae2692250d3f0a91a1c41925ebcb08650fd, 0x180d7f5e175ebdfee1e67135a30a374b90350140d7418f1411618d6fe15853b4, 0x1e75cedacd0e9014eb0432899b96b6fba29b483d594fe6e2dbcdad2dbc5be64a, 0x1323fdf89556a6fb2cd689c4718162c8f23bc7050703cb6568534fa003d023e9, 0xb44308ae21972d4aa6c31ade72ed2595a96e6b9c67e09411bd48f2db292a6bf, 0x27338e6d8768772193f9714f5546eed1d96f4cd37ce8c2b93e6835743300887b, 0x2c97868b2ee4c6c5e9086de7907ce112f9f03505a2642cf0ddef2317c1f2ba68, 0x27914c0fa0e4bcfea15316b193671776fda350a8cec2ca7db907b87c10d6f372],
    [0x167aee1a655e6969dee8022817810b4ddcb32033d7c897c4cc9f626c5364defc, 0xff9aa855da17afa901d3f85b4a7ca99a7c10697f4b542459dd92eba4561cb8b, 0xaf91395a398f68d4d38d4dfed754c9bc5f95c85bd518168fd39dbeca0d745e7, 0x24fc9057a61bb648b738d57216e701a484cfc98902c77144f361ebf7b80bc4d8, 0x16fcd78f9dcfcbebc58f85a6aa31ab98fecb3ebc8d5bbc0bfbe3e937abad0f08, 0x23442457ad93e83094d55ae908b4ce7cadc1043203375a8e230d84cdeebc28e9, 0x91a25e61c61d2ec55f85381a7df0d52112515469b1bbbb4a25497e7fc0b07e0, 0x130fbeab3f14b0726b6d5ba8eb643ccbab6d6b9dcfd341ec27a03ebdaaf1223e],
    [0xb99c7e85546f68f042de96a1031ab951984981f1168b9c0505cb43a0c7522b9, 0x854108af9cb8d92ef4c89d6c6f55f01f13c9096cfd5455be06bd5aaedc4f900, 0xa7e6c49acae45b5647313d444c55432445173056f403ba03425b33c17540e64, 0x975c2db9c00a3cb13cd3d6ed533aa1aee87f8da24bcf87513490a7f2cadbd37, 0x2103bc600e0040fa1f6cf1a07e00756f4947ef69df157cabd3db8d3f1e21d453, 0x10d282dbfb9cdd75945cc8ea743ef7009fc9a8dd517c081a53b3c2d084508823, 0x19649ea7352ac66ea3ee3fd60fff3207a6d2b70e436e01ee55e05539baa7728, 0x1943aa0502f2db41fe80efc50b47e860096585da5e0f36304f704496410e16c2],
    [0xb99bb517e89318dc5c52314448dd3672e9d140cf2c99c20e6ca49aa265ee544, 0x11bb2df18f5f8eefc0af26bde65eadf80741050fd927b827864230c1b32097cf, 0x2111582b4e5036668a7bf2c50304c15916b38f741a30c628b2be578fe63c7dd9, 0x8af0edcb135bcb1e50503a93c6bebdfb5f42c7a3452e3c32c127ef6909a015f, 0xbb2fca7d1c931c9b202bddeb365e2bb3baea04064d4144dc14848d7bb736d13, 0x25cd71310f7c1c9da6cc86d07fa4ccc2bec9846ea5a2686f0bb9e60dec57aa97, 0x33153e291b5c2a433df21464d1500878f0d3571991ae9ff1d79b671f7b3a2f5, 0x20b6041db4166ec98f99a1232e61a038932a83baec987f8adf7914c68c60c92d],
    [0x2d3638c515ab43b7d702c72cda6e03755957d765de5afd6eb6fc6ca78c227160, 0x2e4946e779564d8aa5755dd548e0002a6c674e0f58a2f988d20db0bee157ef5d, 0x1a7538b13f4feb3de0afa87b9e5fe49793f864ed7d8a591351cb1daee8d5b6cb, 0x13c3337e9c298d4a805e2d5f1da5836daad4c7bc6fc39a7735aad8f9ca2cf054, 0x8cb8c50c171fb46eeea8704eb87ad85764e93967397f8e46f227034d491ecef, 0x2be9255a486952b78d58ff617cda72880f34aebc57c5a986ec699a58eababc40, 0x13f05c74e826fc02a8a19ce2b1235ad9c0ccd86edb4960a74681213f9d538da3, 0x2ec7941dfb3a4980f3633efdb75dcb59ca6a6807f24d8e99179e9fecc2efdf41],
    [0x1fcf51727f940f665e253f84a1745baffdffcb415b2ddb0c55b1e23080d80398, 0x23fb18a8bf3050adb83b734514f87fbee264fedbae6b66b96c49af71a33fd6d1, 0x116ce6df4d9c0b68a5930ba5d7ce46011348952eb66aaecaa8d12ae5260a52a7, 0x2c94b79a031732ba51c447716cd54f93489d6757e858ce7fd5e219256da65640, 0xb488fc334279cabe9f015c5515984c209f4a28c957e6330b7bd9002b60fa48b, 0x171e3e576e78463f6c7a203b5a8c1e23fed65d57698f39d8efa318fe7a17688b, 0x2f7268e6e7b421046cfc5de5204035de1aeffc4dde6f9a3bd4faf34b7b1596b7, 0x1498ef009bfbabe53ea27795596ac3c3e6d3e7f9b199b8f46a2c7bfa33eed553]]

/-- the tables have the sizes that the code reads and load without a panic -/
theorem sized8 : (opt8.sized 7 4 64 && opt8.below bnMod && c8.length == 72 && c8.all (·.all (· < bnMod)) && m8.all (·.all (· < bnMod))) = true := by decide +kernel

theorem ok8 : opt8.check bnMod 7 4 64 c8 m8 = true := by decide +kernel

theorem inv8 : invOk bnMod mInv8 7 opt8.m = true := by decide +kernel

end Verif.Poseidon.Bn128
