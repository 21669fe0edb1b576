import Verif.Poseidon.Check
import Verif.Poseidon.Primes

/-!
# Poseidon over BN254, 6 inputs (t = 7): the tables, copied verbatim, and their checks
-/
namespace Verif.Poseidon.Bn128

set_option maxRecDepth 1000000

/-- starky/src/poseidon_bn128_constants_opt.rs: C L468-588, M L2391-2455, P L4513-4577, S L8550-9370 -/
def opt7 : Table where
  cF := [
    [0x2197703fceb4cbf07c6dbf46c4ad93e7d14e554db66d09102ff84824743fe4e7, 0x1322f0fffc7e4854bd8b5fc23e7106b51f59bd5061d8b565aca2fd3efe512f79, 0x19e414f80380aa2d222133118c337d82a8c5894c2f88861ee46f448fa9d61359, 0x22241199a4df9cb7d65249d9562cad6c65f16460e79a7939cbfdd6d7b9209d9a, 0x301061735384dfcecf9a311c22ade327b51c78b211615f41c77f6d85e8a41b6, 0x229e1d86c1f2810f4a2633b7b4b5bb61b7dc5d19ac95fd8d379548ff2b6850ee, 0xe31dcf9c53209a817eeb292e989727c3f56bff65883afe5fdc28ac3dfbea675],
    [0x68f917bb1b0805e5b5888b6a97824395baed195b5da0b71c42abd091c2ef54b, 0x1d0bfb8bb90ac234002d837715613297802a5bbcb69aa2da8cfabd832f52d7b2, 0xd67c182fbf41c18d5afcb48be20237413f02a64dbf09eaf71f23a14fb9e2103, 0x3058909cb103557706304b9bb64d94aea4e504d8fda8b82313996f7962884886, 0x4d06a80196e10e664adfefd075d0cca04961ee8a89f4fd6d601eeb9b60c8dbb, 0xab062f8d4b5ed0ec21bdb42eb3fcb0a88fa13afcae4523d2386455228407b56, 0x17380754792ad5f8195e327a5a63cd7570cd1994bd6a130e01c1fa1a173d4630],
    [0x2d4f3780eef4ff99ac916f4b12dd575613cb9621bc5fa0980ed9a4ec8aade56c, 0x2abbef481b368ca971e74dae04691439f845c10d1d57894269b275c196aaf9ee, 0xf24324f82d68231dd9dd6f8c05f52d8eacb9ae01ccb1f3b30228222377d0e53, 0x267617317f5146654295ef602b91250db010b45f4724ce7ec54884b29c404597, 0x157f9e2f737498821bb01ab1001d715eb2c336dbdfcb867becf0a2bb6490c06, 0xda7bec0cb98d337a52cdf0d66e8a97f24229671346848a552eac14c8a30c702, 0x15fc820ef53302dca709f3ee480ba1371c91ade79f9f587fc7878d731c0596d1],
    [0x845715adfca35c3e8057c0fcd4ce6a6128d0e8117d88f551d3ec6587d0f4296, 0x422f744e2b736096bc8775a3906893a64cda874aa4457d2b442a9a771956d0f, 0x15f421550bf6639d46ab5779fd26b1e11618e0497e05cc85c608b00faf3382a1, 0x4f17cad2ba0ef6f8602e93f5b988d5f357e61ae5f3ec35066fcb4d1a7b720c8, 0x1732ef5660d84ae50ca09c021eb0d77f1fb2a00cc7905b2479588c49c488673f, 0x29b12501fa79e08bc25259985f730cdce9e2434192ec826e0f4b9d568bd351b2, 0x207c8006aa78fc40a84db40ad82142d0f61b28dedf10e2201d815cf4f6274590],
    [0xa25704ce4cb74a94d7bdcbdb5fa268abd589d88fe45b2f2c82f90326cd049a8, 0x11211f3a71af30a00101c423ea40a9585a9eec75687725d7ee289f428f40efb2, 0xe01e8bbf5ee611471380ce8bb8c34b932ac76e96faabcb7ad20be96187c2fa7, 0x1c894a1430513df35523e22e4fe9f410a43de91dac73ae338c772fef1fb74363, 0x2bee349392dfa0b5b4a08ee58ef54f002e06ab26834f94843d48ff0ced526d5c, 0x84a60c1d70887d9f2d23a8c7713332829eb41cf3181149fb223b7abff4d7f0, 0x23a4506c90c07f3ae176a0e2bf67f57f88d45898c97bcdebc8a8263ab602c7c5]]
  cP := [0x1ab66896a1df95c0208b990e2c634707394a1110cb314bb82e0a2e2b4958aee7, 0x2c6b842aabeb84ede49e559d8eea658293ff4bba9325b5a1d4cb649d317f4616, 0x16321af63871328c2b88f46df432be9aa14b008b93f85cd971dd986dc16d2e35, 0x13d647208d3dbcc9df10d1ee35b598e6c8ed85608f81ba6953088e7bc6db73ec, 0x1c6aeda9e0fa69f5143e6f22e747b7e74e692b9254d55c61b890470cbd7f06b, 0x287d74a5fa03a4ed65bd4a7c6daf033418f474c7dd9b957bf2b17965cac024b1, 0x27a4327beb0b3e0cc219805b3f05e854bedcda1b7c93f11691ffd6bb76a5d0e9, 0x271a03a000bf412e7fcfe8918baa689c6682417803f5b302f1ae30695c8e6770, 0x1a4436200e4d0be65d2f0f4000157c957fee515e591c8b54bcd46c02d599235f, 0x1bce9394a5dad0a4cee35b8e99b4b3c0cee058b8ae4fde301c3145a5a7a94c76, 0x2b1b4ff2bc186b7dda9c3e05dd4932f38e6a7c04b0af0839441a5972125dc902, 0x13c87d0e4bfa493cc2a197b1c9db49426979adfee4714048d865d4f6e95f699b, 0xe861496d1b54e3530aa0dc64c6683ec0d01a4e3d1c69d50f4d6720b981ccd62, 0xdb63bd46e06bcaffbcb03e5dd3faa88f26a0aaa728198c5d09a483fc4197100, 0x2f8fca3a44bf9ea99452e1a055886af7c95850b716222ad89f0219054d45db87, 0x5b7bb3e5a4e2946395d1d6ddd541bd9c166cfa1956d161713e7e350f5947d73, 0x20e4e6c47a68be3175fcf5a7a3f8bf7b3b2198203b4552ed620b9593b66e5483, 0x154a2a02379c7695ba4783e15d10a147560ee2b4d03a04a0b901dade72df4862, 0x156f02cab5fb0e7e6fa0c743bfd64716e15e5e50e12774805b1c74dea89c5345, 0x1d258218556d0152f0a3be042b1bd146774a616ffc7e7313e9519b5041318912, 0x160a5da355d469412e5535804f99dfb8fa839d7ce2cb7afa50c1fd036219f4e8, 0x1693c0c96b95f7037faf6a18289814c68237870edc94a72c883eb2c751d5ec43, 0x2b0df0f463f69ca206ad5c4a115d1a6a83d5e0ac328bd468f35826a968d5708b, 0x19cad23c14a9bed0e159f250bec8655c07149bba04161fe002f76954ca192b60, 0x25857eae6be307b653c36a4090a3963d60842410e04c5722dfede28fa645f54e, 0x29ac9714955b7a9c94e7959efbeba17c04839ad7bbabdc643b9840ae43155f72, 0x2e637dbad876dd52a7284db266593aa85b2020bf340802625e74f45a2cdf962d, 0x468d89779fadedbdb4f0093858113c5060321aaaf082a53d44fc74c65e7ee84, 0x914cefd51a2822efcf8629d57eb5b6ec7195a90087762ec8814f14bde647522, 0x120a9d3cbca58b917f4e61117c7fe2190ba6d238ce374949778c40a6d176707d, 0x1cf1c75a1b2ca09ac655215cb308b39ecef96d746ecbc34b37583bd8e0480d5e, 0x511cadc2d431769a953d0d2355cdd3d8c13dca7a6c5b19005bcbf3c5bcf7770, 0x1e2aac063f4303e24a2a44b1bed5688a43279356dc78a772e4dcfad0562e5dd1, 0x172a396d41cfb2b1241e096aa41f3a4788303d8824d5496871e03cb9590f89ba, 0xbde068237cc41aadb7ac718d4c6b916cb7f35fb399ebb2515307e6004969e2e, 0x1522d1f8f0cb9214b3f6602d9f867bd2ae07a8fa77aefbc3153af4d350d933ee, 0x157d56053aca2c4cd30f7ba34e5d41b8a636961ef78c1dea1759dceaccd1ed69, 0x10aff8c0fa2f25f58a299e22c732f1b901616f6e4bc6f63af79bb93d45fc188e, 0xa9557d37fbb35ce046f2df3d8bd9cfccedf85eef2549843da7f2c2e36d2bde4, 0x75029d8351a4949170136de66c179a8d6ee6b56b89598af199528d78e8d2c59, 0x2aa767c911398696b2302fe15ad33ef35c6c97618e672f837aa4fd42930355cf, 0x14d99c7417a329ff62d32828421e1b8a031d30242b285c86a4f63795e376623, 0x186e1b78089467478310c35eca9d2058c0a8bb8e2ea5c324f1314e478a12894e, 0x2ca9306ef62dfb1ad58244ac5bd70b0bc84f86368f6c9bd4e15ddaed432e9838, 0x17630d6307628585661eaaee9438c67160f7eaf6d03d3ca6364d4adda49bdf27, 0x21187c1dffae74340a488cdf08ce322226544816780af016098d8c39c7e72e31, 0x1db210b93c320a18bab1769aee63276bd99ac89035b0da327cd06cb70854aca, 0x18bb6f89805c1bd59d8d7ad109d5f26b4d18813f71cf3aaba26ee896709404e1, 0x9c0a6c2d79cc06023f3f43196c9b8a60a55716d2c7ca095d849a5d67ff6fe98, 0xbe6b7d6cfed9528f4d1ae306f3138306ea7c81cbf903e9b884eab5084dc4c16, 0x16fc7c808552b1362d8a739bfdf6c6dbe70b00611780fb4818d424d5e017ed5c, 0xf31a91e6db75df904be6bb14fe7271429e5787f9a918d1cb128ad76ac948836, 0x230a66ce24feddd45fcfcb5ca7e4efb12461a7c0a0b673a73b252925d310d488, 0x5ed3707e7ad3478ae508126cba274743cfe8685b46153f6da3a0b4b83ea92d0, 0x465c370db40b8f14b4f6ef913550c11bcb2839ac707e2fe9a9c31b43cf8d938, 0x85f42b894873a7451a60fec0539f9ff8b2e0a495e43db7b95c3a75c57c20ed, 0x2e8b3ae9368c9c1f1542ae734cd995869f81aac64902fb1d3597022da08f9938, 0x161485d4fa8620e6fd09b088159c4e223155019bfe9eae28f9870ff19ccff314, 0xb6e400339e5e76c1d200fd27884599d473dd98fade9e648940833ea32b75416, 0x261ee31fad47c0db7bc046f718437ee518fe73ec92c1e203155d8f284d44b310, 0x4e106089b776d01a284b84adcddba4bf0ee56c2c85ac584b4d938f45023252e, 0x4b14e89f42287dee36142a17718f7615789c9f9623b534afeffcf9c7e26449f, 0x1d55915b20b60534f1d89f2f8c49568123fcb4c6d9197373e54662e7d9eb83b0]
  cL := [
    [0xbf04f5b7d178a77ee32fe543be468e1c89aa457a2f4d6699aea743f80494b8, 0x1bb1f31e887647cb45b8bc5be185e206e91accf86e5ce5bc1b39af12f857ea3e, 0x26f0b4214212ea8030aba75b2eb699e84adf24bc4b856a3522b82c1edca87e9d, 0x1ad7e1c6feade269c076b67239b316e7cfc194b036b5a53f9207f457599c5fca, 0x11947cedad859f02ffb4b99e8108512fa325224ad7e1bcf82b28c61a89840035, 0x1ef4f0330d6144228ef6cc36eda0d179384c4dc1858c95de12d070d11c43348c, 0x1031abebb0216be506c04a6514d471f18b0dc1b5a9b616c87a465b689cd1336d],
    [0x23f97eb680f5a13b3e8daae572abe2ac0dd92eaab473002f0708e6b6084b2df8, 0x289b2ba2e3c8f665b94a4d73b5bdf7d6687468aaa84ef7f6e04fe123659e41b2, 0xd40f713b31b2d041d3e01e2504af10020bfc45bd5bbde4f4b133f63536090b5, 0x29204d73ce84b3fbbe047c74997ee799f92923cd16ece1eb6275c8b71659f149, 0x23cd14b50f4129fa56263fefbe7475e51c85f67cdf38a9ae7637ad04ad644c6a, 0x1603887bc7e6956ae4ff5b9f4423b2293ab52b69b2ec021acb90bb6da8dc3883, 0x2137d99c24145e52ead0129bb220690c5ff8f6dbff755c8467054b645c74b0f9],
    [0x1f3d6d1349096a8e0594443a487386f9f51b2fc366e910a9952d4f0b3dbec414, 0x2148e1aab3e9c82a297d04af8191e2b05cec71b0cd6b8b4e079061dd00f01a00, 0x17fb0721b3375406028ab6f04882a202e6801cbbbb50badcbd5d760d59e60c54, 0x44f8ade334554cd610743aababa1196e00106e754cff8b088ac69a273ed074d, 0x2e10e74d30679661fc3ac960b7c967cbc50029d2ea463ab8ef55633cc5405243, 0x1e44030832526ce32d540c5cdd2def7f900509bc8019fec5e38848b3576dba8e, 0x2c17bd7af463d52d3fd7e8723d11078369561ca3c4ece48f1298adabe7c822e0]]
  m := [
    [0x2abd9e16b7b48289aa19cdfec726fa3fa15cc1625102ae511bca45f39d337e9d, 0x1fe9feb5c7f7c7a426bff032cd6a3158278b6c6b2cc57a871213fcafd6427989, 0xcdb2db9e4f9d732d217c5e3114821165d49e5a2d41556bcd53d0c4d433224c, 0x9664216ca565c1a44fc2b98347ea8b36904b3877f2159dcc999895adeb4d70b, 0x1463f51d4a4cb1eba16dbc115566aa48fe77b43c244c9988a3c658d2f56493d6, 0x214e41788bd2b990347c7f2a8f47612d4dfceb1a1e6da38165873df66ce51f59, 0x548541724f64e20128260899abe8fbcdff184a1957a9385fb715923bf0fc79d],
    [0x1b4bc5885d1cfc8eb691875300db5a0c7362ae381898acaf8b63cad04ecb36c6, 0xcc7eabb154aa7955eac47a19f6437a2b8dec0fe9e5686150ff6e88b1a7b4bc4, 0x12f3bb29c972793182123f5c49306e16a3a787c4bcd9c798a131b70856d1cbe, 0x111fd8dfce2bd3b7ba0cfa93e20fb685abf76d77305857b8df30914e4849ecef, 0x16afd8f4c39038b8006a59d292aea84731c0f83832a61b82250ed90118e8fec2, 0x3fba82d3f783620873da94e9f4e84c8b529d76f54e4b5d7d4805272af9b9775, 0x21c5e25a6991364e59a205e5b01c811deeb095680a72928369cfd2de71b14f98],
    [0x8a72fbb55dde3e93c5818571a424a54953695029eedbcf91eaeb012751c7f83, 0x393efd96399aa0726ef9af79be8b6c715e429906ca0d15076b5a990fea75ace, 0xbba9006404c5ede82b527677daf444ed43fd1e0dbdc5528dd2cd1f17ad73481, 0x19f53c0a592b3ea93497a511e56f66753598265b1ab6774da48eec04e4d93426, 0x2296361f3bf154efbab996921936e9b1dff8352711f958638172055333e07579, 0x66782fe3e869de2cebd7ebbf60fb435785329dfb12ad9bd1b4e46ed36289511, 0x11c5cc53f6338c825817aff7792a2efbce8fff171300d41455a2edac37663d02],
    [0xf95359a1f6845d4921892f83e500bbb1b3d3763d8fc762400af039b0abb83f5, 0x871233835b752ea030cf8a4f43771296eeb33f697d1b0825db47d39ac9e5955, 0x17e4e73bf701f88d219acf1ca6390cc1e17c9f84b1713820837ca070be84a2dc, 0x19b683c39d3b002fc3523b7bee5a60148b1dbdf18dd1c318e6a541e8cf66a174, 0x1c3160ebaeb10f809f69843cf8d5bbaca198d1f8e3439be29beb92d909ec891c, 0x1c5cd6b23ef336be01efa37a27e6b7aae5d1643fceeb212cdff51588835fb537, 0x27a0949fdc9f10495c4ee7214aa0edd2ad8eef68f577da8b96f9d87a39504bf9],
    [0x16f01751ce985328afde34d81619defb43e6c7b5dadf52d0f82472fbce7770d9, 0x1a02798f047a51baaea34fcfb26ca6afe96a5fad1d2db4270497b6e6504891cb, 0x234b8a077ef52b53a343b8da5b20cc358ad60760dd60276d485015f73d53d207, 0x2547113a818779f13e3448719c7ef100b8036bb3e882dd5e6456c35311c1bd5b, 0x94c66bdcff54382cd9213abe43312edb5b4d414c6e09acca24912a7635404c6, 0x2f3b4bf0f105f88e27248af094e29feed9ff3fad9a794e15830bd2b311539453, 0x1c7fc68f3fbde4a23c455ef0d0dbce0ce556a0194e6d552c0455cbb5b0c230e2],
    [0x1c391626328457fcafa629f3e6d33e2555e8d885e3c07cecc8af1f4d56596417, 0x55665d76df3cd0fcb713c234ea79d06a31d6e3e4c3bcc657dba4c664d5a0da0, 0x2dc3fd77394b7b5ac1cbd1b46e6ded5b835d7217a4c50a487ae9a35a7fd45d9d, 0xcf148f8045cdbe7bb1013f72ebd4126a3e35cba9a970441ba8d5bc76943b0b, 0x2e883bd408c4c826d004ff777d7c0938434ab5bb84f3420e5d94b853b1746f89, 0x2f4085eaa9f80a69b739fc23f2fe4057f64729b311783fcfab3a0a36fc1ff432, 0x11d0f56fc00e7d85b3a2939fd33991dc8abc1ced0c3f3c530cbfb4500d63de9c],
    [0x970f671b9ba35e3e3c642d1e0b8032023ed5bac91c2c1056f03965a42c5297, 0x26ee9691a638edc7c91887e302fc55e8e7758286a44845ad88fd7de3bb1052c1, 0x1668477640fab14c72b1c16ff0192e48cf882f12276bd12f97f82c6ee2e61e48, 0x3008421eed767a093322a09c3733973a038168cb28cd2e1f709076c00b869599, 0x228af6d425e91a783dd18fd89a6b38bda053f2f23c094b875f27cb3abba2030b, 0x2363603349e94f520fa1f98fe2507f6aae361934078aa59a16214c088185638b, 0x1b2e9d20d9b55deb048cabe1636f0e96363bec886679cbd91f332fb2bade44f]]
  p := [
    [0x2abd9e16b7b48289aa19cdfec726fa3fa15cc1625102ae511bca45f39d337e9d, 0x90df29b70c5a783521503f92a45753c8bca03a74627a24c44dbca6eca32ac42, 0x11a48e9fa064121f52297162fd169e051d154a0e203583624a16c73534430b9b, 0x1636fd9a0457ce75aede0821e036773e39c37adf6fedcc7b2cdd72254e2ec7cc, 0x2e64b2e0bd6fb47559f585b63e8dd15b430058a63f2076636052efccdea98ec6, 0x2cb7863886cc4ee1640210d29a4a329d93a040ed45f2744c25731c8fcd15f0f8, 0xf3212046ef984438989c355db0984f93ea4bf99de1700ee0185886e81f2ef43],
    [0x1b4bc5885d1cfc8eb691875300db5a0c7362ae381898acaf8b63cad04ecb36c6, 0x2c628e21a22008733e14f81e953a50072ac800560554df9e97971a56c509222b, 0x1cb1d2eca719de8ea352adccabcdd100c4fddbd380871e2190e33390b8bab1ef, 0x6a0175e0d8aa3e1b994a177af69a40bdf6dfae09c41d2fb3d8c599c76e7f07a, 0x5fc6589a1d1d35b2473c61ac293c6d6cbe24fab12a9086c0aee1f8d1a28a883, 0x26342b8b16928328123d727014822f00f4fbde2cd45046f5dbb6b986edfeb632, 0xd7565999ffac123203ee5a0699bd4a2f4c491fcfe05676f928694717e572878],
    [0x8a72fbb55dde3e93c5818571a424a54953695029eedbcf91eaeb012751c7f83, 0x1567d8f8711949c036030ef808665350cfe9b648f13c675379aedd83d9b83767, 0xc9037b1b5cb3451595b4f8a1ca80c3d72ceb93d6d58dfe8eba02e88d211b281, 0x183d06dae1a0ce53171aa09f25f25ee397263dbad5306dd1b7428872baabd5f, 0x7da96bbf5fc4458741de810178e19a89631a95f2e0cd7e5f2783cd237f3d911, 0x1efe4b3bfbb320e15ac79fa9abd46e4a19b21f39bc40143351321f658f6cfe7c, 0x900505bde5ee2d55f5baa932e38805bd914afbcf3fc854219cf41d147b89db9],
    [0xf95359a1f6845d4921892f83e500bbb1b3d3763d8fc762400af039b0abb83f5, 0x27630d326f12eed19ada60a1f6c496680425b457f42e8999f49676af0b637a6c, 0x26920194603a11727525c5e7b267ab6580abe2a7912789eea077a55f7ec3204, 0x10e5dd7a0862c4aba24ece684e502d3d6132a99d906908b20eba4f3466812e42, 0x2d30f6e371ba6fa64853fca459d0d6e0edf941c3e8177ad5d333d4eaecd7dc7c, 0x7ed952f7c3370e03880bfca6348ab2ad35bbdf9b7e9c266e7885b580edd59fd, 0x25b7a438b7dac4f0b36183f18766ce503f69d6c1d9cd29b986d7d2b8b44be433],
    [0x16f01751ce985328afde34d81619defb43e6c7b5dadf52d0f82472fbce7770d9, 0x37e3c16dbd340ff80f49ee4f7dbe1098b474176a92b7a6964a63f2fbb8acfa, 0x2cf7810985ed56d898150ddcbd42edcfab6442f0d0a7f637693f676300c85c5, 0x2595dfbda733d0477a01cb6693b93eb4cb711bef3784b5fc9e17f1b342eb15d4, 0x7d9eb804f0a999ec586c58164da8467a481c1975e27b951f6f18411a7440cd8, 0x56b8df70be9577f94b6fc2a3a94f736d9c7b9de29134ff3a524e406e3143280, 0x258a0dbb961fc61bffd39764fe6d3c687a1061b59ad00fe85d1c18594b7e7270],
    [0x1c391626328457fcafa629f3e6d33e2555e8d885e3c07cecc8af1f4d56596417, 0x1814234ad66f16a36711c9d2779c1358ef58f650cab5cfd95a0678af36224c98, 0x25965b4db95bc7104bffcc6ed99af5cf5328012a3a1a35cdcbcae4ed2470175a, 0x3090eb08e04a2d235c164b71a56dd730c6b95e5a2613d39cfd932b90af23ad0, 0xaca5e46d797e1748aa438d2e2967569992dfcd41997be143c3ebd2a823b7660, 0x18e6cc7c6ba50e61933de0f615fd4458d39a6c34c2f241a4cb78dab9dd1b4283, 0x216fe55a6f2e8daa2523b65eda5367ad3a3a6c55856c5447f398a280e57d6535],
    [0x970f671b9ba35e3e3c642d1e0b8032023ed5bac91c2c1056f03965a42c5297, 0x1bfb7975cfa9022d9bea2acafbd020c85cd3f1091794d28413510f2d723ffdb3, 0x20c27ab9c365c5d2de660b9b31d4a406907c506b5488787bbe2de181b76e6a7c, 0x28feb3ed6c194200a579ff340040be172171c1f7980e63214a0b3f7603d68a02, 0x100d8a1a7ff31b30725190584c830b15c0cc5a41d9d530ed57c0bab464368b5d, 0x791d241f4743deb4afd41d9989448220d5a1d101bd96db5ab2968b981aad486, 0x1749c39995115eef14e1bcb1ccd4cdfc5c928ff14e078b38f5af326ed6b1e099]]
  s := [
    [0x2abd9e16b7b48289aa19cdfec726fa3fa15cc1625102ae511bca45f39d337e9d, 0x277ac8a3178a356b9072bb7b469ccd57a0a63dbf08fd0dd7356008d5307bb3e6, 0x24903bdf5d3968a8e49c6bfafc0e28d539ec1e2756e69301a8e38dab87c6c402, 0x14e025a7131c3bc8bd2d48508aa4f791c8ebd10688d7e5566a41fa0c149b8602, 0x2e41c7e320ecfc1d86df765fd7bf43ed2b6bf27ab8b7c74174ed61d57905c555, 0x11bb3cde82e89bb0041907d66de91029b35a9c8c90ea44de1661ea2ace917451, 0xa7460b280828af7d0a5bf4065b2b9640a9cf83d19899cca0171ff6abcb49751, 0x234be66b59a16a323cb35d6516c5a92f4997b76e14e656a8c41f29fc94925b0e, 0x27c512cd854e483667792d785ed1ed7e30569dbe12fc3fcb0c804110c937adff, 0x1532821b842df3a4e64577b7c8917219c86fa82e68857a1a5be4056e8763a864, 0x1ec15f1ce8c3cd648f325d92ace903521d7b0f668a01c6d2b92b43e35b5ac58b, 0x234748a5e415d7b5cd0b75b712675e72e95b1e02ce6f48d299d5a3a489905ea5, 0x14037feed35ba091ce3dbb4e6033098d07a3cc512e981a493c0788e3827a6694],
    [0x2abd9e16b7b48289aa19cdfec726fa3fa15cc1625102ae511bca45f39d337e9d, 0xa7c49a32b5a05a6d74faaded50d303c066ec843a10ec59dc90cbd37ba4b1b6b, 0x7fe2a4ab68b94f006bc1ed36af445905c8d234d308d57011dc1d393e6bcce8a, 0x15b26f61d51ae17017b1b9d1c9034a51083f25b33f474c96bca5bf47e8a658f0, 0x1a9c3ed5b8f524e8e2de1678002e73c63ebeb3606fffc29ae527fb94c60f5f78, 0x153aafcf4923742708efe169c490514516a223537245aca3ea205df20b8b5ccf, 0x239cbec4c84afc21975a40e29610d83c1d71a378cc58995e505def01cc6bc872, 0x1edb2bf1ce76a49c4844b7e5692018b524b30c1660a2e003b5768787d7af6d32, 0x222778dc5bf834f9320f037f4847ce62a2ae63be8cb846a5e10a3c2eb2ff22ee, 0x17c2ef46844a5365828904ac73e5114f9bc2833cf35f65adde116491bc86e0c0, 0x2fff9c9428727c51c6bd6c657e31314706237633e5cb78ae244d5d4c3ace4839, 0x1d188182ea443a5a5cea9823f3eee70a2c1e18459e4305ef862666d16236b0b8, 0x194dfe2339f7aa042818a43f4c6d3b5b2fadf648ba0dc219e56ec7f849ec7e5d],
    [0x2abd9e16b7b48289aa19cdfec726fa3fa15cc1625102ae511bca45f39d337e9d, 0x1c7aa6d64a120d657fbeb04c84017166427d0f02f0406c0674899118aeb3a1c8, 0x1dc18887cff4545b07d122b9086f80b9c464ee5aaf98ebbee8a648df3b74551d, 0x27c28329d9f8519a1ad9973cbc710635e5cd01ff884e1c113cca7b35742578d9, 0x289ce154bb02ab338ede3bdf7b2efe8de1fe22259477475987386544f3eb5cb8, 0x2257e368b26697c9ae1bed7b5cae11efb9d48138dae5b7b3c499a37cde286d03, 0x1bc9d5e7820a13f9f045f7b544abb2e4b954a8d9b6d38f198efe3275d9d7edd9, 0x18d112c5305a06c15faf556d58b84ddc492912505da27bc8500fbd32e4df9c39, 0x2c63e80087f924919d20067f050b7d7edbdaae2f3018fef6f8cdace9768faa75, 0x877b395faf50d5d108121e29b7ca64c6408dbc08f173278ebf6de8b9685e113, 0x40cdf2e7828e66a99121262b33701cc96696849e5532f492486d69b2779e9e4, 0x16e80a1f3fe9b828493e83d1a31428b1c586b3dd54d735eedd257930a2f539b, 0x994a923eee5e6fd6a4caa317c6926ff4beb82c3dfe033f37433d31898a60f20],
    [0x2abd9e16b7b48289aa19cdfec726fa3fa15cc1625102ae511bca45f39d337e9d, 0x2060946803f18c085b6fde5a3d8750d80f9b21ed391e27e1c7bed180d708e87e, 0x24fa5c0683c2eb83b0864853cded9d57d38f33fae496818450e2f6c49968dcd7, 0x162824e200bf52b73914219f02ddc59785407c558eb4dd72ff9b11921a351eb, 0x1edb37284aaca008c1703ddea2da4eb79521cc4cdcb7692ae344be2b880f574f, 0x2189adace1c5a701dfa9c5354cefcd8204c60095f5b8568232dd01acb3c09688, 0x19f1b2d64e3cddcf28e7187f16f3a90c93975e2569625ac689e3878b2de7c778, 0xc62cf98668e5178bb9b6b261f36e1c8f176f190d372921c9b46f824db8c6190, 0x16ef695c32d05c8c43431f284a33a0138455d93408ca2f742944d71eee85aba6, 0x1916a7ff07956db69d712449d024d8272e2d9fbe9428d6562c503b99337b1c14, 0x155303d79a49e28947744f334366acd9454fca21261d32bddc76ce6086e8f1aa, 0x21dd4756d2217bdbb9b439bc12e5daf5a8661b1effd889c642cb49c4839cd533, 0x197232e52cfe9adf15394e38dc30548d7cf495c7499bcdd993c2df59993d72a5],
    [0x2abd9e16b7b48289aa19cdfec726fa3fa15cc1625102ae511bca45f39d337e9d, 0x2f1786e4f7d8187788ae6fc25c6818d2e7fb34a8896414ac9f6b958de481eb0d, 0x7b914cb16d817387d79ee23fe9975ec91fed24d0e163dbcb5418d96b504c2ff, 0x1958452705af91d4b3be5bbaba856067cae00977353897c5ac0d070f90e34ba8, 0x20f47ed0ffd3fa2dd8dbfd9d0daa514b0d72d270d1327e33840cf178b27637e5, 0x2bdcc2280fe50acaa851536e7432f37c888a6507168a4b79e2578d7372f5db82, 0x100ca23f8d8ebcf656d1fa5cb225932b62772fe53e2c5650109e71231c3a9b0b, 0x1d359baef3547113637ed1d8e44c89166eb4154d190d38a2c6d47afe5cc12e1, 0xa78ae4732461eba1b90fc18b100cad3712d8b684324dd57343cc127b005a3bb, 0x1a843ce91e265e4b6cf8ac90c3454584d4d481813247df111241cb4409b26b2d, 0x140c4ee1c78bf8555602a74eccc3c3f71e050a5deab03ccde1d8431c151bc3b, 0x7696859ae6cbcd413e8a035a9191cda79f3d04e6c3d18658434d0555824e4fc, 0x2e7f9004dc09157cebb4e42884622e0307f85fe2c37fa7ad2674b0981b2c0d32],
    [0x2abd9e16b7b48289aa19cdfec726fa3fa15cc1625102ae511bca45f39d337e9d, 0x17607febb988532e6c79c307d903056a2266735b7423da83843f70723f09a5bf, 0x2c02579472877870c8c3457b6d3b284eed6cac0d43e93c38af218961a9ec3ee5, 0x2b24eeb2617860189e832b5a50bd17938b2788858e58d9ea9bbcb7ea175ea012, 0x18c375a125854f8fbf30b0a138ccb4c771dbcff64c77d1c62b79d70a13e307f7, 0x7251d3e863183333fdbe9dba4f3abb21777555ec7f996db96352311cd9fc784, 0x2adb341301b3948dc700e495384dcc124d5371ec6163615ee7263009fbfef1da, 0x1472cc421bd8fa9a7efb991ea065ec1c822b44fe601640f46995c3f10f1323c3, 0x2c3a91912dc2c2a792df5e43134bc6d7e582f822994a5c2a6352e789997f9258, 0x15e8c106e6ea3898a09e7660ec87c5fb217270ee9a8ebb1d052e64f3dfb155d, 0x196b68215343e220781a52bb0a324e4ca765394d2f3201a769bebbd931dbd2ed, 0x2ea4a2d5188e98ec570e50b70d0303ede5207bee762ee8932a466bdf891a333f, 0xfbf65aa42b0d900ec78b68de4b2041140fc85fa3458303276d99826e97a2783],
    [0x2abd9e16b7b48289aa19cdfec726fa3fa15cc1625102ae511bca45f39d337e9d, 0x2d93d238704becd76c0220fc95afa0783f9695075c5d98b363f91cd249c47a22, 0x1011608ec77a11a0ce8b8b1b36ce08de4f93af8682fa026b87d8a2795b71391b, 0x108c04095f95a9fcbbd038c079842940d8105c509c729129f7cea1c5e968e194, 0x27bab26eeabbce153dd52489db2fade373a936ac52383034ab82a9e252381e73, 0xd2611e73e27ed17349dd52e13a90adec9830a5e2c7115d8823d23688ba4e570, 0x1cb4e6780cd70a0bcb4662edfe8bb829e146a62c4461c271ff1a0d8db5c1974d, 0x1d429b1257e514fae54614b4648d627169928dd3a496a3d021d8dd7b2a1cbfb6, 0x919d557a82cd7294d666137090c7348da53c3b92bfa3346bf14903a12e5ffc0, 0x1b99c14cb08972b58f1e7216933e31e2e67caf29f8e6e998fe2b1c30ecbc9473, 0xf0435abfab0c4e0ffb1a687de5cc0ce3fed74cf9bb2b559b569a552e8ec86d9, 0x99366a2b727e153c4e338c7cff84efbedfaf7dbf4c7904854574f75f3d8e848, 0x187b41d7da085759b71c2028e359907408319e8c6ad842c79bb202ecb419be5f],
    [0x2abd9e16b7b48289aa19cdfec726fa3fa15cc1625102ae511bca45f39d337e9d, 0xf8adabe145a57461fe9a583655046a75a03785a0a2942221ae2000664936e3b, 0x21b8878c75b423cb1f80e0b574b3f62d28785663aa6b4e0caa3043a693bef6c2, 0x1dec99dbe933ff6d1c4b6285f8c68771b3ee297afbb5c934aa2874765f64d602, 0x2d23ed96c51ebc9c51489f7c87de4fa151cd8378cbbc701542f54bd4f4d808, 0xabfef9fb01611d86e6ae1c1ce2d3febf41378ba90a38f11166b097187272e88, 0x28f60239d945991b837eaeb4693d496be520241c8b739d3f21c7b838ee0f946d, 0x18ad1fe91d4530ef15ee77e9ff06e2d3b05564aa44613bef3b191f6b12e1bd83, 0x53844fdd99071115909fc518f92c7d0d7ee91beb16180cf9bd158d33c8679cc, 0x28f997134ae9a3be6b79f6f3257aff2498774d1bb18f553b229f70076c979ddf, 0x5dd57491f096cf44399e477bd78c20fd872d357f5d1d210873d01d3a014bfbf, 0x1f1a859e7cd1cc205ba1a1b3cc2bf04e0b24d32a62dbed89e59e2113d54e0b37, 0x75f98af212f11e1de886197216bd78258bb77287937f0af8e464f916d7ce5f2],
    [0x2abd9e16b7b48289aa19cdfec726fa3fa15cc1625102ae511bca45f39d337e9d, 0x128d5ad7a08858a2ed8c161997ed55c8ca8ff495cd27ea475983d1715cc602d3, 0x75c499dc0dfb0ce2005e7d13c1861e5f375e03bcf06951de3239d4b56f7868e, 0x2917faec22c04d8b879d4490a8ae7a9d9cf7f3fcdd33634aabe189b50710f87d, 0x1a86eef4ec1b75a75d97e62178663f995cf6fdf3913595632105284bce7cc346, 0x65be02d94e4417edcba4b6b68675b107a25462092e90e7ea887af7870c0ffc0, 0x2a1d799daf1e300abeb7f5a66264360c7984ef52c9b153f15411f9c62ac84d87, 0x17c036c19ef8085449f760a6365e814823f270ba4a5e41d2ce4ae1c653f087dd, 0x2151cb617d9f323ca37ce71d5c77ae83c8490057b9cbe8c17f150945893382bc, 0x24624a8c4bf96cf50401f7361f74ce162c47ac803ed9424b7bbe4d7465d9f20d, 0x2c01122a63dbde586507877763b572ccfdb59f2055ff15ef205fa8487f82a3a1, 0x17a88764e660e91940993b5efc7d317ca4d0e28d7dc164f6ab6e8c0fd2bd111b, 0x2287b5e929e98ac38199873b142845c015bb20880cd9a1d9316a7027a9b2d208],
    [0x2abd9e16b7b48289aa19cdfec726fa3fa15cc1625102ae511bca45f39d337e9d, 0x25527f081eab2b3258ed36e0a72ebbfbcd874e81c49836faa218b94c0a330b87, 0x186169de0e37c01f31821e0909bc4c7bec2129acf9a34948cf7a8ca58c9b57f9, 0x6d5d287a7a8d09650979fd72764614e0384a22972d86d191d1255c999d3daa5, 0x2c1f7628e8aaaee261c58c8966f5cc90e7aeb1dda64d590228e61de098e4ecf8, 0x1c3761c8c7a1ee1f98871ebfaf81b0b89a5bd53a69966681681bb1352f1d4fa1, 0x14d1774293d8bb21421fba59295456c98e3e9afd0c9858d6aef305318707e365, 0x1df2d2c614e4fe2a6cae058be1dc9e56ce12171c7c3bc4b9d1e76b1916458f72, 0xf27fd9322adc74859d8b58e4bc2595b276061b606acce303f2a90ae404beb2b, 0xa2aeb992439b6e372a606b46e95bd4b52c2072e6fb28c0689e84b5f444f7a99, 0x23e0b17792144b002252bc0490e7640a3d47784e77db53af09de2f3dd650e9b7, 0x2aec9631493082d844e77232cd2202224fc38b2eb0d87e7e5e62c11c5af5d006, 0x131847cf279637a5a337815fa4f40d51251f6e0174e59c5ff4ac4cb35e2f21fa],
    [0x2abd9e16b7b48289aa19cdfec726fa3fa15cc1625102ae511bca45f39d337e9d, 0x1c8f5a7ebf52e4504d205b2b92ef4a87c99bf55fed83fe42edf01645332dcec8, 0x1eed962a391acaa8a59d90d324a9ad8447d898f4b516db4a289a4bc0c565fdcb, 0x2b7c65f02b600d4cb64a49b484840ebb11ed7e99a43db9113ed92bc07d2ac4e7, 0x2b21e821c34c25f6fe3b027b3f9877d0966ee34e7224c738f0e1f454ae3e6d51, 0x2331843ec8156532e5fc129b95d129546fe5ff9928bce0b17964a9fa4d8d16ab, 0x22dfdad5cbedc015829fa14df6356c60037761a018d0cf78e13d3805464273ac, 0x292c701ad0a3bf427a33e1bfcd073edd2cb8b5e6e949906e6efa9356b471cd62, 0x253d7f1f0d16d4a21b0d14d04b927f0ad96d348e78a7e36107a9c2481f51c587, 0x12f89c0d808f729c196c25f570d2027925fa37a17f07d9cd86b366793b5b89ca, 0x28739fec5ce7338db7feb9b2996877e00c4c5d6f1587f24d5d165672d727d4b7, 0x2ae7492c4a9864de31330c131c06f9de5d50bbfa4b6ee21132068d43e00d87d6, 0x22d24c6c5b0ddfc162fe02b69859138f2428a54ee04d51b7d28db3dd1de5fe75],
    [0x2abd9e16b7b48289aa19cdfec726fa3fa15cc1625102ae511bca45f39d337e9d, 0xce556d3d5727d4e62e2716588f873bd595b1c1a31499dacd96b724c4b7a0848, 0x2e9e730ca4be19d180bc945c9284a0ac19a2d1b6523bb1c0ba4c105625e428f2, 0x662d03f6ae59288dfe205ca54c24f7f33615c42212e9e759bdc519a37573214, 0x130fb7df8e39fffdec5284ca63b4bfa2d450757eeebc88a4876f4538bd398d03, 0x16a882ce517234ae0932404d34fd73070e27a824e337e1e99eb71abd536a9673, 0x29c0802ac349b823b5b63267ab07fb4ac43717bfdd344a22ce4eb347dff10b8d, 0x26a04ea7406058bc1b0892ce3a849ca4d4692db13e1efbed22eb8846f62700d, 0x190401694ed647aedc22c5ddcfa7e5c0690182d5901c6cd17e72d053acbcdd16, 0x210d51487ac153bd15fd95e70ce61c1760d2ca4ed3c8904a85a7be721dc2593d, 0xb0b2f1b7b01b969254538e7e34f31c99abb093463df48171756cb005641b641, 0x28c21cf93221e40e088a37b7e8c4e4f6b4eca3ceda40ee4b7307c9940076206f, 0x6131acfb2371ead4b47df9a6f6e7ae744931224d78ea55cc67caaf0e5804ae],
    [0x2abd9e16b7b48289aa19cdfec726fa3fa15cc1625102ae511bca45f39d337e9d, 0x2bebdfc924b28a04eafda183476a1a5add23075c9d02b679e1064e61e9482210, 0x1faf98e88f5306663b31fd4e1e346eebf6e3a1cb1f21142e2c22344f2adb72d5, 0x22cb488da424d56b9878634ac766c48a306371ab23ababb0688e9fbc2bd2f305, 0x1ebc0f4f5901ae74815b159db10956d58d8faef0992a2c2cec68919d131a0c62, 0x29c4ecf2d8c9d693dada0aec9e743bb283b0f02bf4ccfb0ab8fc3fd7fea381b8, 0x2c4a092b45660f079277c81df9f8f3a7cb74d3603bc839eeb2fbfd798398919a, 0x145c56ab4720f6ad4011ca83e7a29a83fb11f6f1a5f9fbc2782f7ff4f7f18618, 0x2809c4d7a6aa62cf849cd656c9f76c7ebe815d51f180e1dee45cde9714261b6, 0x14881d4e8659014f6dbdb9c1a45f273ff86fd6491a729c1b4cf5faaad83c1319, 0x2e10104a54b4dee285b186d2ceebb3c520a6f08b0f2dc3ef071aac189ff90a6a, 0x1aa6d9185256a7da783e9673f47a57a4f1a539ef39f3f7f1686995e7f6de9011, 0x1433a78ede2442f29e1c90a35c75945079ba472a07a5fff22dd632611f0514d9],
    [0x2abd9e16b7b48289aa19cdfec726fa3fa15cc1625102ae511bca45f39d337e9d, 0x2113235e983b253534d3373d425b2e65ad758d985010990e0cc4c8c0971fddc, 0x2bbe5669cac7d09050c0479d3b77eb9d91f22a19776d9e396a4c79b90cdb6c80, 0x251dce15ba53f2fcdfd39448e3ce48f74bce1d96cc2b4cac2383a40f45918c5, 0x25af3b31579c2c0227ce1fbea8085d27d1301236e4a469f154422c0c00a3b47f, 0x101f2400d1e814d019a47ad9bd6d800b821c2de5fec03914276fd7413071aa3d, 0x1976bfe37936541354a1d66197e6a7818313cafdc2f4889f7647f808fa4a7b36, 0x223ac76deff06a630762ccd8db9391023a783e28659eb7f9d57223812b6abd2c, 0x2ac83b6435ac467384d3fe77f06d349c66d13274d40c37626c0e186ed73da3a5, 0x1075e744bd71d84cd204e4652afab236f75fa604f833d02e2ac15f06e13ef92a, 0x9684685d0631b2170daaeb0e82af4cbd5c2945f68dc758f05da1483c2633015, 0x292e0a7a8cc10221f67d029c700ac0bc1a9e41dc376fd1f7ee52b1aced908f2a, 0x1592dd8fded27b0499c5d7b77069e8eb2d27ed4d0159955db902ff47cec50d1b],
    [0x2abd9e16b7b48289aa19cdfec726fa3fa15cc1625102ae511bca45f39d337e9d, 0x116530f4782990542c91156b83b5283f48a5b3b96f4cc9a5eccfe8db89446397, 0x20792a7c07e235c08d2cc9d5b4ef2a93b7ab876d9f646d0f4538c7c1ff354fbe, 0x1c934293f228bc73fa4b8d5af9d93bc21b7db38e654c0f69a82e6d53a3babbcc, 0xadac0d1a0eb882f325bcd49c617778178187541c3f2b877c9a6e2e200b15c29, 0x23788446ab58d10e48572e52577108cf0d9fe33539bd0e8ba8d635c0d135b409, 0x2745bd6d0a95fe5be2bf988b86fdc7d17bdd6323777ffed4b0ef00e692a591f8, 0x17cdaa3978f7d9243acd9d66de86ad0a1bc5a2767206d506b43fa8df769ee178, 0x1cacfa3a8850decdd65a7de60fe3d4b063b9eafaa858e4455d6b0da518c6b221, 0x2291ce130877baacecde1e1932143f97da67a5c3b2bfa99ea099893932fd3e6f, 0x15adba2fc3b14d20852d217be0744d63363ac5bdc8aefa6be3d94ebca832c3ed, 0x150619b091f5304ccc7d367cd48d4b878a2de06dce5d9d7137ad6ee307e9cade, 0x6bcd482b40a5463d05a49cfae4907c05872388694c4548377ef2be93c2b1499],
    [0x2abd9e16b7b48289aa19cdfec726fa3fa15cc1625102ae511bca45f39d337e9d, 0xc678bf7b43613dd2c36546b68ca0dd3890f78927c5b7898a79f0051aab7199d, 0x4d55e1ef8446fdfdd9659d06180dd772bad31738654829e3f68a54625342b6c, 0x17451474d0a043f2ecdb1c11311e7848637cad312badb49664776d9947a25578, 0x166f2116cf6846c85bbe1e4c78bcaabb2823e0d4c0c27a6bcec3f1c1c3a4b001, 0x1d2d00463d86b76474ac56cfbd0fbb7f5071c792f61145f1ffd1568645e83f39, 0x52fa6833906fac636cf7a1bbe3b6d365f16d917e5786ccd1f303eff8439447e, 0x1aee2e06db5d4e2ebdf163a8d1ef89b70510c37acbb47b5a14d0c6496e66669f, 0x1e4d0a71dca74b2d4c0c403a8c99cd9582611412743944d25b97ee4108026fb9, 0x1a31ea0102b313bc96cbe558f0fc662425e25fc5f9395a42a051e927ae3fa2f3, 0x2e7d99fc4631683d67b62afc214c8e89bebc91b4adc4625c70fc5813840b9bc1, 0xba02e66d788b4db2c10e4b63344e564cd24c1a3e7e7f3b5c8c0bc50f2aa8051, 0x1938e6cee09167fe4f1b6256929ec89307fea623ff00a4c15993fd44b9b9ae2],
    [0x2abd9e16b7b48289aa19cdfec726fa3fa15cc1625102ae511bca45f39d337e9d, 0x24ea9e2b25c1d10973fc2758114ac04d62292d75633e5a98d87d42245d3085dd, 0xb7f3dadf80c5be4a9fe724d8c7ef9e4b4626d9e8ad61295f9482a5bdc1c6615, 0x6d9a25f5efafbe0738e9c1d8e291d7dcc6e70434973971636fbf957353545df, 0x57d08da194c641d1c1957a6ff6ea5037640f6b2910f854653c1d14909a73b92, 0x1b1c3fb5c7160d87cae56ef5a808308a5188abf94b4f127411b3636a5098a628, 0x4e0f9b281f00e246bcb7f3e5259e4554eba1148b92b1d464727259267b599d1, 0x1f31a5baeff037edd6912779c79b566c6891b55bf02398c2a2f1f40a41b2aac9, 0x24ecaac4d6023fb27cb5836794e1f821f6a61924d14810ec882e757bb5150709, 0x151f138379a4341cfb1a1fa09bb3fc4ea4f58f0c0213bd2213971fdcf1791394, 0x1f8ffc956b5fa5f6c5700394e863341ded45cbf64199185425651e92564c2fe9, 0x17ec84b7ec93fc7204915e7cf163797456992c8b5bd1ce3879ff7238d60627ed, 0x3a67e721da24139c6203edf65ee56debd2db5102b2c193aca10c98e70cc2354],
    [0x2abd9e16b7b48289aa19cdfec726fa3fa15cc1625102ae511bca45f39d337e9d, 0x199a8c4c63048f8c92b96e2fe73c3ef1be1e2ae312bc504cd6edcad0bf96967b, 0x20d5d5315614291c431a1f27ee637d098c6b2455e019872a06bfa9b1322bbc58, 0x204e87cda44e50d72b36c9a0bef8906abb1471cb4faea1262bbe1f148eedb60f, 0x1ae0dc4cf8615efcdbe69bf7e65863b9884297d7320b3d2c9abac80aedf519a, 0x19ddcb6e703520397f566c8969b47605f907fd733a7531330329fd07d0daab63, 0x224f871490b12271549e5bf1205ac16364f8c6f9cbfda8214068b69f3b58ca57, 0x305888f9b716c0aad54f0ce4ee1c74052bcc42261232cda96eafd2c17faee5c5, 0x797616b6e3a31ba4090fc46bf370854483846428e52ed4fbbde16ecdb407edf, 0x10d0c9c192672de1a9ab86b469c6c9bdf474fd4c077fa2b27e702611295e06b6, 0x1bbe4c061e88ab93144f0cdf7873acdcdf695abe01712409f942517bf2775c29, 0x3f37c5294f581af0e0b407e1f1691acccc9b2f0fab04fc68d968627ce38fcc, 0x10fd1cac0351284931df18b06d6d8baaae12879304e6567e96e024258a63d84c],
    [0x2abd9e16b7b48289aa19cdfec726fa3fa15cc1625102ae511bca45f39d337e9d, 0x2f4ce93fa6f69179598530075c2dfed92480e40b5082c1e4d0884a6e5a970c95, 0x48aa1e38a66c3d656ba67124986f27fbf41e16d1aea5d66b56d7ff786a5411f, 0x69328b6c9761099bb94e1fbaff46a4643a6d52c2826038bfbad2b96aa800a55, 0x18c5dfbb9611df4c176034f538bb3355c4ea9a34428b568b3d5484264fe2ec7e, 0x250964c6e716f188f1a060bbfcc20bf6c9c575aed8eee7a952883875e3469e5f, 0x1cafc40f71b4ea55f7449981d952e200242a375056b3ebeec542f743029d3680, 0x1e345fd27b75da9f73b66d7d11fe53bf4d7d9907194ffff926b6fd73650eab00, 0x1f86c19a4e41622c5cf6d297f3fb0966d1ddf28c14c2ef296d811dcd725656bb, 0x67a9ca314c1b989a258f5306f02017756676c8555e15e331674dfe2de960aed, 0x1a8c2c393c5940ee66a9fcb7745c711183ddd8d5336cd2b72880d1534fbd954f, 0x2d0fe4e3cea76d8b33f29cf85eb4268e0097270b955369782adf6f3b56a2762c, 0x83f71c1657f460360ace088b5682357e7d591b331beca39de70e7c057acaecd],
    [0x2abd9e16b7b48289aa19cdfec726fa3fa15cc1625102ae511bca45f39d337e9d, 0x1029b4658ee5d03c9476e1df7b7ec5447dca910ddf67e610247695140f7ae6b, 0x2d2fbe8b4aa2a78e6d15b471d034a31c0710a8cb23cd64bf8a105b0f5f6c5088, 0x2c68d13a038f7cc21d4035f2fae3ce2e44b06076755e64dbc95a48ef8fd32ec8, 0x255433e441013f28b645c439abd003cf216195cd6ac89e9cca3a2605e2afafe9, 0x2b6131efd66fa044954f1b2cf0798c44840b9ac5f91f73bc1d6a435d192c0606, 0xc50cf3d47abc4d5094e4faa45ef8950e9f30f6125953caabe1240c70dac54c4, 0x19ac7bb02c466c14f957a8683f2dc7a0f888f0bb9f233acae0568493f353b438, 0x134932780855ca4e70db189d5439192d257a8560daab00be7ac2bb05a5f43d49, 0x14652e3f019f18958f6e8c521fb5b375f755691cdb4cf7cc5de4ea7e5443845a, 0xeee4bb3c7a628fe38bd14dfa58f7a774001261e2c1b0013b8abc115e4059685, 0x1ad10967a8fa3bd36d86621d021c46dba709ff285387c064ae6f305cbb0dc77e, 0x6fc3833718a4e8937f1151ced67bd1059ab386ffca63596129980ffe0ceb943],
    [0x2abd9e16b7b48289aa19cdfec726fa3fa15cc1625102ae511bca45f39d337e9d, 0x16d751a67c79f9914851155d386e13b0058b4682283da2d2078704c75576c7e1, 0x2ded2eddee5893bd27e85a03d6501a2968b3ef18a20ecf50642d5201fd40252f, 0x1ac7670ba55f7ee1c2ee56e825e80ee2da811ef8fa08b90d8beeedbee104929b, 0x64cfb658abd66706a012f10e3f27e0d8c9b83b3e8e5234774dfec5e1202712d, 0x806d16963ae96badc162c4595f484fc6a8cdf753d18d336aff5b24ce1303ddb, 0x148cd069f578f6a864c92ca38fad53423c9a8792967e44378305739c39c3951b, 0x1513984d0c1ca0b24ab794ed86a4b94f4750a3a5bf1977fb6feac9afc85f45d3, 0x51f998093e4dbb4e7f8e410139a65ea44764f0d2af6ab5461b34717a9561bf6, 0x1f87df4d84ecd7b55bd03728de507a7c5409886811152634e16cd2d35a18db0b, 0x956f375546f0b19f6d2f31c5be42795b17904341594daa5f98886bad442108c, 0xf17b03f697af65662c25f3dc43f1f5e050f1ecf009ab004f3fc632938130339, 0x2d40326e94d3dd13c0534db03b0f6ba6ee54bb280af99fdd05d1cc7c94c9536d],
    [0x2abd9e16b7b48289aa19cdfec726fa3fa15cc1625102ae511bca45f39d337e9d, 0x2b0eee4044939efed29b0a5002b16ab0e02f75d1e193a21787d6a7f93a018508, 0x1b59d055ed845b4c304fc1e713c622d1dfcc7eca8fdaa57f38d7182d52b1b4a9, 0x1d2d4adfe8bf73cebefe07a088507412eef5a1efc020c7e3c81fc9c6a11036a6, 0x2857125d19ae926856a3ccfcaf70acf2b258f9fad70fe242f7168ffa2d02d2e0, 0x2f1da0ad4d4cdbd868691a65495006eb3728c6e410a57db82f874671f75d7c81, 0x294d34350a9bbf726992bee62b3cd7d2a333002340a4bfed74f6209c4b6173ce, 0x16e5f374066b223ca5a2401f102d65f5e7fbd677905b2e17e568612ff96b602c, 0x17c1bc44d70706417225c79dcc9db569c79fbea66c018f2881321c4877b7fc31, 0x264cd13057b3635518ee4425f88edba986a49776e94760a4d73b17902cc0d359, 0x2b8fa1e65fdb45989701a0f231114c0ef7a8fd3725c62070a9d748e5aae95827, 0x79f16e76efaa3caa7e2f266ae7b3f1bbb54a6ee571688463c9d62b17acfd6e8, 0x1c5a6ff0893053c43c552cf41b68b48a7759e63d0fc6069d2ee247c170f71d25],
    [0x2abd9e16b7b48289aa19cdfec726fa3fa15cc1625102ae511bca45f39d337e9d, 0x277dcb1f82810d091b7dbd02eba6e8edf5c97b08407a469c4ad99ec0a7938a26, 0x1507357ce338a6f1c5f01907a91c62082e6e5182cd8b8c47f9051b2cbacd5238, 0x10d9fb4dc60b7064e8d6ec643727c394da7318244c57696bbb473e2bfc273cb0, 0x51cdb7af55af1483816cf02db477c5c21a2e16760ac17395417afc92cc78979, 0x57d7491951dbf51f0b1b05406e58ea37d61518a67546fd430178a47e5c34dc0, 0x1a512039992c0d21bd7f2436bad315a3955b38097568c306fa92e603d4129ec1, 0x3047f751d881408a1f583df677a7313f341d0d90150b0031bfdaf5a17c1a71a6, 0x182d95d647c5f27363818039527bbbbcf23f4c143f6bb98b064daa5f09d127d6, 0x25973c85813c7ec78b26bd63395f522e0f8cfb0fa6a82375b9b65ef0e24c2aff, 0x30016e4e94afa204d5c420908f1aa18fbbe286a9512a0f7dd492b268e2bd4d0a, 0xde8759915e7ab1ba0347e7d3cead6663449cf3e56dfbc87b231f784a6a16f6c, 0x2b3e7d63f286ab49bb3ccb30f9a8d337c2a871799020681e7c1e5170569bb6b6],
    [0x2abd9e16b7b48289aa19cdfec726fa3fa15cc1625102ae511bca45f39d337e9d, 0x22f6dc515f2a6d844a494d3c307ec715cb4ac439abab7badd9f0084ce1785718, 0x1ec843ef7fd4d4078d3c68f3f699197d1818a3321f64d15d940ea6816db2d4ed, 0x27488355bc40e3b48175e215bb7937413eb1fe296f51266e42d421d1d744859c, 0x2e5cb786cdfbe0c74b05fcc700ee95936658634d6bb9152251e1ad38f3ca6666, 0x92f4b8b30e895442ee3f481121a04542cb01e9a458f3e61c773328e1b887f51, 0x2943525f7b6302dcbdabfbf7ac5c27c0187bb016069c33b3947becc68c00a873, 0x22a61651f69e2636019411d42edfbcb0cdbcc3b1c0f5bbee8ac9baf66b1b8487, 0xcd43ea643c19e6eec4448fbae1ea6c40dd9665d93b04099658f4e216b0d7925, 0xe6fb9ac72a3c4754de58d5b4ebce0f32aa651db3d14d5adbab0edf79d746644, 0xe18bf3657ce59002f57e8a25131e39534ade10d742313d81f02beca3cbef04d, 0x24d31ca462d9f59dfe6f114bafbbd67bbc9fb15e260bed3552e06e559bc049f2, 0x1663ec74cf67dbb8e668d7eac5c8bf51c5742c090f7a707e297d44a0e300b093],
    [0x2abd9e16b7b48289aa19cdfec726fa3fa15cc1625102ae511bca45f39d337e9d, 0x159eca9b923d7cbe5bd8ca7b3ded11c3ce6226130a63cb905289e0f02a5351cb, 0x2abbc33b435baed63f3c31aa583ebf8061236d423321e6ca666d33a0159b1193, 0x22798974294faef1e314beb8b7dffae46b50276230b06c98069b742d5bc789ce, 0x56841bcb1c18a70dd298ada142c577a249b7ca301d1080a6be5a621d604f15f, 0x1823a55887acaf96966399d381bdc7b8a792d40d71e5c5dc24a51d02f9946cd2, 0x27bb9a8678b0a2cbd911e61b68f4a6928ec6f3db90fc28884af8e20ef711842b, 0x1391eb35e10db17d84b0e7dd45145a754977c4cbb90ed1bece966ab89de71f10, 0x1ddaad4930fb9cff01affe0c6bc2034acbc20df09fefb4fea7c346dfadcf99d8, 0x967a6467b486450b51ca8d529d6aea1efb101edf31f3646efe1e969535a6a8c, 0x26edad91bcac2202606d579d3682ee71417af365a5bd3cdeda16158d0059f32d, 0x9c8e2fd871c35f3448ee49d7e7531dcb5301a6e748809ee639b152896773878, 0x2de254340f39689fb3c5e3740c1d1ceee26e8ef87c64c8b3ef5eeae2712a2fd],
    [0x2abd9e16b7b48289aa19cdfec726fa3fa15cc1625102ae511bca45f39d337e9d, 0x229ad4c71354c4b2ae2f011e374de05f72548aac7f407d8f52f00ddb74f2456c, 0x15d1ae9e3d615f8321be16db99bd43b9231dc51fca7ae9ef2c1ff50cc948d5e5, 0x1ad595eb60e44bda1591a4a7ea6facb03ed18e8e4c7fe44aa4949c176b3fdd93, 0x21c6b958e8a24ddfd5686e18a1b1c93843ea3efba13869302f46382e6a57e567, 0x1b4643c47be36a9608af217edbf9b2138045e295b062dd4b720896c55c1980e6, 0x44415df1dbbaf342d11d905f569a68a53cdef58ce2bf19503ed0d032ad3cb58, 0x2b1b266d410ad7a8990d350e5be5b1be70822f5cf0591cfbc00302c6a1504fad, 0x3cf806a68e9ee25ea00b57abdeb9f4b5ca199f9af3428a8b5cc87db1efe81ad, 0x1013c9c92352dfd09c3e6acaaffa2c44923b35492c5691bc7e9e734072fee822, 0x18afc92340649e0d9608aa526d2f86866d4bc5280c3f45addc6567b8339286de, 0x265cff469832ff20e35d2da4e50505b8e17a4eeaccdb516f36f3a71fc916a82d, 0xc83c2b9df3aa4a874494e329206968b89b23b02f35258788e9bafb43c47c973],
    [0x2abd9e16b7b48289aa19cdfec726fa3fa15cc1625102ae511bca45f39d337e9d, 0x10bfc00fe5269d28301b200756e26cf1281be271d1300b11d988a9ebc062b10a, 0x303c1e41ec4614539b4edebbce405652475c1282eea708cf2ff39ba8aff4a4df, 0xcb8f9cbe9420f6adf09e987a8bb44158ffba89abd7a738ed54ac6a95f17500a, 0x2f0cb3011c761f84dc5b01ba7a89194919d06f94304fb99dcbc0ad7a7bfaf796, 0x10151a6d8c2e4d4dd265b3ebcc0e778aaf056a02139fff9c2ef25968dd2abad9, 0x1e50838bb4dc4ff216abf8455b8585010107e2d64d1fa600f6f3408655d36fc0, 0x528850ff2c7ccccd074baa85e0989e57ce76ea60b697b8ff19c97f1f9b5771b, 0xda83be0e16ae4edebd1fbbd5b3003486f5783bd79164ea1c6a4fbd945a285b, 0x1bf809aaf61005aa262952e1ac2141e5a0aa596fb9d828cf2ee2639b59101e65, 0x231a51ec8565bb72d6791bb758f8abbe5392ce08a655f2bd03f7593a026ed371, 0x227aa3bd0866433629f3cfd228e20be57f8499f4a5597d3429c40eadb238f1f0, 0x272b5a76f45cf6eee3210ca6df476b2555fd79fd06180b3f7eb546bdf2e9e4e8],
    [0x2abd9e16b7b48289aa19cdfec726fa3fa15cc1625102ae511bca45f39d337e9d, 0xaba393911c001b6e701b44726a176bcdb276d02d3eff5e70b0cc16aa7570958, 0x282c157f6cc7614232f974eb110212f786134a965872ff9ee9430cf05a7826a6, 0x16cb3b06654e4997a543284ea7d12efa7b821e96889b0dfebaab9eb705d829b7, 0x2364c3f74a3b18bc2af5f89126552fcb58c80ecee9c05c0fcb4e39332dedb205, 0x267b1113aa1f20f45d5bd1e042290c8d1e7e7b4b5628184704b81f894d07fd0f, 0xbd187c337ead48b6889b3e20026dbf604729fb27460fc1b51b7b3a03e9812e, 0x2691351a32661a9080480e51d758cf0e3bbb9dbc43e108293576c153dbb92654, 0x13c49152d941d3664ef620a47f29229b8b41060b9ae5880658772ac615f6c48b, 0xac5e68b38810d5343dccc099076b7ac9388c25cd6a2b2d182800156ad18b438, 0x18a7e5e6e2f6d92c409fcf6bc1978d963fa8093bd83667a95f19841f1a826022, 0x1ee76fbde9ff833d860abfe09f44cce584cede5a6a20aa765975764d97c3c38f, 0x29139e18d16666687e950c7f417aca14588356d6737bb72d04444fe31e15c292],
    [0x2abd9e16b7b48289aa19cdfec726fa3fa15cc1625102ae511bca45f39d337e9d, 0x27ff4617698e6b395ced6d0e40bb327a4dda5467ae001e4ed828713c58e4cf72, 0x1faeaa26b9d4016a7b060a1125b5b83e22174ac6131c860d77c34cf368d4d5fa, 0x116b96192f543b8503130b1bf684a9bf282b41f400aad0041777f741f97d42af, 0x1ace40f357a524887cbc0748e9cc2bd2f968a87ef94468359c48fdd333eaffd1, 0xeb90e74f33e537563c4c2f8633e6d8f8d2304266741ab5b0c0c97a89c4f76b3, 0x15f692b65b0e4a2729d1d07a728029a22e6aaf2d8013a26d80ea2f4ed7230b2d, 0x199c258f1265f41f038d234249d79a9d7cd0f435355f9c9f9d671d12b3d81360, 0x2aa4870dc13bc48b19f3d7ab5df282f855783d5cb1539cf358d235859cc38328, 0x2fa96e08d4613eb78063774846b608be0b7014165df4207b83217229d452336b, 0x1e45df6508abb41b74eef391fe603465e142e7331c1a11e6d1a6dce3b5af459e, 0x157326de3fc278a3ab49527c3bbd66e6944065a068afdab3426acecda2fced3a, 0x13cbb184686e4e800c03d32b9bb0e86322c0547ff70bdcd6b6dd622fe9cf772c],
    [0x2abd9e16b7b48289aa19cdfec726fa3fa15cc1625102ae511bca45f39d337e9d, 0x2195bf264d78f5905511e946fa2bf8fd1c31e251405f24edc679fdc2e28c4935, 0x2891a04c8c9333c3f86cb9c27db0cd4590b91574f283d98d87588c5329070ff8, 0x25774ca47fb81e980d6024bcb7849e10bf90974712f1c15b3c5e42d48a990b32, 0x19afc1bfca44fab6dd8cf347d13bd9d679a663ab864dd7474c095855a69489aa, 0x2a855f347153503391af5cdd8f33ba84d9b7f330c5d71a3d4d1308aa36ee1f5e, 0x2169a917b5586a2cd1f44fc39acee8a0af21c0b0551fe2823662087b50d3e183, 0x165c3839b46f2b8d9c94cfd1acda9fe4cb4b37b64f7530324e44a859b82c083f, 0x12bf9acf97c5d1b2c23723541455fbfa679d3539879434010843e578fe33ba26, 0x973d4990abd501d246a5bea2b5d467ae07f8f141968bc7049a8d7d100b8d80a, 0x281a0f1018049ce5560aed11919df7e93c341795c9fb1ea17ca7f6e61f56450b, 0x1607dc7766404c513850fdefc9f3e25d2b9f6e90b4f566418fa142b787ba1d2, 0x100010328a776d1e0c53f55c79556f12bee9f2fc908b0b19b215253b91c071af],
    [0x2abd9e16b7b48289aa19cdfec726fa3fa15cc1625102ae511bca45f39d337e9d, 0xfe6e334c004b36f6a9aa7a1695325b8413cc3a527fd77093960d6da1da678bf, 0x192c7a5566dbab04d61dcfaf9675cc88833477473f0742c7df458dc0c72492f6, 0x16d9f79f4e2e32895e9b7d3a13cba3f9055c22ee00fafaf94cf1a2237279c28b, 0xb3c970c3abc81a5c64df8177d69ce62aaabafe4c797eada6f8724ed59924963, 0x1e3480b6b43165f2e9e98cdc6b1750c9f8552375c746fd9318f6e98dde188146, 0x3ed9978d698020e1627fbde78f83dfd7267a525315d03c27f934a04901d717f, 0x14f962e4f1786884e7ec52bda63442115550a7523e9840ed60e8ce1d97e81c27, 0x352ef9bb93ac53fbf0cad44a4c9f359d8be239da7c8da512c3b8f339f1eb8ca, 0x1d7daf3d516993cdf2ab5199f7fa038ec18b7bc1d7643191dca490734b41162a, 0x19c4fb9c7330292b9859c4471c0558692ef015cbd58c7d6b9f8f6a61701055bf, 0x22261c2ca798dbea2a989b4959a6ce59a327a1a5817ef4d0c99147d79e119d66, 0x1c8a822a7cc949bc91f32624282c0b91835aecebcc805add937f2c33ef2b13e0],
    [0x2abd9e16b7b48289aa19cdfec726fa3fa15cc1625102ae511bca45f39d337e9d, 0x241eafca2ffd1a89501dfb8ee9f6b91c270d2edfb22b77f5d96b64c074972866, 0x1ebfd44d328c120e25331359b950e96faa3b24d803cfebfc3fbdb5aec7d3f21e, 0x1d45f9e955be39be29b72435e60ccb82ceca4dd1f1bb242ca40461f9966dba18, 0x3e68e982b6f9a1317a8c72d1519c8d992747107cd1647f55cf86f1274921934, 0x24d58310c23fa88e127678cfdadc69ced4344aa62dffda5d17bfb5cc6cf92164, 0x277159e31996dcdb712c9a030b14b40e45704c9debbf6c83381d23b98277564d, 0x3fc9ff00ba6b7b1584eca5fb9bc2479289e05be8f7fae084849424cb08a1412, 0x102731ced3c51f13b9f0c571a0327d5b16984151ac388ae71008e062b103c7ed, 0x2aec624f610d949b7e050f9240bdc67eb00b17980637731a93401129babc51c5, 0x348bd0822fa0e5733e59d37c6c25354a899286210dd11b006b45086b8936e64, 0xf7b4685de34e45e8e884726809202d717000926dc62d3373ecdc8f6d6105a3b, 0x229abf24fc333d2643cf514ec877c3155b9f5d4563975ddefa179e69e728ae0a],
    [0x2abd9e16b7b48289aa19cdfec726fa3fa15cc1625102ae511bca45f39d337e9d, 0x1e9a882703f9fc17e0b9b0e13c13361beb7f37c04d00ab391d59bff4ea9cc738, 0x18ae81de5d561926c49500b4a1c817e127ff35bd92ef713b8becd8ca934e18ee, 0xf691c4241640871dccc03e386a591c9068711b69e35c618ae8213a7b976b467, 0x1dd3a781963eacb7623f1a53996b79b1c5dbdeef63ba509d264179d7c7c58367, 0xe30b8151c59129f74a868583f2da36f7f32cf07d93a21dcb8a418929a3bab4, 0x176a4a7f6bf803a3b2d7b366d35468d449210f48f31753fb63d4c50a522f04ee, 0x2d0138a0a5f600964d4ba4ce8391caaf610e7b9cb46ece6bac438658e7284606, 0x1208049ec66dd8b35cdd748c6b7e54c3dfd4ce63937a8e5f5d7bb55c70bc3256, 0x1c9f3c36dfe21664afaeb0f1d29166f2896455fe34a3e3a937767a3de6fb92ba, 0x203ca885554ddda35c4ca58ed2150867f677c99a1afa4796fbec4c3ea534b7bb, 0x20e28f5d901c425eb6d48980e9f86b212911fd94de850663e4bc4042cf2fb8e, 0x8eee40dacd3ba8ca8953eb7713bf9c642327bb96f55a7200f7f19851a25147],
    [0x2abd9e16b7b48289aa19cdfec726fa3fa15cc1625102ae511bca45f39d337e9d, 0x2de2cac04d23e8f84478018e4160a1cf34d66ecd6b4cb8ca67379b0dfed1707d, 0xdee104be28ba9a4493e05d14072223610a77ef655f646a8ec1f254146b0739d, 0x198546db1f9b3073c570cf4937bd3d716336b8267aeffda95debaad2764c91b0, 0x2df10c785477ccf2aad54873a099f7a5245b7a1797d4b7692df35a01a4265e0c, 0x38e6b803b72b22d07f3c4d4da85d583d1952dabe6f4cbfad8ae16ffe5aaed55, 0x20ff66ad9f9056e8a0c513785f7f1aa1ad0b53ee305429c5d299ecb3b7d3ff95, 0x2662e4ce6ef014cf95ae1041e8ee8f25eb02d188a234bdbcff2a4fdcd222fa0e, 0x174299b27d180d0ac59e31ffb101a68ebee5b5e17e8ee251b61cdc2d73b5d96b, 0x2cd73c6ce46c664bab760c4d73a7f05132e1ddfc0ec113e9b37f9144f7a1a24a, 0x1c951a5015ebe45893a92af1b5b51688298fbbba474875f7b9bf97faaa69cdfb, 0x1292a82ec348fc639f61c1b9d4f48e1a729f8e4d297289c45deb9d79245a7c6a, 0xa0eb1649895b7028e7b286f147cd47655fd9380ad96b12f25d4d50134f1b624],
    [0x2abd9e16b7b48289aa19cdfec726fa3fa15cc1625102ae511bca45f39d337e9d, 0x153879267fe585e41277a47095c2e71a556aecc89b880549a3e6598a2b679888, 0x20564715ed17601ede44b0ddeaab78c07b24d7c384b2a278ae5902ae4d53ac21, 0x244a763e10b0ebfdea4ad6e115bfc6294ab8592515a0f103750f23ff4745d4bb, 0x2313de5d350a08f83a06f60301627b52170678ec4089d95e31a85ce639d4d3fa, 0x2f61c7a357564272a6c31f1d4a2c37d68f947ebae5ef06f0003f47baaf8b2551, 0x2ba56182022bfcaa94b28c4bac74fd7bab368e2f17b123aca7cad3c07377ba7d, 0x903e97b86b03d63bda9d015cfac4e1df0c7eb553114d6603e1d9cc6def5a2bf, 0x17ef136a59507887ee376c9d03155d5638f73695829bdf753f2027c93f6e0ff4, 0xd2cf9780d3b8665f07b485f9b61c97ad43523b52b89a216175fb479596b429c, 0x2cb10c6713c9c041f988e1d16e1974db3bbf64fa6a0dd716654d2f3d7ee3fa08, 0x2a7fac0f7cce1677e53465203478eb2a87f4a5acfd0ac6b10b24261967f265c1, 0x150f1a3251ea142ce9c8863adadf908f98b6f4eca4fa8c7f60834ebda805efce],
    [0x2abd9e16b7b48289aa19cdfec726fa3fa15cc1625102ae511bca45f39d337e9d, 0x1f5f9f0a9e7226242aba685459ba2d087305dbcd15238e0d61537fbcb4e8ea54, 0xfec778388bd29f1fdc01719aa2acfbbd07873a4c628caadf04ed461a49b5730, 0x8fbb80d8ad67e52030c52512f3947eb0fa257e7a6bc97dbc18848ed6843fdb0, 0x220ae6fc4a1411f922a67c3d2191d16fa72e4485881f5c44d07ad1b30ff72534, 0xc24db144fed773dbf4a285f6b292f097e73c4210b64f60d0471099526125207, 0x153e33da5f9393fb14de5f8d9ff25fec63f9c284563c9b75485b8c5965716022, 0x28190eec890ed4fb51176a21643ca8bf8a4c6d1ddcdfbda70baee9842e771e0d, 0xd352d314f8a649bedac97ade9cbe51cbb4c1d76124bcb753ff46124ae2c671f, 0x589454222f880ff67b3b6771ac9579115ef98b4a5291ad1f466c37df59f7a0c, 0x707968b36327eb7bf42d881932225d1e6a9cbae3e9a9eb1a3573575b081525f, 0x24d15b907584822d94ed3cfb07644a1d9cf985b94ac08fbabbbf5070ca3ba2cf, 0x2d51c48b63d97625628fc1a9c265a29f4b5ac1a1d0ba807f3f1d6a729e8d0d7],
    [0x2abd9e16b7b48289aa19cdfec726fa3fa15cc1625102ae511bca45f39d337e9d, 0xc5d3e1681af8c731635a66d82e8ffa52d6fe9ae4551c31d9ce5c7e9f1482f3c, 0x19f573c7bbaf4af57ab119d9c34a976c7a2770e9960f8324bf938e67a40bb621, 0xdd53d93a158832a63ae02346cfb050f4aabd93d2c376a694322b70020af739a, 0x122168471be451e1fe2383a1a82795668084d4602e136c3533156ae4eb44e5fe, 0x181171e6af7921e268f8e4ca02a69df02f99e374f086433e2d8438465b878fa4, 0x20fde424afb171516bdba5aba1302f3c40adbc6df6009941ce0978e1005f1570, 0xc999a3c07697cd6e4632110862a0e3cd6f2ae7ead5a0c62f83e57e3752726ac, 0x181e43350d64b75df7c57808060a8a467304a9b10766426597fb485016642d1c, 0x22f941438fb638d0f6e1013d81672149e91bdd794816a149426830a140ba5520, 0x27bc96df0a03fa540349df2a46633309b8e0d2935a624c7aa51cd859373b1d3a, 0xda6574a31cb0b010480dfb6ad33015708e71c420b8f3664186876afb8b48b69, 0x2a932da3d493f5d229a00f18bdc6b13a00783ef10510ef02d3836a9728e75653],
    [0x2abd9e16b7b48289aa19cdfec726fa3fa15cc1625102ae511bca45f39d337e9d, 0x1aa840ec7905fbed4b22675c84cbd527218db6bdd21e9558fef98860bc337607, 0x2c5107353c0edc8e05ad36b277477c9d3ab2d26fd43dd2252878ca814c48459d, 0x1aced21cae771d0294a1630be67579d81245093d2731898a72b822f8185ef3f8, 0x1a24a7fa4d6d5498af1df2f86ca66471a340c4747a1e24f592aa7667346aaa8, 0x289caf37dc4c64fd8c66718013fc3f1492b3c76cd1ca713196aef3d95281e3a9, 0x284c43505df8fa7ddd6f9ea7464f3caca8a3b3b55d39512a38b2f37b7437802, 0x501489e7c91a13086c850a7174848dd37bcb7e6a2f8571ca3086415e22a249a, 0x1d911e709cba9411cf221392b1d8e8f292d3895e5cf250977f7bdf724637e7a5, 0x26ec755542bd45c2c4968fcc98192cac25bb539cfecb7c16c926edfebc0dd4a9, 0x211b3d812f9687467d623861909909e8a579e66c135d0ad0d36038116e858ceb, 0x1835f5c44c7bec7bff1c814c38d109572702ee85860c2977650db910dd555db5, 0x22bb08010cdd744ace85c758c58576d6b353ca6326e9de8ca594c57b40a76b48],
    [0x2abd9e16b7b48289aa19cdfec726fa3fa15cc1625102ae511bca45f39d337e9d, 0x178bdbd863dfd248db7cc60881b17996fa8cb0f5a806ba37e818d493dd4d04d5, 0x2c2feebc25c3e9911fbcd7c77ddfc8feda0e36b3045e86059eb2507db84b20dc, 0x1d8f0924e2fe93b786ea1ca32cd7dd268097e1144e5f386813e40d7de6385414, 0x1d7b4297d5b583bc00d946ea2d45e79bca3b869f3889a3ef8b6986ee80515603, 0x6b29e8a6cd82571306523e57a88ae2f1c627688af6a57ab4adec48071d864ad, 0x23f708026a0738512248c05a5a51dc0f0b64cbd50c98f2c001301a8dada15649, 0xfb9b67606d1b70a59afef99cc15b51ccdacd8ac412858e37fd0a5b685aa1187, 0x2e507b8087200a7b14d7c84650e5683ef78d7e5281b489d43524206ced314cd2, 0x1bec098d210e06aa6b800469725bb7d361da8f106e3df06fd5788b3b423bfecf, 0x6ef2b78454ee5f43388a7ea4728996fcacb8c01c644534fa590de1da8642172, 0xd5662f25569baaa0b10d66142378f0ff302a3654da318bfa370812bad2a66fc, 0x2bf77b6c0aa149a79c695d67d64005c90e926b44890085b3fe631b4a8da64760],
    [0x2abd9e16b7b48289aa19cdfec726fa3fa15cc1625102ae511bca45f39d337e9d, 0x1bd8975c90ca4e356f1c37f12fcec0ef5ecf484736f375f78566ba8aa9e86427, 0x2bebb46043c675d8d4b13e9d3c243f49da64640954fd5e194022c846d69cdd69, 0x1fb7e54c00e38234348206b136e17db48743a1e8833a4146f905113960314be1, 0xfa50d544f0434df48d3dfdcfdd164b9ebd8e57d7a60be66b879294a40a9c396, 0x283ea6139b65326666af04d9913f3200f9b93067867be1f2431796e9add5bdac, 0x758ac2a306bb32c1030578921fe09a5d40d83d968ec10aad31a15a7c56da8b4, 0xf413088d4106e8a46bf7cba046d1f47b7f8a741400768835d853830ea00ef3a, 0x466358069d58f4786b2ca782dc4f7a6786fce88983fcf9275b9a5850f814f28, 0x1385f23802d6bee8b76743564dd5510ed1200f094ae6c16f03ff8b4cefa07047, 0x108072d197cc79b4188436a0c50845d245ccbfd1480a4882af2cc88351d5419e, 0xb6d297f7ec667c68d5d7ff7aef48259dde62daeac24b7868e0fad90ab3f3a79, 0xc82418faf403bde8e551554f4c8be945cfcd1f78615c9525d3c607930b0aba9],
    [0x2abd9e16b7b48289aa19cdfec726fa3fa15cc1625102ae511bca45f39d337e9d, 0x297b1a1c6fb19a9f0490226d23936796caa8c47a390ce5e3414d91243adffdf5, 0x1d8de05dd33fb6513962f6bf1406d3da402064e2d32000dcfba1aae1d39a2d97, 0x19ac0a18a29761fe4968baa2f8d4d4d7a8d241c5fc5cb54a13997873a4bf8f0d, 0x13009a2e1be50b353babfbfa0c9fc48341125c9028a93d99b16c31835e2191cd, 0xd660995842ce191476ad064a5599e2c5415f48ce57392e66e671a503a30b119, 0xe5587ae4cfd416edf434a263c9babb45d793a1b522fc96e7845005f516944b, 0x10fbbc420434916261f6ce95d1ca7497b8237143757089de2c813388acc3070d, 0x190d15507748b38ec5d8d96cbb40cbccd3cd004f1f500f3a8fdf9d9dd05cffc8, 0x70e81c5cf9512b85087fec4b044bcacdf0ebc36939e0e33f12095929b153fa7, 0x20577171accc171de1282cef827a5b3f7620c29566598066037947da13dc09fc, 0x105c02eabf359c9fb180c1112e560bc894bc2c453941f29e1b52c28c0d8c6c31, 0x701986232b2471f9bb70c70941f0732c59b9d1c1d7acd7df2b5c9a3d1063397],
    [0x2abd9e16b7b48289aa19cdfec726fa3fa15cc1625102ae511bca45f39d337e9d, 0xbd0cfaeacb5343bc71818eec4baa3eb1f73e5ccdf4d4fb1e585b9326794d8ec, 0xab6ce9fe9ad13beeeedb535f9cc7bdd51a9edd426a54a9b85b6f23911dbcb8e, 0x20f5023d1e52fefee124ab42f5eb28a0c18cea887e3a0bb7c4626ee694946984, 0x180f0ee72343b33cd7098990a9bf33abb509d454700f602d23067f031a314ab2, 0x9e006f3e85886370bc11a2c92d6b1905da2e1d7389fbbfa8ce2b0c3797b3204, 0xcd828a1733f7fe84eb56482b0c373b7bf9ffee9c70933a70782c46104a7abef, 0x14ae5043d94b8f236d770e5435d370e07be470537fa8734aa62453ef2dba83ef, 0xcfc46dedc8f1535ceabc7507cb5bc7dc27a44b69eb8d799ea037b9dc0cb49bf, 0x13d10cd39447e65f03bcc27657ce46b8f4b9f0d6d0d9052eaa700aaac4e56204, 0x1d19d4106503a113839685de852f7dfa1ccd2131552e18f9e62799bfdbd394e, 0x1c1e57d62f76f88539ab7fd73bd7577c358aac8bfdbe0c0953cceccef55b1c7c, 0x19f2dac762392328c37a5a54d4cb980383918297078ca2fccf8605c52f36ee48],
    [0x2abd9e16b7b48289aa19cdfec726fa3fa15cc1625102ae511bca45f39d337e9d, 0x11104096d51f11f8db806853a470e1f2838eec2abef570a01a7bc833a27526f3, 0x203846151d74394d322ecefd82202cb29361192fc6692f8de4c0788e5364bff3, 0x2a3214dc89d8794cc308f0b2fed1240426e9095879935f4889f7bce9b06d1223, 0x296caa3afab57aff0ceac16ecf05b6887ae6981c263b60b49eaadbbdf5332a76, 0x2ca633b28c1343b7c3ca88c3b6f4f9da113daa93280626e98b3c79d6932d3932, 0x2c62732b69393a4495154205a9b636650a201271da60b65433419ae8f4543f2c, 0x54a20f1bce174b2063f5581a86913d9edb5b6b30de76348a881f320afcd4c0d, 0x12dbc8f4c166edc2716c576248af681b69ed94ffa1e5b3b48459c9787ce39569, 0x13d733d018ed7c6f4a1e471d7b8a6f36047ac9ca93167d7f0aa674f1704fe7b4, 0x2baa1b752a095c0d7552dfb65cf2f568b47a132ffd5000cba2720ba8ac4c18a1, 0xdc97cfacd4771b400ba35d33cbebba737c70e84f07d0ca37dba093a2460c944, 0x2eb71ba2764a7250281b7d3506deaf0416593ec3428df1a9fe2312e66541f31b],
    [0x2abd9e16b7b48289aa19cdfec726fa3fa15cc1625102ae511bca45f39d337e9d, 0x24a6b2f63282ecf9be0988f99d0b11798ca33f2c8bcc4e5669bc7a256ab3594b, 0x13b074b54de58e9fa17ce6356d3a6da3d800419d9a7170e3bb1310daa4f4f96e, 0x2711023ae2f03c0399399775a8ca018e7b91e50fb4c7529bbb09d5cc88dc9d90, 0x9fbf1f0c9fc28e92f2040fb7b132373a55bdef07f9009c3aefd13ee0f7b369a, 0x2b5a1ba0a4702083424b045869aff8680388290f4b164cc2f022b16eb0e96e58, 0x1292c762ad6a3abd75f5ead608b8f2f90f8c528b772a42d750cd244d74db2e86, 0x99282d849ffac983bc6cd99827a1d368dec42e7fbbedfb56a6947854f4177b3, 0x176eac7dd262c43fff3d935c0c11db3d23b0542a6e5e07502dbcea633ae43106, 0xfaa232a1d0ceb281c3a428f3e67aafe0fb1a27fbd58c89b3143f486dde5db27, 0x20cca8c39156be9d3b7f3caa041af52ea538f3ec173cccc0b3497aa068b8e1a3, 0x146799bee14e96cb93165e30306e78be322d11b4ff008af316286989d648ebd4, 0x2b1d7a8ffc222693ea0d5398028d6042bcbfbce6894aae6c79c02d3398fe43f0],
    [0x2abd9e16b7b48289aa19cdfec726fa3fa15cc1625102ae511bca45f39d337e9d, 0x13a158f9d67d4b35e8187f741513e818c32a15e9ce3d7ad17e5e0ff76861073b, 0x2b64a21d911a768ed8f424092d85badea0a141699d41bb31b44d05ca7677f622, 0x6721fc051436a604df0acd76947426dd9464034c79d02f434ebeae270b8f113, 0x1ffeeeae4f5475d7b8cfb723d7daed094e18949532bb7f47635ea7290d27b75b, 0x94d465c413d8f36b86f1a1d2cf263ec81a2588fe3784ad6c7e7abecb2e59853, 0x205f5fdead5ce83dc8000b0320741d41c9d2c729ff5a7f0cf8acc2c875cd3257, 0x1978d9908c11cde5f456e20e6ebbecb4d06fcd7e31e5e70ac0efabc721aa8a8f, 0xdb51092fb5654d04e24dbca267fbaee53776bde616f4f87975b9759cd833207, 0xa93c02bfdbe4c17a20506b1a5c56caf375aec6dee3b0b2a0884a48b104c00ca, 0x26d4bd0047fbd72369c8f4834ed8144c5ff28a42ae16b56818b842b9b4d6b9dc, 0x17c89c980d214a12738a2939cc7fc425406aed9be9a932e0c427991610c0cf73, 0x49a23ee91a6c076fe5b135cb6f92a8081c604adcc21c8d6456332de80420263],
    [0x2abd9e16b7b48289aa19cdfec726fa3fa15cc1625102ae511bca45f39d337e9d, 0x13f9655a5f1532244d4e030e782ca3f9d236f8d302af289b9c0a946376b45f3f, 0x271d8aee48a5a8dc6bdbf29a491b31f24c71e023554a92693eaf0bc68a6f0272, 0x250f4bf66572c4d089c73f90e1ffed7638ae0f926523295891cf7c765abcc0e6, 0x155c20d00e84b634d4884c42359c91df2fbe1de2f75006677041c0e70bc23acc, 0x14c2c6a209a7bc6aa6d978fb994d95646613ae8e6b0e0e5f5cc8f5707766c7b7, 0xf12be26119ede0fddb6393af22db838f258136f2031fdd223dcd8e1bea243d9, 0x2efdb0edc82b4dce032308b04745dd1f1fbbbb5640bf28b188031e0cb2e1c1dd, 0x1ff34842585b84d2bb8c9151b3f6c65f48b84a4e34b07f60192c13a6ce08a7d4, 0x2d9fc37d4a22c1f195838803941d2f629e69eeefc566990919974d8e7aa968bb, 0x21b778120c0eb0974971f5a24e29c204042f8b50a61b785b7611b8c0ecc6bd8c, 0x1fd36ff9b7adcf1b3cfa6ab317bdfe9115683da95b29f84c4e113fa6e55c6b90, 0x151cf47cc2e82f3eea09b8d6aa86037caafdd0cd43a85ecf5fc3d314380e99d8],
    [0x2abd9e16b7b48289aa19cdfec726fa3fa15cc1625102ae511bca45f39d337e9d, 0x19c8e29952ab4d0984bf1da922e2448fa9910c0123a999a592dcb473f296564e, 0x23331f65cf68a733b5e8142daf41bb2cbc40b2c334b78820e92852637f1e87ab, 0x2a7f938a6cdc65be6c071c8807ff6df4c48a36bfbd92f55fd06c057a48bc8aff, 0x2c121d40b94585543cbb38980aa3e320f5bb460d165fed90e367f2799cc1e8ad, 0x2082427ee8b6508762d08df82f8449c47d4b4b117165ff4fa1ff944d63b74d7f, 0xbbf36473715a6bfeb2bd46b4650b2e48b4fabb9059c1d41675fa76d880edf08, 0xfcc45095ed5a36166ce4033e91caa2446d9594905b652b7b56bfcbe7fe03ff6, 0x270c8e9de025f4460363730d789c1f3dedea3343457841db516e129b670c25ad, 0x1e9cfb5b0f1dfd2465ef5d2731a8d5d26b5479cc6b6e438783231e5b0e805faf, 0x1884f4ef9e723cc405fe49803473ebda5080731b4878e1d3a5108fb20896d14b, 0x182b8932fba285b925b7454327ae2a1aef739b088bfb47dcd675730bd1aafe4f, 0x222f2075bf57fc059a247d5e733b3828fec1aac68509a2c0e4a8ca1fdada90fc],
    [0x2abd9e16b7b48289aa19cdfec726fa3fa15cc1625102ae511bca45f39d337e9d, 0xef4c76e42df7e6d4e71b536872ef6816d62d64c06322bdaac4aae65ce6d59fe, 0x4e28c59213cc28cfb7b21091bc98169875e4488188b70a385197588025ac778, 0x2d69c1a48c1be2b798dd77218a0653f7bec46bdefb7f55cde3e6d28f56527260, 0x198d2bf44196f81d74761554f80cc169eae8e817f44ecb588bc64f6277f1d625, 0x13c8bbb561fe1109612865ee008786c5d50158e42d9e91b6f52b02508b67874d, 0x1eb37605af262ce36884c03967bfc38d8f625e080c7bbeb4bfca07e25458d12e, 0x25cd986975f4cb765e4a8f17706cc4438675bf8ab7b110470d88dea1a64f66ad, 0x71d02268b089992a8d62240d94fe171bee083b1a2d9bbefce3cc7c8cff5a577, 0x12ee53cf69c9a0be3be3de51789d16cbef35961c6114e4b01244d814a5ced3a0, 0x94acc645dc2e6929022f4b4b946e8f51ac595fb3200074cde24b86643bbfc43, 0x22af41b2a54ccf55b3030b344dbc82eb8499ca8c67c191d4b6873bcdb7639f9d, 0x14c87352fe94d929e26aeedc2421c5812b7fbbcb00a7b20a79877ee086416778],
    [0x2abd9e16b7b48289aa19cdfec726fa3fa15cc1625102ae511bca45f39d337e9d, 0x21cdd152af751112267ca585f98b2abd9bf78eae7bc404dfd9e8d34010af7c3e, 0x20d39dbb9c5188640b6f30abed60efa7c61433e6ffeeaf7cd73bbd2d713f55b9, 0x2642c98bb9bcf76eb3b6e3f86c309b400e79071f12bf462c19fc612a89722b65, 0x2c2562c294b65505f0ffb6476def69c03e6d1324fd2ed7319368a61c7fc672d7, 0x265a567985ea221426328919c3ec1bccf462516e6525bee01d1d810c172e88e2, 0x7fe7a2e56090a75757a54a27a15711c9b7b3451536b61e6a5519a3a073a5a9e, 0xea63f1b7258831a4f087c53827988f0a5033170186619e513ad470ac9691088, 0x1d0082b1e2aba35d77b41e3fca46a4526360eae2d1d49d7be6a4498f315be6c8, 0x17c7b18d8e5324867653d44a765f34f6653a43d2795b040900a2e0b4c03baf2c, 0x29e0ca8dc73ca2f25b4dd5c756bf5316b25be6c0811e62c2f4437fdb9a7e278b, 0x1f1e7e26201e619629f66ae5a3c2e09acde700436c22b1ff505280a62db0e242, 0x2fbd789305950579f702ba8777534c2708028a7845173f13e187752cdc5d98c4],
    [0x2abd9e16b7b48289aa19cdfec726fa3fa15cc1625102ae511bca45f39d337e9d, 0x2a88c6c0393f56fa63e8e340f708efaf40ac4b85b2ee681d39ee1aa0dfe396e5, 0x20a321497aa9e78f16a5957492e3ea0428d22442056649de52d115b1c73b1079, 0x1f00d5da2a0498a2c1341f1698df1a0780c5169111a7b02fef79b0faf32d6498, 0x15f194a187cba501891864984a6f52cfa2d4bc63ba2a35f61489c70cd651e9b9, 0x5cd85fe0fc0c75c027f4e3f1bc62872153988eaa0b2ca20b0cb5e7fa3a687e8, 0x1ed21eaf16b3d661b44df4003cb3636184353d25def19bb04baca933a3142e78, 0x2b37b5e88cca20d2bb43f1718091b40fc1ab0ea7350f77a5a0ce905708bcf2df, 0x232c7f2de11cfe7ee3c4dc933a0bd034b32c9979b48e2ca966c6a6cbceb82ffc, 0x974bb70523301360dc181faffa4a31da9c89a158d446cf9f1d0dd078d681a5e, 0x6231c17adcde68b2df5512d5137e4207b5ab127b989e551710a7cc87562fe8f, 0x2694daf5d67e6751c38511d595f6ab520ca299dc52eea4783a1c6fbaf85e843a, 0x2eb55960ecababf455a49b9ea9db9801a47ff818217381b791b546b262df5836],
    [0x2abd9e16b7b48289aa19cdfec726fa3fa15cc1625102ae511bca45f39d337e9d, 0x2e375ca4dd0623584c0be2078652c7e0f1999eaf84f80e86f6161d129ce76f8, 0x206f7162f5d7700b7cce6981f0748ba08695dcfa544eb1a903207220febabc67, 0x176a8b69b12a5a3269ee7ef982044b9895baaeb85938900d7ef35a89f93b879c, 0xc58b1d3319260e528cc712e2f2a6c606d711cca0b2856a30f2ebbe57d5fc733, 0x19b13e16ddad7823e970721ebfc7e4a7c6563a7e3d92de2135873e0e60e750a, 0xa4e8fd444448adda180b0c6a3ffd32026f0644911a7f4ff85797d7e834fb383, 0x18be2ac266e3d98839e5efaf7ef5f17abdfd6b6fc729e1f18d834e9a383bab83, 0xc56583074bd6c3a67fddc94f840cf7b97b35256e00a647bdd7f992e731eb61e, 0x28ab1c80f8d8221dccd8818785b995aaff05e17d4fd8f55664b3729715f67715, 0xb886b2ff06d6d3db570b2060a95b75e3a085d74c6ed9dd8c4f96065ab77c5b0, 0x841d7473d45e77983a689c8bf384015f323838d32fe65cb9991784db323e25d, 0x1c1ee3b1346ad2c298b7ae7d837d8cf98af1cfb7a2af5e1d06f0c9a826ab1bc8],
    [0x2abd9e16b7b48289aa19cdfec726fa3fa15cc1625102ae511bca45f39d337e9d, 0x11e7a68f1defb47369a757ad1d47eac4fd12ec54eaa4c2f3a84e2b97e56697f6, 0x2386b42cc098f278197163ea21b9f6758c7bf1e8a97fc99d0d48b329c908698b, 0x2d1e8f11167a3889b194c794e8566bb92d1c622807fc519445bb09a92c10d11b, 0x1e998707bd13625c95c9599bae3261e67f2d517f78805aa50356b8a5e6792427, 0x1c6b72fa7c47168bc0c13b70af218b5f37ed9977f1903c64c6b0317cd1b5f738, 0x2f50f79c2c896a12658ba1449023f04c4dba2c68e327ee5796e83b6cc7bc7218, 0x4b15dbc180b8634691f763a02187916b21f6a9b230302cdb226c9c20b1f56bf, 0x23c08c77cc0ed597c537ad1232524e7f9cde922aa3b9acb7a8e0eecb3f09dca3, 0x246b55cb9b404e710f5430129208fd2f7d1c3b71b8d5d1a3c954ca326fd3e7e0, 0x2a3c7dcb7f8fa6097e5c00f781f27f884c76c6b7ae85bd0a71ce537fd50388d8, 0x268e6eb795786ecaaf037752d214a2422ead74f48d800ed7f14f4b174c53f76d, 0x5ac3952618af339466cb8428c30acfd937e76257609d299f1346d72f87ed82c],
    [0x2abd9e16b7b48289aa19cdfec726fa3fa15cc1625102ae511bca45f39d337e9d, 0x1b2b7aacc25b941e4a03f085a09a773154f908b9e5c2d20d3f67779ca448896, 0x22cdca81e323db126eedc2d331697df5f2157d052ec4f66e69c17307bdd15692, 0x267f9661ee6cfaed2fd4e4c8140c3e168d16232fb26a3c2a2517b6a4899dc512, 0x10ce863d93a47aa85b421e17c96dd0b05510418e41c576b331770a10bd4d0baa, 0xe26a35e642d56208bc813191e7980bc9b8cf0044ca564b4ff7d92f4a0410942, 0x230f6e95f170836c89332e68f4522dc26f56be6fb7079958cb175770aac34fe8, 0x1838b36fd6f0d488d9d7029a50a8520511aea9750ba69c8a7f08c711ac5f9ca9, 0x4f19bf00ae88b7c9ea78742fff7593867760fad46d653ea407726b452cdc403, 0x133619fd5268a1c03b2486e0a7a1ab4e8b83eb2540c2b9f02159c3e487d19602, 0xd6268401cc2509a633dce917407f9a1b569c6f9e56063022183e4be7651a006, 0x365d7940e1c53edea08251eef9a5529c9337a408926ce27f35d56389f2d0d63, 0x125f88039ff7e0df7f265d09018809058d3e38c77907985c4c87c75d8a76f515],
    [0x2abd9e16b7b48289aa19cdfec726fa3fa15cc1625102ae511bca45f39d337e9d, 0xfa21fe3e0314d2e7486a95e6feef8d81fd5fd1b6e34a456054787fd85453e68, 0x2951984c7afbd03db22245a37d1df055eb109e4ac7344127f2c35dcfbed8e73b, 0x156bf5310e6b76a3cc65f74c58593ff14ab052dd9d0fc09abeeb4a95fdf0de19, 0x774fe420c3ab105f6dfbb8eb0cc6ed4f5a13299cbcbfa9a6e20d01ca5f834eb, 0x13a7f1f4fa81d9e5e24d6236110fd39528fd3c216f0dc86a0c79b2c438470649, 0x1019d2e8646ed7feedcfc77169f5e9fc2dd718dace5f6f8b9a67637d933a3041, 0xc63653fc5eef7c50cde7d0c3856f90e2b0e0fcc9c5b16fcddd1e9740faf9b00, 0x1343f7e28ede90c999f7312542d0fc39d1bc0d3c656440b6e170a6f3bc35b0f5, 0x1bccca2bd0880591b20d5501ca0e4134c926c5d0d97bc70da24c4c70dcc61702, 0x227006078f001421d3488f1bec3e70a69d8a51480ee878cfcfa26a8caafe9adb, 0x2badd9b9334957d41b28808cceebe3e3c55807bbf4e7d1997d8b7a71121704b6, 0x15fca0d19035e164f8fecb36822f26b07efe12ffb2d831c48e5ea9cc8258b755],
    [0x2abd9e16b7b48289aa19cdfec726fa3fa15cc1625102ae511bca45f39d337e9d, 0x2316c328984e3a8d25f2a26fa5c8d29f762f70b66fd648c7df1248c6edebcdd8, 0x14f86a4483471960a505e400b9adb874961582c40ad4f306ee61ca15f769db60, 0x22448cc6b58101c266b94849c276c0b469f440cc5699098228fe293a3e15613a, 0x9e98ce02891c97faf65620ce63a9279fc5c0ac4b7ad0073a03b8ae8951620ab, 0x3d80d14e85f09ebe6840f5ac4f467568686cfc56acef42550d8d8c33677bf3a, 0x3d857a698a64801730b3c11467d17cb8568fdb626cbdcd5a5586912e558c022, 0x1793c7b3f75f911d0c7f4c64b74e7a1d344a52438774d42922a245fd55cf10e6, 0xeefda98fc56b0b2f2467ab429a8e513b5d4ffca2b9355de8b8ef645b14732a6, 0xb7efc4302f68263ac68294dc896062831725e4bdb1d2a6e8da2572aa4ff8471, 0x2c4b370a050627bca60b267ee3154f0706975b6cd9df0fb5be76162dccd293c2, 0x14b35f50c4e9103a3452cdc68fd4db02677bfe9dcc9d7619ef62197878176588, 0x2e598155fa34aca3ecb0e66e290d99b9aa080539f461e9734bbace8c72bf2c60],
    [0x2abd9e16b7b48289aa19cdfec726fa3fa15cc1625102ae511bca45f39d337e9d, 0x2f83ce87bde779865b4ccc5eff39d9bd2e8bd0ecc9c2cdea49ec7472976d923d, 0x933a19319eea25c52f096207f6d8a2ea91fa531291fcf80436ae6ebb2ada32e, 0x263439a31e513a82bd9fc8ce9e074df4e27e59683382019b7679cabe55618338, 0x1584ecbb64a4db8dd2d5c4608ed26bda0e0c38c1130b28cc6c1b4308dcf40e44, 0x49e790446ad72623caef9bc50395299d0221c2781686a04415190f52b5143a3, 0x10b37775f18ed958dc5dae40b445b28b2c4413b5ffd672491334bc73470274b0, 0x24701d4ce3d32060677e07f1267d9f7e55d4332b56379700ccf64ee9d57d1e11, 0x202b8fb221cdec4a092a035d4e454528eaf0b319d671e60a063f4c0724cd8c15, 0x1d43768bfae552891485d63ce8e1c3eed865af9e608b31a925f4a31a98675866, 0x32b94736117256d76b6f85a01f3aff1e4d954eaabc9a367b61ca0d8bbd42c37, 0x3231b4434df84936a826b7667aa33f161a86607219730bd78142eba4bea0dd4, 0xf45de5ea90165e3da111af4a7775204d4ac83dbabe4eac41abf318487b1e996],
    [0x2abd9e16b7b48289aa19cdfec726fa3fa15cc1625102ae511bca45f39d337e9d, 0x2ca2db65ad224b51a8b24e8042cdb875693897fd5503bc751d888f695d9607ec, 0x44928f5528543c7f450eba9d4cb5db7e58b8081b98c7f752162303a16af1ed3, 0x2733260b5780a3db7cb63e4fc82386491a217d4312c7a93e54707894e3b20da3, 0x24f726fb193e627cb10dee649b4e3e2242b94a2524974242835db3e96befff11, 0x1e38f6d8f6306aeade802545000b3da45ab90c9bfd2405dbc765d184b91df08, 0x8ad1a8e37ea4e152a07cd69de6b60e41de49ad1047fad9194aa32849052b8e5, 0x235d4b4258dc982dad9cb9a47a963088a59fae5f730093f1e9ce387abe83765c, 0x2b01da9199fa4220f95e00c98cac996d65113f5af19912cb331c53f9c52334fb, 0x1eda45b7f8edf24cacd398e7444437e30670bbde613facb9f1e4676b0d3f3d32, 0x119f815c307628877d5e222bbbbfec68834f7b1338bfa7688adaf8c6e8c132a8, 0x5f96bf0532d7b9065530d4777fa98b0410e5566b6b048b85cae029cb0e497e7, 0x340a6c3788a26e7492b9d20754d96aa10ec846f07aed7cca49f234d45988d63],
    [0x2abd9e16b7b48289aa19cdfec726fa3fa15cc1625102ae511bca45f39d337e9d, 0x2515fb66f81792d13ff8bbdd5c038ae895a028fd5527645f96496ac910d44e03, 0x18dee821d0ad52dd6641fa0289b4ca755a70a603c6bfa5bd491ec55ba7af13e2, 0x3015c688b294a9657c6ca12c65b33865b1b79556838bbe3f4bc1af83c1e1cc8d, 0x14fd24e81aa0eed88a08b4ca95c08addbe4ee861d173dce5289aa6897d828128, 0x19d02cb7110cd61dc1991b925320208985e0f64fa145d3017537470c77813deb, 0x496cc3972bd13c9f0dd2715a9cc66b770699b0832a8248334ff5d213c5a7b12, 0x528b341e3531d9d48b0a65c5d6316d2fd21cd8801adfbf0050e0cf6f0f74553, 0x388cd95cf4d04968d3443ceadc7fa242abaf4eca59961cf3c850efb1319a4de, 0x1e6588c7ee49bb4547504a62550304ed4d3e5affa5ac8f08b8c0cd0eec44dd46, 0x23d611ae14db5a2638609c8212d29f327ce0956038039f270efe1a10537363fb, 0x2b86d928a54b3f7c987dcf5ae89d7de994331f200381dd09d12ecb846a7a9b12, 0x13055b796975dbbe1e5a913a59c11ae296ab60bbe64202c15d4d6108d086f462],
    [0x2abd9e16b7b48289aa19cdfec726fa3fa15cc1625102ae511bca45f39d337e9d, 0x14f38d1ffa510f2b0332476733f9fc5c79df981b55acea4a8f0e3b4cc61dd759, 0x1f312d4d6d9a3ca368e3dc8912bab32366d7204bd0fbdd3ebc577d3f26bc407c, 0xd0f712e8570585e196ca13e8b1f1a2c963063f27d62427af9eaf6aad438e723, 0x2dcbc4e8492001dd99dd80175771d5bdbb308436faa08e39f19b4dc21828c131, 0xbbfd5086b33a2f0e5afd9be44f7ee3267d62833ae3019938c440d756a24588a, 0x2e11c7002202decd43434c9730452b8ecfb543cd892429fc88db33c63c404387, 0xa04ca0b4eb3a67bf9f7b699b179d0339883792d4bf4800802aea15318b7c0d0, 0x19004be334dd838c3cfec0528bfb1f91db2d10d7d3d3454a5cf35b7f431d9f99, 0xf0db552b704894427ab3ada1a9eb881506e592325b73d7ca4bd04002efbc259, 0x1a1e713b1af5f35ab4fa7f9bfa19b0980ee21821afd1ab3445352cf784b8d27f, 0x179f8e92246a7a24d55045b43b515200227c4be9e0087db3654a34db445d89f0, 0xdf566626948128c150102e68c71e6cc60d52112b96993a1d15c43f2aa2d0d5f],
    [0x2abd9e16b7b48289aa19cdfec726fa3fa15cc1625102ae511bca45f39d337e9d, 0x242d3b170212915d835e974b8f24c64c866611832cdf59aea0f9e9269dd8f615, 0x780ab3cb7bf3cfe1cb4fd742ef1dea1daf725d4505f481c9089f9a6a1aadb10, 0x224f1cd253223cd87977be41be77930bf651ac744d3b362b302fa36ed0f6c37f, 0x4637e287df2d94786d07580a457013d8d54a6c31418d3f3ed4cfc582ef57154, 0x2d703aad67bdcfc9855e65f429a8120ea93da66d877ebeca1ac3b1538f2dd96f, 0x11c9e9aec8fb7bdabbf3696cdd441207e1749e0d8fdfb21535ef940f68e904e7, 0x2be2aaa990f638dcd8bed18d9b76465b1f326abcde1ac1f3bb907b34c6029c27, 0x16a6ff3478e400876366dcf2c41671f4ca6cae21bc985f0493b4cea2948e83fa, 0x2d5c1ad3358720b486ff21f6ec096377f8564a544f54db36e9fcb540933022f5, 0x2706883c34903b26fc209d59a13cf12ea7513995f226c80e6eb8fb69ae20bc67, 0x1c0cfdb4290fbc3c53be1bed2a7e271ed1ba5aa5f372adf67132a8e53d2cda28, 0x5d00b6e4b2d0a2d0067e0d1ad30789c2dae657135d627485a6e782c8b9ced92],
    [0x2abd9e16b7b48289aa19cdfec726fa3fa15cc1625102ae511bca45f39d337e9d, 0xacd1175f3984a9e7cf08bbf5c1777cea1e7256defb95b191ad3d868d8092534, 0xabffa5e8d3f345572069d11f25ad4e654e8006102f8d4759188a07201b43b95, 0x3c0a0138dacff601c9d0631e83b8970db14ca395f83cc18c7a64db35eb6328f, 0x26cca174ba7d6ee3fcecd1e16f868bcd4228785252b2b7de96fefea71306d5d9, 0x15461d04466499fa137c5246d7c65ef254e24fcd50b5d43ec9d5e012f89a4840, 0xba61686f2ac1ccae7946a24316c258848a86659591468507870c9983c272759, 0x4017df4afcb1ba3116385bf4630e9cff49539b1ccebc1f4942b5f43ce3711d9, 0x1424d70cbb9da7aba0be6bfe60c6ed4310efdb6c0a7389ec0c17d4a6e390ef53, 0x1b4adfeb3a81ffc9088ab0cc532061a6d3e88830178f3771dcf7a02534532e8f, 0xa12244e29cbbc56d28f49bad8f18c3bcdbe95681a7b84889c1b8f356db69c17, 0x1d2798cf1798c27d89de5f07a9da5e45553ae27737020e51d7f6d365bad0491e, 0x99921cc276f9a00e458f09183b359359740bcd453f652fc0e6f6c9a173ee5a1],
    [0x2abd9e16b7b48289aa19cdfec726fa3fa15cc1625102ae511bca45f39d337e9d, 0x1ff1617e14011200242d96c976a9b73585ccc1103145cf23d1e2b922d03d5d6a, 0x2c20a2a5dc3bf0aab0b87093f9c0e9ae5118db1173adf4f5117b33763bec7b68, 0x1a5f9d44d0d30cae600f5592492ec4d112e9c0a24631d4b49f6e14ce69836859, 0x2506549fb4f1fdb290bc61f697719b418f146af1cf8d61da1632e293230e302f, 0x19761a80b065bb3820ea466dba6f358637f3a298d986e9a5024a8701149ec0b0, 0x23f6ba2cafacff6a627f60f1ce6dc5b30a4caf64f4fb21c226d4c2d847b841c0, 0x2e6f1caa062248065f02aad7120cf91d3a9c29ff5680cd4638144d7f2ca95e97, 0x28b3b74cb98af781b0f5344c7d8526ab317280697e26d8503eff674cee5759a1, 0x271858d8121deee03fc457245a298384b9a55b3a8359a7190ce8bd23de50eb84, 0x2dd5829605b8e77bd72dc4ba2a12eb8a9aec46c1d253e3a8dafbceaff52cfe03, 0x2d30204a0bede236a8b41721ec0376629eb558f6bce9a69e6a93a89af0a637f, 0x2a6e862532fc598b61ed8c490ace702e5e92ef403111f4a9888e71f058b9883a],
    [0x2abd9e16b7b48289aa19cdfec726fa3fa15cc1625102ae511bca45f39d337e9d, 0x8496e866a25167f5c61f388550c49bf6639d6394274cc49d136a8ea4aef8f04, 0x14e8da7feefe3d716eb940bedfcb7a3f6cff1ef49e459c3d1d0df8d9a403e1de, 0xdbbd1d73459a395ddb33c120018d9692897578dfb67ad660d628e3a46cd398a, 0x1342655df63fac44d438d6f4a1b1288e693cc3b530cd73b3eeb588e8f2236cb9, 0x31a141b9e2cb72dbaa792b5b29c8a7c748c5cb4f1cd6f5c0568861265504f6c, 0x28f97968428b8a94432861d7fd12313a084d3c7514886fa6ed30521e588088b0, 0x1fe9feb5c7f7c7a426bff032cd6a3158278b6c6b2cc57a871213fcafd6427989, 0xcdb2db9e4f9d732d217c5e3114821165d49e5a2d41556bcd53d0c4d433224c, 0x9664216ca565c1a44fc2b98347ea8b36904b3877f2159dcc999895adeb4d70b, 0x1463f51d4a4cb1eba16dbc115566aa48fe77b43c244c9988a3c658d2f56493d6, 0x214e41788bd2b990347c7f2a8f47612d4dfceb1a1e6da38165873df66ce51f59, 0x548541724f64e20128260899abe8fbcdff184a1957a9385fb715923bf0fc79d]]

/-- starky/src/poseidon_bn128_constants.rs L1340-1838, one round per line -/
def c7 : List (List Nat) := [
    [0x2197703fceb4cbf07c6dbf46c4ad93e7d14e554db66d09102ff84824743fe4e7, 0x1322f0fffc7e4854bd8b5fc23e7106b51f59bd5061d8b565aca2fd3efe512f79, 0x19e414f80380aa2d222133118c337d82a8c5894c2f88861ee46f448fa9d61359, 0x22241199a4df9cb7d65249d9562cad6c65f16460e79a7939cbfdd6d7b9209d9a, 0x301061735384dfcecf9a311c22ade327b51c78b211615f41c77f6d85e8a41b6, 0x229e1d86c1f2810f4a2633b7b4b5bb61b7dc5d19ac95fd8d379548ff2b6850ee, 0xe31dcf9c53209a817eeb292e989727c3f56bff65883afe5fdc28ac3dfbea675],
    [0x222c7318ebe96306c9d79ac11237263c6b8eb25272eb88407e8c29a358b40f2a, 0xcb416b42c53a829cf4fc823be8f4fedd12593394cd529053ff4e3604974a2c6, 0x892729d09594a8d8b1adfbf2e2ed75399dee612842b6db3d2d2c2aaddb6c0aa, 0x18e39e9ae45f14ba97a15bd672711ae124375d9f482a4487a0e334dee2d27c71, 0x2560c9ff672e6ea69dbb33844d0d22870461d18eaf0f8992d4d7ac649edd6610, 0x21bee2b8ed54b726ef17f77366b1dcfbda7ccf1e487f9916e5f963e814c57312, 0x300e1b28dabebdc0d4bdbc19be29a3dee4eda8425dd0c7c6e82fec147cb070ba],
    [0x2c44a5ff45deea69dd2961d67011af4982b9405f9fe38de4a732d2aeae88cc23, 0xc8d59fe1b7f55095e6aaad9e3b4e7b1c93d876ba3234dd1ac5ec64108291bfd, 0x6cf82bc5fd115d348a30b0c45378d90cca1660446ba049759fa53103fcd78b5, 0x2f80ed01a2118d02e2145111c3fe6ca70efdf95d8abeaee8829293347dc9061c, 0xbdfe7f6803e4dee7b026e079075908cb8414e3d651dd12fda67df08dded9e42, 0x6cc48ed882405595b34d39138f50bb5b31a963a0dba66aef17c19ad622e29b1, 0x2a67f3ba6d15949932ac5622cf9e2b493801bf16a50336a4518258bcc6867c95],
    [0x2572725a67c60718df656934aa78fbeb80c8f395aeb6a20cd833c4b14fef412a, 0x3bb7f6ca43545b11f19721265b416166579cb753330b1879b79685d1df0bfa7, 0x2412815e863f8f3bc28bfcbb957faa5f393300b25133e9221b8eb3156ed5c12b, 0xdbf64d58df212e4307871966de097a5db09a93e5bc305cebdcd0630f433af45, 0x274c06c01158e047ff4a791e25b7bb3db190529df8f50b6386273f810f15c6ab, 0x23cf40693f52abf0ed3d842f7bc85d1a2111d0abecfc18acd0fe3991ee5fd33d, 0x1daaa926528f3368f4e4cf924166b8bd3ff8daefbcf900e6dcc4ee63c4099698],
    [0x10103789dc9471ad718657bebb6781e39bd92fd20ee1a32d0de3ea2817a01555, 0x9bc25065080e6c6e9932e34bfde78d1085f19e9ffc8965a4660a4d9b6d607, 0x1312c727cb5489bb174e1dcb82588edfab31a2999b377dabece466e9dcd6afee, 0x20294a462c7d0c25aeb5374618e5e77316682ae3d726824f15f00f7cb9a7009f, 0x25e0c6be89bbb04bd8391c90cf35588f0e9d73fdb06259f47a05513ad7a23e91, 0x84a0b87e0b336c9a911069f89d875a38be313efc420d28b9ec287f28810fd3, 0x28a03ee29f612aab268f76241d54d477a1d97f5807ba2e1812f4d350d7c6f7da],
    [0xb6794182b723a12e0b35f76bd55a7d106ee6a4035527c4d329a6f33068d7eda, 0x15b9a698465428fc686b79db4959c8495b92b85122f6a6932940836facea86d, 0x1bfe52289f811f5c3619f14866138ae9a1279bb76e8cec9a8936fdc36f59df7b, 0x1cd574fe8d5e4c428b92b23a9717342176e1d309a7e259052c31bdc9af091fa3, 0x212d1bbdfaaf0200735bc5851a156adcbfa4f607f5da122e1f63afaecd38cab7, 0xb0479e28820e883d903a951f95b13093788e9e1ca64ddf2abb94b13fee9edbc, 0x110f5257c21c9379d73b76e9ca95c513c77a15cc8ee0ef726d8460d4fbbdaaa],
    [0x8c52e9401a9764f0c2487dfed34e215c186b6c2838e38eb5a50cca4f0bc6994, 0x2e422b4323cb4c0af46f4b0e5052f75744c538abccc7643f339440dc3aaeeca3, 0x2e12482ba160472d45549ff79cd04aebc4a327c4bb9d78c2573b835b05c55fe6, 0x124fa5f9c5a96d6cce92cfc73ea2446202f09100eed203ae4267aa637a032d36, 0xbf651f82f83ca1fa037a941d4e2a4b3e08f5e1603f933a1723adf4135796de7, 0x21c674ea7b834741cbad39b21b242ab9a5554c6c9f92e801cb1fe4382b619463, 0x214f91d6c4aef57e83186b57fd9fa48a193e1caf16d7f6dc1559d144a271b341],
    [0x203e2218389729c26c6f66213f2269c262785ec68c759599c2d8e3f68035055b, 0x1aa934198713ce17658f51293fad44b1c22fc80391405ce76c92b2349b7eb3a2, 0x1014d4e5ddd9c17b3c2b29684476afdbaf7fc56e8b799616a67bbc6678e45351, 0x33c13ed45b4762a47e1d2d45d7fc8fbf9d4e24546e20dc596911fb991710358, 0x9bc1c3274c569e7e5c5d77c51fe69b23b7e435138f4f3217016a2d70ce71d5e, 0x1803171c9dbc0610e38d8308db101d6a99ca90137f6ab8cdab2a91b36b63322a, 0xba6071aa98afec3fbdeb46a88e4a5d17bd4454c0e7da8c74b15b084488cfdcf],
    [0x179e90ab4b08a4ead281a8709057487e077b710879911f215fbd6e8ebf838e97, 0x1cbca88b8ab3f0588ff87deea978d00008adbad808e6510897238ea007f491a4, 0x2f50b20b33692bb0f62777de5e3198377d7923ef2fa8ede08831e10f7e9b9f5a, 0x15ba030e8f1ef6f260566fd6fcfffcd21a1cfc1232f7ec7148ff076d1ba68707, 0xdbe053da01aa4b7c0fad83a3cc966f0b8281bb4940f97a5516cfb9dcd543a6f, 0x222eca5d754afeca8997f31d6fcb94a5d799afb795e68d4d8b0ce6d839f6dd7e, 0x2abffa43d756ef242db7f584bd62405991112618362f1b29a33ee2131b46a446],
    [0x3c92524ebe67300d0dd0aac464f0e6ecf962d6ad41bf2685f077bfd788eb3fd, 0x282241758ade4ef8ff3858305288d3b4a52209295d1a4bc89d885b2f5dc3341a, 0x2635cb973d71bb3d2137bd81680dd3bc607fc5487e898c4c2d83c1dc2817687, 0x13c866aa66e8d506079dc24c2df7b1e691994887d35622f4cfcf014bbea223e9, 0x151f0007ccf42a7ef969f1b6f6315992e6594bb5344d2839fee6620b60e2c023, 0x1c1c6a5ebccee8caa4dc7ef18e194274f6e198d2b140ddcc97cb15c92ba1409c, 0x18330c9e67d62f7861a996d7ed69bba904b0dd459f2b254fc7cc53dd28e45a65],
    [0x26b747740c95bf139cb11bdf02fa63a4bdb29a90f158933a1822cdde5387290d, 0x1475676fb205084246ef9bc7234f312c214f426852dcb2ec7dc3772f579af8b1, 0x1b03ad9080d29b70aaf30bbc3200efffe73ee269dc032d2e32bd190767bc380d, 0x21c175f937c2f82e99735bc7c201284f89577b27a1f84fa24642eceb552f4455, 0x1192e0269a6b66a8c5887527aa4474c2de91cf8c71ebda835df2cdccdd4a4e4b, 0xf3a12c0ee52f0d34f2b4a0dcd13541b48aeb3d5121d311113bba9792a45a58d, 0x7fb521883bdf78b33689205b45e52269458a061bcb87eeb3b1e183c6d7eb5b7],
    [0x248d0e8051c1a965640c96c6f010c4931fe648b96f95ef6f5b8e474f64cf3169, 0x2ab553db9ead2c82ce91febe180529eff3521875f7e90a9b8b7a3c4de4877cd6, 0x211ee3bda3c95f1954eef22a0a82c2ede8444e42a72a8200bab6a133846d5b5c, 0x111db3b5184ff7412f79c129904a9cac4ee65a51c2062d66732f54bcdf767be4, 0x1a73843264cf9a3a1bb6fb68ef76037c4fa98337e5c10096c630b449ec4a5f67, 0x1c2e5a2d9332f65128c85358662d6a7c44353add09c27cd07da02f9144da855e, 0xe2b35fe1021b879de5b67a7458fa6188bbdea39e2bf468a1a24e3625cafff98],
    [0x2e568594e5dfbfadf272b8d6e8c99bd785c4fa94ce9e87fa8a9a37e32c7a28de, 0x7043c7571cb7dc5205bfda42d693527a4bcb58238ed6a6a248e7917ddaf0c3a, 0x239e18a0c85b845ffd6b85e96343f1a8378f3c691dadfb228da6ff7aa79efe1f, 0x25e247af250c564c00f5ff1cf1f2bc8606600f173cb65ef0780af9f5a1b676c8, 0x31ba3385664544e3e0801f1698b15033a6049b2504e9cdc2c6e3eb2fd12100d, 0x2a33777739e2ab0adfb1ca5687db1e059b20370cbeeccad32da5c3609431ff65, 0x2bfd6f0e9e996ba13749327b9c5cec69903d413b2df29b777d05384b3e7af952],
    [0x2d453d93fb36fbf8e36747ee92d90cad9e02e692d0748c07fd43eafc2cc5e823, 0x187bd8043f8642cda2b6bad82958d115818880eb80f6b730381d974ac5d5037e, 0x21aca605f92a48ac35708fe5140729fb35c3e48ccec441217713b08649443930, 0x173fd164f5224ac06c2e99f3e2eaa6379df113de30aa485e8bbcc7f0fd2d1e03, 0x71c66a6463c3fd4292bf1e5acb6de611142d73cd1db590e89b61b57d44d69bd, 0x44a40e396855be550d8ccce7b82ee2caaef6675bebe92266c666982ff72bbf8, 0x1176d9f52e12df67f087110a15aaf98d1ded293ffdf99599fedef2e51569e4f6],
    [0x6e8eb7dd026d257b15c6624bee2f37d5b67b4a671cfcdfee5797e8457b63916, 0x696aa48c1d5fe84ca5cf59009ab0baaefbb612e32c91d5ef306def38dc5673a, 0x853c33a9c7a7c3b355c92c75de444365db82d241eef9f3fac417004a3a1accc, 0x3016c0ba34678e0a67f59cf96ce16e908154f5f9802591717e66e95ba25ab77f, 0xaf008601dc9552517f303ff9e22c793a682caa93256f2f09a4f746542603b0e, 0x4cb6d76b5a27a5aae387cb647790318c25fc16f8d7d1855a38765f847f731b0, 0x2ecf70c372d8e5edcad49e58d47875f26933d62614f266e6b4f586177148565f],
    [0x1f393a6ee74dd6c4d52b0e7820a7132f8c4889742313c06caa6ecc55f3dd413, 0x2e4d4ce3f97bf96ff86b88e969d13e415e14721282769f7cf8c3a73723f094db, 0x306000ef24a7f5a9c652e3a9367578554ea59bf8efa0bd8bc5776460c18c1add, 0x26e58d6287678f3db9c225c1d3b93ae7c43a69024ebf249c8bde40617c2b3d49, 0x9eee09f873d1bf683971df4d7ce56c8f0b8b98ddc05b9612c0a0d317310655a, 0xf08879dfd4fa0dc11ded556ef01c6f94cc6f4d18553b08bcb1dd604392ec00c, 0x11459f7e9f0e3c727777e34d6d93ec28a25bd867171523bad5be0d5a20029eb7],
    [0x4e9cbb6f6e8e805a20fbd801a53b723f78c1f5acd227880f7f37f4e5b0528ad, 0x2d2ff32eb7a0c0266dd46bd5939c9a9aae88b3e9af5dad01a7304f9868f7c7c6, 0x23b77eb0f27e950200a590447d645a723d9b405fa2538a5cb76fc5fdae16d839, 0x2cd6d2c5658ec0792daee2067e2f958d6849886318a6c1c27233a469e9998c2f, 0xae1daa420bac90780d0c83026bfcc84af83953e26eca839da76861e739855e7, 0x2b495b854553d02a75b68763bda6dd8ef0e81fe32b5cb072d3f580a914967bf0, 0x56fa5d7ce2c32bc5735351d2d48af5d6c9256a4b72e12a35640b53ea959e296],
    [0x2ecbe1a06b28ec78ea7d22df11cd224a0e1a0ac7a3476c5cc3c4e50da961a87b, 0x143053c1c387f9353bd677e5db6e9975792bffeecf02d6aa0fe8f627579fe6cf, 0x4064b25584499a011ea74ac047a8b37494189bc63342bb1182e234212d42bdb, 0x100f61f6b81542156760a6d29af5dd8644c82deab5b90e6ac66de8b4a069564a, 0x18d331b2e8180b7aa7055c029fa77aff4f02b0e2a2078bff67688ed65b51d6dd, 0xfcf9b89e19b1a55f9b03255cf80ccb9fb6aafde2b46207d873fac80ccef085c, 0x254f801f3c89c62436ef63df67d912c1f231bb1f76c6c7b497f7708dbcfdc17b],
    [0x16d8e85e57819a10a61461bcd8d3d3c963c4f95afba3e4d8fd0d6ec882b9d161, 0x29c9565aa702088bd443e4620d84bb2bfb93253a8f0f04e5cf408c92820ada84, 0x294fb68064643d8beb237bd705a557871b5f1408624eda46d47b583a60d29cf9, 0x2c26f3083140c104baf24c3df922317584aa11770451e6a846de7dc795197313, 0x231811279854707dbaa537cb27241e7021a949a1d9671380a7d6944c838904cb, 0x1419365adbb91f1f7d1bb0aa8a4b5d11c7ad0570cc6cf3638be9c5a2a275b495, 0x1674425f2e9fcaa66eb001feca48ddd4b2a29e86d451f00d176ea35b4e02fb84],
    [0x291f956def59b878028000cef03d7b54dcc2fe1dd5a75dc180d6d5bed898cd30, 0x2f1302894fe6a26b5bc03fbaa69c4d95012394d78de494549c7057b7ef965bcc, 0x627d6d6d94d0a19a17db45c0796f7db8de13d278a2b24c99ac5d92d0a1a1ce2, 0x2ee297662bafebcb01df8e62bd5f50f03025515b10465d59f3a294f0bfbb2fc5, 0x118029945df773f52fef5429da766b902eeae7d967062fdd879c60a1bfaba75b, 0x306042d262f6268ba789eb4323c2169279752ffec6b8536cc68b53bd4df0e858, 0x472a13ac7da9ebe1132e05f9ef609135c82a0ebd9278def2b34f8ce709aee4a],
    [0x2e8f76b27b474180f00c5a6c2d65850bbf96019bf0d76dbb4743a970f42a130f, 0x1e33984165f47c204a33fee31f613544b7d846a7d5ea45280ede4b362c32aaa4, 0x17f22e27252bdcf91a72b59eb276a666ce4fea7adfbacb2ea9fdf28524b7b43d, 0x547e7c70ee4e3fb4a4d386c8baa55d823a0f02bc963b43039b8847cff6e6c9, 0x8ea4ccbf815be325ccd15494f38f3f97153ab09c54a87a852b2a99480724e25, 0x277cb45f3e632718673ba05d48c712fe7404df9eff5401cebe45d194c67fa8db, 0x159ec7ea49aadb3a8b0a23c1dba0023807b0d099d3c40b69df866a92dc87b37],
    [0xc33489297e244956de579c5c112ab40c7fb2d89866a28418f660a86ee18524e, 0x1bb4fcbae28a2f3399568c6b3849da27d6ddf4fe6adabb591151679ed37d21f, 0x2a23343d24a9cfa3b8f413f52ee1b233ce4c1d5b9bf34b03dbc6d733d52305c9, 0x707a6d515b3bad03a9b06d6be048defa850134aacd120f38fa93264016b7786, 0x1837db5401dd6ec30ba6b866184da56e8db439ffd04154ec469b62120ce35cb4, 0x244872a0d2766b8547e6b6a5afeabf198e1409a0f0026de36c101793952f6cfb, 0x204fb17927ce873c761196395f7da46f679ca331832a59fddd2ae31e84eba1f5],
    [0x56f53037d5d8efc7cf6a6feba18d102bf818bbba70b86dd9b763a12072f4c2e, 0x1df4bc5d73239f5ec3b89efad53df9cd8ad8fca543be01f5f40fea2952071bd6, 0x1ffb6ccbba001155d46e167d1fad1c13bf2892ac87cd9c347c734ab5ef658367, 0x8ee36e881496539b0abd647d353e51b63fef91fc944880006f2c26c2ecf2a24, 0x1c3080c254443332a3e6283d5bab6f7fce8aaa68487b9ee4e372cbc6cc172665, 0x2dc6040500e7329f75a3cefa4db49f9b47085b1660f8873b3e81b7b1af82af53, 0x2c8bca9dd293bb67db1f66ff2e82047ae9385ce67d7f33568cd4c216a89994b7],
    [0x2a157b9786f9224cf63648aaec1b9f61c7a7087ed6eb8ab20c6c5469d401b7df, 0x1e0fb0cdd8a54591c42e7c26b9027b77417e4e6522b472bfe61ff89c39bc40e9, 0x250144d1cea033fd78bd73ee4ea4cfdcd6a42f7c00e2d7ee6794d464207d2b3d, 0xb6b3fe9a7a525ca60443c4b78a8e830957aae0403116d22983a2e680eedff65, 0x2fdf613e67d176569f4743b4963f8c53e52482fa32e705247eb650bc7bd616e9, 0x48f64b14275fb86fc55b3c0469cd89306752827c3c04463be5bea66fbd7b38c, 0xf2027b781c2c52490e11ed4b7b494d66cdc16e690b6a4b3c924dc9d6e854832],
    [0x29652785160b261c1c20c741524a26147cc3191f33b74ebf17d44ce2f88b0f91, 0x1176909e02a5b37bfd47810fcbe73af87fea130470aa44bdf6b058c4d359e179, 0x180f26c6ce2a3a477baf0da58d069769c2bf0156d636f2255e1bc35c01e98993, 0x2afeedcc2cec57285ad22e734fb7fe3dd65f62601c1ca4884a86c7a6a05f083d, 0xdd21a87ee22626998dbcd73dd751affb49d47a02e995a41bca26399103087d2, 0x1d21baa09d7f50f0159fa8a0b6e0d61446d1c7db5d1566469da6a85aa7224962, 0x2dc59c4c9e275cd8c2506282cc5bb842c014bea4236b1bc27a856351b48af802],
    [0x2cf62d08541dff0919ba68a697f44f4791c42d1447a41513ab9d5f755eb1f38a, 0x2f5b8853e2cd2e47a9fedeea4047e46083c97acd4b687aebd2264e7a0eb354b1, 0x5865328a9b2fd469170c391c5ba8db5c66eef9938e4da5bae33f2703c470730, 0x29761c9fc3d2c4cc1b126be1dc0470a97b8f2725d327c6d1ca923c2aa8092b1e, 0x1d3fb1f8dc3c77cb515c37bc810d3a5e3b96552d4bbb57fdb01c2aeeb1d9a048, 0x5f2fbeb7cae0a35ee2f3a4d2964d241a0ceeb47b3f7c4c87bb3b052c8705d90, 0x1f445014a0f266082a50257152609cc219062154f4d7c13288746954b97998f8],
    [0x2d35917cb1d0ca611ee37cfd9078c924fc84bd1a4bfd7db3ce39e05b38f698b1, 0x5a89a4eb40387b8512f2f398b6526efe76716951c500fc8dabc835775335ced, 0x4e26aa3f02601174f46ced15594329e4f4e5bd5d7d53d5df6c8633a94dd01de, 0x204d587d61526c1e047e1dc6b6d403b9eb8730f2e2dfb7bc7350d939bac5b90f, 0x21c8ca213d2f44446ae90a6bdae5843b7c2cb53ed699f36675ea8280a2a420e5, 0x1303bd921f32fa4c4e73af21457c46b6d69e2e6a2c396716217787b46e822ebf, 0x613823c5b6abeef14387465317e713b45ace79c0e4433d7c4d352097e5c8399],
    [0xf27c5305ee978f4f775e213e3ba12a901f51144ce1ea89bb5046930f5ec55d1, 0x2cad11c693c6a627531950a307e07b30ea8a495115f5a5388827792120c7bdb0, 0x16bb256883c44cf37366618e46c6db4e3da97a9d4ae7d5c585959de3272f82b1, 0x29afe50bd78f72cc763695976410324bfd67157a5ccdb7ae45b00032e1d57a51, 0x9329902e59e5243a726ae5ca35408a207148609ab3698139725aefe29aeb167, 0x4b1800e600c90ec4776bc6af1764ccbdc10bf55c3314f42acd0531ad53420fd, 0x298d0110bb90e4c35e293c7a7dacedef7ee9342a591b4330e27276aa13b67ad1],
    [0x24ea6e68cb1aa6b407e022649aa32d1b7ea4a350e510c07eee43929395e4f82, 0x22ae3a1a81c4550f5fa0116e135d2df2bd9f6835a0f0d03f4dd934e1320a3d8d, 0x1f0f5eee9e9abb2a2f4ae04d6fe09311fe0115c1e199c28e22705e681442ed37, 0x23c86606616f317af022464f350b4bee80c2fca32064bcbf83e8cd35dac06c7, 0x2a89c4e5b074fbe67d04cb03efe18c4bf904bec4759b33dad6b2c86ebfd2b9d5, 0x4b0f48c4f2e05bda4b9cf806075f9c275df2cf60b5fd11470eaa7394a82727e, 0xedde5a2c01327ad042a686f443417bd8f107c99eb7c02900c931a7bd8cb349e],
    [0x2cacacc9c9d8b0004d8932080f9378b60675a8bd853aad1dc50672f137212cc1, 0x816f33508621f2d56371156b0a3f7731030e4b218e44c90a88cecaf07170dec, 0x2ef8e0a455d472b49bffda935c8d3bee1ae9248608e2a52d53f4b76313c97920, 0x17184a8af9199aba605dd1f2dd18ebc02e3055ce408068eccaaf3ea7c0a334af, 0x16395e153937a83660db6f78446cb995836436602777d81f0607130b44881448, 0xe174088223c38e9440fc77307d6720ac32784c9d2f591e2437eaea9b8f5e2bb, 0x19e70fa937788f7a2127573d56c8197bd0dd096140f39064865c65c31b47d402],
    [0xe434c329d5242adbdab24780495ff97230beb344b918f6f8d6bd7d21b03692e, 0x2c88a82eb87c81ba42a211bf2ef3c15875ac157c7f3868fff35af9f55a8c22bc, 0x111dc223e3c9fc7452a9c2de469383915f33adf4cf5b49fd2e01c51d09ccf436, 0x10647353de3197b9cb48f4539b507e45393b000842e8baa1218af097f871baea, 0xe53d64121c0a851c1b3f07423582034abce698525d0a47724354c07152f703b, 0x2891938acb83ee193754969f4aa5a62a531081dbca4dec226258ea92984b4348, 0x4106f95e4ba3fb74dbe4bc53abc170262ba00c7c63ed8c457c3227532c12ce3],
    [0x2a73e61b8f1babfbb38b186f401eed0d92c5613ba25dd2ff4d099f7dd3c19fe5, 0x18e16b24642f19193b798b923b8dd25f6e4856d6b21b729aed2281ab154f7c5f, 0xd5f849b166ab9f6fc1a64467c5557029f359a2d0f194030c4dd875e12ae3485, 0xe25250c57365a29c63a4f1531b8b0ef523eaa93c1d70acd0aa7cd7844dd0442, 0xf813d14af0c85bcedfbf480b3d80b9f335853c60188526d80761274074a599a, 0xd2356a92dbaae8c24a8cebed6428083ef2f469460f166a6e774377e78055435, 0x1fb6dceb495bf90fff56c8aad70b40bf773ea1003cdd092fd77a43961e9d7dc7],
    [0x2c0a70ced79951a75e23c5a323fd706c2ab87c381cfc3c269081627741c2bbe8, 0x13dc6b3bdb05167dceb4b11037064ac5fd22db5e229e4c6ba55e8382321dc5ee, 0x210fa8b777907ec30bb88dbd7c0e6ca9004eb3425d498025da6c90a47c35025c, 0xc5cfa957139b45a72fbbf80a410aab5454a982668baf24b0dd3c04e4d599cd9, 0x1f1f3bc4c21d633400fcf8bdb7be59b7f65cedc06bb2fc93a873b6ef12e0f52b, 0x188f0ee95a9dfb03cd5e3fb30827057e933711644ee7bd57490374c0d67532e1, 0x823877ebf8a842b77e8e0f3b44873e9409727101b186cae2b80d0cfa726ec8c],
    [0xfe81603de39ccf148ca6390d6f8bdc9395ca2f3f50878283d98f1f0e61b1aff, 0x2ef61fe192f52a9d7cebf41c134098f2ccae35cabcaa12963566768ff1b83706, 0xdb6d076b2dd1b9f4d56d2f66fab4d7bfc6a38fef7f9ae1d4c2f8c44b1510f51, 0x2a194a4ae8583f28189f9c011d107b82f279e6a0f8ca8bc9cb0aa581831c7d06, 0xae539fa9ca67d4af48fb292f9188c9e72f2eeaae2e500b7e7201718c8da8de9, 0x23f66a894b1df4d26a8baa6d05b1ace511faffd4605b36cfd12bb4c6dc2bb4d7, 0x137cef522af2942aee9a4fb8017bf330e64601f466b56d32245669d9fe5ba707],
    [0x187aafcb87841b2df9d64c1767789a6b221767e4634f0d550063a0bf92788c32, 0x23212e75f4b89992a3647036ee36d74938bb9a9851e13d7b6e52daf66c4cbd25, 0xf54cbe967770dfa9d068b2fc53abc96489bb7d266212654d326de6b9af16d63, 0x23d83a60b9887ab4359b8569ff3a219bb81367955fde72a62002d3cd51101fcc, 0x2ea676fe7f21fc583ab0b0e189020d42cb22f044607ee15bfac7dd66da5ebe76, 0x16f37f357a0c584821a356ab56a16d41f045029cb515f58ede001f05a807890b, 0x139093b78fc9603a4288ae5811ed1311be916e4c97d35a5cf18e4b7e47d13b03],
    [0xaaba5fcad1c047030c8bf246f41610b68d60bad285cc15f55900f52778a11ba, 0x1611827956f3435c1fc67dd3d37954a255eaa0196cddc5d5a6187fa0a2839efb, 0x23db56362f248912421e5f087ad16e0c9e6d2bb59db30a52818e41964b7d8126, 0x2f215e640207a88b02999c98f1af8fa17331d19ea3de1decfe8f2e478224209c, 0x2b2a261917c0fecf2bce19021f8506e378e9d3e1afb451e9d162b3d93eed8612, 0x2f662e4cdfef5f822cb956df75b17b46f17b08f930f54bab4324a0363e23384b, 0x870eeab2e7bb1e82c426c2ab1d65fda25d426749a538b4ea669eaa31f661a00],
    [0x169418dffc99f2ef5dc6b1013717c134409349d846457985725b15ac6a152fac, 0x21d3cb240d6400339ad5bc535b4fbb40919ce6b90162e51ec6895a7cabb4375, 0x12e45c46c45b660b6addc149e4216eeb6fb19474c8cce4d78e34c3cc18024afb, 0xc7c86394b7ad61d8c348d185403dc77152fd310b5d05970375a11b5abd03548, 0x3024e78b217f85d8efeb60008ff70d33c3e84c238d9c21a04121b498a2fbb131, 0x235977101b56071ced3163c1ec7187909a3ed7679bb54ad40811ba318e1afc81, 0x14bf885e66f7c01fd974efdc0bc2d628ed79ad6fc6ba511c5a8ec383e1a73a70],
    [0x223325ae7e73cf093e1d5891aa92ed43f82610f1283f265f56548b38072f38d3, 0x239a5ae138dce6a019f44560ef7c19d2b8025dadf040559226f54870d318a57e, 0x1dcc35115d9057efaf468d7c8a7d46048e01359c974855bc99738f0b247672e, 0x1359a40012c5332587a4deb5604a436e269c282ba240cca0a6d77b343e76bbf3, 0xa9ee39712223d4c0c37c26a96f267c85fc8e31acaee0c07354d3798dc5003e7, 0x11812d1ca3671ae688a9877233eeb5ec29868f7cd7c5e13275391a84167e0231, 0x2435cd699bc94985945d878960770f9298d40c0e28b6b5979069e0590952f0b8],
    [0x2bf020785e4117a1ea5930cd5355303bf9aab2a1ea0d6685391f40eeab2af0a0, 0x2cef6c78577c9e97a76855292ca92e4269ac53e9b7439dffbac2eda5c6758024, 0x9a30e00c9f0f6f260f05f029cdaa7c7afca506a5ce562c877b3b8d543135429, 0x1fd85928f8c8053c9b264a74f121b90bbf9ae8063e0e89670165b9ba66a3e7cd, 0x24482279d9efa57862a6cd4524aa289e6950606df8cdf8fbcaed4b674fdade91, 0x10260a39cfb0d82ad8182a6951f9c780a455fc1de48c417d6ce6b27f36462185, 0x25207827a76052d489bb2698730d5c3fc97192a4420578d2474a37ae7d7e3148],
    [0x28e36b634ecbdf7b8e4f9e1a347df95d771f15d97f2d5c401edf6a6e375874bd, 0x73f0dea6f83d443ee3ba27c5b7f0064ab7cc0d34babae859f6bf66d46a1e165, 0x14c6618569f748ff65514437adbcfa97f87b9b0d169048e84c553ba9888c451e, 0xc7675a042ba6cc74fa588a0b26fdc4f2d1f119a0fe6ef111be6a2d45b4bbcad, 0x3dfad7db3f32c6ed8130c43cff604dbe1c29dbff250c684c955f09e495fb34c, 0x20114281fbe35c188164fc6d4144200fc1d9ec433efc677480bd2cdcb35b64e6, 0x29e42f5218b1ea3fad06a48e2292c0fe3df08a2c4a823a3be4b998955da8a21d],
    [0x13bf4039488d94b1b6a67f256296daeb6c7c80fad2726d6e9be11e17c2352816, 0x1847a4e36b3eace13de58fa4662a9f88c9c17a464e6dbd2083c2938c227ee3fa, 0xa7a2056c7b79384af9fe3c6826830145f51f6f8ca5d1a344e295ca7663ada27, 0x181278caa15bdfb5940cff2bc3216ff06a45962d4979dfc0d6c94993bb7de86d, 0xa8a6f4fbba2ee09a36d390fbb1485fb789cf3f9f641dae011520c8f10e57a43, 0x8f6b4c0d7bd5e4c87fbc6874520e3329c067b6841fc833aa37514435e987cea, 0x2206b2c18f3292e7a9a91039683a55d813dd914b0c7d523210424ff0f2817df7],
    [0x186cef5c04b3a6c32da26405a16cdd359df57be8e93291acbeba3f487329cfc, 0x75aff67570ea17c7c79c9114c7a10d533c6080b6d15a5bebd1204fdcde772f0, 0x2b06d8389ba9621c3869d2e8b25ac15e2c97389caaf7f97a35700be66c1655a8, 0x4fc6d0a6b67744428161cb5228a94e7c0e95dede804b2b47a18055acd737aeb, 0x25e4a295b4e7a2dc71394d41ec2a8f4b124e58c234448a028a2c3bc6ad25e69b, 0x94c24ab01c6db594fda907b639a7b3a54301439340e889b6ca9cb6cba067b0, 0x2751821a6e3b2206cd6bc3cd5d98cbae8850745ec6cbbea413e7254d2a514549],
    [0x145aaecc24e3878db9a8d77149b2419ed5b42df025ecbd1a8e97d8b817904bb9, 0xd2aa00cc6e5167d845ee1877b7aa059b5e5151c57e4c163da3403f9a95755f2, 0x24233b69861c70c449ebd36e4420ddfc3c242b69ff6e3d4c6090c2bd08a764c2, 0x2c55fe1a75147c9c826f762f836d5645ac4184ba1927dd56a76dc056a9895667, 0x19779b1cb16a9c79654016674978b8b6ee1a78b64579de93ed2d67b9e49f098e, 0x1807721ba60fbae476ff60120c1f47ec0bce692cfc00102ae50bd9376c5a22a1, 0x1c0208f5aba12750802fbdc3bf12eac9e00ada708f167d4b167bd7d4b03d76f1],
    [0x90b6e28ff541cc38869abe2f5dbfb9fbe888d21021f29d2bddb9127d3c273be, 0x193d6c7e76ad94eb59a20010a799c7bf96a8dda8c90887d65214c8665ecda01b, 0x9ddd5bc0b1f8d4c4f1a7a102c1ba12ec7e7540cda285a564ea7c4753af8a8d1, 0x300a1dd5fda15d1a9cfe2a287801817168721da2f970139549e16811f555be1f, 0x1520908df2eefba075bb41cfe0740e1e5a1ee181ce492016e152706e493cf470, 0xb3f215d52e85ec3c682698ebcb6228233ae9518f9450f480689e7cf30137846, 0x50996a07af6765c56a8ee2f736650deb4972bfcddb194a0efeb1954daa8a4d7],
    [0x23a59326daf5f94f3b5192c18ed06cc58cd9608e44138686399dc4f1ee807add, 0x1d220b9add0592866898ce834b1bdc2003976e815c0cf7d3f6b8bf967ad56496, 0x19b49c4da3d9e3a26d36566738658923477c504e76a38a82b1b1247104f681e1, 0x139decc567b06b495bd6f3cf006c05b7e1f25d5b7ac554445c37dd285beaae7a, 0x1a5a7d8bca8d4f07d4cd6e9bcd00c009e3099e99af3080debbb21f90f8e5b425, 0x621e3811d3dcb9584d0a8be41e431d588c93274c8549e625f98fd15983a809e, 0x2a41c2d2bcf14664a0130a021daa6efd4a3b0c3aded38635bff97e3785ed6bd],
    [0x21cfb54ba72fc06794947cc3bda33d815355416e2aae19084d84471eedca399d, 0x5115093894089a202a4cf8d0aea329d83cbe0ece741160f9975cf01b7c85dc6, 0x2e40541caca7653212827129559ab422a1c06a6f48c974291470c65fc070dfb6, 0x7eeadd730284f5ab60778900b60300d27970001aa63e46ebb7f9cda1157600e, 0xcf33e4964d350adf2051f8e2e8448d3324d24d3f4858407f4fd60d3333bd98d, 0x287c60483e2db313f1a2bda92c1e1c28b65ef0b99df4acfb75709edf6a3bfcb9, 0x289440f4b7fdb8b2b22661d0742e9695139c1a1ecef53c3febde0b5f6d9bb4a5],
    [0x291bda2c37fac962a24555a7abeb36d8e8b9eb25222f97f4817ef2e5b0bc7208, 0xe105449589412404cda7b82f14d527594ff99d04cea894d6ecc315119f42b73, 0xe6097f0ad418ac7123ae7eba6cd4522b7ffa8dc8cf60a1f836be23e41ec25e5, 0x22fdb676724017afa8a8069c62d307aa4ff52c1445ad41b94c3e406e33e0def1, 0x204d594ad7855ad0f6950742b19e60c2c5338817aab7ee7bf631c3aa92160f1, 0xb6a643dad3f953877110517f7b336518c8fc11d868bc72e76cd76c3b2f7dc1b, 0x4189ea6c2bd4b00fa6349adde17027eb7d76353a10bd07d0942639447cb43d3],
    [0x23bc8449d898a7524b2dfde263036cac2e14935134f8c3baf7f1e13ea2deec3c, 0x17efa608d9941bc64d39e0b2593b742576dba257fab323d4c99c7a42107a16, 0x2f061475e9d8888b3877f9308e7758a16f91e3a34a5856f15ad0b9f2f92e2b4, 0x1f257d4d6f3277674a061330d73d6ba135da7cb0cba318686872fe1ef6d52e25, 0x195340f6c1f7b5f6158884bd237715149cea488edbfd80fc9b9cc61c384853ab, 0x273e200179c5c45d860b26a20b2c0853c1008f942459d5cdbed633ede031aa1d, 0x24bd0ecea1e1df97af0f296c0e792d676e2c8e02e808a158bdbe01431c5e4a48],
    [0xc6e6f0f7c20811f404599d458af5c6cb41ab671599d6350df38e82104bc6835, 0x1dee1352470235cd8e129b5611fa953706bc08d58f6a3ef3d80370d8d19683a2, 0x1be0cc30343a168fda7c757ac0c7e5e16afddbfb7265878080725a12fa12ad4c, 0x1a449abf644f68a64c217c6a042a231107ca8d9c619208580eb76bbd9215d984, 0x80117dde58f228a459f59d90e64babe2daf476a9a2ca018faa3c5fecaac1789, 0x24ab9a167b61855e0f2c60bff098d5eb7d15166fab51f2b62c809de318d6d176, 0x2b56aca9d595460503363292bccdc80e823201f71b54bda684c93eb0893784f6],
    [0x57361ec23c87b30080ff1cdf3467d57c95a12afbfc48ab5e1e4de0162a41b5a, 0x1baed177177a25ecbbfaf4f204d9921eade3689ba1378cd9362cc14145089f95, 0xccdb6d5f4913d7656889c312975fdbe0e0309a841849fd808d75f593a71481, 0x2c52f5e1ef57de5dde528471cc1f0ee7839929df98ee743d9eff962515561910, 0x234a4a32f767f2e1ca48dad3a2fdd3ff54b2ca3d53ce13fc9052414ad7f7555, 0x182b4c0c551ab0ce1990b472278f794ba9cc62abcc90a89efdd80776558e3433, 0x1ab2bbdbd043d2d7d1a4eb76db4de71fddf19edf10d7cdb9550e1846e53fd5],
    [0x206e6cd1e3154c113a762a628e24940907b41e90e7c2d43aa256ea5249978358, 0x27816cab4bec18577bd335bdaf8298798a261bb175137177d46ba95dd03dc8bb, 0x1680b632a04be3eb1ed64ef589440b3f9526b2ad82cf0b8839d3e7b0f585bc8c, 0x196b2cc0e6e07628df8234f58c027c190c75b0342511efea4c3724c4fedd6e75, 0x29ab0b6065ebbefc684608acc6bf3b5fc693770c38bf91b4be38fe6f72647486, 0x224ce814d39c382da2d65eccd9deb48056ede18c5efcb8e25515b727e540a859, 0x195e1cb28f38a9cb57b2c719b504f5fdd1d42559b6a368264fd0fbfefa66559f],
    [0xe9e5eb70f4490ba6dbd1c0ee1d6724ccdd58acdf138785ce98ee3848ffb7840, 0x1995c9c8e520014e4412ec653839d781548cf71f46fbeb51919582226cbd5b21, 0x886095cc376c87fa653000283a6eae11008982f27104afee198fc377f26e324, 0x13761e206b3e89b23de2342bfca860f9b0d9a36d486aa115565f9f52369c124d, 0x22a8c6cfc0e38a500a47515c519ad6a72506ec0d508de25942c10f51f0dfab81, 0x18985e9c7ea6f1a16962e4e27cf1aa4aa3086938b13f8ee9465a5ec7bebdee03, 0x215b523ce3f055c92eb148c00027d1ad406a2abd64081043e0d15492845b31a4],
    [0x102f78c7513b093b885726b7df2e70298801b3e4019cdd42239d76448588c31, 0xbce88602fd3a0f0ab8885891ad44045058f9ace11fdabd24e8dfa1b0a4ae727, 0x745f760f8d466fc21043e2292e6cbb20b6227517f5200251129c5481f52fa4b, 0x406de3807445c6d3cbdf7b174c410a998a1530fcca991535a2a262de4e2ee56, 0x26779e7346349068dbba66f784f87e243cc27cab59e887f7ed7a0117887d1acd, 0x25150652a08af8ca574c7c5c77ffd98b17259a1d914a6ea41db75014267949d8, 0xbb8d13438040f674a79ed42202c5bf6e67de6fc3f6b65ca837ceab795fcc6f],
    [0xc1ebf40eeaac3d4a192dd50ee25c0067f66eff6229d045d5a801067639ccf2c, 0x1a39731eb32fdb51dd793754f76103b5cab86947aad12d490d4951932ff20727, 0x2baad3d41b18ae10c463af1662ecb28c6988524edded36943672a0e857b960f8, 0x2e778da1518b6a4fad2e833e41466fb2fe82f4f8df1b5c218cdd3b7e49af67e1, 0x156dc717930d6490167743911e9bf4d4634ae049b53adab281698645f8b16dc6, 0x117f2ef1712692ab9dbdc51db4968b45f5e0104f9e5281329349d908b23e231c, 0xb281b5d9dd2ca1a92e2d83b5087b6a08d6ab08330f47512aa047b2f88ba68cc],
    [0x1c2803766dd9096567a3366061764f8c916f2a2dd640b6eec0942ccb75d40767, 0x120174d53ba57d1a141bf40e4c705683668bd55800000aab6f34766b7b6575a2, 0xc37b25020f8c76ea5536de54c722e47d01795d31b5ed73466e7d8b8ad376d46, 0xa508f345cc9a8b0c30ba27651ba1c3ad8398025a4000a5c2500228c44fa91b8, 0x12afa49ff4d8b4c6c372f7e065840783cb9497eeacc847a340f61f1823cb2a8d, 0x29fc37eb5ec7cd004809516b7aa3c716f4f7f6e7772f443e0730b01dd5071a55, 0x2048fb9c1fdaced0fdc5159490db2977e57dbcbff7514ad1e52a271bf84dd1a8],
    [0xa6c4223aabe583e899bbcd0314a4743181f1d5e03dbc11c8a4d02550fab64f, 0x15f462ab5b21c31557e25d9c22d8dc6a0cca93c8ed68a35655cff745686764d0, 0x27bc1c9af68edf8e3730197124be559f1472e7e3bba0d35e079b2d1b9e4271ef, 0x1a2ec148f900eeae38c0d3d6efda64e146929c71eb82da3139a3a85968ec6ebc, 0x4ff41cb553ca616d0616545922f2030b71b2354bcd1c55d7eabcaea8904c22e, 0x2f2c4e7b18a845fcd6add67009fc237b14a984619260a7b3d38712e03a0849b7, 0x22925c606a1f091c1d5c7122f8e1a8ffea6a140031106826ac53a9c69d84c0ab],
    [0x10e2a8c7b12bf70266c257573ca2594d8811633f77822d7c232b329c5b4e7279, 0x1712319595ae464992524bf8e488b783fa45b3548cd3f162d586bce31ec7184c, 0x2e9616987d3333388ea5a1cb56b4c161f279ff19454a64ade43daed4dcda5c0b, 0x2c68210d75660df5d9a8392a2805ea1612fc6137cf5b35a68fc1f03acfbfe4ca, 0x53cf3707283df8730b6e1f637d23c67b0b3533061a35bcb0cb0f9bbe4e8adc2, 0x7577491483d03d7769dacc79607b9897081c0095decdce3d227c059ddeddb66, 0x5639b2324c0b0af81c5b256ca6b2d46b95eaf855fc26cedbf90411312de4a12],
    [0xec90944eb8fc36c52f3fd13763714f41cea1ff487ea39d70bd94e9b7f8f16d5, 0x1e96cd3ac345bb2e5bd3e755922f84afaf303d6fb227fc68f703b93665f5ea96, 0x408425405c66baa7d49858e6d5871e5b42ffebb0df885a824942da1e2e36d58, 0x284d77566b42f3913d41ebb0528b899426e0805aadb9957a534b022b081aa977, 0xb044e5984887cda337f58c7ca50a78126deb5624f644516239427948d7d06bc, 0x486972179ee3496795bded1c2fc9674c0c3f71b58150c9c525063a6f2b340d8, 0x25b7568316c4b2fef9b72543b6033b317a7bfe406623e47cb68e5c79296e6bee],
    [0xcec9e74c344198703ceff28a4d11275f6c5c15738aa5a54a19269261ec6a8a8, 0x2bcc34a99345174c97a65e8978194486a9957c9d736f0ca39b98130801d1a114, 0x2ddb2ebc0ac98f6498c0f2be2d73e86a786940a1e8c558d8dbed8d6f44b02551, 0x2642b4a208e503e3480718d4d205351f43da183ed284ed7a385ef7cdca80bea8, 0x23fabdb09b481bc764102ae85ccf1e6ff71c7762f8bad04a2de3f7a025cb5087, 0xae4ed0ea6adb74b9d327fbcd01dbf37f5f6c467480c8aa5f495124cf70b823e, 0x9034e1a646d6674bef041afa774e3634faf8adcc7c71bc2ed6e03b0b4492016],
    [0x2817ea20b471a4bf138dec79d84f9f6c0015e0ca147b650683df4b3372b55ef2, 0x2dfb7f81425c2def6bfa4e833e51e912298397de78fd2aa17f6d1dd2f1379ca9, 0x137b5bdb746523c051d680be08daa6b0d54c9ff7099f2bf5ce894c24a8ef1f37, 0x3900ec7adc8e28af7046833dbad3fa1024e382aebe02bcb535243ddca21aa85, 0x2b285b6c23b25c52f2079863c759e6a10c33df8f191551ead53ea508511cb555, 0x1242067be2202d1b2c32b79c464e2d6c977e6fd12d8b35281e84c375864613d8, 0x1e8690f5b0a8729b9536ef2920abe7e6f3eee805237b158d997db63b17525eef],
    [0x47f5113e1287b5572c82edb369fb0f717a91f261ef9d81764a5b279ad9c13ba, 0x2d8800f21cd6774d5a6aa58ae2cd32593593d173b687122a4d61c44743902105, 0x274ba1521d5bc5c580647f10d1a4c4cadeef088685d1976979bad813756f84b0, 0x17895b7c10d6a475310d34a0737efaedddca8f1eee9d8d56e7fe4934c8b56441, 0x6eed11ae9f70df5ced09b1a6db258978cf5becad2f66d15761bf61e7dc13440, 0x3036b521c631ce5d3599e37f6a5daf928842cefcbcd2c6bf84e2db5ded748f09, 0x1f52d6e9ac28976c5a6fbf168c818478645c90d72e367609d7d7805a6367482d],
    [0x2a0e60356875d6ace1055932b3dd9ef39c3dd871091e96a323c1596cedb35e6b, 0x2089633a6194f3ed38eeec2c8f54d0c7f434938fdebb9c0e1830dbe5311c38f, 0x178c73d2769765d85383283fdb0d769457cfef0612baa963336bac1240b604c2, 0x2fc20bcaba9e3d96ebcdd710e3b341837d5d0db849e789f28c4be5004afa19a0, 0x151a423bee67fb14d5ad279f425213db7e0f21494982df872354c01f0f4a722c, 0x25d61619e135690c4e10e4afeb4f5578ad0f8e25c20735366895b31eebcdf47e, 0x15dd579bbd075429301d7295d3e685d832bf9f36c51277d09f2c3a664b045cd7],
    [0x236fa29b81678c8a109fd361c1ca90adf4423c13cf5b8cc1032b7283bcc959b1, 0x2a80cbac9b884e20368691bf1567cb7320537a977da10e53c5baea3446c01d1d, 0x11d4cb8957937b3628a3b3f4d27f276cc0c179b0c22b2c13fffbde85fd912378, 0x1289bf8ec507bf752a07c9b71efc0f800a52fbeb1637c5010fa54eadab402946, 0x26f842b1a99394297d25799f2f03dc9e4903e77d2ddc03ec2fb155466da6f303, 0x15944b9954b6182314e878fa2f9e091dcc40eadc48d37d39bdd5f09905c3a369, 0x742166dcd8ebd8576a6bfe0f1fed13793928f84442c7465a0012f584426fadf],
    [0x8603d5a0e937b5353b56b05768fd50bde792e72fd61c06344cbd735707b68ff, 0xcaa1711c66e9301b6f25e21a31683d80bf58d86032d03bfd25b9777edb74a75, 0x2d6506da695d2087dff87b5f636ee676fab00c32ae45c75b3db345f3fe74a311, 0xd9244b07af9b6eaeff6f84049cb2e01d75dc4cb68533606e976b8b300758c84, 0x243abc3c3382faa5dde3f1c3b432042d3f030ef6a1f5401aa37acd15cb1c8c46, 0x168416e0a6d275d30eda3989242e0723024727d3b0791b06f8e1bfe8efe40198, 0x1bcdeef03693d1ad0ea80c65688654affe634aa14cb11ae3a491681d9c5f8eeb],
    [0x2f66bfda3d2a1bdedb0ab8bf7eb1c4e551bef58d94fad7f7c231107e5653909, 0x19f6802171ab82a5922f023fdecc097eb8ac1fd0a1ed349afe9a7b94298975a, 0x195a1c738398feed8c760468a0556c232645a1dd862d87c1f508c949ad52c3ae, 0xa36a3a46e6ec16567dfae1f853f360e6f24924810e838cb24ed1b0fce37f1e3, 0x2123c29ea87f7ea7b35c25f9e8dd3e81bbc3974c3c17c607cd840c09f374ae, 0x2a717499cb6c31f71f0f0352b0f5bfef3005b80e93a520b6e42b3985789e2d3, 0xfc053584b0a4607a2293e18baa309c52fdc933e9ba90fd327aaa8c8cfc4daa1],
    [0x1310d1942129737b32e87a86f4573032b1b99ae3c6d71bafef7b494794855541, 0x1bfadae53fc82900f5761c558fee5e1218e6b2a6657e74b540969eeb49e0b8de, 0x28c08a69e5f3641460ff2c60b7579395650c5b6afb392da142d32de8677556ea, 0x223222ee42b6ca997f44d643ed6a3f2b040f47fe8cd922163d9d9d8b2622d909, 0x64dad4752e708ff29bb0842d2c452a71448b43949345690031cb125588876a0, 0x2d5ddc21797043996b22dcabb9a1ba6c82b71e9a1bc5919db8befd35411056a5, 0x26315fcd9b5e1a266ec8e9f6600f5a6e0bcdb22f926d61591e83fa21069c0e0b],
    [0x759273a4177fcdeab23da38b478faf2d4f22e82f346aa754b0a1331bc8371ee, 0x9e13300eade70568fa0a840ea9729896ddd84c364d6279d34a0b9d1478fcf2a, 0x13e97ed3c16fad6cb5b7bb954f278f2434b22f8cc054463a145cbe0240d4f8bc, 0x5cd3486dca58f4eb221bc2cbedb8aa3027cde5765971bb1f61c272c5aa51ad0, 0x5ce523f6bc21daf1df468b12fd3e8665e1c1697816a9a671a3b2b6149c7de4, 0x2103066cc5df55e67cd7914028145fb71f089d671c83c5b537abea482b2d8cbb, 0x39f8077bd9b71f91ca0502eaccc1672c539f72329317aaf8173d2edd7636928],
    [0x2247bc0cc4373705b89672a2205346e6af3a6422e81b4f4885dc3af7cadcc5c5, 0x27bcc768bd31b9d00687a7e53c3ce53c426762706188790ea20b2e819638df80, 0xd91cef51a76f7a62c51c73a2809732d79ac350159814ea536487368cfdfd708, 0x20a9ecdc649a26388dc68dc02343a0f167bad46d6aa1cd008537f627ba140730, 0x23134149a0d4567c6dfc911d5cb80c1a1016220d39e0c230325dae2941f528bb, 0x2a07507e9f030a42c6f29ccf1c9cc4f3e5a5b0dbf05874d5edadc03fe74b9474, 0x1bdf66bb1d57fd788e54ef29f06f35fdb2729b718ce81152cf3aafc64966110b],
    [0x275c33d07f9e7338ddf50783bf158d51be619bf77a12020cf5630b78e7e0d0b9, 0x16411554e55fe604a1ff1b3b5b7afb6a2bfd0f32c4070b55bf1ad234e8b28116, 0x73e6ac7e6af227557249ca1a5c55222a36c641bc2851a0dfcfb60831f6759a8, 0x10a6fde88c5f621d748543c76a218f95c202bbc3baca06838f31331b0556e12f, 0x29c5865a26588ca8a88128a072c8434cc97a1bcec23e136f038d29dcf96b0eb6, 0x233e0ef6ad132ed211b1911cdd569576fea8c17ca64e4d5dd516fcca07212c1a, 0x96f9b92b9cf2c7d664408a29860365f5b6adc238d878a476bded3e4d2e0b840],
    [0x2fc788fe8aad4c28b943bb57cb90edf6d7b1f1e835de1fbf3192e395db785554, 0x1bac0ed609233148503795fc5e114076ef7c9d722bc648dd0338d9689f6e023a, 0x1c35268aa030d6cd148e106e3fc23094e561573d8c72a69fc383643e2adc82, 0x2bb1f8fe5d998d0b8b92837ffb27bfe7a39ce39ff94fc167ddcc95a7202e34b2, 0x1a98576450a43e5e705b9af68cd0c145422da23945630b10b8e821dd61f9a2b2, 0x2714d37ee506efbc2ba9941043fb23f16af966f123d653f38388bcbdd50e6037, 0x175d0480ba14abf0bcb8075a03f4a2a01ff7ed75413917b53e50ea00cc2a4ad0],
    [0x203de45a037b75ef63761750dce08da2be7709701ec8158c17fc026fd084d541, 0x265aabfc78b70ca985c329080d6329a12560f76b01cc3d431a7283022193abf8, 0x135468dfbeb70e8c2edaffac8658a6c22b2ad1520ac0819c127af2ea5f3a87a8, 0x216a41e24329deda65a8a82001c84ce8286c61758447ff1bfa9d9293b6711fdd, 0x2887ed49797bd6652bed8bb99ae345ad70d1a27cdb21b9460bb6fd0d4fe482e6, 0x3e2bf82690c804bb6ee3c79dabd1892ea53a9811e2424a19fae446b8ae49cad, 0xe6dce1bbe6e9e465cbe14dcc615611867414676dd8a8ce9946649b1c4e81116]]

/-- starky/src/poseidon_bn128_constants.rs L11032-11096 -/
def m7 : List (List Nat) := [
    [0x2abd9e16b7b48289aa19cdfec726fa3fa15cc1625102ae511bca45f39d337e9d, 0x1b4bc5885d1cfc8eb691875300db5a0c7362ae381898acaf8b63cad04ecb36c6, 0x8a72fbb55dde3e93c5818571a424a54953695029eedbcf91eaeb012751c7f83, 0xf95359a1f6845d4921892f83e500bbb1b3d3763d8fc762400af039b0abb83f5, 0x16f01751ce985328afde34d81619defb43e6c7b5dadf52d0f82472fbce7770d9, 0x1c391626328457fcafa629f3e6d33e2555e8d885e3c07cecc8af1f4d56596417, 0x970f671b9ba35e3e3c642d1e0b8032023ed5bac91c2c1056f03965a42c5297],
    [0x1fe9feb5c7f7c7a426bff032cd6a3158278b6c6b2cc57a871213fcafd6427989, 0xcc7eabb154aa7955eac47a19f6437a2b8dec0fe9e5686150ff6e88b1a7b4bc4, 0x393efd96399aa0726ef9af79be8b6c715e429906ca0d15076b5a990fea75ace, 0x871233835b752ea030cf8a4f43771296eeb33f697d1b0825db47d39ac9e5955, 0x1a02798f047a51baaea34fcfb26ca6afe96a5fad1d2db4270497b6e6504891cb, 0x55665d76df3cd0fcb713c234ea79d06a31d6e3e4c3bcc657dba4c664d5a0da0, 0x26ee9691a638edc7c91887e302fc55e8e7758286a44845ad88fd7de3bb1052c1],
    [0xcdb2db9e4f9d732d217c5e3114821165d49e5a2d41556bcd53d0c4d433224c, 0x12f3bb29c972793182123f5c49306e16a3a787c4bcd9c798a131b70856d1cbe, 0xbba9006404c5ede82b527677daf444ed43fd1e0dbdc5528dd2cd1f17ad73481, 0x17e4e73bf701f88d219acf1ca6390cc1e17c9f84b1713820837ca070be84a2dc, 0x234b8a077ef52b53a343b8da5b20cc358ad60760dd60276d485015f73d53d207, 0x2dc3fd77394b7b5ac1cbd1b46e6ded5b835d7217a4c50a487ae9a35a7fd45d9d, 0x1668477640fab14c72b1c16ff0192e48cf882f12276bd12f97f82c6ee2e61e48],
    [0x9664216ca565c1a44fc2b98347ea8b36904b3877f2159dcc999895adeb4d70b, 0x111fd8dfce2bd3b7ba0cfa93e20fb685abf76d77305857b8df30914e4849ecef, 0x19f53c0a592b3ea93497a511e56f66753598265b1ab6774da48eec04e4d93426, 0x19b683c39d3b002fc3523b7bee5a60148b1dbdf18dd1c318e6a541e8cf66a174, 0x2547113a818779f13e3448719c7ef100b8036bb3e882dd5e6456c35311c1bd5b, 0xcf148f8045cdbe7bb1013f72ebd4126a3e35cba9a970441ba8d5bc76943b0b, 0x3008421eed767a093322a09c3733973a038168cb28cd2e1f709076c00b869599],
    [0x1463f51d4a4cb1eba16dbc115566aa48fe77b43c244c9988a3c658d2f56493d6, 0x16afd8f4c39038b8006a59d292aea84731c0f83832a61b82250ed90118e8fec2, 0x2296361f3bf154efbab996921936e9b1dff8352711f958638172055333e07579, 0x1c3160ebaeb10f809f69843cf8d5bbaca198d1f8e3439be29beb92d909ec891c, 0x94c66bdcff54382cd9213abe43312edb5b4d414c6e09acca24912a7635404c6, 0x2e883bd408c4c826d004ff777d7c0938434ab5bb84f3420e5d94b853b1746f89, 0x228af6d425e91a783dd18fd89a6b38bda053f2f23c094b875f27cb3abba2030b],
    [0x214e41788bd2b990347c7f2a8f47612d4dfceb1a1e6da38165873df66ce51f59, 0x3fba82d3f783620873da94e9f4e84c8b529d76f54e4b5d7d4805272af9b9775, 0x66782fe3e869de2cebd7ebbf60fb435785329dfb12ad9bd1b4e46ed36289511, 0x1c5cd6b23ef336be01efa37a27e6b7aae5d1643fceeb212cdff51588835fb537, 0x2f3b4bf0f105f88e27248af094e29feed9ff3fad9a794e15830bd2b311539453, 0x2f4085eaa9f80a69b739fc23f2fe4057f64729b311783fcfab3a0a36fc1ff432, 0x2363603349e94f520fa1f98fe2507f6aae361934078aa59a16214c088185638b],
    [0x548541724f64e20128260899abe8fbcdff184a1957a9385fb715923bf0fc79d, 0x21c5e25a6991364e59a205e5b01c811deeb095680a72928369cfd2de71b14f98, 0x11c5cc53f6338c825817aff7792a2efbce8fff171300d41455a2edac37663d02, 0x27a0949fdc9f10495c4ee7214aa0edd2ad8eef68f577da8b96f9d87a39504bf9, 0x1c7fc68f3fbde4a23c455ef0d0dbce0ce556a0194e6d552c0455cbb5b0c230e2, 0x11d0f56fc00e7d85b3a2939fd33991dc8abc1ced0c3f3c530cbfb4500d63de9c, 0x1b2e9d20d9b55deb048cabe1636f0e96363bec886679cbd91f332fb2bade44f]]

/-- the inverse of the matrix (not in the code) -/
def mInv7 : List (List Nat) := [
    [0x2c3d49b0fa5307e544d1a4ee73d9ae73f8c525b287634f6248da47f84bbb44bb, 0x25f64c7b8f74ed525e421a7fa65d7c7cf1519f107b736fb40d26504c39329201, 0x12e61202cc24fb7af812a5cce7bcc3b3553a7009727a01955bd51ac3ce81ec6b, 0x133c126fc1d6bc9614fa172fb51310dbf633e18e5ca7139c574f27566d7c04fe, 0x1b3ea3e3748f92c79e465c9f1a34df494ebbb6460d4c03d9c4662a2ba800de10, 0x28c6202ad4b2734b2cbe85f9d1c5a17df630922fdbd431a2162c11fe88a00269, 0x1cd1181605fcd75004cc77cd4c466abe30ff85dcae8bad6169d17d3917e9827],
    [0xfd69519c35ac32aae20cc03572e402a78111e4bb289a6d1df6866cddc0d8f3f, 0x13846988ad8a6310c704277608c6da80d15adffed7b4d655f35b70b0df4d44f6, 0x263b76f5fc8b11b83bc27ddcdfd69675d8c8242b87196bfb68c41f0a14fdcdb3, 0x13b14b284bbca4e55d9b49916c609e5c36c3bc3add4c4442940b737fab4b34f6, 0x25aef8f975d10363e098d4550f99675f72dce61d48c87ac51a30a7efd3582cae, 0x2a7497ec6b5f49085378328642fe1c55a8b33499b346c5de605cf8fab554bdb3, 0x1dd9ee88f435be2655451cad59bd887d4cbccd74c5038293b37fed130ad48f4f],
    [0x2ac71605a91163c84063e7fc409cf1cf3c094a0133e6b444f4545257b953297e, 0x22211c1e5b87eef1c4592d86ef224aeaac04f028b3ecf9969bb322420b47d8c5, 0xaa21a4bcf3e69cc9fb09ab5f65483d43cf279eef11721127b45a16ef1b4c292, 0x1c0be7bd939d6ef441c85c7ad63af7fb1ab3adc274f315c12025d24ba4ca4563, 0x10790cc7b00417140023372d68172fcde55fcbb2c3a0054b8f62ceba2e6897f2, 0x126ebdf614520419026bf6e50a608f99cf5fe90b7ab716b91a05f42064199b9, 0xaeae62d3b2e665de980613a348e78391eac56c5bbe5e263c823bb4f0ed492d9],
    [0x9bcf162e9906b0e35d566268b5fc85459f3044fd8c690043e745318683ed3c5, 0xb17f3d1e2d23892632be185658e0d631467b1a767aa5d87cdef318cbf3672c3, 0x1fc8abd54f5ce2a90192f0bbe720566e40feba1db71cb449a0e27cff1ac59037, 0xaa6f57dd8157cdbe5bc3b59c1903c30eb1ebd806ab01d26f60e999a236ad8c5, 0x27d2a0d8394c75c779ab161c28f343e7ec2957e6856922550ecd4d0d17616b07, 0x73cc40babc6af6b2e152d4d78e9475241130a097876b7c546a81712ce7f33a8, 0x1aabdd1119e4154cc8cfbadf64f97ec9000d5dc13d723333be04ad36c7fa9256],
    [0x302e583b08b8a30b8e764a03eac2c1122802ddcc29861c8181fbfb286f8b98f0, 0xe7fadf8ce249bc76cac752b2ba514304c7225928da0dffd3f67f40adafcc02c, 0x191054969c45189b99fcbeb06441e5faafb282e39a367f25b48ca6a1ab6fa8a8, 0x24abae719f705c7040193dfd095586fc896f10cfa28054e4a7e9be88221fb2c1, 0x21e42fb61ac317af3dbb2f32e819a21c810318934a093fbea951c9ef15b4295f, 0xf005b3555e199792e28937616f015584ec206422d3a5dbfcd94ca4b645f48a9, 0x14b2588ea16ad29e26780f2978817a1f0717a211da1bb6273814029307333b73],
    [0x1869bb1c860554c9bb74a25e81d8897f06864427a692395e7ca71bba46c52e5b, 0x2ecfb6505a6f079f016ffd167052f9a004758371f4d7bcccd862ee4643fdaa33, 0x1f18b2c8603ad1d68b314981e467018b6cf4da737a00ebe619fbe809574f31e3, 0x1e17c39dd7e851e345c681d8dc2c207873f844056bec376ff70d173f291425e4, 0x5505cf0e12e0d61ed0629526aae7106b783e5bd4154c069f235c0c576d2f6ca, 0xd5c98a4849446670547781b3a0cfac3dcc30ef2e45cfffaf231164c20df7e37, 0x261e5164f2ce9c2239a7f718afbf25498c46d52bd1e90cd341980b94326fffc8],
    [0x1055d4f30d0bf0aacf515ac129ffee854e056c2f3d71647279e1e59a65f1b01d, 0x23f2178b6062447b3503b6a2ee708abbe3f49f5520e2ea5b234cb2d5534321a4, 0x172f3b2fa84985451585b51bce88df52d6e3a2a13cbff047190df1c81aec6220, 0x321cedffba7c28404104af995c8c33f247293c6bce1abf1f62f7d0516e9589, 0x782522596859a000a442d65506dd05042ce9c027b3119068b0cc3f855d5454d, 0x2ab112625d552a22cb7c9ac83d80123e48b61e7438a5d2afc4a5774a2dd8bb0c, 0x9ad9b1684bbdd9a1b72a9130bad09b26d98f946362904e4ec5bb5cc6b0d154d]]

/-- the tables have the sizes that the code reads and load without a panic -/
theorem sized7 : (opt7.sized 6 4 63 && opt7.below bnMod && c7.length == 71 && c7.all (·.all (· < bnMod)) && m7.all (·.all (· < bnMod))) = true := by decide +kernel

theorem ok7 : opt7.check bnMod 6 4 63 c7 m7 = true := by decide +kernel

theorem inv7 : invOk bnMod mInv7 6 opt7.m = true := by decide +kernel

end Verif.Poseidon.Bn128
