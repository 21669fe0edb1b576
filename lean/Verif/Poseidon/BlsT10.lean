import Verif.Poseidon.Check
import Verif.Poseidon.Primes

/-!
# Poseidon over BLS12-381, 9 inputs (t = 10): the tables, copied verbatim, and their checks
-/
namespace Verif.Poseidon.Bls

set_option maxRecDepth 1000000

/-- starky/src/poseidon_bls12381_constants_opt.rs: C L825-963, M L2555-2676, P L4677-4798, S L10931-12015 -/
def opt10 : Table where
  cF := [
    [0x33dfe3342ce5860171345561b3eaf399ca5796521a73ccf610ab425f48ec1956, 0x3e5c8083980790aea5ece9a26244088ef59a2b633e09aba527277eea8378f1a5, 0x28cf4e1cf9e608a5f621ccb1fd99eacee1d0b0f090bf8a354ac44bac6c05d46f, 0x182bf48d522036b33835bdbb946ebb5e8cea047278e62b4a2cd35ca1ec8800f8, 0x53c053f269ff61fc160d32e679079994e2e2feaad18a830675cbf53d298ae345, 0x4edbca5c9fbce411a850f67f785c7ba05836815d0a2b273e745262dc6ec9897, 0x39780ca85b03cf0a4cdf130abcca0bee1a2f2edcb80d8b5d07d09c52f668b7c3, 0x47aaa674f1fdb3d69fa7841f03acc5a41df145ce0fe49c117769a5332b33e182, 0x34e51c16d449f4a553794cedfd13e4a4350ff8636eb74538f83ca5fb459d629b, 0x558440e6e99ee85f390808f48ade2be78df6a1d0d9fe5a75235465a2255fd713],
    [0x40a2110dec010707b75b48f804c3796e8db4706ea1442fcb39fc915c60403, 0x5c1dc2b096bca2399062132f699932fc94bd120eda0cb0aba83f4f20be6c3292, 0x2ee2c22365f01c1d7aed28bf7d70eb957319a4e3d3f0099d5ff1a10dc7b1351, 0x49747463182f58862ecfb8c74c9231df564719e5b70c4e20cffcbbfbe5138410, 0x631d35eaa2d169f4f7858197ced23b713f97b32f11a895d6fbe8063930a01c8e, 0x4c2d7fbc0b0861a6a09ddae29f3015bfb57b0b2bcdaa3537be4e3708c30e9209, 0x2b3022f2768387eeb30eb2580259d32a041dede6147d33a12a2c73e32fd3cc1f, 0x52bccdf7c61c329874bd7b9866c804a641a9ab00783e3f866f4196cd9531780e, 0x69bbdd63dee7b84b7d30dfefb17b9f6fbe8ffb65aff029e1ef5542006a0a8355, 0x3d9d24be3580026bf8b486ca6877611564c1569ac39deac68e400809b7b69591],
    [0x6fa9e5fe017a043d22215219ad2f3a3ddd35a289aa07ea7bf7c5f2a2609c2645, 0x24d2562712b55aa5c3302f0515ed63a76def8284c6cad84623734ec83da4637b, 0x2f3353ab497d02d094c2956ebb5c0691237e21052a4e10dd27fbee60cf168351, 0x46a83f1ab5d5482710364c303b3fe7b9660a06e58f006d25eaf4a1c2f3f94d64, 0x23143229f065d22619b511334f4d24378f24e1f8ba33cd93d5f1161634ae89fa, 0x3ff405f872041091aec10df7f4a6a9407224056dec93dc2c55b02b0b8bc47234, 0x66be970ecebe9e1067c4e7aabe4c31828800f597ed8164f5ec1726f28dffecdc, 0x4e1a373e05b924a6dabef6cbdbc8cc86646ce8d2aea37d05a0938ac21325406, 0x6584dc8d6e3af94cb1c2cffedf5bb7441ce444a6a36ec3081830b7fc3cd6fc57, 0x31b3c10618dbd32f39328df96ef449d347594cef7ccc58f0976e37f856e0eb6],
    [0x5ac0fe46e153b225ef30bb3b95b002d4af98b82745181dce18a6ff5b2fac28c9, 0x673fafd470b202353cbd8c8e8f40e880aab84d8817dc2277d29d7ae8456190c7, 0xeadd5ca1d312d2881475783eae2b18a54978a3dbe90b390af79db9ee234a9c9, 0x189f3a3e6ceb7a65bc6f30b97c1ff0ff6aab33ed91f0c23f4fbd711f095ec5a3, 0x633cf285a2f146eef1207b5a285d1cceb2519f2e62a243631b7a622d115c042, 0x1c3b696fda89f1abbb5b61cb88b0915a1a0456a693c9fcd4b1b53e8be1690260, 0xab2e97fe4de673164261ef3f9740056fce6040da85443606674b3686956a1f1, 0x18385c1e5b0dc4dc4a5e60d78cb3ad93703af85cd7ec09b5d58b7757752bf375, 0x2f8142eae9413fd7571e947c49325e609cee3ac00e3e936b7f7537d100f9a8, 0x2fe97f9bcc66f623e8f9520d24cf5a321835a0beca0370d3a42a544e8d88893d],
    [0x6d2f4cd4b817429eafa683d5b9619ffccd276d529873e47990f45a671f482f1d, 0x6dce6cd5eb4b2e652ed52a2f57c05b2d170d1da9f9d0b879a4009edce0eb6154, 0x491ba4be23a8adb2bc99f1f60e2210114be07f79b418ca4caf2ce1ce57c0d8c1, 0x53b2b4bb221791464e302407ea3c562206eb693415a512fcc53459094d1ea2b0, 0x209beaa482f149ae79e7a006b41a29cadc5fe2fa8bbffeba39d8073e677594a2, 0x19cd43923669a2da6a0bd1c3ba4f4359ae7d6aab3607cf618b9037ba0464f2bc, 0x728fc20b85d2ba9c15d0fef36f7ade492e928a4680b542d5814f7f711781aa51, 0x2c99187ca49a601748f15389b079ff3bc4cf23ede1e63b3b83e16c321bc9aebe, 0x32695b3c10b07fc57f834328667a12aafe0127fc54d4ba6951d86bdd300afa4e, 0x118e07f39ece2eefd785dbb95c5a8e83793a8d6d7bfbe363a7a18b2a4ded279b]]
  cP := [0x6e7185cd1309d4ad2a3622bbc862696607b1943f5a40d599dd34fcd3414a81d1, 0x65d2ed6b5ee0907b726fe6a48d5ba86f83a7a4cac25706cb1c906841fc880615, 0x2b71be4019237cacb8b39ed0a993d83451ebe104e12e3279fc741c2dc966e0d9, 0x624233269aff0702d94475f26c904e0018f65c470cd58af87343028c9ded12e0, 0x122780dd4f4405c5f8ff0c48698d709c779fd41c96de2c464949ca9650bfe55b, 0x453936a9db53ddd612c10a95d89297a00b046a62badd536e4d6005e786ed8a0, 0x369e670fa96739574508323acb22e36b5fc25a298018f3b44e965bdfa90bf328, 0x52f9f12ecf1029997614e859292bfb197131c71b1aaba2b9d6837207ca323520, 0x4675cf384834a89c8ef282d2ae5c954a27b99c89c756d5d4bb054efd34be64a5, 0x560db3ddbf2e84cab46267a36c93031b30646e2ba4f35814e4041e83da088670, 0x242e2aa435acea9365ed1686827e930c8a755521c67f779d58fbcca56fc41f94, 0x2a0644e1d89148760623b636d99072cca3d4dbe565a2ef4d7aa55d10460fcbe2, 0x1d7ad04a368af26cd90ae7cbcc50b9a9efa3d36ea5907e26f8d6b67bf44fb06d, 0x5191fbdc236155d229aea2792dfc120e69009fe10fc2a0add2de1637dffaabd9, 0x71d5a7c1b31e3c996b9df5895c7a975033b8de015ddb142e57c3892c9da9ad56, 0x2ce98ac4daae80b1b8863006ae401cba0d4463f97cd764c0a180592a032b537a, 0x17045e4991e6aaa1d2526c6e9338028ab69276a1f1b60e55a7e0907f7107ab33, 0x61200c3a1b2ef39c4bc439adbe18feeab0869b79a476f619e703f672d52350c1, 0x318bb73d485138c952c7e615e5a0332dba79e630e71e084fc80e565878fb59b3, 0x5879db5dd54c5a5602050e5bac74005fdf568f4d1ff42a4e28dab7a7a8e42dbe, 0x16a143b2453318a2684aaac437bbb7c5ddcbe9685d81a2c06e83c339b1520167, 0x689bce4c7da2837e1374aa58ab86ca5c55efdd8bb03b7a436669499c999b86ba, 0x6fc9c7a120c566e470c1276135570991f2d4394c5c085ae59486b05e888d485e, 0x2486f2d9d67bd8d22d32299770e4d63fc5e082a498fa87264f482e2473c97269, 0x6839c719e90ffb77066140d6771ad8812e1e57b793cb43f4811f04513f062f1e, 0x67340e021d80e40322206a1c2d81d767301e82fa3103279101b5d2b6f63c6481, 0x2be70d219b5a2a113ebe9a060b109159affbda87d5c0c295bfe9480a2fa93054, 0x45790ca41f0a6041e60f0cbf637cb4929e763e91b3a8fbf27673dd49285d1633, 0x210cca98eb504821fb95c1f5ee87f1a8b8d56bb44c097ec808a9f0a434dc4a9, 0x41008b2a60215e17e57d2bb81866c31a473e03f270601e15b28f51a292e08e11, 0x116219d31071d5d2f84f0a52f9f207be3288f1a05d3f9a978846a89304aa0f0b, 0x71d318bf9d37807d3a2af04ceea2627038e8a8dec234292ed5b6267549c7aeae, 0x2080d73fdd61a02259371525bfdaadfb34e407686e1e570cb79640e7b1dfdf52, 0x163458e1857c3a18abdbfb98eb751b69785f2374b940e027b102e6f7d87bfeba, 0x5063c1d3d917d4bb8fbc382c2079ce80d5d8ccbf259fcc7ca6905aa842674dc4, 0x10eb5ae901f063cfdead19853fa0819f49d5b1e0338ff19e12406a3e941637f8, 0x3c37b079524c4438bd79c32de75ee9e6b5d0e86ffc1d74b56a2bbe9f5279af08, 0x2bea216bb14ff843a5fea192aa126aea16182a332a2dee0037d0d1e1e09ce848, 0x1b90f64e6617d18ec9d1b1050a8bca120c63e74c6cdfd9a455dbff0511375e71, 0x2cf1f10a7b506d67640817ae80f80773bbe87cb9932886e5164436a653113dde, 0x3965fef9c543004e074cbfa056954621ed827ed738102dffb4ce49bb5ce33799, 0x357462397c47c678eaf5879479ecfa4f8f44a07c70611bd5d01fafc1b700fcce, 0x5f02b1d9b39cc176609c110a44eed98bfa13d1079fb1c8b26531f43cb1894c45, 0x1c9d1fe8edb61e86912810e2f756d845e6040ca18e04e5f8a3ed8264a40c5560, 0x1f4f95dfe3a064ad1672fc6207d14498836d3c23c20098dec09b44b36715704, 0x6f88e10582132c5fa8a1b8d4c072b1c47d4e382f1da60ef48b824658049ecd78, 0x836ef1b989d6632675d51e47cd2384ecc997ffea689ff18b5b5d07cb3c9a243, 0x105f2062a52c74bc516b9b5363630ca89529a3d6a7695efe984209e4298365, 0x2ca2d8c2add5ede7368fd4d43c242b0438cca26f7256361d70f882b2002744a8, 0x70501e8b5e6e58a3929aae88b270a71fddbe1b151898397d1e58f52320eba23c, 0x3c0164ddd209a02ea7ae594e1460067edb72e3cb40aa535ce273bec35bf81908, 0x666e5bdb23bc45c704393ecdd4eae41c8bbcbd410cf3795f9e4e79b42b2e5563, 0x3a24d3fcab10e348ecce29c8e8b491321a3fdb8e5dd1799125f30cc715ce8148, 0x3f9411f19879e89f1891cc65fd93c89604b5975efe55ce5f0a690d838a0acbcb, 0x2c527edf0ab257e96441d81bec874cc7fcedc9d38987e6458478624a83269d47, 0x129f9174490e0c0f0677006dbac6cbcda38ba83e34c3a8526990acef649c08bd, 0xa550bcd7720e85788d8f4a3a97a520003ae1e88372ffc3d7a8dd73c61774202]
  cL := [
    [0x6cd67823a8bc994d69ab06054fbb0b57748bd85626c8493e633730500221f497, 0x4dc7048318a578caa5cb96ffaaf80f9a74be8b5ceed5a1cc3a73dd9f59e610fc, 0x6b8c8023412924b81bf0de14be18926e8c887886e779aae1eeea846e6d6693a, 0x3fa4303c50ca27ac2dd5c1604072110c2f54ece6745a3d27ec5eb22082bf6796, 0x62dfe0285076ec1b25415649cef7265573115c9936925946bd22e0235fb84550, 0x6d604d4056d323ca487e64cb1c26d70956869e312ca94d6223ff17383d40ae69, 0x622a2f9f38c20ac507bdf222595d9f370ad5c9dee9f9ada94818e6ad6aaa87d1, 0x358af354c93cf502ecd7e639192657fc268c9b867c69f1b791020e9011829efc, 0x7359aa08ab3c10b33e92329064feaeba8f99b0fab06acab4dfacf181363c35e1, 0x325403c9b0562a372ef9fbee8c4db1474949308ad40dcd9cfc622a4e897ef446],
    [0x6cca0a06b43f0a04fd8e6ac5bed1bd806d2083d1775bf2c5ce666053514c809e, 0x717e0b1cb12aae2446ebaa225dec8317d3de80faadfe39678357ebc8e74e00f, 0x5edd3f4515826cbfa76682cb7ba8b2517dd4e0f25a8022c603b3427465d900b, 0xe0963c41a5fa4164a4aa8240645a7aa41a51ee8d0f99285ebd805af72cf4b6f, 0x611568f28f56126ab02d87203374e81c845396a2dfcc784be1d175c8e09e0ae4, 0x25bad4a7ec73a5f721c60928f24e201445a4fe5074abf7e05a0c095a593f3e39, 0x3841f7dae311927341bac40b6f68859f46a8b666ca07a08e63ba4349a27592d5, 0x72e523b122ff49c3b471352e1294140b3e926995cff657c077c490cb34f9ddb5, 0x8928e11f9ba914c3e03822b40407ea58bcf929dd96abef0bc351d2839e6680c, 0xb7084199068033a1a1c5f3d7bb0fb92da800a2cdc73cf6906fbe21ed12be649],
    [0x1f69a8808825e1ae7cf2dcf6e46cc546b329105414f289eaf59f1ac6ab013249, 0x87d97f8279b0090da2b5c7cc8a214418015e8b17af6d801594a634bc19fe9d, 0x1b9a3b4011c2695cb368ef6f180cc7f0fcf379df9929e98ff8a59ef57cd56eb7, 0x38fa1356c3cc64ba972c858da497381e60e73eba19dd6bdc9d39dcec60aee75e, 0x4db3daa78063397f68872b9f8d4aa93ee7aa1a9ec7ac987b602aafaf6034ab43, 0x2db43ed58db80801c7fff842d93a5cbc30ebcfbb3b9241f79a99a8be55538860, 0x22c175272ef01dbc4a5134c300aecd0d47b67144e8ae7d0c7971dca46f793b27, 0x1e3274ca06a65ee01f553560bb135371fc84d7b0d80fec2aa0226828ef4906f2, 0x5feef5429d0b69d0b768884cdd6973bab74b0d83832e7a9d177eb9d201aa3880, 0x446a558855d2282be9c208a0984a8fdbb97da42ffb30bcc24f57483c5814bf61]]
  m := [
    [0x22c74bcc2615a595a8f7c0cf3616f401991f4acdb332b532e66666661999999a, 0x6963af62e003892a5d1d50074e93217934daf23145cff68aba2e8ba200000001, 0x6a44840c3b7b082cd99fb0b208d45b5a376dd6581553d4546aaaaaa9c0000001, 0x6217dc5a0f85429f8dce7bb808267bb5bd02ed3d9d88753a3b13b13a3b13b13c, 0x4a867dda0877876545809d29bd0c9d27fef9e96fa4913b23edb6db6d12492493, 0x3dd414f92742ed7bd70dc88cd1efeaad81febddf77769776eeeeeeee66666667, 0x6caeccddf703a573b0063a878907ba84fe81c9c2cffe763f0fffffff10000001, 0x1b46fa31af7059b6a2a432d4b6f8e788c868db4bffff9d2cf0f0f0f0b4b4b4b5, 0x46d8580827a75ac891152076b08d923c24f3e43ab8e28d8d9c71c71bd5555556, 0x6dd3abfdf187ba0e815f38736770e79941dc14a486bb13c9286bca1a00000001],
    [0x6963af62e003892a5d1d50074e93217934daf23145cff68aba2e8ba200000001, 0x6a44840c3b7b082cd99fb0b208d45b5a376dd6581553d4546aaaaaa9c0000001, 0x6217dc5a0f85429f8dce7bb808267bb5bd02ed3d9d88753a3b13b13a3b13b13c, 0x4a867dda0877876545809d29bd0c9d27fef9e96fa4913b23edb6db6d12492493, 0x3dd414f92742ed7bd70dc88cd1efeaad81febddf77769776eeeeeeee66666667, 0x6caeccddf703a573b0063a878907ba84fe81c9c2cffe763f0fffffff10000001, 0x1b46fa31af7059b6a2a432d4b6f8e788c868db4bffff9d2cf0f0f0f0b4b4b4b5, 0x46d8580827a75ac891152076b08d923c24f3e43ab8e28d8d9c71c71bd5555556, 0x6dd3abfdf187ba0e815f38736770e79941dc14a486bb13c9286bca1a00000001, 0x1163a5e6130ad2cad47be0679b0b7a00cc8fa566d9995a99733333330ccccccd],
    [0x6a44840c3b7b082cd99fb0b208d45b5a376dd6581553d4546aaaaaa9c0000001, 0x6217dc5a0f85429f8dce7bb808267bb5bd02ed3d9d88753a3b13b13a3b13b13c, 0x4a867dda0877876545809d29bd0c9d27fef9e96fa4913b23edb6db6d12492493, 0x3dd414f92742ed7bd70dc88cd1efeaad81febddf77769776eeeeeeee66666667, 0x6caeccddf703a573b0063a878907ba84fe81c9c2cffe763f0fffffff10000001, 0x1b46fa31af7059b6a2a432d4b6f8e788c868db4bffff9d2cf0f0f0f0b4b4b4b5, 0x46d8580827a75ac891152076b08d923c24f3e43ab8e28d8d9c71c71bd5555556, 0x6dd3abfdf187ba0e815f38736770e79941dc14a486bb13c9286bca1a00000001, 0x1163a5e6130ad2cad47be0679b0b7a00cc8fa566d9995a99733333330ccccccd, 0xb0a7175a27085d61d427619257d20c38e120f9ec30c08c2f3cf3cf3b6db6db7],
    [0x6217dc5a0f85429f8dce7bb808267bb5bd02ed3d9d88753a3b13b13a3b13b13c, 0x4a867dda0877876545809d29bd0c9d27fef9e96fa4913b23edb6db6d12492493, 0x3dd414f92742ed7bd70dc88cd1efeaad81febddf77769776eeeeeeee66666667, 0x6caeccddf703a573b0063a878907ba84fe81c9c2cffe763f0fffffff10000001, 0x1b46fa31af7059b6a2a432d4b6f8e788c868db4bffff9d2cf0f0f0f0b4b4b4b5, 0x46d8580827a75ac891152076b08d923c24f3e43ab8e28d8d9c71c71bd5555556, 0x6dd3abfdf187ba0e815f38736770e79941dc14a486bb13c9286bca1a00000001, 0x1163a5e6130ad2cad47be0679b0b7a00cc8fa566d9995a99733333330ccccccd, 0xb0a7175a27085d61d427619257d20c38e120f9ec30c08c2f3cf3cf3b6db6db7, 0x6ea8ab5b04d08339482b9407ac1a7cbf444c4b1a22e72944dd1745d080000001],
    [0x4a867dda0877876545809d29bd0c9d27fef9e96fa4913b23edb6db6d12492493, 0x3dd414f92742ed7bd70dc88cd1efeaad81febddf77769776eeeeeeee66666667, 0x6caeccddf703a573b0063a878907ba84fe81c9c2cffe763f0fffffff10000001, 0x1b46fa31af7059b6a2a432d4b6f8e788c868db4bffff9d2cf0f0f0f0b4b4b4b5, 0x46d8580827a75ac891152076b08d923c24f3e43ab8e28d8d9c71c71bd5555556, 0x6dd3abfdf187ba0e815f38736770e79941dc14a486bb13c9286bca1a00000001, 0x1163a5e6130ad2cad47be0679b0b7a00cc8fa566d9995a99733333330ccccccd, 0xb0a7175a27085d61d427619257d20c38e120f9ec30c08c2f3cf3cf3b6db6db7, 0x6ea8ab5b04d08339482b9407ac1a7cbf444c4b1a22e72944dd1745d080000001, 0x64cea7c2c00361cf7a7514e599124c8a328ea4e137a587a61642c8582c8590b3],
    [0x3dd414f92742ed7bd70dc88cd1efeaad81febddf77769776eeeeeeee66666667, 0x6caeccddf703a573b0063a878907ba84fe81c9c2cffe763f0fffffff10000001, 0x1b46fa31af7059b6a2a432d4b6f8e788c868db4bffff9d2cf0f0f0f0b4b4b4b5, 0x46d8580827a75ac891152076b08d923c24f3e43ab8e28d8d9c71c71bd5555556, 0x6dd3abfdf187ba0e815f38736770e79941dc14a486bb13c9286bca1a00000001, 0x1163a5e6130ad2cad47be0679b0b7a00cc8fa566d9995a99733333330ccccccd, 0xb0a7175a27085d61d427619257d20c38e120f9ec30c08c2f3cf3cf3b6db6db7, 0x6ea8ab5b04d08339482b9407ac1a7cbf444c4b1a22e72944dd1745d080000001, 0x64cea7c2c00361cf7a7514e599124c8a328ea4e137a587a61642c8582c8590b3, 0x6f1915afb28c42ba866cc45d093b19afc595bd2d8aa91829b555555460000001],
    [0x6caeccddf703a573b0063a878907ba84fe81c9c2cffe763f0fffffff10000001, 0x1b46fa31af7059b6a2a432d4b6f8e788c868db4bffff9d2cf0f0f0f0b4b4b4b5, 0x46d8580827a75ac891152076b08d923c24f3e43ab8e28d8d9c71c71bd5555556, 0x6dd3abfdf187ba0e815f38736770e79941dc14a486bb13c9286bca1a00000001, 0x1163a5e6130ad2cad47be0679b0b7a00cc8fa566d9995a99733333330ccccccd, 0xb0a7175a27085d61d427619257d20c38e120f9ec30c08c2f3cf3cf3b6db6db7, 0x6ea8ab5b04d08339482b9407ac1a7cbf444c4b1a22e72944dd1745d080000001, 0x64cea7c2c00361cf7a7514e599124c8a328ea4e137a587a61642c8582c8590b3, 0x6f1915afb28c42ba866cc45d093b19afc595bd2d8aa91829b555555460000001, 0x6aa770fa96ed0cdc062af9f2ea24419e803dd454ae12f879f5c28f5b3d70a3d8],
    [0x1b46fa31af7059b6a2a432d4b6f8e788c868db4bffff9d2cf0f0f0f0b4b4b4b5, 0x46d8580827a75ac891152076b08d923c24f3e43ab8e28d8d9c71c71bd5555556, 0x6dd3abfdf187ba0e815f38736770e79941dc14a486bb13c9286bca1a00000001, 0x1163a5e6130ad2cad47be0679b0b7a00cc8fa566d9995a99733333330ccccccd, 0xb0a7175a27085d61d427619257d20c38e120f9ec30c08c2f3cf3cf3b6db6db7, 0x6ea8ab5b04d08339482b9407ac1a7cbf444c4b1a22e72944dd1745d080000001, 0x64cea7c2c00361cf7a7514e599124c8a328ea4e137a587a61642c8582c8590b3, 0x6f1915afb28c42ba866cc45d093b19afc595bd2d8aa91829b555555460000001, 0x6aa770fa96ed0cdc062af9f2ea24419e803dd454ae12f879f5c28f5b3d70a3d8, 0x310bee2d07c2a14fc6e73ddc04133ddade81769ecec43a9d1d89d89d1d89d89e],
    [0x46d8580827a75ac891152076b08d923c24f3e43ab8e28d8d9c71c71bd5555556, 0x6dd3abfdf187ba0e815f38736770e79941dc14a486bb13c9286bca1a00000001, 0x1163a5e6130ad2cad47be0679b0b7a00cc8fa566d9995a99733333330ccccccd, 0xb0a7175a27085d61d427619257d20c38e120f9ec30c08c2f3cf3cf3b6db6db7, 0x6ea8ab5b04d08339482b9407ac1a7cbf444c4b1a22e72944dd1745d080000001, 0x64cea7c2c00361cf7a7514e599124c8a328ea4e137a587a61642c8582c8590b3, 0x6f1915afb28c42ba866cc45d093b19afc595bd2d8aa91829b555555460000001, 0x6aa770fa96ed0cdc062af9f2ea24419e803dd454ae12f879f5c28f5b3d70a3d8, 0x310bee2d07c2a14fc6e73ddc04133ddade81769ecec43a9d1d89d89d1d89d89e, 0x896583f0c9068184fa5784c727dc426520e0c2625ecea5ebda12f6838e38e39],
    [0x6dd3abfdf187ba0e815f38736770e79941dc14a486bb13c9286bca1a00000001, 0x1163a5e6130ad2cad47be0679b0b7a00cc8fa566d9995a99733333330ccccccd, 0xb0a7175a27085d61d427619257d20c38e120f9ec30c08c2f3cf3cf3b6db6db7, 0x6ea8ab5b04d08339482b9407ac1a7cbf444c4b1a22e72944dd1745d080000001, 0x64cea7c2c00361cf7a7514e599124c8a328ea4e137a587a61642c8582c8590b3, 0x6f1915afb28c42ba866cc45d093b19afc595bd2d8aa91829b555555460000001, 0x6aa770fa96ed0cdc062af9f2ea24419e803dd454ae12f879f5c28f5b3d70a3d8, 0x310bee2d07c2a14fc6e73ddc04133ddade81769ecec43a9d1d89d89d1d89d89e, 0x896583f0c9068184fa5784c727dc426520e0c2625ecea5ebda12f6838e38e39, 0x5f3a1296990a8256bc5d3a98e3573a96a95bc6b95247cb9176db6db60924924a]]
  p := [
    [0x22c74bcc2615a595a8f7c0cf3616f401991f4acdb332b532e66666661999999a, 0x136ef9f03f09df58855365243ec8be0705ce697e5fc973751cefb47182594757, 0x6bf3ddd2c49c8c6fc4ba06dd9b499a1b03fd6a4ceb82b3fcf23a0ee4034f6be7, 0x5304d593e81357069105c3375943d9b87d059880e74eb6d4005ab79ba23b95c1, 0x1fca773c740e8577c0b85a89d1ecb3ad51f5389c2350624a085c84f5edcbd0bf, 0xdf672d76c01b25a051e11ae8077e0a335a4c7949ab65672b4d5f588a52688c3, 0x5b05e60c97b93e0723dab7c7c2db814f83ff813546b1ba59b68162d1d466f8d9, 0x4abe2eb7743c6c19113341dd5defc35d59559add6115c50a923f6dc05f49b494, 0x22c84ff381bffd8e9861aa84909eab00e5c827abe7701939e1b37f925dd16789, 0x48d85e921ecb9594ea0fd1581ce966ea90dfecc4143a2edba5c2a1cd7be0b485],
    [0x6963af62e003892a5d1d50074e93217934daf23145cff68aba2e8ba200000001, 0x20e3cb51c57077b065ded02af36cd9c55b1e398b4c51d782b02e323ae3c17f5, 0x3b012ef1b3815b1fcc1fa69586bf9ade49fe8d7e788b904825e8dce37f2b67db, 0x47dc81181e15ee49d590da4099d10bd34b41d7e2e6b475f889232edd5ff6b1b6, 0x32d1ff4646f4d659cd44c1bcf8c4ef7dee2dcb2824cdc511d19cc4a28604833, 0x4f2785903b95a7d23e24ba98da50be1ab1e6b73eef9a1a20627292f7de567f85, 0x4acb93a66a388043772d43131a36e3cc82391043b0772b2fb44514d851e3e405, 0x62bb1f680e170817e4f6e6e42c631bdede0644dec9cf87fdf6b294fd660b4656, 0x1211d4193a38df81ebbcbfdfbb40dd9c875ba4e1bdbf8ffe9f23042bcd93abfd, 0x397bef35098ba365fb35b8f3375349261deaa5e97988c4a83f3179e72c403bc],
    [0x6a44840c3b7b082cd99fb0b208d45b5a376dd6581553d4546aaaaaa9c0000001, 0x3b012ef1b3815b1fcc1fa69586bf9ade49fe8d7e788b904825e8dce37f2b67db, 0x5c8732b62983c7ae6d6a42a6f50317060ae44b31356df0807ba104fb0a5e3f8, 0xb17b01dcec72d6a708e119e6d212553f7809efc7a2aef85e288ba01d459e015, 0x1174f0d6cc1da2ac772328a36a37fd2b239bac64013fdbd26ea541de6964e798, 0x132d46110769688794eef12769c720f732e0a45a4306e7996c44e3e4253750ec, 0x5471f1227c81f5792e707df6f14e0ea9a36ea6796cda63479bdccec117da41a9, 0x308b29dcbdf4ec408bb1ea112f8cc1d23f2540ac1e4b32e1e0e1a289b6b668bf, 0x272f324a8211207c76a04fe81158038a19b473ca240075ece8431739c389e774, 0x14b430895506269c92f58ee4a24bc64ae560e34bbbc2a0515f41eee0961a45d6],
    [0x6217dc5a0f85429f8dce7bb808267bb5bd02ed3d9d88753a3b13b13a3b13b13c, 0x47dc81181e15ee49d590da4099d10bd34b41d7e2e6b475f889232edd5ff6b1b6, 0xb17b01dcec72d6a708e119e6d212553f7809efc7a2aef85e288ba01d459e015, 0x25e1009bf311d87b374e639bd0b034042bf1ac0542dbf95e4c5f6039cef5b28c, 0x4f65b9a7067958674e069a63057be0b3393834b448071ea911c68babf3dccd9d, 0x181453a331e9b5b93060e77fcb58d433e19d805275e20450dcf230f0e6c4015a, 0x1da3189e9236ec2e64ba9e8d4179bd3cf36aecf192cf1a41f32fbf8a0e6763b0, 0x6fab1b0e14068c3de251efd5914141aa1e6921947623efba911eb5b07888997a, 0x40578f8f98fcfa9673d05f4aab5ff52beb929759b5f3b441dc421571baee34bd, 0x46f3dc4f7852056b3a1c05511eca98151b5303a0bd4e0c481c56cd38b5e56580],
    [0x4a867dda0877876545809d29bd0c9d27fef9e96fa4913b23edb6db6d12492493, 0x32d1ff4646f4d659cd44c1bcf8c4ef7dee2dcb2824cdc511d19cc4a28604833, 0x1174f0d6cc1da2ac772328a36a37fd2b239bac64013fdbd26ea541de6964e798, 0x4f65b9a7067958674e069a63057be0b3393834b448071ea911c68babf3dccd9d, 0x3e3fab018272ec5386384a7b82de525caee480ba17f978ae53956e00e29d4b9d, 0x3e5a679064116346488c6fc382d21a4f1d5391d2ff2f18bbcd9f171e6d192f81, 0x4a47ec93da5fd0c81e19dfb670b741eadd3618b0f22fa57e3d11ecf6b2f32038, 0xd5ff05fb31e51dc7e0a7484b1b7b34216f22566b2555cad86e778c37fbb9dc, 0x36e7ca9e5d3afc82ac73fe0d4eb87ea1aec0378d26484555b1ac98461844ef4, 0x24c671cc89ac91ac8b9e96986d82aed1a8ceca7b9b8188aa05515834fc45fcba],
    [0x3dd414f92742ed7bd70dc88cd1efeaad81febddf77769776eeeeeeee66666667, 0x4f2785903b95a7d23e24ba98da50be1ab1e6b73eef9a1a20627292f7de567f85, 0x132d46110769688794eef12769c720f732e0a45a4306e7996c44e3e4253750ec, 0x181453a331e9b5b93060e77fcb58d433e19d805275e20450dcf230f0e6c4015a, 0x3e5a679064116346488c6fc382d21a4f1d5391d2ff2f18bbcd9f171e6d192f81, 0x393254097fdc54a3fab01d416eb328a16916ff04f23c57a192350ebcb59a37a3, 0xe360fc8699d44dced586ed04c1360b028bd63af5e0798aef6c93350fa623714, 0x5a45a5f2e6b717ca93eabe228df91536d0029768af85cd9e9f2433ea041671e1, 0x3ab60c051065fb68d3a4ebe42569c91395cb4043831f73678d614acbb8e534d8, 0x8ce13211805a75ba50741d03409a82f71a65ef31093722892a5123d064fea4],
    [0x6caeccddf703a573b0063a878907ba84fe81c9c2cffe763f0fffffff10000001, 0x4acb93a66a388043772d43131a36e3cc82391043b0772b2fb44514d851e3e405, 0x5471f1227c81f5792e707df6f14e0ea9a36ea6796cda63479bdccec117da41a9, 0x1da3189e9236ec2e64ba9e8d4179bd3cf36aecf192cf1a41f32fbf8a0e6763b0, 0x4a47ec93da5fd0c81e19dfb670b741eadd3618b0f22fa57e3d11ecf6b2f32038, 0xe360fc8699d44dced586ed04c1360b028bd63af5e0798aef6c93350fa623714, 0xbfc27c9a240e65b48cf04602e6f91e0ac9bedc2d75ea67546c80ef53815c8d4, 0xd438c723b685b377a05d04240adc6e4717540e5d453c51238ab92d01fd4b693, 0xf2ffdaf4086551814a2c1d0fd06608f789b775bce0c007ec871e5a542e943f4, 0x6a7530925f70209c6cc0d55f271a2d724d7c4473cea4f7600a0ad8e8d3d105af],
    [0x1b46fa31af7059b6a2a432d4b6f8e788c868db4bffff9d2cf0f0f0f0b4b4b4b5, 0x62bb1f680e170817e4f6e6e42c631bdede0644dec9cf87fdf6b294fd660b4656, 0x308b29dcbdf4ec408bb1ea112f8cc1d23f2540ac1e4b32e1e0e1a289b6b668bf, 0x6fab1b0e14068c3de251efd5914141aa1e6921947623efba911eb5b07888997a, 0xd5ff05fb31e51dc7e0a7484b1b7b34216f22566b2555cad86e778c37fbb9dc, 0x5a45a5f2e6b717ca93eabe228df91536d0029768af85cd9e9f2433ea041671e1, 0xd438c723b685b377a05d04240adc6e4717540e5d453c51238ab92d01fd4b693, 0x6c7f1269a97ea723a763c71d3ea6a1f2b71e59580094c6b384c824260057ae0c, 0x29e86981408417c243672cf543ba124dd9e17debabb6265f9fc52b22e41284e2, 0x255c6b731ca21a18c70cf8f540a4356cee8178563ca3e29157d02349f357ba94],
    [0x46d8580827a75ac891152076b08d923c24f3e43ab8e28d8d9c71c71bd5555556, 0x1211d4193a38df81ebbcbfdfbb40dd9c875ba4e1bdbf8ffe9f23042bcd93abfd, 0x272f324a8211207c76a04fe81158038a19b473ca240075ece8431739c389e774, 0x40578f8f98fcfa9673d05f4aab5ff52beb929759b5f3b441dc421571baee34bd, 0x36e7ca9e5d3afc82ac73fe0d4eb87ea1aec0378d26484555b1ac98461844ef4, 0x3ab60c051065fb68d3a4ebe42569c91395cb4043831f73678d614acbb8e534d8, 0xf2ffdaf4086551814a2c1d0fd06608f789b775bce0c007ec871e5a542e943f4, 0x29e86981408417c243672cf543ba124dd9e17debabb6265f9fc52b22e41284e2, 0x1257de6f23ddd8a4b53e65105ab499f9672cd3ef7507b9a00dad44c3930047ba, 0x25b1038ecfc4b2701ff3c6a4fca6070ebc064753ffffc20c529ae1349d389502],
    [0x6dd3abfdf187ba0e815f38736770e79941dc14a486bb13c9286bca1a00000001, 0x397bef35098ba365fb35b8f3375349261deaa5e97988c4a83f3179e72c403bc, 0x14b430895506269c92f58ee4a24bc64ae560e34bbbc2a0515f41eee0961a45d6, 0x46f3dc4f7852056b3a1c05511eca98151b5303a0bd4e0c481c56cd38b5e56580, 0x24c671cc89ac91ac8b9e96986d82aed1a8ceca7b9b8188aa05515834fc45fcba, 0x8ce13211805a75ba50741d03409a82f71a65ef31093722892a5123d064fea4, 0x6a7530925f70209c6cc0d55f271a2d724d7c4473cea4f7600a0ad8e8d3d105af, 0x255c6b731ca21a18c70cf8f540a4356cee8178563ca3e29157d02349f357ba94, 0x25b1038ecfc4b2701ff3c6a4fca6070ebc064753ffffc20c529ae1349d389502, 0x5c27ecfd52a1922e304f48ad4806f785a733f4fa516ef9422ea60a4d8379ada0]]
  s := [
    [0x22c74bcc2615a595a8f7c0cf3616f401991f4acdb332b532e66666661999999a, 0x6cba4741b5703c020c16d5646bd1a05a63c1e905a2044bf3255ccd5018cd7ad2, 0x410f72134491fe079da13fca1f4f2a3cb5b2e0e4c66a2823a3032159e730bc, 0x5aecb42a44e601cba2ef598daff4220edf253a889e4e5e0240989cab50121c08, 0x30f676201700e474df90dd158d57bb0c49d683b33443b57f9bae3ec308b6a13a, 0x72040a2c2be57ad6919a2b1f9ffbcf24fb0f837ae1d444fafc24557366610555, 0x268536430c4291d2aa253add19eb826af8e87ad501412f857a5cf118812948df, 0x508b3960f7feca3c870da42720a7b5f293dee32848af3bbc58f058a29f751509, 0x4f32326a68787c3723cea028bb0624380f00c4171797a5ae19423ee792198b8d, 0x10a0eb61ca5e7a67cff198d848db0176b2920c8bbcb0b0b6ba0bc7be1a6e93e, 0x125647c05e4aa6aa49b8745971b87b09b46c2671ff2ab0f4cc39188f7cdae626, 0x512e8cfe3919f4e4ac82a4c9d2a35c4c95748aac77996f85e324397725e1e75e, 0x37d74b5e4aa74c8624599f93e40e4474b480ad230d184dc39891180ac3ccc992, 0x1b99d917354ab629f02b932f2be7eb598c7839f28e41773e8aa43984bb347106, 0xd5d7461e0d5a3d1bb643f70947023244e3ac167056b0fdab920334f5dd1c52e, 0xd2a0a1f66a0c028a02dbe5a0a71069240aa59dfc8587ae2f76589005e29f0fc, 0xc37ca41c78f190c24b8f4afd2560353b7d9cb42e10f631b0b18554527cd0c3c, 0x7016fc620ac70bf69481b66bd02de4fa3dff072bbc94808d9fa772ad8cfc01a6, 0x3e94de2fced9b853b6c15fa1593d31c1c463f0265d913a53a1cd7792d0b721c7],
    [0x22c74bcc2615a595a8f7c0cf3616f401991f4acdb332b532e66666661999999a, 0x383573914e7be371871dbb316695f3f184324d4337cc619db9ad940b35e727c0, 0x49187e379b166ed02a976b1c57dc04ff25fe54d82ee872470b2bb99498e8b077, 0x6de31dc9f7297e8e112466a6a5df5f94af0c690889ea9090fd1ce8b82c2d5f7a, 0x700d47cfe72b181a8b1a158c775416cc8a5152a3c607bb27a72feb0c57bff4bc, 0x6d40cf2b95d3a875d8f5fe0b1eae1f4f681c3cb949b06dc503722144e118da4c, 0xb45beb6190a8deb5e80f4e6b117520d2bdbd3067c7ed27e7ea818f42fc8f29f, 0x2ffffd3ff91d7736550ddc46db4e46be94074424bd3195881905fdac7da02be7, 0x63f77c4e2030dfe4fb7cdf3a52c5e8487f148e625ad1d3b7c1495a8b80d0cd99, 0x4c915d6df02188fd14dc4956c831d934f694b86f3cf7b7d55a57143c353bd37f, 0x37622866f0c3dfa982950463f90b7dd7781d0c3bf24590a4cdf4ff856e33a612, 0x40153dc04718d7ce411021dbb1953b73580e1d7ab0184b6b3335244b36b42580, 0x417a2e3db5f4c4575880360c537a74e4384c2ece52179b585b03b5d8c7532fae, 0x46cc191e8d35458aa3e15e993f0a4819d0771cca16f73851db0e8faea7591fd2, 0x2cd9ff945be44f81e9bf374ac2b6b13582484e19d686dd59106e59462558706c, 0x594fdc5a47f34208a68f3df829d9415ecec9b7771ed36ff7089789cb683863d7, 0x6cda0b6b52af7bd86a6765ee2e87d7e272cb7e51029bc23489f5929be4c529c4, 0x2fce16b6f319ca56df74825be869ff352b08c37da79bdbc9fb2e892a75a9a90f, 0x2926b40a68330a865cbdd3a28d45fd37cd5a28e9922ccf1fc46662e82c81dd5c],
    [0x22c74bcc2615a595a8f7c0cf3616f401991f4acdb332b532e66666661999999a, 0x4361a5f00f5dee4e055bc5493253753efdf8f834faa601d608f8f0282a594dfd, 0x73a6ce64483726d4eb07a8465d347e683dbc0d9c9d319a3ecc2873d5e83b1116, 0x77f65e9f5d50aef03393e9daf09a43f4352778214d6805d4ae9f085b783e2b2, 0x4c539b51b39954bd0fee95eec58633ece8ff4409f84f4740954cc65d1c4955dd, 0xce586f59e1428d413ed3bbb3ef5ebf1900138b714fd5f602375e78b04b71d18, 0x2a651fa68d1769c8b69e3efe86d425bb74d6c156da17b89db22f2c059ec035a4, 0x2542b79df3ddd1201adf36bc84090afb3d6c79bfaf5cba01dd304541c401d351, 0x5f618c3ad9a83e2be3630268a61ede7fe2b9b99e61a1480839582888e3ab5b3d, 0x5041ff03aba35ca6d2d4dfceea5f4fb5a99f53e383ccac0a6fa2ddfa0689d176, 0x42bdacbbb77b0217bc508031924b35c993aea6645ef91ed9298bba9bcbd74aca, 0x3b7911a0c7c53e3d5307208f87f9d2c28b6d0692f282348d57fbd247c66f2424, 0x24f3783d8306d6324cc6ddcc9013f1398cffac65e6a68479a1cb29a531974faf, 0x3b12969b480822f9a667254f4ba837baf54d38d21ce7313349308e3ec6398cea, 0x19fd3b74e313e72c41edf9fa2480b002098a360b79494ab6d2b57a22fc9a11c8, 0x696bd8cf79f1ff6b8f2a1c96ef1a35a38bed9d64cfdcf76da213b9396bc73073, 0x371cff57662746e68a5bb74144df5bdd6b2b006b89a674346fdf20c3a9196c37, 0x4b568972963137a5a72b2bb337ae9200ce703637070103f2d66e983b8762b2f4, 0x3db2c0ae846b24cdebf583393a46c83d63e988d6e1e0b8ea3933da025bfa975d],
    [0x22c74bcc2615a595a8f7c0cf3616f401991f4acdb332b532e66666661999999a, 0xec4e1c5a66a4ea4e7beedb8635dad1d807d024a6efab0e780d4263faa169c9f, 0x56f2035dcdb52402bc9cd242a69e497a420d3dac66d83b2589eea111da3eeaa, 0x4533729f79edcc528073c7e24e3f397027dff8fe1088449a32797bd9c6c7f057, 0x665b90843acf2b0545f52189590525d5d2a030d978157a91d2b6cf2406c1d864, 0x6dc3422b98a5990a950cf4c9abea4d7b476b14b72f06b3caca0c0a61975bb940, 0x1db5f40c8a4c27c70d700b08d599c35e50398e074d4bf892adcad6369925655, 0x439a01568ce8f678f59bbab1c3938f4a0df2da48dd0d2f59e73abd1f7d0b2978, 0x689cd6a05853855ab76be36637096752e4d8174decd6c668ba92202429e0f52e, 0x4c27c75e0724875348053111433de91981905e31b99dfb5d699e59597c7228d9, 0x4dc93f0c09075682b5a2c3042f081dad56d7658f72e602ff4abb202c31b94d67, 0x3029a7c41ee95fd16b64943d2099461696c2140c9785e637fcf549b0412c064d, 0x462ff30457d97edf0584630b177ffc81241c727e70e0defcb90e07e94bba586b, 0x765a2f0a7f9466c411cb29a8b54a87b23c6d85de2aa8a7d39d70eb11bae0b, 0x15e06f4a9345834dce036064fc506f6f4b18b3fff0158e32e901cb396e213b14, 0x3ff7f8ccce5ad5a8f63d3aa34b06e2236f041fa2051ee64876d20e3d5e5fa0e9, 0x4183a2cd7332ad487fe99b2922039d1371bb6e90818883a1f580bf66b5ee2d3b, 0x685b30f39f2dccf41f934e55fc39a6956c990c0dc2f18c8a0b9918817bb72e90, 0x440638b6d0d9e8f416d3b6e1885f93c4d3454eddd94d17164e1173b280306368],
    [0x22c74bcc2615a595a8f7c0cf3616f401991f4acdb332b532e66666661999999a, 0x26c1fbd798c640c179ddcbbfe21ab505702f47d9283b4384c112b3d468f92e4a, 0x719b5cb43994a44658fd9ee1e7160a72f43d448ed7868cb53a44908e0acb605c, 0x51944c22826a19a003f8070d8c42d8ccc58003182a611e8e79ea0fc71bb2b22d, 0xe4f1ed025bdddc1740888558b91dbccb6c74555fc158624d5bdf2b6c83a8b37, 0xaadddfbf1f95eccfa7e99bacb82475e2f8defafd7f7c51889380fde6df526be, 0x36a7d07dfccd6a38ab195565feed5ff280d0aea4077caa81c11bee07759d89ef, 0x2f1cc32426fcd88810f52e84e07b7e0e6f37fdc60f6be627eee197bb90b354d7, 0xe90bb90ee9bbfd262b248c3954b7862f058597575eea504525a3d6de16e8ced, 0x2af605e4a5db35fe56ef47df264a876b8dfa097e77f8186b94894276f1f9cc50, 0xedff08495a65882f895cce6556dcd60b765c6f877cd23e6c79da35d1238eafc, 0x3b7fa0dfd0b3e42df149dddbb43b4572ebcaf523e183635aca0b4ff7281af898, 0x6957d5eb538ea0b0f0c140445133246a06a7cd42e5ddd4fef5cbecfc15ef6fa5, 0x88a00ff1ec85a5860e51a3f4fda3903c72fd2e9453428a6775a504369a9f660, 0x5189152ae53cdd5411a32f961137ee649ad5eabafcc0a8404a2a88d6c16bd9cf, 0x211bbf5d2904d68d7edb0541639ab201ded64e102322eb9f4e1f6d61510df1ec, 0x76e8d4d38a10ddd2df442aa8401f1f248debf59eb19636b69ea1e791373c239, 0x4716b34b28b8f7eea2c1875148be4c4f5126febf5e6b3f72ad3b74c27e4ae7b9, 0x309ae774031457c8fd519a916656cbc090dda2a4593de61e9fb2dfdca9cf050d],
    [0x22c74bcc2615a595a8f7c0cf3616f401991f4acdb332b532e66666661999999a, 0x655a88aace0b4178f55aa89de0904ec664cfffc42c388370ddb8663b1020410c, 0x505883761c106984cfe14794c88b41fcccb387dc8b98623bbdaa2da4214cf352, 0x4da2b7d1eb340bdfaa9be02a8ace52c5a83577e80590cf0c955359215e082550, 0x38b3f7e4f8660bcb7748e1c0ff4064b4c3a5cedadc1647a1fd7754ffcc1604e0, 0x1db6b6007c2724066d50d000cc5e01b1b5384b1a601d9303bb943a2dfab4472, 0x2e9ca02f54b912b50708e46bcb7e3ef2b91750f6590c090fc0c274395784b351, 0x1b595eff9f162c16d35b8fe8f17f42416478bf66847f5de1adafab1487cb32d9, 0x6964b64efc109aec0ebb87f9a6fb2ca947bad83ef8d8f6d9b14a1d20555a9667, 0x73ad1857b51c6a7ac02068d498f5c001badbbe96820e29dfd31aee67a4868612, 0x95f8b130ba39676a8123ac790ef624846b0f8ca7b983f053dea665f64fd82d5, 0x6c459951638d4824b2353c7161fac1018a861568013de3744c491fb9a87166e6, 0x2e7f1f7d697ec9030aa37a2d03b467dd6aecaf7463fb9d73ffe069545d7abce4, 0x54fc6c7a0d1974869c02d380492de9c781b718be58a1d0b9d8f123525898f0ee, 0x45c11ddff5c378d5eb20fe51eebbf3f4b9ac58cad22c4bd6275603b97bf8297a, 0x5d7962434de037c15e2b459589ebc16bede438af0bccfc9cc750bcad3882ff2f, 0x1504b985f80187e9a463f6042ae998e1559e757f79a5706b695af2f26b5eafa, 0x4aa5685a6564759433c8921d3b29522216d1dc1bdae72c2d4ab56a24f9bb2733, 0x43f7e00e38f50c376acadc3f58ce11483ff001ffd6059facb618128eea6432bd],
    [0x22c74bcc2615a595a8f7c0cf3616f401991f4acdb332b532e66666661999999a, 0x3f6f19190655f8fa9d614ca80970a9d4d1ce211d9e1ab1abdc0325653c925f84, 0x34c4c10709812f986dd43a65aee4e8feaa68d9729984c5ea85dd0b0f066dc38f, 0x1a0c325eafd35be6f28a23ee04141e948fcab95a6ae3069307148d63337e5ec9, 0x38ab58550edeae2a774c9d18712dc4f356bd455b2e57c5eaeb7ee5a67a789711, 0x52181aab816c266ae83a12fb2c5498e4f110a6acb81b421a0074f2f49359b69a, 0x59bbc320dff54b2d32db5b254e5f6347413cc47fab5c2cfd0cc932079f1a3466, 0x15ad51e3a0ecf5022452c941e18ea02d6c945d6281a3389df9f12a5c7ab6ac59, 0x3d2f9588c26ed94a4da3dd079ebca0ab5ff8695ceb638efe0517e60eaf760ef3, 0x7113fcfbedb6b49f2c0ecc8d3637db437cec3f5ec52dd01be0860e0888e26e3b, 0x20e8e52c8a5f49ef707298169fdb0db235603cb0ae1be679d5d6bec3ae1afaa2, 0x38437f971de6ca142b5a6dd0f598710d9cd4adc7383d78ed45cd84849c0b8e3c, 0x5c228c6479a8951994cf8aa272a74aa567b35214a488c0fc8fb173a73b1816d5, 0x69458dbfc6d56eb3ef8c91f91d2d6ccf58efc3acf46b21b7c5c38bdf947fb434, 0x16893a0081b95477e9fa2595767763463c3758b0bfc0b3510845c2968ef6d04, 0x3f8da370d3d9547032bf64ab1deac9abc79f7c18fa8f2f4863e7c157e12d3a0e, 0x74e735c2d68b165f475beeae7d630319d914ebd8e547be6b6b405af18670c1, 0x3407ba561656dbdf4fc1533afa719c5cb00aef8e1ad1216f0a927823757e4b, 0x4e90362190a255cf799e460bd468b3941694c5affb1abf74fc519aa30d5fd217],
    [0x22c74bcc2615a595a8f7c0cf3616f401991f4acdb332b532e66666661999999a, 0x34c0fd856ca2cfcf453971d00717f150d3f4041de6bb0dbcfd5371f3731e2e7e, 0xdba053c2f61279dc8051eaf1c433be5b0897bd017730f0d8fb80df9dd07a083, 0x61a2182772c58220a6c3bcc9a5f1135aa3838f8f6903c8e1d70cb684c88f0482, 0x51a9bf3889fe42b74679829abe0b5b64ceea962fafa669016742a5df3b85e012, 0x488bd40f8fc1c3adca3ecdeb44b0564d0ab2c5c31e4c10811f04ca456f0ab69, 0x193865cfa6db531488e7612ebcb4b5bbe354daa4d023cdb3abac9913d5b0210c, 0x1f6cea004e49dc66f760d57b82b4f964dcd8d44f29d91bf96adeb6e7e9ad19d3, 0x6d8637e3b774416e668096acf89cc6b1a35c733547534945e01ca61106cd18d9, 0x50b130d4209bafc163a331d81ca1e2e4b44ada915a36de843a69b76fba42cf9d, 0x3f60c251680316636eba564a4dd0dc1a5f1a315b1c56fd5c2fa82d26fc377dc9, 0x44af21dc3af084a7551ae06cb4cfc7b8c961bb4427e224c6e8e9fbcfb57ee2ba, 0x5bb35367e307d988c66395ede29cf2ec463fe9067152fafd9df425300a03ce97, 0x70cc58a07fa38ec39d9a8dfc0f2daf6cb8ad0d32510a72dc37c99468a7b5f95c, 0x6a373c44baf4eeb708a6f2c4db5009115245e92371e63b88d44d9e51461c57a6, 0x3c631ba474bad9f2aab1c50db7791f952cf9d446d8278a310dec8857be02e176, 0x11b4a168d06d5a4f333f49b15101f83d2bbd5421d8c5dd4d6a5854cc07a4f08d, 0x302f8231dcb01b0e82f3309afed8506ab7b8bc44b4ba79029a444aa92859a66, 0x59c32d298f8e8d500f5c0a1368adb597146bbd28163dbcdb8951cc750ce48cca],
    [0x22c74bcc2615a595a8f7c0cf3616f401991f4acdb332b532e66666661999999a, 0x39b7dd4601628738b81102b253281a44d597a2f995044d951408eb77a72e6577, 0x2099137c10b5034a37d425f3b072ad274221aff40e6be79de134f9b9dbc9181c, 0x19263b2fadd2cb82e200d4b881208ee20ab87823850b9c5b688fd4da08aaaa8, 0x619a2066d56644cfeb95c0b669c3e6ca0a46020f49dd067a8e1cef237383fc33, 0xf192e69a4be4d92d8346540ae5fc35258539916286b49b56de7776d1ec05400, 0x3a0217b703bd8ab04e3697d28113e552ecc7ea15bed03d61119030ccd9a3b8a8, 0x15167e234de341a4b0442b8f7c4e7a3711f96d38bec5bbf1e9359c531dfed7ee, 0x376dc42ea9492a746a7747c83094615630add530abf590cc84d7b5fcf3055f5a, 0x59c3a5d7f4ba6459ac8bfa272e98ca634a62b1eb6cee91c559492d9d1d0ffb85, 0x5809e2c62e63667912359f88ed9f3b8553f168f3e37535f3d556ce453490d4e2, 0x4019a35c540570620f98e9e902856e903f97a4ceb321b1aeaacf8ee5437ef33, 0x43c23dd9f60c3b1431924c7c422fb1315dc69d2162f2739c07ae532ba3870120, 0x2667f8fe940d15533e6a8b2046c98118816b293a6ea2c92d55e0dd8ed1c5ff2f, 0x61b65cad1dd953096a89649078fb0c12cbccef46f783ccfac6c351dd49b9dedf, 0x222db6e74c02e672f4fb244f66a8e95cc2cb862cb11ff3e5f5581afb2dee76c3, 0x3e6245b3fe846f355fb8930157cc01dcde1396334da1c9c6819d77db60378c00, 0x64e91654b5ea6758020de94b3737981bf169b7eff7e790ec01715221431595bf, 0x5aa41603b55ddc1a7792d7b77ff7ddc0352fa3d0f74f8ed9e344d1c607db4266],
    [0x22c74bcc2615a595a8f7c0cf3616f401991f4acdb332b532e66666661999999a, 0x97e7984013148ec8727583ff5005c5746f6f08cef609d773349b60abfb7761b, 0x57939e4ac09155881e5aa654ec73572c60a153dc914f1679fdf5a4f10f8bab7d, 0x606af30934aeabff8ea7fc12edd3c9ae90a2abd9dcea8b43ef706f8836670dc8, 0x35357c43abcad8aa6556c2aea17f32b31f092306049f65df3a31eedebebdecbd, 0x1754dcb26b3e0071f8c004295afafc6f62fbb93382070080b7a2dda08a548b8e, 0x2a0ce777ac677da77caf41d42ceba42103ad6ceff33a19097e2d679f54206472, 0x3deac0e3438f5426f2c214e55e09e72c4f54c23487129ba5790c47d3060fe341, 0x5cbef74b37c40112e248b5a6a3deb0ec0ab31cebb30a83c9150f9803ac2ab32e, 0x28d9a1890e33588b3f8a92a7f8642da924404d9481a2a9ac398710663ed9124e, 0x9b3c5d0c0f306c3d962ce8b61853ad0f5a11c60283096e6ab90633964cff835, 0x1231e8480dce7547c1e51bfedb4f10542cd42d88f944bfae311aaa7faa862931, 0x61e178e03b127625305950f7232336784f641dfb40020aa5ec529707da00552, 0x71f8407209d3013bea5b31289bea2dfa2d72235830f2d00961de025323db08e3, 0x6d2623a4d4b0ffec0bd544012a71964665b2b4ec8119ee836b4c2e45b8238a70, 0x331e558a0ca30b12a8e68899e466f9a683dc0ec36df5644861f04af3cfeffe0f, 0x50e027ed75b8cbdea684632a5a1279b232ac1b2740ea447d6b2dd83ebe18c788, 0x738e64e875812c15adaf428c2e17611865ee472538219fa2820ccde05bba833d, 0x225c4c91ad41b52437b1968daebbbad9f223c31c996bbac2377e7aee55bc0a5e],
    [0x22c74bcc2615a595a8f7c0cf3616f401991f4acdb332b532e66666661999999a, 0x26a5cfb4fdd367acf55cc4e6226d991e79e973225473d182c82aa62aa5530855, 0x2ea74a313bdbfc97a7d25b238cae4e47a90a025258910c96429e118c771194b8, 0x52d0dcf30f3f5158903ad8733a35ea7b57cc9853859fa523de46a49c24785af9, 0x447859da810e1877b9265b50f07af217ac6a8773836c2e7b3069f07591536eb8, 0x5cfd8936ce8e110742b69fc500ed55f88c59fb818210f21e95218ba5598f77aa, 0x70294745971dccbfd4fb856a5e9cfb3166b650baa9dc29fd31e0cf475a326d10, 0x473e47f6aec6ee4671a028400e01122feb13ef4c9b4b8e00aa8144f1162f655a, 0x4bd40a326dfbc4b899c9b45040ddcb387888e50cc59c746e800cd9a72687635b, 0x547b73ea7faa1055fc89ffc180158bb75982924b2dee568c259aaab58a9ea147, 0x290f43b0b165448463fce88e87d4f487326498c08ca15a5efddc727aee57838b, 0x6d34bee028693cae7e04c12289f4f8e831792da717f819c2eab3941f9d52d63d, 0x407dfbb324cd1672001155deeaecdf63223afd592534fe9626f39abc6f6942c9, 0x61727d4ab55290e25e477f1f4feed42bc9993a750dbac123a9287cc88716bb41, 0x4da2be47bd333c1ee0f95ec19ff8bf2e2eb2ca0fe199c3e765007f8dd2172590, 0x5bed615294a000c48ccb50e07881f146e429162202ab311db75f503fb8d11f9, 0x454b81711dc791e8b65dea1434c773571858f46d1116cd3bfcf0e8f2108f8eab, 0x1c4a0f3e7a161c394ea10a72cf3d737f2b1c743820e1046b90eaf464672cd949, 0x4b3b7e8f5830320b7c8c39719be4e388bfe56e5c2e575d63b00d15816107a6d7],
    [0x22c74bcc2615a595a8f7c0cf3616f401991f4acdb332b532e66666661999999a, 0xf202d839f0d6ffadd7dbe94ca22285bb9841db459d14fa1f964aa4bbd9fa4c, 0x6f269c2bfac813f59ca3661adf7bfcaeb05c2698b440b228f1d88e31e8ab4afe, 0x17c04d1bae486063a728062dbfd59f77da74db0246c2d82be07db0bbe6015b4c, 0x694465070c04ad3f577edb3927e27292e79a634d618c91c10519994a7706aaca, 0x186c603428384da080821c416aecc9e8769873a20123d9676cd90074a9cb2066, 0x3d606a8e2d3702cdae4d312ed9c1d458046076d625a1c7085ab618b8cc017c94, 0x19f0d086f1f37a9987bd9ae7df56c01ecd1dca0f70cca2a98431153f74617292, 0x2f5e9ff06561c6e6101673d05056a27690a4f764c086e3e1e2a3cddc222748f8, 0x403a100358b8c67868d11a5afd0179a3bb3871b0fd6377d1945a2445e585b72b, 0x1bb42f53e5440979299f5ae4c17cee0148061f3b0c0cb4af7595abf847d029f2, 0x267c784a7aaa8ce58101128b062162667bf3084ab2b557fd6e84f91bd819b04, 0x5446b037e6ada2f9bcae9a1134417f396549d60cd3d8e3204c0b23a93cd88423, 0x5dd1ab8a1031ddf753813e898f28ef2764ae1e98ae97b7f06153d1bbcf710fa5, 0x67562a84b975866a9f096cd14a75c9d0393d5501c5b20441614bc93128c91eec, 0x6ccc9123859528113942ed757f1c5fdf64d5aa9dfc4ca9f4cc162a054f5de00f, 0x101f0c167cc5cd3f73ca80b87cc60a971ba20c8a13d1942e59ea9ca0d95e99ba, 0xbb6102a77d9359da1799f2ad8f078c11b89b4ba54cb4bb7e75127f3124e526a, 0x66098632d5229c629f8109d14eb48732f864c81259a8cdfe50b5a1b3401b772f],
    [0x22c74bcc2615a595a8f7c0cf3616f401991f4acdb332b532e66666661999999a, 0x2f8d91ecdb3b2ea1f93736cb3600b17c3998243c63f601f4f618de1e3715c194, 0x731c91f74908b1bf24854a1d6f5765153cafa6d083fbc739715a0019429daeb4, 0x4e62dbc4048a58f407e31da11be1142c5bc35c7dd419c1062349b685f91933af, 0x329f6f51bcc335f829e42e0d61109055860eb630ba18607cbf9c5feb8b0b910c, 0x34c2cd35a1f322c31f46c338bb3e50600e17fce710f60dbc934f5746d779ba70, 0x7515aad6c537d056784edfaca84b3613ebbb3f56b02564bd302d6431d1a45a2, 0x1c5d9afc2d5dc1f6e4522ad5dcaa93b333e3a0fa1c73a15113c956fa3efd7f81, 0x6e919d2ebdbd2b7d4cf83a584fadea48b4fb045a7a9cf38392403ebe532b0840, 0x4070a0f68359898a1239ea0d33bd8663433c18fd0813767f9b830be7cf7e9a9b, 0x1b9f7c77bc1befc82f6cc4ab486d5e5098c4c67042f369fe1947aceba866c384, 0x404f2eb9772b51b4a6f3a3839ae597d7df40e436dffddeacc762eefcd5ae67fe, 0x65b5041e5311da0d871309239971233d6c3dbc9edba094defb32f336cdb76202, 0x30f712a6a50aee1dce049799b7252e34b5a8243428f89a62625783006ee67eeb, 0x84f75de63b65d3c8f5f2f99fcdae10d5672a6e7cc296e30364665078b17f900, 0x1e88df81aea55793967ed781f8be13ef45ed913354d3de8ac7bfe75219eae308, 0x1a41c7466e1413d2a0a7c0ffcb9ef5cdfb8dd7a67c811749c66d612a4401bf16, 0x2dd516bd557feeb4d71b1c387f98dc79c2a3bdf3724abd34384d0568dcf8e5e, 0x1cdbd1d764e41b775df521420b25b9c2b5ca581fd523eebfb3d0b448e7e40770],
    [0x22c74bcc2615a595a8f7c0cf3616f401991f4acdb332b532e66666661999999a, 0x450fc40cc9eb92aba85982477174833e50034199975a431820e9b435bb47cf4b, 0x2dcdceb3b5c9b03b9c29c6b8848126651b31968ab901518889bfdc580d673c19, 0x308e512dd405b9e50b336e32f768a2cbdd5d64504d171cbc4767a7375703740, 0x69b86d9c1a7266b25c084206df8f89a59c76375b0823694db60da9f166b6bf25, 0xe8abf6bbe9cd0a890947e282cf45b28469efff5810872637eb56010224b6589, 0x142c3fb8a20ae296ca74cd0816d9332743c76dc2da5567684a706b6f8f682c7, 0x56f9bc25201c61fe6c5eaa9a416c0090208a09f2b6837dc2b7cf7b5ae71567a, 0x3b9f471d95580e0f862858bb2b7271ece438ca7adfc29bb5f27960042b1ce837, 0x1d5679604336e9ad0b5e3eb02c856141a6083e9b8a6db6810d7d8e6299c4c7, 0xb9180b2498bae736ed935e3904774b0e406308d4df75fd65586c435449e9e6e, 0x53d579abb6b07358ef841b1560a7c28853c213187d66baaf79feb7938d9d340e, 0x13299ee707fb5fd66cace2b0b28a5941377e478baa364df76a02f7614902675c, 0x182067274aa80b6e2a9d57dd244108bfaa73892a014ee6a0388034d28edad6b0, 0x46be626613a5ee2250214b646c0d46111be74a781ce050e10a65beabc457c460, 0xccda3bd336d31d98f1011d5e4a3ddbc7dcd1ce06cfc7a9bdc9474f5b873b8c6, 0x3922854a97111689ff4387a103d761591f91549e10eb5307b037541dbdf7d4ab, 0x5fef1451f100711fbe9d495343c3f5fdaffdf81207ff824c6a34716efc81072c, 0xeca0ace562c16c1f32d8e96752faae9b46aa350d35f5e1601bd7fbb7798e382],
    [0x22c74bcc2615a595a8f7c0cf3616f401991f4acdb332b532e66666661999999a, 0x5dee1f89d563c5372b9d5096b0f03a5e691faf4008ae0588982b5f1825896088, 0x66d8c98e61227c6a19a382012298f186f2ad14ba319f478af3bd5792328ea034, 0x24a6f3cbc5b8f21e0a2d3f5e938d73c755da98f846ccb754340c605a503a7b08, 0xe33ea4518d810a5dc0012c3dff0de346fb5f70daf61535d714aaf22a39433e8, 0x31d69cefb17e1879f17e8c9ef5745d7977c30a1ed57162dc2ad3ee1a9c031d2d, 0x596825706000d0e3e684da296b8e98001eb6f048883c70065439936f2fc672c6, 0x1a34a25a32afb881f5ef46c872ba6123e503f81cdc0b1a4f89b03f1d0feeaa77, 0x4ed5db90f374941f0f518f38a1746b9a7970e497a881183f21e39e38c41443f6, 0xb25bf7443678793b81c4f5c59633c78019ab95f4f381823455a62acf633682f, 0x9648fdf847673b2e2bf35e7dc053e5a0ee0cb8f1d79a94a1debd54e9270918d, 0x1a9fc058523affbef129314c7faafff09da816772e21a02aaca89bd83241aea7, 0xde54eb3cf1cbfc8caa66fdc7031aa719c2d4f64f58315d0bd1bd4735df38b28, 0x4a6c205a6ad56e90ac5c0878e930b527575bc82fbd9ff9522e2a838f38787756, 0x3bc306079c7d6cc044c24bc57eed61cdd84ee89cfc25ea07e0270e0922478292, 0x1da1c951868a7c0ba7b64f7ad8d23915ac7307a3421ee09b732223facd46c4f0, 0xf2c35459cba3c3a3d775904436ed507c3a85a99380d261acc0d85e34db34aa5, 0x736d00e0390c4f01a4d6d447426b05120ef83602579b23685231d6edff55f2df, 0x2722d73106883758d0b275e5a051ebc8615bb99f5875debf6a27db16bd1e2cc3],
    [0x22c74bcc2615a595a8f7c0cf3616f401991f4acdb332b532e66666661999999a, 0x5151441ca812d3a5416bfe63a4670b1056c58cebb35603bdd7408db3378ba6f4, 0x2abb2877b7cbca6dc545de61f9eea6e7129845f656607c29589413a3fd48c334, 0x4f26e4df6a4f607a301fa065ac5b4b7dba97b4100dd6487a3658a6fa61c5dcf4, 0x39f8e8df55cb52d72bf728cf8aae24c90f78e87a964d5ae59f44a23cc3e282de, 0x37c0c1e4391755a5fb1c4a3cab38956a32923ccd73bb4e18d454763ca1b91091, 0xbdd099311b2f688d63b17aab9d2474c3321bf3f9d27767881b1a51b90fcf8e3, 0x2bba0af155c9b4cdc758683e8bfb1cbb9cd34726e736f3531bc139d2924b8801, 0x4e183723dd1c9ff8a63fbf77e4da8d3d84d3e5090e489db6cf6977f9b1f2efc7, 0x4ee67dbf95b1127dedad0aab871e152ef2ba552ad044774f38d6165ad9e9aaac, 0x4023acc603c1ca65f0580e9b652ebf279cfdf648af5730503f69c78ff11ab245, 0x9ce9384d7a9de12cbfe735c095cd35477160ab8de129db5c7e3a13bd51ca99b, 0x505ee8541ef316639e6458195a73202c7e0ab31b64d227ce31176a912b83e4ab, 0x3520afeb7b96af80bbc1b713bfbd31a215bd4531bb23fa7c306a236847720d0f, 0x47bf9373364085101c6328ff628ce69aa8f5142505808724a2102008c18f8450, 0x4b44be0548b5dd9005a71f47c15580a57e1f49decb573c416ce29d66df94fd16, 0x37af9f7c19cf65c951d2c7eebb96aedf0e1aeef700ce7c0b86dd6c4eaf294371, 0x50da1bc83b6bd099e991015862c9783c092ab8743b69cecdab5f9c7fe4185d46, 0x613801cf945d8ccde4aa224ffbbfed7ae8afa6680628b7e3647cc0c1471cf202],
    [0x22c74bcc2615a595a8f7c0cf3616f401991f4acdb332b532e66666661999999a, 0x16a6810dbef9c6b9b1a86fb6f1932d2fa5d71870d5b6f1d03a4401cd386bc2a0, 0x611d0ef9041975479805a098298ab7cdb56388fa28b4bb9075f0549c048268a0, 0x32243024d0d990afc7216380419551c012baae836df871c96766b4b24ae4cc5, 0x3cb3bc409a3f14c4671745828df9160b5d1d16ddee7fd06f2601ca29faa2f1d1, 0xd0eadfda3a60355e742edf332ada0dfa7fee6024b481d0022650771a8818667, 0x460e128cd625edcbb1c8daad2ce75caccc42619c6d6cb6cb03563503661aec92, 0x653c81997c549c2c68fd60fba034a47bbb90088cb3013117b8696017eaf54719, 0x10c990985484add60db2a13239cb8999ce5f9a97319b79f8e975ddbc1ab8a070, 0xeae161357128b70dd0469c81dd69396d03504ac0ecafaa93c5608f05e0ab72f, 0x713ddc7af2e33ea9d867360d35a629e45509e9f6e21797604af5d6a742d528d8, 0x3b86a6c46f73ee24c173b5941c670301c81e82d01c80ae8984fad7a7e801be20, 0x710c6ac35e158f727bd2bbfadd1cc67c3eb34239fed9b672540d87b9b5f19388, 0x48a4da851845423c2a351d277e9533b907360d8acf37b6613d07bfa03cdb4613, 0x5aab1589cc57e517f6aa437a56f26adbdd641929e10662238a5d21512a72b4d9, 0x28201d288d8e037432ea6b198f45b65c65eedfc5017894cac5b4b958bfeab230, 0x17a37dc911f7adc4def9bd24985aff6513de8937970b5e8d821412cb16c74bff, 0x16abe813ac4b8859edc0b8e23f0598d73dd6de7a22e728d9a9f3b046928d7123, 0x15cdbaa99aa7d597aa3b3a89a29c0f50ede813ab13b5b88af03593ec4bceb8af],
    [0x22c74bcc2615a595a8f7c0cf3616f401991f4acdb332b532e66666661999999a, 0x4e556ecfa61bba1a123e6974a0e5201f9cbd653c950ec395ff34df14e322e277, 0x2d737863f2419176f730de2027380181d9d9e7599f19d50b517c197e390bc659, 0x4bc98cd2ccc83d5489a82c93236c0b54afa764f68e7524ebf36e56e93d65fa66, 0x29a7b087aa0b551782ff9eb29e8a6d40a793ab8fa74d00266f0be74a3ac3169a, 0x40b70d1b411d85111e7c62891f71722268fa7bcf9a6abbcdc22b368569de0a9d, 0x697edf729a43bec7388ca1a455b2d1d1f383dcb02c4e2c7c60ea8725894689db, 0x4bce427e3324fe63203097f9effa30c1b3edd97bd9d628c3f1a43a72c6ef3396, 0x15df59692a47266db8275d2a73e4f1a281644fc6fe935af4f35d8c6da297f255, 0x52c1554da874e8331ee5c7c09cc6074225986ac60345e49e7351c557019b2b71, 0x66b7e4eb611c7cdd5a038ba530e1ded717ebe98dff95ed5dd6e19d46a07a5ed, 0xe480fd73f772d0396dfd3230ca7a42686d6fb7308d56b6c7328628db36235df, 0x8ea54645a2ba6954c07a6c3e135b3ce0684379290c94c591bff02cd129762f2, 0x509da9f0447e87f5108ae33850d7bcb9b876455f2b4657d121158f654ceb145f, 0x4d8575a815cd71feeb9398ad87c2e37c9a7920897d0e9347b3594766745f683d, 0x5254bff1313addec28c466a28ae8950c6510d5abc07dfea58dfb4434e48fbf77, 0x2970e34820e3404046cd67a3a7d5a4bbfd8724e77a2ed51976f723f352e0d3d, 0x3940b8596b8d8cc90d4d4443afc579c60afb8d35375f6599ad5244fcaa69d4fa, 0x399b2bd2572928c50a65638b7538718f100ba33ed1033b05672b6c2c690616a5],
    [0x22c74bcc2615a595a8f7c0cf3616f401991f4acdb332b532e66666661999999a, 0x8d5338b4dd62d6bc39eda96b00e815b8c715cfb3de21a2a77935f57193e5bb7, 0x630ab6d11b5eeb587373456b332408822834e12d689793daf6420bef962054b6, 0x667420c803e701679049b4ba058e0efd006f346a5aa8d8b43460a72fb1c013d3, 0xefe5ef10704804624ebaf5f3830e39dd364f9280e8aacf4b1b559921565c986, 0x4453f9a477d04617a3d6e4347442c6905f4a5ec09faaded4681584a9367655ce, 0x718f3de80d0f5c7d4f97c2ef420c8c6ffef2887db1bbb27a9e049dc520a7e33a, 0x706a904f61d814ace9d67a62d2decda17b7b4125cb9f622f46e9d59d95afb43d, 0x202fc6b195eb2afe7c880619e92a0cd1083a86565ee65c0a1aa6e41d5d95c3b9, 0x37425bc1afee284845be258bb3c676f5ea9618e2e26646f3f06031aa9bd14f0f, 0x43fcb797fdb6b698af5361511ab6baf68295e77edc95e194b05516f3cfc2e261, 0x5dc53ec4bf467f9d265eeda38133b90d688d0ba3db5e9f53cc0d263ee74fc3b7, 0x4fd1ff23d2be74c6f91233d3a75e55c5c96393abd88f3def6aa4cd2255ab0855, 0x27eea13145dccfd86aec510791f7714b854ade006a9af24a6855920934d27920, 0x32105e2e09f0f902641ff031c0d98352fa46dea9b3ef05b2295c30f7633149b, 0x3f83d6c517ee71e3c36578b1172eff8fae7d2e39d88280a65920ee235ccbb482, 0xe3d5dbc9dc9217a7a31f927e487ef2f9540c978ba73c7e86d612641e284ab5f, 0x629b8695453f56a23ddf1620096988240176cae8740b63b11c53f0829b781264, 0x64cd86808fe651c80ea40a6444649992a1f8998cfee6fb1b36e40800855d421d],
    [0x22c74bcc2615a595a8f7c0cf3616f401991f4acdb332b532e66666661999999a, 0x298ddae85620fab5707881168a1ca02fdbcbddcc365be5154f082904535f41cc, 0x1d8faced5478058cd938678ee48b10be50d893b5066662dde0526e13e260f4a, 0xbfb1db43742c38a0577afd079d05708d249acc97188ac76fcfbfdbe8e819c2b, 0x216c107bc17f9aaabd46eed5b6de26d5ab158f4d8511fccc2099304e6f3897ea, 0x1098d2e87ee1ebad3531a3c284822d160d163266c3165ef4bed17db317941807, 0x34b679fcdf976feee7a9689ea1fbd0369bb79ad63a4c44c79fc3e35f71e9eaa6, 0x204a3afd4e1332a822e80088e2e2e8d6a732474a918d834a1f4bab7c7021c4d6, 0x253a871d04220757812078655b1d041de2fae8ef97cba46df4c5bb4fdf8ca250, 0x17c7c581f13632e9042da6dc6fbced1d50d872ab1d41a3e9d7a0e43168b3021a, 0x7e2ab2c760efece39bc302b0e55b691bfdbc2602ba871f9d391d1242fe05086, 0x35f0c06a91454a2b72192546b0e719332a9ad1dccbeec254648b4118ed648ebd, 0x5bd672d3963d9fe39a4c99fab4cd2e3feb90a1609106e3541c2993ec4b9d7b50, 0x5b0c2231b3b4524f70e540bcd235cebf936a46c184b54d273343338e904385ee, 0x206e38ed970534f52fce07e2d7c629e1b4efbe087bce558fdb6ff08ab7295a9c, 0x67c95d224d32c2b4aca44ec7d8c7e8d7028f149e21431f9878e8f4e1bf0971a1, 0x5067aea980569b5532783c626581b7d5e5bf4035329064a2e171a977286b2068, 0x643cf5feb85087ccfbfaeb02b1520f2e7773f8c5ac185d20036700def2f88130, 0x9b1de1d7cef284ac6ce5108bd4e6b5433c55ccf9bf59f05f2d353987e61c797],
    [0x22c74bcc2615a595a8f7c0cf3616f401991f4acdb332b532e66666661999999a, 0x1f1e113b28a1fd950a2ec614a1636f92ecf4f348d56c95d97aec94445f80b82b, 0x412162b950f65335ac17118241cedd827403fdf6242c565bbd275a7e7ae58c2e, 0x59b34ac3a7afa7bd993a0026f6d1f8f77ea4cf6642de9abdd4913796f9093815, 0x2b74477cbc928d323b0e5c0570c74d668776abb4a5b1b254b67440c52f7f4c1a, 0x22dcc18535bb5e43aa26aa98b8bee348c3fc8423aaed3f0ade5edcb50c307875, 0x61bcf846a02e14b09778af3ab8c8506a1f08cb6def0b047474a826b6439bd6b3, 0x35f8553a681a76c9820a75195a9d7fdfa1634b164165a8fe606aedea3ed6c299, 0x530783d7e2968edd4cd2d4bfc9824ae6fff0d965c873357862a763b4533e1be6, 0x5cd3e248ccf89c998d6aa2b9bb932a5760736b89ade06532304a9e0f62b3d417, 0x3e89b99ddb6e2d3e3b710c431d57e464087a1a400857c75d384bffcd62a47788, 0x1f534f27e5cbbc4d2916b01ed42d4efbbc611bab15579b9fabb4da031d267968, 0x2840600e47778a945a8aadf956a87543854c4d8e77fd6705607ad8d6840d2c3a, 0x5f238c4ea3c1cdb73ee1dcf97f394d311204b2b182faa3198bd7061f8f8dd0bc, 0x2b1af7037c7310ad4ce4a1c5bb5bee2135f65b79a2ff69d8a175fc53fee593b7, 0x669e4ba7718285b6c661a1e7198f62b6e5fab7c124e7db1b282559d934772e35, 0x148922a9bc316594a82c79a343956bad035cf4a5e05f9ebc9436dd962b747666, 0x611343dfa360ac23df7b17559c3154d6242822304a19009c514832f942d230a, 0x52cbfbb21644f6f3d43ff554ec2271afb2e0b0f71f2cc6f1c87222b78a8c7465],
    [0x22c74bcc2615a595a8f7c0cf3616f401991f4acdb332b532e66666661999999a, 0x4dad6b2da5b7a0c458cea299a50b7c6b9252bce3ee229a3d16ff85c8401541e6, 0x234ad564a18fa8ecf0743f8d14dcb83aadb83eb82baf7b357c903ca9c60036c9, 0x21627ec5f17d7646eff7b7c1fdbd96a0accfcf40dd9206ff883b4176a60abe31, 0x5ca11696bde16cd31847075e273355258c70c308d84e39c6038377e21c7acd17, 0x57da5ca38014117d24a17a6228f19c5154e11f6665bbbf75772ae652aba5cf00, 0xf896aad22599eef27c285cbec814eebde2f34d1e73ed7502a9fe7f877241240, 0x4bd101ba57a26c9732ecddbbf3d64bf6201913d849f77ac3eb6b04c4fc2db019, 0x54d2ab2f4018ed0932ba5e9ac0b5e3cb70cf1c3e960a3b81c45ff83834b19727, 0x3c687fd861aa4c8184dff13e44494a253a3d5fc179cb8322052a069c40afd70c, 0x5bf83ebc5849ccf3ab833677a2a370c4daf5eb659ddbdca84fea71dadf9a6fe1, 0x681336cdd8795fdf84098b5d19301c5c9dafc18c094536e9bd1a099258c494d, 0x335a6c06b3f9ec7092008f41a34d9ad6e33f278b0b8f2edfc9d926a2e02c436f, 0x3b23349e8bf7a4e435b8c9ab25220fda9d9fe9f1333ae830250e70636a39de0a, 0x684b73903f63823648e62fbe1a508782d2326a938c76446b0029cfeda128055c, 0x3dc574acca0fee8cde0f812bb13c923d4b516db941c41f62533697a8db73d8e1, 0x1169e927ac8e028a0181970e3560a9a76c5297f27de2b9cb688220add82a996, 0x1c56bdb32e695ab6f778d661be993921787dd6e9a147af6d369b1ec283df6490, 0x34d4505d5e112c70684ce2421b1f456bae21ffc19a1194562b0e7a7660da23fd],
    [0x22c74bcc2615a595a8f7c0cf3616f401991f4acdb332b532e66666661999999a, 0x194359791c3442913bad8656c5ad2a762dc623548040444e7f20a3c9a33be64, 0x5811f58957d67d60449fada5f69f428afb76d686ae826b1ccc7de54363ef8f8f, 0x3d0e8edd2ccab74cc49dd3d04827e5bbb6607b87b67f3bc0ac9b7d3bedc9c303, 0x6cdcb985f67b161b9fa5099a9cd5ea38a6c488950ff65abddb6afcbcaed3edb6, 0x6438549139ddef0194c2c70a400a31e5af153c5138a3d64bf58135e44228568c, 0x49d6a395a367cc1d3900e15eb61230d5f232abc3ada7d5bc2989ab8fe671116c, 0x2a34fa7bb2170a8a04f8f633408e852be6e74e597b4c493c5c13b1d0bed65035, 0x39f7e06c8188f9d06a699fd4c96f9add5dd01e4b959afd933f0ade76ac92791, 0x71b294d6645503ca121c1a67bf6cad2ac9530004dd9bc3ba5c2e07018e1e9848, 0x257ac44a530852453fc5692946c305c08727414b7ab8f44e5040ab7c3035cd6a, 0x7c685e87f01558b661d88a71b16c128005d7b02d80b19eda258592a32884669, 0x61ea2b8f4afd182a31ce2b6abef4f874408032017cd11a94efc4354c5214d2db, 0x6484d4f92469c037d28deeaa6aca127cb84c48d67b010ca81a6153526cab9127, 0x4781aa9b4d8200bf89eb26c2d9340c50359b30c8f750859c76df4e6350f68cd5, 0x438a88f814e5e8eb3d005d4b85d0301be0cc2a988dd9860111d9469688091b5e, 0x483df3c9f9c28b2e681125bab18006c932b2d206e420182f0b686f94a05c5858, 0x1ab3b4c53e669c50d9de998325bce6a78d22508f7f853c53710419f373cf7903, 0x207f78d2baf723df90c163c9c6d84866609dcc719c49c0946384f92932ac9a5f],
    [0x22c74bcc2615a595a8f7c0cf3616f401991f4acdb332b532e66666661999999a, 0x7319e6ae6c59f6eb21be018c9ed5f861f77d544534c5a8e838919675719c57da, 0x2ff492c50ad67bde51b3196281c2d64138d8faf2393cf7832e6f3235579460e6, 0x39b996323a5805423de9d18dfbd19c088373f2b637f3f4ab9a95fac125def527, 0x27fec06e650df29896376ad3104f64efa8d333416ac1be807c08da0063b57eef, 0x5133f5d42d5a82d809378ffeb5d30e02c947be9b513ed0305ff4fe812b9f7c0f, 0x5e12d46f50cdedeced36fc7f074baeb8ce4f1473cafceec6cf10638170983562, 0x4e82234187de1dc6fe09822f33f2db781ab5cef7376314f300b79a9287fe62d7, 0x69a771c4f4d89250fae91d141ef9f40e12c6ac6a5173b2eeddafac223a7178dc, 0x51cea45854fda2f1240c599f8cc85540b2703fd27803efd11fe8e3524e191168, 0x2602c6c35c2aef8263f9fc99e443803cbe6e0978e8f3bbaa427f23764bda7e5b, 0x6f97c16f03f6df3993d0a8a7eacbf289ac941e476a71bc7d2887d4fb2b4eeb61, 0x14a0b8e53ab2278f8f08c0b02e08a828d788888243c867d01f53004aa7e6ef9f, 0x3c7e84895754d594f3dc4e86a9ddaaee23ae54430e4b5e6ecf65008f705c7888, 0xcbd2e42f8b53db518f2f7a4c6938f393613c893e2380fed010b33e55dac32b4, 0x708b64154b823058df2a2106a7b8c319db02ec9767dcf53153c9fd6c5afb6a0d, 0xe1d388c6667137c8abb0804022b0907d3dafe19c7bb5cdda6602c58939c9b0, 0x3ba9961458667e123a8bfe6ca4269d86f1f3e14120d364eef43a44cfc3d097fd, 0x470731da5ad31b13648d79e63af05a045e4c06928ed855bf1beb24fd30ed214d],
    [0x22c74bcc2615a595a8f7c0cf3616f401991f4acdb332b532e66666661999999a, 0x579e93ecbdcabd513cb74c41bd65b2f68b9a910486a6a366c4a7eeda1a12b3e1, 0x69b7db9b6234c5c6b2fb29d4e1394cd70abbeda8dffbb62ee4f78af13fb3313e, 0x4057ec8913c8968ce86b6008bb651aa47c73c49e89c5d0378d77a45d20c886e8, 0x3d81aaa7387958ba6c5df9c8da21827eff88c903fe26f6bc325277b883c8138c, 0x3fb47213ad28d206ce1057c0aae8874e88289ec54de02b5afcfe1a9dab6d3ea1, 0x50d56facdc684991d5a9718f4092683198df2f77b489bda1ed89a955c603366, 0x45fe0bbc3bab84398cf611648ffa5623466c30ec86e0bce4221b9064a5a5ab4d, 0x7125f622a56cc3b24f559b8fc39789a1b567ad6061929a0f4194a4ede89842f8, 0x2f1225d5ea97b254aa41b956b12aaa8069ea70c39a089929675dd717255c7a4b, 0x5e32f51ebd23f15f5fc9febd9cd9066a810c0f10ddbbedcc563898a4dc74dfa, 0x34c2db8e1241f684598b2d7846f4a4bd98c2c82f8c950931d0440635e10e29fc, 0x6bc6409e53c78458b140aea3925c8875025c1dcf462a1ec850c35427197437ca, 0x54b637a1e90ce465d6aa4e3196e145186d6a3a2b3d79c0b4b059d3947c8b3bb1, 0xf49007e9f852305ee41e21aaadc865f3429e011df87007da4ba6791a6c8d772, 0x1699758b700703f95f2aaa12753929a1449d9bfb00bf187ef2318d12aef31fc3, 0x6e8a85c2775b7c27115220a9e3caa4140abcdee133f1a2f9593aa287607d0495, 0x6df73df0b9dd57f058a8548f8f0d6fd484d365b09d7a93c5bc78783802275a49, 0x41b2fc014e1e734e324ac24d71c068410e7fac0d0ffd4d99db588d49483c3976],
    [0x22c74bcc2615a595a8f7c0cf3616f401991f4acdb332b532e66666661999999a, 0x34bade84ff93aae8421bf89f7e5596c39260cd4db251d0ca768fc6124b6fc756, 0x13d1bf0fb6daae49cf3f4dc16e9930ddfc5da1d44cfba849c74435bc2ba3e4f4, 0x5456bef53e7a1ccb728eecb89d24433a615bbdcc3006bbd9e73e7301f915ba38, 0x618835b51555218e8169f630aa6ab15f66bcc56576fd3a24192d88429c088e42, 0x255542bc6ca688cd37856f5cb6c9f7e074b4ac47db3ef06d8c15ca97fea7c328, 0x2f231c2a184f5a35562b13549ad7e2d642d61b5d7129f2c583fb97bd774e671d, 0x4550b38ff841bfc62f374520a5dd05f50d2fcfcfced16e8019a192fcb42fd1e, 0x1b23797b32264c59aa7e83162296125f3eed50ebed67cb847929addf07d08ba, 0x4f0582f9be766bd9123cf0bcca81a92073914b1a80eb5166a8bddb5766173d2f, 0x5197650ea59da6c1246a80a43d91a3e4287e998ff21ee384af520f7dcc1bfa95, 0x6bcda979ac49144886783579faf2615daf109801edf117d89e7ebefbf240ec9c, 0x3ef517ed40af90fef94b35912f67e4f5efe11ec3f9143d392e1910520fdab69e, 0x58a45b2ba067cfc18fb7e38b8424d1b47f24b1f8d2284ad923a485c50ac0ab22, 0x17fafd7136c9cadf3d59d9cb0312b2b788c6abc24e2cfde432dd20dfd16ed525, 0x62bd808cc91a3cff7c6ca5ff9a8aafb6c9f1a5c0965ebb7bf062e937a88e3d95, 0xbc2f3fb2c717d8bbc298f8be56459db72f031f9c8ff9995f9d615402a1e5bc1, 0x5bc5a471f39711f19913f3f2545becc612008ede942054981533bb87eb3109de, 0x68f769f714c9799347cf77442fb352fa74a3eb7a1ad69cb3ee4c0d953b1283d1],
    [0x22c74bcc2615a595a8f7c0cf3616f401991f4acdb332b532e66666661999999a, 0x21436cbd7f2682c11eed378aab4c9b4d1c6ab99a6bc3172b51b662364e2cdf80, 0x51a43a131437537d7a45fdf2deed5a8b35b1cba98800d021252239a473461719, 0x39ddcacd22f1212fff7fb12bc85c3990d19edd6e4c557fb9ff7561b2f095905d, 0x73afc2525d128d66c159e6a52e360341a21958b2b29a2b4ca59ec09fb3e59987, 0x1f39f3a236795d339cc63374c9bba27a724a2ed5a4ce00d14f66a3b4ab8fbcb, 0x25e94760403f41424033ae34e05226cbfee7f02f61b1341ff9ece2d4f8738576, 0x49f8c4b452a3e67369cab194ddbfed83b11a1d134640f2faf448af1ab19154b0, 0x6c1e089e3c40f55eab9242f40015dadc4bdeb52507b8a6f3bfa63eb34eb48cf2, 0x2c1a9730ec857692e7017785c88c2073f29ab7ec3d9ad881d2c5c4efdd5411c7, 0x5932e0be68c1ef890298b59f15674e102189a6f9820decb1dfa0a1a6eb8f76de, 0x442713a00c7a53b1f5177cd2ee5e2ddd4fb613789cdf02f1d77ce622807b9a82, 0x34f4dd4527e14fb3a00996f0399b4be3f1fda4c1f3f51b22f64ca7b22a09dcc, 0x41a38a09c07ada429744ca9da9859eefe149954508ffeab83538e1f6dcc66333, 0x15253327fe719a1a915159d471d2beaacc94a0e3fd9e9a26ac725fa347285fd3, 0x2cb3932b840278a758186abac40be2c69f7fdde4893f14bcb20f327d8e4e673f, 0x44e0e09562b00415e2c7a9f73b4a808e6125dd1f2c0833daa9bafec38508341d, 0x56d99edc4455634072aa4b945a4da21e9b859e47fd96f87b6cce3f82ce8033c2, 0x119f3edc89df4b633bd95b10e2f470e082304929e1860259fe69ea8f0112a491],
    [0x22c74bcc2615a595a8f7c0cf3616f401991f4acdb332b532e66666661999999a, 0x2242620a93dfdcf2c2ab96e4772e79270e88d077b9d619b744097b82af9eb36f, 0x2571a83e76583f5aee853710268fbe67834cbd2ba4d2ea63ba32ff339d77e752, 0x45a34dfd662914eea00108b73f7bc84c640a8091aa6a870d9349ce3a41fdce87, 0x53cda95b22b7b4565ac0bea948410cce560dad900f13bef35c82ac34c87fffce, 0x4b1b31ae8bc20d7384bb6dcf67bfca771f5cf60895287a70ca64ed09ded4e4cb, 0x5f8a9d0566c6c5e26d63b54c8fb2db20929154eac781ca92f975f59c604b64eb, 0x8fec9105fbe14f8779ad7b2b8867e7d00216f11f323cb90438914eaea0ec28d, 0xdb8e80d83f06406b3e9427a837d85197070dfe26801dcceb5d3dbcec70c1ae9, 0x64db8bfd8c7789902fe879ead738d19890621cb2e8b4410bf9527d07529e9eb1, 0x17283f649374918e4c29986d8c1a6b8f2041118129cae9848b2948db51a71994, 0x1fbcf254877cca279dee37058dfcbfa164048abb5b96c59a2b2b97c02881d68a, 0x1463ed8dbbea713ec7e2a1a53d5ce8f0cbb46fa126e20b02d61f8528db828998, 0xa31badb2583802e7c6e69d6d032d49a44be4fe44dd42168ca2c114d92787e92, 0x415587f28f39fc7961e85ac6734f05087c7186ba7d75a07f02cda349344d9958, 0x18c6b009241be4e3a331d55c7bed66f066aee9e79af6a78d48a83995f99e674d, 0x630388f8884ae59efd7247eab32a6aee1e97c3780c9cdf1e34f41bd81f381d15, 0x439a6432b810a6c86efc2d7a2a7e54dc15d8d1f9ae486272891be917eecbd941, 0x5a0b3975262f70cf64ef52967c23e7b2575c5d576c1170f687942956805a7a70],
    [0x22c74bcc2615a595a8f7c0cf3616f401991f4acdb332b532e66666661999999a, 0x10d0822991fee9123d0cac191d287f2f30fd30481628788756344ec3c92008cb, 0x20e787604bd893ae92a486cc1c79cb84daed757e76ac60632ce1b4ce868f3ef4, 0x5cf3e3fae45a2cb7b2ab8bf2d8f69b6c57aee78d15e756168852d7856d89591c, 0x16e039742f23a263a0322c072ad9c0c8901f1e85aa7e60fd71ae0c535db1b5f4, 0xc9b76830e97f81893ccb6c4239b6dcd49522872b57defd63fde9c784b68e280, 0x6141bb1ea642b56f8f4f84a7268fc9e4eda2c37f581503e8f5cdd58756844f52, 0x7006aeae72836f02e42b5ea47e1b0e88513ca318284268f06bfff3d31c3922ef, 0x6cae3bdef614e48fdbae7af3cf0e6dceff48070cff545600dbefaa84ebe47427, 0x263de67828452a4dfe4812cd0ad0ffc0ccbf22fc2c59f5ed5bf69326d0914b2f, 0x2ed8254ab4cda60f63f33f2c576e5fb1e4f1b04d00a3ab14c0487d4ae3aa1d22, 0x2b412d6d852ac07dcaa8365dec6d2965f18b201ba4abc3820f922b6e72cbf23f, 0x1de97f4663767452dd904e1146a36d0d0b67687b562044f10e7a56ed0f1afcd1, 0x5682067d401d8998528880c4d697ae2c8c89abad64429a142717f09ff17cd949, 0x461ce62a21997646de2229d08bfe233b53e2f29e81d9cea98fed2d3bb3421b7, 0x1ab9dcb252699881b988d4c1e8805c68e5bcfcea0f549d4df410284af60b746b, 0x440da3659dec154ccf843f8d048be3122689f917c1a6652cb213a16a22ffecaa, 0x430ab763cc995c4adc94f3fc44bd53ba21241a7ab825f3c1e2e97c2a4680563c, 0x65cb7fb5adecebdc02b1bc6c4b53ee5b2e80793c91d7cf5849d0d35409a38e95],
    [0x22c74bcc2615a595a8f7c0cf3616f401991f4acdb332b532e66666661999999a, 0x1c829bbeb7163fe814bf9686afbd83cc8a180859ffaa64e9a674947700ef40b2, 0xf8e542767d053ec5ade38059b2fad5fdb9475725f36b177a15d2a32b4c2799c, 0x1b76eb83a0de881fa5dca0837109e96d1d2b923edcad87208c5732f4525bd405, 0x6f4ecba9f6b3d6bc47cfdf692f69451ef425cbc360230093d88c683b145ce340, 0x48448b2f7880f3db9c7c26de00e7f533833a47bf4d825e841e8da1f70e5e0aa6, 0x1a6ad464bce385c7852b0e870a1d802cc60ce7b1607dc2f364cafa5e48f48c02, 0x5246e3aef1538052ac6926a5a973e8eecf1700540baacc9641081a3d1c487b99, 0x6d3aa21ee92111f364d87b6f48bf347bf65af09794289bfa84967b2a31e5d051, 0x643be5a8a95d4483758d361a86a32ce634d8d912446983e0ddac252bb1d3031a, 0xc1e95646f5214b3992b1257a789dbf73e0ea665258baa51302ef9a1f09ad1b4, 0x6e2ee61ab3daa93d1082323251e778d9cb12ab5841e180b408b62edaa8e28d9b, 0x8a219a9bff607f5aeaa622dd469bd90863e1ec24380478441c4aa1b0da48b83, 0x16be403fba676608a8f638f95420c081584afb17657835271eadec97b022c62a, 0x24131ed6246da4fa1f9bf52c2f18a3f2aa060365ac6b94cbebbe8b8f56499e30, 0x5718a99c0c8adaaee41b518a5a3a1683447d578f3ec0ba7e965ef48a61e09121, 0x1978528799afcc72318d0576620a61cdef1e62f48513ad924f19da08068d46f8, 0xa8f2ec49184d46b73eb3d7ee3d8f1e8dd2399d5e2e096f9848ec8bbd46ca97f, 0x1a7b3e836922abc45d30744fc26112bcda7160c517820c286a122302179cc8d1],
    [0x22c74bcc2615a595a8f7c0cf3616f401991f4acdb332b532e66666661999999a, 0x3afd2daa04a9ba2c9ffb9f5703797b96873b3a2a1cf4b649790a3a61fd08b971, 0x13e7953b57b59c164ce8ec2915f7fc6e64fe4080452be3159afc5c6b28ba891b, 0x4f733f0105bf0789f7138a11c186fe356255ef3752a15e6cbbfb9c3d84ef663d, 0x4b393195f6e95580b4c16ece0e560543e40121566224d3514f9d53c1e7665495, 0x1b174f2cd0b016f5e3595c475f59a72d82255ff20fa9aa3c774265623607b137, 0x4b77afc1310e552690276941d13efe65b9f9e4b03adaf6c90f92d330efb9a472, 0x90a495e2e8f467834bc9f474c802152226d60bbc0b4333f30d406d00e30d90e, 0x710ce3f61222f3c5c964c1ad930c0568dd7881571ed1af4cd87595436e751ab1, 0x31ec45c46cb0879b5dadb7f15f7dc7a96dc2ff1fc2801ee7eba1ca43b1cdc90, 0x46cf6fa5f72a3157136c926b5cd736ad7f012ef61e4c5c922d0b94c03073d963, 0x56ebeeae65b401fe52485f09361c1bae8aa2612dec00ff651b03dc05504e0cda, 0x2cd657e0bbb16c8fa45fdcdc1706f6b91ab3f59695b3aa3a1fed3894c4e5b592, 0x2d92b130876362e308b7d97bb3623a093128a84695771e7680a7242450b3de0, 0x631be351359e66a4f68cfae3ba4ab6b4d699f427d3856dceb9ded39cb94c6f0a, 0x51138551ff7f96f0cf7569c39b3175e05165a70aebc2dda7724634ebe3770ffb, 0x1d261fac923c3b489832cfbf60a741b0930b8ccf2c1c5dee0a6c1b292238d2b1, 0xaabb940f843737edcc2b5ca5818ca95122c7ba660cedcad75594bef5a484ded, 0x81c4dae19b1de8eb386062b81192351729b0312fd826b83440b5eca86b3c3ce],
    [0x22c74bcc2615a595a8f7c0cf3616f401991f4acdb332b532e66666661999999a, 0x2c66ae1684948a51ddc02a490980d77186a8635e1dd89d809f0694aab83641b2, 0x4b79a2573cac57e092dd4f636bbd36df30cf364b69ad91928150fd5283b7458, 0x5626a883b651fdce79bc789f5e6f8dfada457d349eb377628b1284d29428ca22, 0x25f3fe7a9a1da836e2a521d31e1b6773129de1c8d757b7a7f0148f18714566f3, 0x3e5f7b87c6d774ecba538f188eecd14a0fa58de953ac15dede074201a76ac2ec, 0x2839182404b89e7cc000cb91faf97b43d00f4ba69cd97b3666048d36633104c1, 0x558a8e8d3fe347760d2d45c3594093913caa218ca92541598f635db2f6fbf548, 0x3dd808081db18f5bba1c9eed54f447d9e63e77e2d2181c0f751d4d1a22c58922, 0x4e0191738d199f523319dcb6ad217118fe9737f6115fba760f837b6bdc997937, 0x45cddca49a4fcbd8386bf07bba2ad023e0c4ee8aa59fcb6c1326126a7ec5ce1e, 0x59277a7398c30c0243404dba4d7881fbea28213ec53b91c66495272b45ff3a70, 0x6d03820d9053f7378f52c5e463546653c7389df53a052e61133bdd46f97cf74a, 0x4e2a29234209b014a86386a676ff440862837cc4729ba474c21b4026e562a43f, 0x1e9c8f9104491878d3e0c6cdd67b2f32451c0a4e1fb0b4115a570402e4999924, 0x43d33e3d5c4c17796f0379ad30f553da7191d6f83eda7cfc18a1042c73d8a784, 0x3db27f8417edbe84f1fd50767a58e3a892edf420c8e38e39df49d5d9fa9d98d4, 0x464201b1e2b44727fb81486963bb52a0f6602223b11b5079ec4754fbbea3f5aa, 0x140bdc632cf28a06f7cec052803a654ff17988d7078566d02f76618f693a119a],
    [0x22c74bcc2615a595a8f7c0cf3616f401991f4acdb332b532e66666661999999a, 0x24666d5e3343dd0f624feeebea33dafcdffd264c92ea0db5b6e92013c13e00ae, 0x62a525d68cd3e6c2aeedb1c3452e43d4ddf81438a2549cf1825a469a959cdd23, 0x688779c2565557ed01bd347c102bb7a5bafbc1c833be4ab362f9d86721c08708, 0x21bd49746a6bff6a4147cea795c59fd72c6d679bbae1e4d753defd9540fdb475, 0x28f47e80fca60611b3eaccc5146c6199a7016a9ce4bb22e172985eb429945eff, 0x31c584b2c4189efa5b75431595b3295728677a15e0963b97698f7ded6cb2db6d, 0x6435e2cf8b94af91c0c8c4620165f86a1e53af00c2fed53ba4aeba276b24e9b4, 0x7c1ee3bde37039c11b112b7e21ddb053250932182ca856d156f73942967ce08, 0x565e7eed1252f228cd3bc513d862623a869083fc19ac3ab19fef20f9188a9adb, 0x3002c312f5365d552b04285f553781a5018ebef8fdfd2153f2fc8d43c4bba36b, 0x5ade71e7a202e6e6bf19186bef84f5c3a877c125834cebaf2030b31f31edcb5f, 0x3278d1196c4271cceb8f7c26f03bbfe639ced69629d91fd5918de507d6d1a113, 0x50c15f238e9dae0a596fbfcb318a6d5d699f55ade0ab649d8139b1931650e1b5, 0x66229262b221e57772c4a5f35eaa08d8de5843f32fd8a35b094bd87e8e1b3fce, 0x556a33ec9b2d033a82f5d4dc76d39d1cff3df9ec8c0da2c47e1b7a2c8e958256, 0x1024ea4c5261a12d1236e72c3acc1798539c946e20c252be5a03b8633a1236b1, 0x2f8164df2ccd7de6b4efb70b70c363c4bf786892ca7d4c3f74bfe359fdf4bcc6, 0x6ae1a8e05def43f8b45f7ed12e1964f5dfe0c32443809b4cfab711b68ea5a1fb],
    [0x22c74bcc2615a595a8f7c0cf3616f401991f4acdb332b532e66666661999999a, 0x66ce861624536b3760f8daad6c90624dae1d3c2aeb5df2d91e9d1c1e2cd3664a, 0xb6f52571c3f1eda02ad3e98583bc36d9d3d9e2659d60c383d181a49f13da096, 0x3addca4829cf14cc48d63a671736f33f413bd0f153b0bd4f1537b8cb316959e8, 0x19b24e3896d4e9303d49d2a41f983266316c2fd63795f2771e1de3fed70663b, 0x2381ff3923130e5223c43af19f8da073fb2d26d3f5946f58fb9589abcf94252d, 0x4fb4f6cc0a36154c352dc63797ba10d2285099aadbefa7b2cb9e74476e155ae, 0x1a785d3d31ad886d051b0f4bb5bad42201da483cb8da70f86f38e115632b8ac, 0x26e65a3ffaf4c99f5b917988c89375e070a1fb401d9b11c691d6b33239a3d193, 0x11a49e33e0de864cf1199f399f9141876c4d04bc1c0aa8958bc1d7fbc96ead3c, 0x1f6ea285fc4870fe41293aa04cacefeffbb0fec968aeac3a15fc8d6bba49b295, 0x60434a1c2e831fd881e0b1c9a64aab75f9d8fa1939d53f9a48546d117acec38c, 0x5abb8efe3758559a8a56fe62dc6cbcc3ad9087ee9ea619a4e6ab64c29d71f032, 0x42eda7617aa4d33d43b7ef505c1fdf5ff6c736237e2a14be0099285ca8981d7a, 0x81348fc60a2f64ac62293dfb3620e1bccb51d9eba7c1bde866c5f9ff5f93321, 0x5c0ef5ca00bb07a4ba00de2ec6b2f7dd6d423e3778f48b2459c17ef0b0cd72e4, 0x15612b1d539a84b4b1782a6afea6b5245a4d58ccb2bc39a856a844aa9f9f789f, 0x3159c6b0c79c229d209bdb284e57c39bb6640c72b4d2c75a6710d13877e612bd, 0x431f4ba16f32e75b785bce5b40cb7d0b76f8bf01b39aae3b9ae9eeb5f438a3d8],
    [0x22c74bcc2615a595a8f7c0cf3616f401991f4acdb332b532e66666661999999a, 0x2966520d6002a4cf9832b26c5bed9aaab9307367c4df522776332b39ddc5a41e, 0x1da178debfb8a0e51be6003064a86f3e3389b932f2025a5a85d2e4cee17da62f, 0x2f4f30469507deac62960bf14601bbfb15e8c2146680c4e08dbf23eb882659c6, 0x304a725705370c66bd33fac8d0d18453d527a43db850a8435844a49437ced493, 0x34a4d9515d64e0877b9e1b240c8af7d2583e7a6dda2eec6773b22cb121af7385, 0x34f68913080869ac773f3ede8fdfcf1f490464cade4d6074d7088a2a460234c3, 0x45e6851a374d38534de2f0264e52bb2235b6cc068729cc7b82a8de9ee8775572, 0xdd9be00a2f8d053d08f529e48eef300f168a29b6e1c968fac00a7cb5a6bc373, 0x5be24befe1dd318579731daf40cfbe816ed5a0099b321d54374640b927514f68, 0x444c78baa6273e7917349452a2163b4d9f5c3169af025d4c5c14cdd1bb5b36bd, 0x5c1e7309d8498ea506800096dd62cdaaff1fd661574c4df7c058b5773613cb15, 0x4cf3880d3cc9c10369f7a4c6a195dec7ff2a2699e20683ea65943f8dced9bceb, 0x50716b49ea9a5a66dc15b2f88b261f0f0bd6879e184330cb1cb2301c4a59d360, 0xceb33ed13c4e2b12459bf070101a4710e27547a9ba0102f7c198cfd51d4ab73, 0x3c5d9ebd15d5385ed09d6980be22886f78f53760ea356230f49871ab0e926289, 0x35b596972e7b2e2db536c03d20a7219e5d640e94c1baeca12966a6aa7769e656, 0x5da199b2f9d8bc7c5bfd7528a06ad5aa5841a49f08a4e9893d0fc2c5063ec8a1, 0x20af961fb4689dd14c03f1585a54c8232f9fb90ef8ca3807c1ef88ed7412d746],
    [0x22c74bcc2615a595a8f7c0cf3616f401991f4acdb332b532e66666661999999a, 0x1f51d40d7e147895ea10e460d06dbc9e980afcb0c6135565c410ca198a2f24d6, 0x560f761d67c592fb13d4c759afa9e8171cbd2a6ec6ddcd3c3719412bdebbd6be, 0x39f1752ff96768e26d20eb0c32c2807c0fe2344f724509b4aa42b27f644273c3, 0x60e02c06bbf91b1b813ac0550bfa92c2dd5fc426ff922fff7695b6e48e5090c0, 0x5574355a9b7057f4e847374ed24e87512401d32a99d5d5b6a890365c1f661f5a, 0x692dded77a35ad80900bd8d1e94f6da478c916dd8cf1cc774eaaab283939dc52, 0x14d836be90b95b6817f54b68e37478f81dd52e34730e78209b2235aa64290fad, 0x1682e1233dea95afda3672f0d79814aa5a45e9dc2c500117de37ab5e696fcf11, 0x8d97d597af2acc546e116e6fee248cd5052cb7a007531d4d442c32dccf4dbc1, 0x677243079e1ab2185479980e81fcb845eeace1dbc88aed6533390dd250101400, 0xc3b4b33453267f475d3cf8e7baaf53096f7a1a176d0931212f6bd6255b14efe, 0x2b5723948ae2018e559c153f9014e2d3bbc65d9eaadbb9bc58705914ce925851, 0x301edf4d1aa7f9efc164610c9de7abed9c871b74d2a01b46ddbf00e413cfa011, 0x353a44bfd0b97269543d5fc2327f47d3b842bdb2bc136bcf3c0685924318dd1d, 0x16111fe9fdba4ea219d692d7e5098f6bcd3cf5d0cfb13c4db6519f146dc896ec, 0x2fe0b25a884982f3a22bdb4984c091ec3eaf28191b0f642d72ac7b1363596cc0, 0x3671bc122a726879008ae2f1d69df3b0dc17b1875ee7d41e9a41556c85b7a5f9, 0x83135f8e3ad51754abc4a8ff4dda09fe5e0c337a420ef70989815d165a74ce8],
    [0x22c74bcc2615a595a8f7c0cf3616f401991f4acdb332b532e66666661999999a, 0x490108314e24d67866439d70aa3a882cc9c87fce24e6c6c2d1dc62aba1ac8cf3, 0x405969923ea2b0cc56e29acfa6874ec6809a208c87ac472a4f3fa941eb6399db, 0x10285d2d0185b3de8856c943b2c7d10d2f83977d09e93f6ad5d1ba0f3d98a7ca, 0x10bdf3546b646ba09cffe6e23c546224d6a9d66f85749f43386815a2c6469b58, 0x10461697a0e4ce7517568416e008e322ec70e194eca43136a7c030cfb60b384c, 0x5a594d43d03094fe1ee79b3f7891148efe08e9d57676d65aab0a1908f18cc444, 0xa163f0433a92dbd137645f28fa10c718f47b678d62edb6f3dedb8c0c45b4df3, 0x2f5e9af0be5cba716929f0ee58490e52c4eb67d38b76378955ab590042ac8472, 0x116d820586f128510fca208bd0871c32eac1638e81157fa21f35c76f72702160, 0x4f440fc9561eb36d1d69873c741aadd870a58a0e07533eb0e6e50e029f5cbe8f, 0x4c0099f62e980263f07950f8bcaeb20036717512d1ae8f6f2021efdca6216965, 0x5525c76021e5b74035c1fb6f2c6c41490d1994903fec3311e109e6db5f75a5ac, 0x596f419c61830b3e5c030bf61219e50357872460dc63bd8973032c256f57c25d, 0x16f4c28e797d7e2151eca24bdefce436261d5422d44f65ec9161bd5fa0f966c0, 0x4fa8ec7599d0f4689bfa1b8fdfcd110ab8c139e98693544c553465a037fd710e, 0x3792e17a22a04cba4fc0583ce0b476b2f0441112c422336b73509d312ecd8ddc, 0x3acf5dc672adbe2a84fc9e865440bf42f5593c62d533e41b3d916baa96c74c35, 0x679a4e99cbcbed969888711f577d4ee775288faca311992d58d3840b976fdded],
    [0x22c74bcc2615a595a8f7c0cf3616f401991f4acdb332b532e66666661999999a, 0x5c4fe57f6ff0fe820850c6211810b9c67d94570d8bf2e7827e97457c341fcdde, 0x28e87bbe6ad5467562c02f308a00511f114b7835e7ac27d5d6875fb5ad44102f, 0x2db8e5c69129bb1db98099fe706a2d7ae4389695f310fe1ebebdffdd0abbf8d3, 0x66b974c82b3d26a2993753bd53ab641cf19096b6105c0bfbb5c077af311913af, 0x703cf2088e86d7235319e3327cc68f98a0bb9951b2f1c4c2bc9d22d4175dda3e, 0x2f73c07253809ba0dc00286896eac3145835cc30578595232be354436d2a5d3f, 0x5a7c0e049f75c74e61db57614d52d7a45c0272dc93022584a4e44a02ae55368b, 0x1d780c72c11dbcd29aad8dfdd6cc3ebe9aa07406a9cd3407c3316201b2bd8de9, 0x7d362d0a8ed15bc9ae3f2e7a480d0bfb4b610ba9f105b270bbbe8d4f2385343, 0xae39f05140306d1e63cc7f66d3ca9618b7257b84fd04ba84ffff9f2ea5ddd7d, 0x74a3cac87deee0bf001b59e1b8cd3c1e6847e03702e7b3d91138c69268fa601, 0x10d274665cfde2228838970acd0b50393756d8fd6c00032b6f7f5177a11ab4dc, 0x1bc5fcd4e6afae71a7af2ffac7a10f6c4a42c7d92d9ef551faa454b4258aa6e0, 0x15d632c305b15c8471c9a2c99e701c7f8854dcb2ee62656c0fa81ee824b56dc3, 0x1f6a3b6fd608906ec7a02882bbbbf51bc8dbcbcb0295d823998651d4a6f7b147, 0x56465fbfcca7935386138902b024b397d05229606740cd67c93a615347d83d0a, 0x54e1f092643f6cc64f09c20f906ba2feb04615784c5a024916435c9db62a5e40, 0x67588f627438c7abf695d925be1d9f26eb3ff92a3dfa08e4e3d485ec082ba6f0],
    [0x22c74bcc2615a595a8f7c0cf3616f401991f4acdb332b532e66666661999999a, 0x2dd30bf19bace8310df819a6f10ca493c235784550441e750a1e295b48cf2fe6, 0x3c289a41ca29601464174e6294ae99d047c40044fdb478f292227124d148ed84, 0x6718f8d4780714e4b57248a1e14f84d1def15d64ef7228aabd4ffa96748f5933, 0x480c00691f7a84cfafffe70c1e93d65ae2b94ba0e2eeb13b7faddd4d4229cb5e, 0x5682a427eaf7876c50a220a5a3ddad002f691a24b624896a2cc415ff496c2bf4, 0x3d64a7376d356ae98f7d7f8afba42c13b5e0fcef00d0a99417fc6aa6f5a62410, 0x453b314585b83ecec4ea74248487260be806d68d49da06268c90bbb1ddf651c1, 0x5f869ca265e8dfcf2b218ffbcb8e62bd688c6cc113a8a34d495fcd72a38627b7, 0x5e7961f91dbadb81502cb4323ee795166bbf2c95d9656356af1ff91d7af0414, 0x8134d11f1a661856e30a75c018b2721707ffcbf138cfacb656cada937e50214, 0x19f5a160e57b3db8e93467936f3dd75b18ad760af126d182feae616218cbe00e, 0x272442ec15d0f5e738e16ea239e4ebc1712d53e987dadd609d2234f0c9009daf, 0x66bb50ae7be66c0d016133dfd62b6ee50d6d5877c1f69882578a1c8ee915aaa4, 0x5486a87b991bf858d9e2ebb59683d96bb1b80c1dfcc2960f14175c5e8828cba1, 0x1ca545c43112e80975f84ca81939de28a2db5feae985e38900e872ed2a27f9aa, 0x73041f5e8883e874c7c2c8726edd34be1939580eb3dfdb74a5a71c0f4a0d0bf2, 0x4ce4b45ae152cb7138e9b21462c80abdc24512186974c9c1e64219e32df7735c, 0x5dea7354d5396a718842150afa5eff9a986f8e9d26d17a63d146bdb1c7637c3a],
    [0x22c74bcc2615a595a8f7c0cf3616f401991f4acdb332b532e66666661999999a, 0x3543e61188d8fc19dd6fa9a4e8faaa15743f44734a714dfa12491f5bd0a1edab, 0x3e5f3fa99b3245fa8d9c7fd47679e45975a3e6339a3138d2501eda7607b5cea, 0x4ae327927249a1ca826bc540aa65afa58df4218b7a3f55ba7cedd439f78eaa38, 0x385a74b03bd9bf015cc4cda7054e2e7104ead45076823d3a0cfae076cc2fa828, 0x6103f3e5b6854a4c3e569930a80156f4d23b96acbc7c1b7c6d4fab5267b9749d, 0x42dfe1923d7c334eca695a1e3fabe5ff2186691c76a0511a28b6b5175aceb9b, 0x446d586d3c45047acdd74c500ece5816c7a91715b27d3e1ba357b904af69c827, 0x14b7ce8bbaa38fd0970c73d4ec77b8f8ded33f05e45ac2e8232e0399d9a34c84, 0x396e33942a154e962502ecd28a5c122fe1a08b28c407d0c19e97803dab8461c9, 0x6b83d0b8ec7e9843f8e7535448e97343b12180db2e279340b96a17892eef14fa, 0x5c1d71435751ecc63aa618081bb7f0c77bb14493380cf80cf456f68301912a2b, 0x2db79185b35f4782a7d5fee6b37687d5a6b89b9aef0edac3e31d532c7d602e67, 0x31a6fce80232fe4efd8b94b20cd23772328d5d7cf54a44144361204a2217697f, 0x5c5018dfbebf58fd5da16c10bf34cf4f2b9a08be964c3d916e44a2f51922b625, 0xce69330a830746505088ee4579cc8718249fcd929e72f3b3c6fb49748682ae1, 0x1a8fe15acb0e52fd77d124d8e11df2fbf9693a02e774dd6612220d80ec0a994, 0x4795777c1ea90b83336f091e121dd6c11c285fd7fb66985baf2693a0a15755ce, 0x52b5b76c48f8a4e29c02f802b2742ff3b53a92f5df45209047183b0a60520632],
    [0x22c74bcc2615a595a8f7c0cf3616f401991f4acdb332b532e66666661999999a, 0x338394c14ca2249b8366bf5826bcb99b8790bb0245ef746e6e63740938965e10, 0x35526873626ba3708467402013e7d377628ac104589232c1879bee342f462385, 0x6e3aa28aabe9af25662889a81c24182051da153ca33d466473de3a2566c7a571, 0x26ee883e7b8fc748ce4b9551eb143b71c6e8b274b199158adbfba0cab13de36a, 0x2ff4c09c08c3c2272479e5f05e3b988bd34d90f907fa07d353ececae466bc33e, 0x36c6b8574f87ba9ad1f26dab6290992881ea4ad21b3ef8621a9a1979c696affb, 0x21acbbf7fa0577c3b4e456d6b21937e3527c4cba22e117a58b189e622935a46c, 0x24e1fdd54327891bca3c39dfe6b7824a6c6da142148ff3394f00fdc1291692d2, 0x52804863bcaa27a307d162713a89948a586fc13551588b00d1661456b3f966f0, 0x64ddc0206d70e66fcff4775afe922de1b3a10182b6ae4b33da9628846b84cb07, 0x734b2d78d9f96a49ffbdcf7267e20405c58de58d981d78fe276213fc5a6d154b, 0x2333a42cee8a2185fccd74adc0c07d45bc9be8b6b61873998b8802ba2402654e, 0x4edab5c0b39095286aa1e2709660e460e7efdc567b0fadc6fb3db832209d4f6e, 0x6204c6bfcd61fa9dd751ccb2b28244e394b4808e0022a3405e0572687b0bbf9b, 0x4438ad80c02d11e06559920e03cf5b99a0724872e5d91a16ad465ed8e78d6d6b, 0x776c32a77282e435d5f86cf87f772fd80f20885549c4982277860561777b344, 0x1ada6445cb2756ee1baa6167374c5b336f4d388af980b9901daec4b4000c65f9, 0xa98bd657d51038352817b75500480318816560569ed9b4a5f05724e0df39b8f],
    [0x22c74bcc2615a595a8f7c0cf3616f401991f4acdb332b532e66666661999999a, 0x404fc4c4e36566c167e5333220841536d06e20aed1ce3a8239411da60426e93, 0x306cc7e8f858119d94492228e38ad48fdd6fba30db652639b2a88c1bee1ece88, 0x1c6026f991a6d5c5ba17d702d0840735748086b1d74c4857c0500105ae0b24a2, 0x63cf7790e6251b4a52e68a15c6fc12c310317d00003515bb29efc353af193b4e, 0x1912c144fdd9ade9c6e07a00cd59459f608cc74314db208d0a75448b855a4888, 0x520e4baf4ec0b6881b917ede66940bd50a83de8ad0c1cdc8c31fc93ca13ec41, 0x3d05eaa01b06bb16948ccbfaa8e209b97399d753b0c476d6ac42dac684f771f1, 0x14b2adbe47ba24aebc05530f345de04f71605ba08570b0ce9ebce3a34ee51969, 0x4ccdd8104ba4c5c355273b0d95329891b6fdf33793053bb1d0f85400c91409ca, 0x43ab76007e47d45170dddf2df2324e31dc6ac571056b735cc13641d80b5c8392, 0x520027e50f0b4ba58432234fd88ffd3a0e22614c34b74ba0d3074d9a741d48d9, 0x54c6aa5821ce314536a0c397b15e6c5645a449c72ee120b2bf4df117d8391a14, 0x6cb04e9cf0bf3fbd8817a0d6b8d3823b056814758b8fc4f7adb40b234377feb1, 0x17f1b3040abc3ebfa078fa49237b3f198f0507b9eb770f3fd2e976330e068f8d, 0x3d701a42329fc47bdfe7ecf757612477bda9ee8b5aed0b6a0d66aa961225415b, 0xab391f91365afb9fab4aaca34757dca49bf71f8492bef274b9479a5b2adb710, 0x3e34871b9159979ccc747ee0aa5456eba7ac90a2eb15962a2e4c89dd7b7e3a3b, 0x13d7890c4febf407788ebc4f8b0b8d08536a5be3d2be131b124adf0ad0d2178d],
    [0x22c74bcc2615a595a8f7c0cf3616f401991f4acdb332b532e66666661999999a, 0x3a7deaee8b31834def42a9d2494b8abdd37175277574cfd8d8610f88ee7206a7, 0x6f7f98d628d3cc6cc776f1e77d5ae84bdbbd052c76f5b3d224e64bc39256ceab, 0x318faa82cd711f3a967faa8526558f94c7151562efb91d4e40238c81b380fd82, 0x26d9fd2653fc150ee11a2073ba4c27a926d7e8ab046b4cde40eb61b5475b19ee, 0xed102f8927b8bf751b61164820da9d9a897078f9caa17365c8d8d856700f34f, 0xbee0205e7e5aecb4e255ec1a2fc0478d1d8eabf1c21ebd5e0b312cd97d29059, 0x47ee321ea56646fcc14278d5f4cf8f054b4c817a6450ce8a3a8583251e24c0a0, 0x52ccc24076997ea7d5f9a95da6b2c9093cf17904199404d2594c9aff052c39f7, 0x15cd822d573ad325ff5f26ea46f642e87ae7c2b221f40fc8f61b1a68494b75c5, 0x5f6c4f65e1015de3f7fde77d4a5cb7cf09b86e43895ef3fbe336ab2059aed234, 0xa151b1b53694d63d337babcd80cd9daea5d9758cc0be0982d6a0edf910658bd, 0x380098baadd9adb0e82397b613a1172a68ee7e74da79c41209575a7bb29e979b, 0x5b32647b300b83b7e1dfd11f1535a3501db11f45adb147dd4319cd6dae176330, 0x4726a9b8907dc919fe6d4cc185a24cc1203e109bf79f74b06a3dfb0f3acb7fe5, 0x14bee4a14e9c45671d3ec0cd9fe624e545d3d6b061a1752db20405cbdd628315, 0x6482b14b94f0e0388121433996fdd0cbaa056b045b5eebb852aa1b3b22c75200, 0x15e68d0e1eeff15cfbcfb892a64feac28b028f31a51a4b7d6f9447eb9cba39a5, 0x2b2e12d826243ac3394a5bfceb957a4c4678176e7669389d8d68bdacfca124e2],
    [0x22c74bcc2615a595a8f7c0cf3616f401991f4acdb332b532e66666661999999a, 0x2d32480e2d49855801eec08ea2740a83cbaca7ffd84254a50c25d818abc6398f, 0x5c47bd1776a2a733026496795aebdd3f3ed1cd02de2e7c1bfd6d6fadf244171, 0x5d58282e3ef942598b0d694abe1633a2ab396431e29197ba05346d8a31071902, 0x5f9e8bb843d0a58693d962abda76081d2c7efcf4f8188335fcff9fde8bd5021e, 0x48173655bf5fc8e7fde5cccff8171c638cb737a8db7c90c52c19124738a84440, 0x3864613539a469f0af77465d7da44e3dc3c778c526f0a9ac84b3648519939515, 0x2c0c818e216b2b13a0ec83e901a684df14b204c7f73e8b81f00b7a7471da4acf, 0xdb77d9ec56568698202966228f91c0a2b9b2e4ce139d7db5df46baa6ad0521b, 0x580f91a605df00fca778d148e5f941c49202b0bbf6b4e4e2fa1520e8719117b9, 0x2e7bbad7e6b99f1fc1fa6a0bce54514d91eaec7d964eb94817f1af34fb170f, 0x659c41621fd58558ddb63c56cd08bfbcd11f3706021a3c824c735cb2f93cab9c, 0x21acdd6ded4d40c2652f2e8321347d005c14a5af02d528d4064781cdee31aeb4, 0x5f0d1d3976cd329950ae389a65cb1947527e45b1b528b36ea03ae514d400cd0b, 0x4c6657be4b5eb4957a712470aa832e89171089324052b5c770b9f6760642b5ef, 0x6d34a81d545c3cb409d1ad921064f4d4398d680848d3c959a1110ccac148dbe1, 0x4a4b76097d4251e1f52ac31eeeb64ad53cba634c1181eb7a4669b3c6daa1d5f, 0xc56aa0f7ec243b8092dd1d57ccae4c88319551dc34ce5ade16c5bb511a2a1c1, 0x5c459555095a686a65fae8d6699ebad1dba7e87827241c1b2de4f9645ac4573d],
    [0x22c74bcc2615a595a8f7c0cf3616f401991f4acdb332b532e66666661999999a, 0x5baa9d866faa31d15346eec65a155b035eb4e9a429ef4a54ca2b66e9d8d75c64, 0x6e5e1ee3eecf367e6e509e576ff0cb0c81c377bcd3d314d8e932ef877fe8231a, 0x26ca421c14fa4a9d94c9fd48399cf17123670dc800666bc1eae489b84995a779, 0x5fd6ba713e9849a4f8bd95c5fec77e3709a5e33532dad08c9c9c9d9567e625f2, 0xda9379f06dbf51a8e678b99ced3a26108ebe10110b177e9bbac4c8c9650bfab, 0x16f08d188ef004842343c1c45be7ee032053406db8d6e484d53948a3403b1003, 0x17a2522ec4294b9274d0803c4d6481d0ad79c6f497b38ca5fcf034e5474c541a, 0x26d359ceccb684d9b5f58d42977d6c7289f38ae168a938449a50aef10e874e3b, 0x1d4f3bbc81478f34a67313a0861af11435468ad0e10c5589e0376d00aaec8b03, 0x6a7a91f9dd50bb888428cddd5eeb14e307370192ec37a6a4fd5e027548009eb, 0x21fe5f4bc3f79ef53c7ba802d0e072aa274cbcdbc2f05880c1fd6df81f3edf2b, 0x1a74b549fa243a35112ce46ab3082aa40c6846fb547fc0491565b7ac45827430, 0x4de9fbc64436f1f6adf226bdb51529566b47ecd89dede794ff407715bd47e731, 0x3c730f1145d733d4d753cec2fc0215623bf8feb81bff683bba6f2dbad03ab7a, 0x64b2fc5387f290686799872f794f605ecb424a49b0afc4fedc0f5a392fd26657, 0x1e16a04474921060810d7d05bcc3b1e239aa5e62a38567a9f756a15d59505d29, 0x4e04af3107ff7ce8d9150a033cff2a0f06f2487c262e6a9ac8d26846d3eebf60, 0x34568b631c7b8021b880b3454e596dc6e7305cd23bca13c526fc825d32af3a3f],
    [0x22c74bcc2615a595a8f7c0cf3616f401991f4acdb332b532e66666661999999a, 0xadd8d65132a51200708f34dd5b8df8324c780350ef1d228a9d921c1a11c4405, 0x4b1396e1406184ac379dbe6acd7e475c9bc53f6fb2db73d370c1f568709c1858, 0x655111e8ab4a126a627433cbd7e1b05e6876540aaf411bc3fc18945ecf91cacf, 0x27fba47db2d6a08577930d40ae648f60937d6b75e7c64dff3fa4bd10e49660a3, 0x4b548327350f1b1430aed70bb45634b340650619b690f2c31e1f467d924bb5d8, 0x49b36b5089929c4761b84d2dead14c1033c852ac0e9312514b22f1e13ba726e8, 0x2b8069598fc2fce24e6c0f31336d6ccd96b261b8238bef1e0383bc9224e4558a, 0x1dc02b586b4a4aa1b457675b79ada2bdf628dd7ded8a10d488c75013fb82b9fd, 0x32df5a0a9c429c4d79bb914d2d6f67ed56601457813a79787abc0d7b33a85941, 0xfc1d8618b1d459fb3fde60129af30ee493799a85e1295d53698943e8d7335f3, 0x1b967e0922c7c9cc286dfe1a1b28c2297830d4e742b2627a7b432bd2647511f, 0x171d1398b5fadc5caefeff2fd9561ef784d06e0e5024d248d45e3d0c933143b1, 0x32584defa74c790c17eae2b87a3fe4fd6dbbc55b1c8d7cecd6f4a44c8d7ecca5, 0x60c6ecc4d35c945d884f8311e005d3e60100bd0584e471a68e01d6c2231ef124, 0x102f55808301e81cb95d4d7800d43cec122eeb4ef1f9c6c2a2274a6fa3b8e0df, 0x4822bf2f0bf4c21d391660c94766278e4aad87b517446134829e9a26e4af0bfc, 0x1d22aa75cf1cc5aa24f47177e4a1d55301e0cac7aca4cc567d2646703504d314, 0x40e9fffbde5e2bb63abf445138283fd82278abbd6aa07c97bb7609d0cec0afa],
    [0x22c74bcc2615a595a8f7c0cf3616f401991f4acdb332b532e66666661999999a, 0x6af392d201d2a6ca2b3effef83f21bf39261736f40563ceea819a5c14653aca9, 0x80ffd1f2667732c29fe4dd37e2aea16286604098c92897c44ecfaf099d76043, 0x26e064ca5fb44baebc7e223dff7702cb65f77c72bfc5b7434ab4019a3d646396, 0x300d675507801046389577062c8f2594b4036e6c9de347b8c3d0b1f5dcf561fb, 0x3b9f85679529850bd37a256dacca589e79e245008be1675084b4b6537dae032f, 0x17701642d7d0bfb63881ca83a72592dedddca24be07b34ba1ed73695fe3c8191, 0x2496493d24213d71d9e1b2ed83d3d711fc1fda576dbdae7b29e5ac0e7253d005, 0x5c795f9f8b780d88c2c9ed0690b0774549853710761f7809495bba546e9d6123, 0x2e3894ce77b338aa281c599b5c95c6b093499b6c4d9ee15db6841635fae9f393, 0x2e73ac1124c48ec82e68f402997fdb09b908ca8f81f3ee2c9d8fc23def73d79, 0x3f8ba2039f927acdc9981d31ec48d27b1ef47391dd1f357787478249998ca27c, 0x599c75f95123263e94952634acebc564e4d5545ab6cc06565aba3cc13dd76c6a, 0x16130dde0669aacbb9df43e4a2fb2816c1f5b69ac87c9b0b2235c6675b5c1cc8, 0x728e4d75864b285b33436788eb483e4c9343856f5bf1f38acf4b2d20b84e7436, 0x1b1f895b895e98fe54cacebb71383fc7804350f3e530af2255ed626ab9c39b3c, 0x435cc650445671eb2536b8a73bf1a50242a3ac1be1f37135d8188cfba563d9ab, 0x3d4fb48820f6dcf5934e4006d1be1ca3ffa462f4195a53ea3efd5b887f477be4, 0xe865ed705374a1dc9e5fa35dbd0bfa3c6e34f67a8b175fdf4e64e240f861296],
    [0x22c74bcc2615a595a8f7c0cf3616f401991f4acdb332b532e66666661999999a, 0x2b942cd54865f211261f16207d717edc6ed43df64835f3208e26c5b42e1f2a65, 0x21622205b8f7d469a3556f9976178f25cb6c15802accf84e7f8284f90bcf0b5b, 0x3d6a507e27157bd5951e8e42cb6fa214b04c1a434bf225f92e27de04b4a89d90, 0x38b1023bd903f43bdcda9aedcd273110452321c0cb6ca044bda91b0593aad17, 0xaeedb4ebf665c5091aeda2e0144a1909ea962b75dddfd6e0b5d8102c762285b, 0x5fed1f2950d26c71013fe4d1e1d56ae734cd8c7acba38110a12eee6d28ef37e5, 0x66d568e02b36a569c9d716474a166f70499c50ecbd76bff0fd8ed9ad24550e33, 0x68db8f23f794cc3ff4f330ce2467353fd38f18b5fc062823254c255dc390125b, 0x54bffc41876cefdfad988fcc70dc1668bd733cd5a023099e595c7d0e3869590, 0x34fc9c9414c4ccbb94f38f54d83e9f5c6d83ee189ca0d8323a1a751d75f630f8, 0x27bb5b8c9d154a47eb39a5cbaf3a243b2ed6a5be1b564c4ac48015d053906d88, 0x44042b00f332260906c0722d17899620ea43680bfa4ca862fbc5aaa9a32f4c9, 0x27512c839a3d0f6ac0875628e829bc8d97a9f3a97cbf766655ff28936107bceb, 0x1a6a660fb5b7e1f95da47e877247afc1fec880d3b6f9cad3db40ea28480a854, 0x28a712ae4f8a3d3820d71c15cda04368d21f8e182d39fdac65aea6823b985f2e, 0x543d1643f7061fc01bd37a4c99a10be50187b9f45fd839f9d7b155c3f7365554, 0x20313345edc55f17a956dd03dd6d368e04865a563d207e7724e970783c2e7cba, 0x50efd5b1c3e17d52a0d3eba3632413d9d2165c7fac1e2cd65872d9ac70b8c18c],
    [0x22c74bcc2615a595a8f7c0cf3616f401991f4acdb332b532e66666661999999a, 0x67055446f688a06f8959e2256300722379d9bab2cacb3556522323cc139226c0, 0x1cf990e6c333543c15a5239810aa3ccb6abd07b5e761f74f7bf3a1cf59f6464f, 0x54948cf4fbfc8e20fa3e73e36f479dceb7cb4a084f197e7db3d2279c56a87a51, 0x65e7d2a1abc7eeb0cee418d9011a577e894d61d80bde40b640a850dce7549db8, 0x2d4f849e858a13fbe2269101cbf33efc9596a93f6c33297ce1693c30e5ef065c, 0x55b80f63d7afed345ce683b72e77b0ddac0c58b8f370f2e29b20af824de4260f, 0x241d651fe4ffeab828e979729833d9d936e62e675614e70293ad8d2da3c46917, 0x710d5adb04d402f7ec4cdc6dc4e83a5db9b5404a153aa0c214f5e351bb0b8b0c, 0x18699338f3eefbf1a2343852e506796d508bce91d1b1a164b0d583fea0b364a, 0x3f3f6d03d7dbc7a35865bfa3c42e49753ab1c3bfb1b1b3a37e554aac51dff242, 0x373c49d279d71d6a06b7b82be3d30e51363aa956364e0c844a70917252ebd343, 0x304cc8cf4e81fd8b5f1e2f8026626b131c4c395ccc067639976ce445165f6d34, 0x5b5fc226175edd0313b673517d364ec9b6c1d41504a2b52095c9ffc50954056a, 0x31774a7495cfd7c81be521b15f98bcafaaa8c5e0bf7f07242e116fb9fa032866, 0x72b1cfaa05c15ca9e64bcca72d74564af84011d537fa1ec262fe9f9430d0259a, 0x6f25bc25187fdc526a171cb0ca04134bf0d13d07970485226c53ac2d9ca4d6bb, 0x230f7c7f7ffbefbd468c2cfd548d1d803e34a5db432122cfba77dde997c96362, 0x6570729fa9deff183f214262fe3596385d4c7d1b42126db10a117de39b1cc497],
    [0x22c74bcc2615a595a8f7c0cf3616f401991f4acdb332b532e66666661999999a, 0x28aa7d5187a2f241314656bafae2e23cb0eb060540eb777fd70d5b9bec0ced72, 0x1d0d7ded80b6ab9828a33cc02fbb48951c895625a7e8f248f02135b07bd0a879, 0x60dc4109bca138387c8718468f0d070ac75daaff419c9c9de752cc708b9d1a38, 0x71c0f58e8be87efdd5161ffe7e124965d85ea6ae6ec5be1c688dda5a7d1f531, 0x1a6b1869d40b92aded0f567e3ec6aa86120e8ff83caa70a4369a0abbfe08838b, 0x569f4cdc32c5fd8a0edd3f69a160a3e6b68244b0b4cc987bc3ec898d7a55e02d, 0x1036964cce58e12e414b797a7ebb41df1768ba4676745117a311456501d3ab39, 0x1e74ba8a247012b76763a52173fa336dc0b475191bbf0ac43820d00ab1408ca6, 0x632d9df9893f2b6e344ab1cea1ef4b6ea932a9b8ace04085dcf5df7a8b714994, 0x71dc348db2bdca84ba63d9bbe2607932516e31823ff4ec33b61eff0fef1c48e3, 0x5a19be9a4f9c040ca0a7732fc5be123525f35b4b5765436a6a048020d56f23b1, 0x4313870c0e4b41b451861a79785eaa5f96f03b31aa9ca2586eab4729a7e0786, 0x1277c82e43649ad5a235f1e1bf7c865e4cda1bb598ff6ff7230927aab9e57225, 0x2d3307a664927873e6a80356e520a5c70c2fb30f5cb9123cb9c3514f4e88ba28, 0x3bb5fb4a9954b9e6f0f2392c7c41847d25ff0e9e0b37e82b1a224775c2356935, 0x5edc22b979f30f39ef5b2eb847a7a3b93c359f02434bb120e928bb89fec9641e, 0x7037b2765ab59c9011d6040b312158a5f3f19e1c0384dd3a8a0b57d05fadc868, 0x61e0f440d7fe09e1a23590bf81583cb60b87308000497dd66606c4db731a1ef9],
    [0x22c74bcc2615a595a8f7c0cf3616f401991f4acdb332b532e66666661999999a, 0x68bf45cb25af23a16cfd1ff5a01e2f003c8d63a648a90e0f66f015dbd905c82d, 0x17f3769078638dacd6212bc035dc8e83dd23875d62df5fdcc1a9365fbe7cf57f, 0x35c9fb5759a0d677c7e95b3fedc10257de26b37fc0aeaa748a94cf0d73920c6, 0x72718a78b31a037b339d0aa5568eec039599da0cc5cf84384deb6c90266345ed, 0x728a43afd49253a0c6f6ed1e317874bb2b8fbd70357b2103150d5fbff6e471a2, 0x2385ba942ec962d9d3587f5e8501f075e359c4dc7cadaba4d2989beaa180b976, 0x2e8599428a385221e6fc6f76db5205bf3bf77285af7eb45d89bd4e3c54012b6a, 0x27270b8b38f6e46b96fc8b5554978b247c56266804d311c44b31964847bc012b, 0x300727fec1b46bfd1ee9d13d3dcad6164b82ca26ce6714918cfea6b8e2b759f2, 0x554ac50a9c8987b6f95392efe7f0a104f9f60c0c75bc0e6dc69af6b3e436a09b, 0x124b42d769611130c293375300a9612b8eab064061481f03519feb50bf0e51d, 0x5d66972b117def037ee60348d1d8c1fea5bd1242a63f1d8cfd9b5a1de422b6e1, 0x67bbc9ea8aa6dcf093ffb31b3a0e916ad2e34fde0db80991b2b29d0490eb9265, 0x61c05d95369212f90f33c320b6af1d6b9ea0dbfcb9b166fd167fb06bfa64619b, 0x312ac510c0a6db68abb0063062498f68b5a8ba2320c9bf593b1d88e73b3a29a1, 0x2d89462ad04940b47dffd086913537ad4e0e12763b1fbabb83f9101880d587a6, 0x57c5587bfa247da8f8db30fda1487b88248800db86ff4c300b1f8c2e48f1a7f6, 0x5cdff5c85aec123ed6c8d12de02304dca22ac3b71d156133ce7466ea19f7dc69],
    [0x22c74bcc2615a595a8f7c0cf3616f401991f4acdb332b532e66666661999999a, 0x25cf142b8ca478ec2ba16966e20a851ab33388063a7c1d54132e7350d27978ab, 0x3b1d595f0fc1955b38108690d5c66b84d818b738bb37b61a3f9b515be1e543cb, 0x43f0f92f625838a5d151cacfb7ad991d3e1b4aa408b11191cba2cc6eee9ec09a, 0x5bccc122114d8adc3ebc1f9b9c68b7f9ee2fa5c11dd4fc1628bd686d5fa31c07, 0x478a2067e44fa4b62bc68563bc14d07b240667ef66c0e486ab81e80aabbbfbed, 0xc450b3d98172289ad829ccffbfc81cbd49a951b29fd9d0ecb2715c389ce4b7a, 0x58918489825bc7467bd23c1043481d0135ef1cfab1455a393918a9f3581a45d3, 0x3568c0d3c70e465a74d8938ad56a78f292af8eeb10e37317db8fe1ed7f264859, 0xc173661bf17763c7a879ff55ec3ce99afc2ad4f1f2d8f6de71be994132672a0, 0x17c91758c71aff2efe028f1725ad001189b3d22a9b9cd85a63f0d22602777963, 0x56ac50e4e0e8b22fcc17c11dd62b99b70f73d62b5e6a63291a91a5b8738934d2, 0x6550a95bd2abf34c08f4a592d470f3ef01f3f50cc2c49c67489118f6a6d2146a, 0x65501bcc10b1e44a752d85376f757603f9194a881b90aec058d9063cfe3fdc9a, 0x3f632ed5b29eca9fde046811660aa4de219ddd7a376acb4342a4b984eb2e134d, 0x8ea3c11e9049fc135b2a124923e73f73dda049b71d78d5a1161de6085ae405f, 0x24880ac33fc209fe033c9ba0c5f62669d61e1f32eac599ec599ec200594bf4d4, 0x895bde9e6eac003842dd01db60d3d2297c25dd1dc57938a91c7282ec261e4be, 0x41fac83bf9a4ea96e49ff0004d6e659c89f46884b718ce734891d6457a2c0b76],
    [0x22c74bcc2615a595a8f7c0cf3616f401991f4acdb332b532e66666661999999a, 0xa89f80f5688dca71c698b0407405143fcfc8d10a57bcf7c59f86a8b6b6817a3, 0x3f3bce077e0adfa41717598b455b24f86ea4e669d6950c85ab557f9aa65b65d2, 0x1ac0b9720682b6ebdf49331f3945c05fcd6f894db7bba1e7a6f234af58b69c4f, 0x3e6c2a5fbb8025fa3113e7adae93cf2d3dfb89f430c3f61f8b13558d8511a763, 0x621811b798d7ba80dafefbefb03ece7dbb2116caf6f448a16a736eebff2bca77, 0x62179cb513575c7a7ba4d4573cbadd99eef460af5bcb521966cd046d9a279277, 0x6d1c174f540f1e387186988725f48b4b1884edac061010cdf3066306e828e710, 0x368de148903cde9266d8c37bedc7c6778e7637b7df7e7ac727495b0707bc0f88, 0x4aa78476ae9853c74d23f83d031e6e4f1e9bd579b5788820b1b3210f8f1ea6f, 0x6553e7117cbc008d4ff07b95fe0d8dd1ea488514b28d9f347861203a5c2a25a, 0x1e61cb583df50d7704ed9793018f39d66590cc636085344917fd294c9aef8bb, 0x1a906ff9b48ea2681e914464e028a9565c683c37c820c22e89d494ebc63e4175, 0x2fb0a8d7b3c1303bf885aa39dd19e94b8314e1b92df424ae2cf8f5f08dab16fd, 0x1fac8f6a58b569ea08cddda6caa30649aeeab8e91e10e7643de41f126a38e242, 0x36782bd43cd16208dab0b5966d7718be112ff148342352611a66a7662b5136da, 0x10d5b45db498e7e68d51553a1e37a052370a7c9c6792a5130eb2ba43e0042d13, 0xce738f859faba02515c8834701924aefc59610b59fffbd2aefd6d24994bf80b, 0x41f661e26ee869c9c41078589e2bbcff8503ba67308fd021a841e7d16689855d],
    [0x22c74bcc2615a595a8f7c0cf3616f401991f4acdb332b532e66666661999999a, 0x2a27dfc12667d077587232415de697a38b3655b01877c579ed17511216fc378c, 0x544fbf824ccfa0eeb0e34efcf62bac1880f0121e06fc754ff5947a88cc990918, 0x3e6c4667db54cd4e42fd0ab1123f66fcf6ddd731cb809ca01527f9f21835bb63, 0x47572be46860eaa2959cf8dfe9335944c34497e29e4a9ee7832ff357809ef628, 0x50421160f56d07f6e8827a53353b4ac69e5d57f39e5613d2a95794f1564402ed, 0x2c967b6ec13c92a59d6701bd2f2b46aca3dba7a68b2c8625dc856132745546d9, 0x3d5fb2efcabcc9daee0cc9aeb4d5c8f110f69b904a34e07e847c24d8d94ada79, 0x4b033008a274f6b63f3852295cb34aeb1a4a9ab12d4407a7f16f9b223b9da65b, 0x41ae463b0162bd12b6c9fd2295e23aa05001333b501c8e1e560dd6254b830bfd, 0x4b4f8dc1ecdaec4a89322b410021ded62bb844994313c29a48ebc61d38081f8f, 0x6aaa38125e62ea3453e6eeb09b01a3c99125469b526b0570437e8465b43d014c, 0x665e5faa4469e8a62e855e2ee34a2dd41e8b67cbf850f1eb2e9f7813a8a95785, 0x4faddfecce904221d0ce709605f8ea83a327984223594fc62f7dfa1742748b5c, 0x449986f34a8a22aa7fb8e4fd42f660a5be285ede62803265ec6b44dafc10c19f, 0x155d132b2568a00bbdf323e512037312586aef01b57bcac8ff7e0c7b366b58a5, 0x5846321d587e7deca4dfdee729f9f1b83cc743d94df282246a6919a4b6d14563, 0x5d416d0f6eb678e79908278a400bc068962f36e5e8ceaaa8d1b52a3229591ed8, 0x4d455180b31a1b275184b2efdad0682206d87efe371454f9bda3ce764db7233e],
    [0x22c74bcc2615a595a8f7c0cf3616f401991f4acdb332b532e66666661999999a, 0x544fbf824ccfa0eeb0e44005d875b460f72046b66d78de57009c5f8cbce9afd8, 0xa89f7f04999f41dd61c8800bb0eb68c1e5512a2009c4fff5d48302f8dc33ca3, 0x592cf6dd8279254b3b18cd900768cd8df4bfb5fe0398a19d6805e6ada528f0b2, 0x50421160f56d07f6e8631f6806ab1f661c9ada4988cb32632ed4f8f99b20f06d, 0x2c967b6ec13c92a59d8c66c803b466c70b3f0d5971014fdc2aca51475ffb0659, 0x592cf6dd8279254b3b18cd900768cd8ddbacdf132edcf10d6f1ba49be2359532, 0xda37d18d7b82cdb5152196a5b7c73c47444e9ffec6775c2b681466ca422a462, 0x5f786bade60939ff393eb1e880672a5eb6d695e1347300d739be8347c5f4c48e, 0x5dad03a3e49969fd503aa1172385f2b76e0bd7abda349ff462a33b001c2bb6f7, 0x6881c427c0906f025767180b49f84ea3c47a4dde4756b98d89eb565bb79e7e4a, 0x71fdd9a2e5e88d26a1b148790285b98ce8a918c4b8eaaf861e8f0602fbaa0d1e, 0x72389c65bcdc32edfad5801d7a09138e0f8302b32b97228de7a8d8101d09f084, 0x3e7a989549f146288c18d965f392d7df0a716547e721a9906915d923bb9c092, 0x656c03ba03e0caf51dd5eda3b2f07f31148dc3e38c8937a2c3fd91603cdbc142, 0x5c63f95562d7b42e82954c7d7ceef78cd9e6fb05cddc14b2d94407721c2f3855, 0x38abc107e2d3384c2d26a29cb8bdb255cb0d5e658f8919c31d46e2a67979a2b2, 0x2cca00fedaa0c5bfb84c04572490bcfb6080efaa0918e668d957a3bcf3437aa3, 0x1218368f13cc773e64c055362580b7e6c052a40325d90e79bd371c55d5f3ac15],
    [0x22c74bcc2615a595a8f7c0cf3616f401991f4acdb332b532e66666661999999a, 0x1f9de7d0dccddc5982559802312c23a45ca815752e8b305cd7c3aec3454e4879, 0x544fbf824ccfa0eeb0e44005d875b460f7158e8dd1732ba1db3870def2122c28, 0x2c967b6ec13c92a59d8c66c803b466c6f8d2c8ed7626c0edbf5af7e724488ad9, 0x73eda753299d7d483339d80809a1d80553bda402fffe5bf94f919704df8f7121, 0x2c967b6ec13c92a59d8c66c803b466c6f8d2c8ed7626c0f6c00ca6a237b768f9, 0x8eae57c8d0c1d5452b5ae2800bdae27cb5d5b62b13af35579d8aa714d808e29, 0x2218b8be1b4c70244b4d3f89e4b7216afa83121effff84819caab791279b6a15, 0x3d5fb2efcabcc9daedf1725e9bb008f3c2ebed6affff21a13eabe0ac1a263f59, 0x25af88d21e2c10281d55612c9e7990b99b9e5765a1ae9fe3d3afb614b0b4976b, 0x5800097cccf8b65f88a16f9fb387a778684b4cca6c369bf146fb586ef3333334, 0x5b9d0e09b3019c5b227f551c4b6f710788d389c1df3f33c15eeb63127e2be2bf, 0x123e8c9517b37e46c7cd3df5a3185855678ab08c130b1d285e9bbb2fe7ce7ce8, 0x71cdef5a3e3a81a889cd0894350d66780c2d58ca98342bdbcd1d129274bc2a6, 0x2a35285ade4cdabf2b8197adc83f2bbae1631fc883c4a6da08f9c60c20b77d00, 0x1030950e6cfee581e2b18fd2ea6a3f4142e8fd639e20bb56b6850d2593b0ccdc, 0x6e225a0b2b55b8299fe4c528587450c310422b02fc47b45e03c9ea2b4b0b6153, 0x4b2ae4ee1ee680286747ab8692bf4a6c13a737a46f1ddb385f2abfdc95382e0c, 0x6b14a28916b9f733f48c1920cd382b9b05705457f6d177c62f6eedb2672ddfca],
    [0x22c74bcc2615a595a8f7c0cf3616f401991f4acdb332b532e66666661999999a, 0x49c5c7920335acd0dac7b8051d66fdd4d832dcbc1744c62de8ba2e8b00000011, 0x3f3bcfa1b99bb8b304ab300462584748b9502aea5d1660b9a2e8ba2dffffff8e, 0x2c967b6ec13c92a59d8c66c803b466c6f8d2c8ed7626c0ebec4ec4ebec4ec6b1, 0x1ac0b075a72457fcf8210a7802390a776218122813b0da2727627627276271cd, 0x1ac0b075a72457fcf8210a7802390a776218122813b0da272762762727627d1f, 0x2c967b6ec13c92a59d8c66c803b466c6f8d2c8ed7626c0ebec4ec4ebec4ebdab, 0x4431717c3698e048969a7f13c96e42d5f506243dffff08f05a5a5a59c3c3c886, 0x368df4635ee0b36d454865a96df1cf1190d1b697ffff3a59e1e1e1e169694ce, 0x51790cf9746de389ec8561eddf2411df491e3e29bca087fc207ecfa6878787d3, 0x6963af62e003892a5d1d50074e93217934daf23145cff68aba2e8ba200000001, 0x6a44840c3b7b082cd99fb0b208d45b5a376dd6581553d4546aaaaaa9c0000001, 0x6217dc5a0f85429f8dce7bb808267bb5bd02ed3d9d88753a3b13b13a3b13b13c, 0x4a867dda0877876545809d29bd0c9d27fef9e96fa4913b23edb6db6d12492493, 0x3dd414f92742ed7bd70dc88cd1efeaad81febddf77769776eeeeeeee66666667, 0x6caeccddf703a573b0063a878907ba84fe81c9c2cffe763f0fffffff10000001, 0x1b46fa31af7059b6a2a432d4b6f8e788c868db4bffff9d2cf0f0f0f0b4b4b4b5, 0x46d8580827a75ac891152076b08d923c24f3e43ab8e28d8d9c71c71bd5555556, 0x6dd3abfdf187ba0e815f38736770e79941dc14a486bb13c9286bca1a00000001]]

/-- the inverse of the matrix (not in the code) -/
def mInv10 : List (List Nat) := [
    [0x13de7a8068, 0x73eda753299d7d483339d80809a1d80553bda402fffe5bfefffffeb9deb710a1, 0x8e3e8fe8ba0, 0x73eda753299d7d483339d80809a1d80553bda402fffe5bfeffffdce412a34841, 0x56825b36c4d0, 0x73eda753299d7d483339d80809a1d80553bda402fffe5bfeffff7594d4752b81, 0x902e9805f2b0, 0x73eda753299d7d483339d80809a1d80553bda402fffe5bfeffffa17d80635ca1, 0x23708fdabd44, 0x73eda753299d7d483339d80809a1d80553bda402fffe5bfefffffa316f2e85b1],
    [0x73eda753299d7d483339d80809a1d80553bda402fffe5bfefffffeb9deb710a1, 0x14f4a5336db0, 0x73eda753299d7d483339d80809a1d80553bda402fffe5bfeffff6c47e0b5b501, 0x24ac2119fff40, 0x73eda753299d7d483339d80809a1d80553bda402fffe5bfefffa52a436ce48c1, 0x91fbf9ec6c1f0, 0x73eda753299d7d483339d80809a1d80553bda402fffe5bfefff675621db95a01, 0x646997966d960, 0x73eda753299d7d483339d80809a1d80553bda402fffe5bfefffda3a7f1a3d051, 0x633b2c647858],
    [0x8e3e8fe8ba0, 0x73eda753299d7d483339d80809a1d80553bda402fffe5bfeffff6c47e0b5b501, 0x4176f980ece00, 0x73eda753299d7d483339d80809a1d80553bda402fffe5bfeffefaa02df790a01, 0x28a4b2ac0102d0, 0x73eda753299d7d483339d80809a1d80553bda402fffe5bfeffbe6c95946e3c01, 0x44d06b7733d400, 0x73eda753299d7d483339d80809a1d80553bda402fffe5bfeffd29921f62a5101, 0x11203663857f30, 0x73eda753299d7d483339d80809a1d80553bda402fffe5bfefffd2e50a5df7d81],
    [0x73eda753299d7d483339d80809a1d80553bda402fffe5bfeffffdce412a34841, 0x24ac2119fff40, 0x73eda753299d7d483339d80809a1d80553bda402fffe5bfeffefaa02df790a01, 0x41838077c7ea90, 0x73eda753299d7d483339d80809a1d80553bda402fffe5bfeff5c5d2fa42ac781, 0x108ef3757babd00, 0x73eda753299d7d483339d80809a1d80553bda402fffe5bfefee91f230f715401, 0xb882068acfc3a0, 0x73eda753299d7d483339d80809a1d80553bda402fffe5bfeffba3a63c95b6221, 0xb82dd455a14e0],
    [0x56825b36c4d0, 0x73eda753299d7d483339d80809a1d80553bda402fffe5bfefffa52a436ce48c1, 0x28a4b2ac0102d0, 0x73eda753299d7d483339d80809a1d80553bda402fffe5bfeff5c5d2fa42ac781, 0x19a238e4a460220, 0x73eda753299d7d483339d80809a1d80553bda402fffe5bfefd65e8e5ddfdf101, 0x2bf1861a3e5ba80, 0x73eda753299d7d483339d80809a1d80553bda402fffe5bfefe2da94b4cc30ec1, 0xb0bf5223eee248, 0x73eda753299d7d483339d80809a1d80553bda402fffe5bfeffe2c77e8b07a3a1],
    [0x73eda753299d7d483339d80809a1d80553bda402fffe5bfeffff7594d4752b81, 0x91fbf9ec6c1f0, 0x73eda753299d7d483339d80809a1d80553bda402fffe5bfeffbe6c95946e3c01, 0x108ef3757babd00, 0x73eda753299d7d483339d80809a1d80553bda402fffe5bfefd65e8e5ddfdf101, 0x43cc688042f3d00, 0x73eda753299d7d483339d80809a1d80553bda402fffe5bfefb8416e2331b3801, 0x2fb1983254c7380, 0x73eda753299d7d483339d80809a1d80553bda402fffe5bfefede2da1a6de0dc1, 0x30016552737330],
    [0x902e9805f2b0, 0x73eda753299d7d483339d80809a1d80553bda402fffe5bfefff675621db95a01, 0x44d06b7733d400, 0x73eda753299d7d483339d80809a1d80553bda402fffe5bfefee91f230f715401, 0x2bf1861a3e5ba80, 0x73eda753299d7d483339d80809a1d80553bda402fffe5bfefb8416e2331b3801, 0x4c17b1e8bbc5800, 0x73eda753299d7d483339d80809a1d80553bda402fffe5bfefcd4f9e7de8ae201, 0x1349b42369d0910, 0x73eda753299d7d483339d80809a1d80553bda402fffe5bfeffcccb4ea80d6301],
    [0x73eda753299d7d483339d80809a1d80553bda402fffe5bfeffffa17d80635ca1, 0x646997966d960, 0x73eda753299d7d483339d80809a1d80553bda402fffe5bfeffd29921f62a5101, 0xb882068acfc3a0, 0x73eda753299d7d483339d80809a1d80553bda402fffe5bfefe2da94b4cc30ec1, 0x2fb1983254c7380, 0x73eda753299d7d483339d80809a1d80553bda402fffe5bfefcd4f9e7de8ae201, 0x21d493526e6bc98, 0x73eda753299d7d483339d80809a1d80553bda402fffe5bfeff31acacb286eb51, 0x224a23cd2de490],
    [0x23708fdabd44, 0x73eda753299d7d483339d80809a1d80553bda402fffe5bfefffda3a7f1a3d051, 0x11203663857f30, 0x73eda753299d7d483339d80809a1d80553bda402fffe5bfeffba3a63c95b6221, 0xb0bf5223eee248, 0x73eda753299d7d483339d80809a1d80553bda402fffe5bfefede2da1a6de0dc1, 0x1349b42369d0910, 0x73eda753299d7d483339d80809a1d80553bda402fffe5bfeff31acacb286eb51, 0x4ec5bf6c0ece6a, 0x73eda753299d7d483339d80809a1d80553bda402fffe5bfefff2e3a6045f64d9],
    [0x73eda753299d7d483339d80809a1d80553bda402fffe5bfefffffa316f2e85b1, 0x633b2c647858, 0x73eda753299d7d483339d80809a1d80553bda402fffe5bfefffd2e50a5df7d81, 0xb82dd455a14e0, 0x73eda753299d7d483339d80809a1d80553bda402fffe5bfeffe2c77e8b07a3a1, 0x30016552737330, 0x73eda753299d7d483339d80809a1d80553bda402fffe5bfeffcccb4ea80d6301, 0x224a23cd2de490, 0x73eda753299d7d483339d80809a1d80553bda402fffe5bfefff2e3a6045f64d9, 0x22f6429f019dc]]

/-- the tables have the sizes that the code reads and load without a panic -/
theorem sized10 : (opt10.sized 9 4 57 && opt10.below blsMod) = true := by decide +kernel

theorem ok10 : opt10.check blsMod 9 4 57 (opt10.plainC blsMod 9 (opt10.plainM 9)) (opt10.plainM 9) = true := by decide +kernel

theorem inv10 : invOk blsMod mInv10 9 opt10.m = true := by decide +kernel

end Verif.Poseidon.Bls
