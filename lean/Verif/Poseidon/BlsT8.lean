import Verif.Poseidon.Check
import Verif.Poseidon.Primes

/-!
# Poseidon over BLS12-381, 7 inputs (t = 8): the tables, copied verbatim, and their checks
-/
namespace Verif.Poseidon.Bls

set_option maxRecDepth 1000000

/-- starky/src/poseidon_bls12381_constants_opt.rs: C L571-693, M L2372-2453, P L4494-4575, S L9103-9959 -/
def opt8 : Table where
  cF := [
    [0xb033ae725ef356d790a3626bbb80ad2661f511df9668a6a4be1f7c53f36dc1f, 0x13f501d0d9dc8aadb12b05bbaafb081ac0708ebf1cd9b8f9ccad2f1dc3ca1a21, 0x46c9504b0d0f14370d33082059912b7d50ceb8bb5402d40dd460134715c5492c, 0x460704ba881076db8ec107657ced05d8f4d71e74bd4dd837835315410b5e3a05, 0x63dcc2ef09747b4b5edad46eb8a406719dbf17ed140e6bb23a39be3723db3b0e, 0x733e1da903b29ff523fca0a872b82b14237a51980773e3a104ab8d3f87081f33, 0x6fb59cb719be2ea6205e4e784ac902fe50bf8cde969324fcf910b6f19ae9ff15, 0x3228930f17e942783e49a4adf7b0f34dea733a0416d3132f072b7942e2a58c11],
    [0x142a5c1b75703387661c33ef67f71313ac77aee5e8598719acef91c8efc39e8f, 0xf55d5205a9b2ec4b1889181d8a91ba82f727bfffc16a0dbafaca4aa49e65b74, 0x4d7f68ed013814344f9ebf6621bdd416e6df431c78876cc8290a76de9533aedb, 0x32807679e0eb735cb76037ef6654e3d7a298ec674963f38fbab22a3e5e363866, 0x4b8f666f0e38bb12ca3ff9ff1dbbca128ad59e5e95a1c1f652a8e47cafe56c33, 0x675b6913088d42b629c016bd458be340ebe9bcde5a998c2b99eda7b0d501126c, 0x5b99d4432eb942ce0e8f4f77f8906f861da3c4943c8e75082e37a1f2f9285431, 0x47c5ac71444bad6f5398551b1306e506e29ee069bfc97e83193230d2af956813],
    [0x4eacffbf650a67503b9feb98a5196e52651214feb8906afd96747a1ef8350d38, 0x15d3362924920edff836f478a240a3c2f4ad83ba44195088be37669574296432, 0x25080e70644179d7c13a657a28c07118badfa2e7c6ad833636bac7cfe09b4bcc, 0x4e8e83cfcc5a085364e6a4376f80017f46d7c974543ce4316db69401cecaf9a1, 0x16cd2add63cd1e5c2c17c96b3dcd0a90176bc96d31484cbe0dd64bc23220193e, 0x4575203283f097e005543949b1702a13b13df69168ff611da6c609f306f6a164, 0x29fa855de8dddfc3c431ed93365e8e42f4eacb7ee4bad8c46385b0584041e8d7, 0x5ab653789e04798915df02393191720a330aba72894d24b8173c520191053bee],
    [0x26e9b1b9f476c68516d0f63884dbef6e2f0548460bec179ff43e80e056a5ba26, 0x3b0932dae2920a27be4785c4e7f77fded867398997daa157472f59557a78496b, 0x3e78f04ddfec52bd8c0c52b64e93a235bdb74e89d0d555650a2a3e49daa38e5b, 0x60ed2c22f6370bd44ceb15e16c474c8a1f6cec541da6149bef3ed95ed8043ae2, 0x47347a3cacf7db6ec4240183104bd6d9f1e1f80e41c4baeb6304dd01259ed4d, 0x65e19e08587b1f214db6ef4e8ae77606ea99bf164a9b79f1052bab111bbdb1ec, 0x30edc1c1792a4ea0c43a1063626fd9f229e9acc7f93021d57bcb86dab4d059cd, 0x15bd86cd4ed72faafdbefd40bea64ea6cf43413f36b1b4aeab9c2a08730827dd],
    [0x555bb0fba0129113c161ed965e523c2128d8d24da51df32a75921142d8a6ed9b, 0x9795a64fa9b7aa794c9d60e7e27edfb0318a84ad0769ec1a5ce3e7afac61cd9, 0x5ae9134b9d3e6b53a1a3c00707e471ed139b5ba924c61513cd714a76550b2ceb, 0x11a4fdc2722fddf2a62e3b611e6dc6eae8db2caa5e40dcf352558d48e7adf972, 0x42778259eb90530496cc258a1a402b6274f616f82436df5d87895c9c603a94a5, 0x1987f2fe7591a6ee5827f335e3911d301548f911925b313d8deaa66247406c55, 0x28038ee02d2d1975e22acfbfea7ad30f97d0e037980f84919ec68bcf2cadad7d, 0x570efa0126b2708f70b6aeef8eee22fb5ea6a022fcf2d40a697a943d7ebc1b13]]
  cP := [0x1582fe30475b4494729faa44fa5274bf8063cc0ad1bd24209972c5aee548f699, 0x595b2140e7b08e4741bc823362ac8a7301504db68f092f0d5c0f5af55a1bccc3, 0xa8d8dd6491cbfb4b02ad75d479f821fd450d3b4d727c52ee49f9e2721aa1595, 0x2f974d022c047260d6f9b590eaebf591ec3c094f14f2a2b05fba09d3029c01ea, 0x50e1b8b0cdeaddcda05e8a899464d5bb41498c2ac8b86b120fb6702cc332566c, 0x58a991731083f92100a019a2f4ba4a3e06caa9d408a8bfa809670899a08ff625, 0x482b8ef1b975414d985d48700c0af6b088f162d3c698f606624a302c0858af6d, 0x10976a05112e8efeb5c22d734e351faeadcf9a9f39ad04df4e4605d0525031d4, 0x7724f3816f35d99b14b8d7e2bb756d5e4c0fd3c691fcdbf9659bbba724c5855, 0x544982425a8f3b6957c15c2b9e64c7b654cd0ae83b6b89c6b57276ca356fae15, 0x4f6af4078d33ff87bb802efe581273f7392b77965f11e0d76f070263f0b6b0bd, 0x46e5276643f8d230e24ecd38f4564b22ca3a13c7cc8b636206bf49fa065c24, 0x524b495ad6db942d92d8122005c2e1e46b161e6f55ca52894f41fbcdc1cd4a6b, 0x55388dcb32d410a2386920b5c5f63617394ed6c99c4bd611fa8ca18b7193f2b6, 0x60c31ca7fe274b82b4ac642447b4ae2baeeec6448f6ad73bd119df0ca1afde3d, 0x508644bea0503bbde2ba27d9bf2a84d5d11555b9fccb494489d840a1ed29bf1f, 0x71531891041c8ed45ba1a8223030d482576654a93dfc3b730ed4b2398e791b43, 0x10857243df0d3eb8b5baeda1364624f36eefba8dd423b3ffbb27bb764b73a013, 0x194b938fc3d2c3f65e89c58f078b06490769381ff8385dbf32ed1f156d2e1e50, 0x54d1f7195339fb0cffc5f31933b7195fdf2dd5d8f260643016a9f233d274a206, 0x36f9701b25f307f6e7fad41bba229e856a84b19470be88883fa92aa8dd0bf31c, 0x5b545147e10cf6b8eee6635b5967a5a9d9993f5f3f0f259f15281569cab7c0d, 0x6fcd9f46b4f321129bcd67fcf8e01d10c98997256c2b43d166eca55e4b3ad60, 0x1bbd27b46a85fdf8e57b1410df9960c646305a7d4a189ae7f02a0c9810ea6795, 0x599d6b3fc62662619a085d257e62cea2ba75a0f876fa60e83524fbec0089d6f7, 0xd8f97964a4ed303bdeff02526f3f7dcfa37bb58791415c672dc223cf3e2f46, 0x19b895e9e0f0398e3cd24c31fccc291022be3e800fe8b6df82ec958695cdb395, 0x16490952227cae0e2f6082b161b518dc295886922ec65a437dea8c55e5acda65, 0x2a621dd380511ad6372dd6a135da364f00507db496eec764337f126995350394, 0x5faecd25d3f4d7f30f0f596cb0b322b386c4d56495a94ab6f1974832d2e72881, 0x54e57d6ee113eececfe592cb7e1aa5bea93e964ae59ea9235df0bc007489a442, 0x57787377042d0fef55570e41c044a686fb2c9987e197baac955c011b30058842, 0x352dd862ef2f4a31782ea4eafc7bf82668b32e03b89017f1efc6f6cb254d6f4f, 0x1c6f3a7811a194f44c6c7683d794cd3d99716bc2caaeb02d9910735f1045ccbd, 0x5ef7b7ba985f7d65082172194848cac9e39f46e27d980381354da5dd4e623a28, 0x3385eca2312b353156bad069a2d6dfacb8fb12f21a961c5b4f8943cde74f3b06, 0x2663d94b04606a0a33cbee38fa60e5e45ef7405e2d9434a598f46a492d1212ac, 0x18d531610c39bd85049bc2bc1e1f42321a8a7836bee4540eaa4fcbf4c936c50f, 0x27386015b38e1dd7fa129b92770c6861cedbf793c06ac67e53cee6ee015b11b, 0x2f6cce1c586d8e332aa274eba5f012ccd068f9764e238668845e6a8d48ad847d, 0x5ad5dfd8b2d3c37fde719dfed6bddcda72531f30331b70e84831f5d875d97ede, 0x26e2b62f1231312ca52a3e9e9606a11328d05a7e9065909abc1e141b474efccb, 0x6e8fabd0f12dd3202e1d72ac1a7dfb1bb93ecb9d09501fbe0a84844e07aec0b, 0x6841479392556f96e2549829b12694194d0a65c47f10d28e23015b83f71c63f8, 0x2186b291170d3dd7fe18b3144f2e09bcebe337b81dc3e52987a59a233e23b275, 0x4cd62b4e129c2a11a5d57c2f625143b9f8a46ae3518680ded0423d5fc3d8fb73, 0x5bc6fdc5c0d50b37f59c2743ae8ce1d1bd94b13c9cd821937cc0a3e42a7156b, 0x495cc49d7b662cd4b9bf01632ba85eb2d2e7d340b4e96ccddb000c761d9d75c5, 0x403a438f5a54989515d9c1ef879aac04e5430cc3d2bd0e920b47d24e6725adb8, 0x4a5637f398d5133724fb4f89c0ce0a6bac918aff4f189b25707cfc668c6f3421, 0x1fc4f2db03947f13bed7a86ccbd502478b0c169407d5b9f74cdf57039951ecc7, 0x3b01ba9ca94522c5d77acf803ced50d9162898453b8e281209e04fe6a4607941, 0x46263e79dfb46b99459178999ffd2fd96f1bf8aba16c869b3b183a6257521dea, 0x4a4f74601e39b63a6f020e8ac9ebfbd9dd81e6e5ba60b5e2bfe0afc36c0ca60f, 0x2c9cb9f428870ffece3fb49232dbb16e1a64a89dca3ffe3a3926000100a2de0d, 0xaeaaa8017f479ad19600c195775a513334491f7e9cc2910c89081a666daeddc, 0x6f6f31f86fa743e5f9993d72803b2ffdce3bc10a49f451d4e7da5239751f7728]
  cL := [
    [0x1613dea0fc5980d78855ce4c65c5888b20bb0a607913d033e234dff199b27ff2, 0x91df44b09d112f956425801cb998550d6e38654dd7e073be610cd2e8f297c0b, 0x3f8e9ed80de3f8f98f84dc57127d2f40a9fb908c8cf622e47ef74ab2e8815138, 0x40132c4ec490dea017aa3c938cbe7b9c2272b049f5b3df82941a8ba3cccab697, 0xd21eb2d6879b54ba35fd5ab3d556d2dbf0822b6c8d76ecb97c860aafa8e7d70, 0x29d15fccbeea8692c1cf2cecb28f6ab57ae7138c9fa4130ed0e30620da398ad3, 0x3ae95e1cf4407ac472b4a783fa2aea315ef7bb3f8de1642102ebb6dd6c13f1e6, 0x5495ee220664762b33806ad0fcea0e0ce67472e8b87eeab0cf084b794e069bab],
    [0x52e6f488e5996ed74c90b258379f27041c423f3662d3787bf73cb9467b2e2a83, 0x5417e72d4fa7ed449e91ac4e18682ab8b590fccc38c5b79c556879098a8cd538, 0x57f79b356180efe4405a4ca304f545ea346f387d790530dfbbc2bfaf97a8573b, 0x5ee556d6737de3939cf8555422f0a07f1b4c5c7d9a61df4484558391aef782ae, 0x554bc592de54e86bfd3eef09f31dd56ed037dc9b3b6a1f5740172414300d8630, 0x268b583bd7578e5a9ee24cf46ef91914fde8f7b6d44a4095fd48eb313d221533, 0x19b1e07b84ddfd715aa9e2a61675ec9ce979704253ffe412eb2ce7719c9d1f09, 0x70fb66d1b986554bdf3d81716b8f7e29bce23b60e95c2907ed4211369882ad20],
    [0x1c363f5e33c47fcfc2819b88a4517e56e04c964610ff12340aa113d707c1a0e6, 0x661a1a7f78803b809d0740cbe9ff9fd5339b1ee53c7dd035e9d1cb7b72fbab8f, 0x2556cbff95499e8d01293af63b6af375eff445c7d7ffd2a6fbd5bc72871fb4d1, 0x2090f09a2e5dae69039f0e8cee8679a05d22bcb314b3ecbc2806b00cdd26e139, 0x8201dda4d559729ff1f8f7588cab02165109dc29cbe39ffefc91e5d3d4388cf, 0x61da70f72ead83ef0b6bd6896cd003eba9bd6b22491b41957094d71a3dbe4690, 0x421931bb16bb33bca6ff7dd2ce4790e94a5747a03ea82fd8b32311446e7b588c, 0x31ad925ab37e23cf4c131d4ca93531f2235747acce3241a6dd703b17ba86a932]]
  m := [
    [0x656ff268c469cd9f2cd29d07086d9d04a945ef829ffe907f1fffffff20000001, 0x19c308bd25b13848eef068e557794c72f62a247271c6bf1c38e38e38aaaaaaab, 0x22c74bcc2615a595a8f7c0cf3616f401991f4acdb332b532e66666661999999a, 0x6963af62e003892a5d1d50074e93217934daf23145cff68aba2e8ba200000001, 0x6a44840c3b7b082cd99fb0b208d45b5a376dd6581553d4546aaaaaa9c0000001, 0x6217dc5a0f85429f8dce7bb808267bb5bd02ed3d9d88753a3b13b13a3b13b13c, 0x4a867dda0877876545809d29bd0c9d27fef9e96fa4913b23edb6db6d12492493, 0x3dd414f92742ed7bd70dc88cd1efeaad81febddf77769776eeeeeeee66666667],
    [0x19c308bd25b13848eef068e557794c72f62a247271c6bf1c38e38e38aaaaaaab, 0x22c74bcc2615a595a8f7c0cf3616f401991f4acdb332b532e66666661999999a, 0x6963af62e003892a5d1d50074e93217934daf23145cff68aba2e8ba200000001, 0x6a44840c3b7b082cd99fb0b208d45b5a376dd6581553d4546aaaaaa9c0000001, 0x6217dc5a0f85429f8dce7bb808267bb5bd02ed3d9d88753a3b13b13a3b13b13c, 0x4a867dda0877876545809d29bd0c9d27fef9e96fa4913b23edb6db6d12492493, 0x3dd414f92742ed7bd70dc88cd1efeaad81febddf77769776eeeeeeee66666667, 0x6caeccddf703a573b0063a878907ba84fe81c9c2cffe763f0fffffff10000001],
    [0x22c74bcc2615a595a8f7c0cf3616f401991f4acdb332b532e66666661999999a, 0x6963af62e003892a5d1d50074e93217934daf23145cff68aba2e8ba200000001, 0x6a44840c3b7b082cd99fb0b208d45b5a376dd6581553d4546aaaaaa9c0000001, 0x6217dc5a0f85429f8dce7bb808267bb5bd02ed3d9d88753a3b13b13a3b13b13c, 0x4a867dda0877876545809d29bd0c9d27fef9e96fa4913b23edb6db6d12492493, 0x3dd414f92742ed7bd70dc88cd1efeaad81febddf77769776eeeeeeee66666667, 0x6caeccddf703a573b0063a878907ba84fe81c9c2cffe763f0fffffff10000001, 0x1b46fa31af7059b6a2a432d4b6f8e788c868db4bffff9d2cf0f0f0f0b4b4b4b5],
    [0x6963af62e003892a5d1d50074e93217934daf23145cff68aba2e8ba200000001, 0x6a44840c3b7b082cd99fb0b208d45b5a376dd6581553d4546aaaaaa9c0000001, 0x6217dc5a0f85429f8dce7bb808267bb5bd02ed3d9d88753a3b13b13a3b13b13c, 0x4a867dda0877876545809d29bd0c9d27fef9e96fa4913b23edb6db6d12492493, 0x3dd414f92742ed7bd70dc88cd1efeaad81febddf77769776eeeeeeee66666667, 0x6caeccddf703a573b0063a878907ba84fe81c9c2cffe763f0fffffff10000001, 0x1b46fa31af7059b6a2a432d4b6f8e788c868db4bffff9d2cf0f0f0f0b4b4b4b5, 0x46d8580827a75ac891152076b08d923c24f3e43ab8e28d8d9c71c71bd5555556],
    [0x6a44840c3b7b082cd99fb0b208d45b5a376dd6581553d4546aaaaaa9c0000001, 0x6217dc5a0f85429f8dce7bb808267bb5bd02ed3d9d88753a3b13b13a3b13b13c, 0x4a867dda0877876545809d29bd0c9d27fef9e96fa4913b23edb6db6d12492493, 0x3dd414f92742ed7bd70dc88cd1efeaad81febddf77769776eeeeeeee66666667, 0x6caeccddf703a573b0063a878907ba84fe81c9c2cffe763f0fffffff10000001, 0x1b46fa31af7059b6a2a432d4b6f8e788c868db4bffff9d2cf0f0f0f0b4b4b4b5, 0x46d8580827a75ac891152076b08d923c24f3e43ab8e28d8d9c71c71bd5555556, 0x6dd3abfdf187ba0e815f38736770e79941dc14a486bb13c9286bca1a00000001],
    [0x6217dc5a0f85429f8dce7bb808267bb5bd02ed3d9d88753a3b13b13a3b13b13c, 0x4a867dda0877876545809d29bd0c9d27fef9e96fa4913b23edb6db6d12492493, 0x3dd414f92742ed7bd70dc88cd1efeaad81febddf77769776eeeeeeee66666667, 0x6caeccddf703a573b0063a878907ba84fe81c9c2cffe763f0fffffff10000001, 0x1b46fa31af7059b6a2a432d4b6f8e788c868db4bffff9d2cf0f0f0f0b4b4b4b5, 0x46d8580827a75ac891152076b08d923c24f3e43ab8e28d8d9c71c71bd5555556, 0x6dd3abfdf187ba0e815f38736770e79941dc14a486bb13c9286bca1a00000001, 0x1163a5e6130ad2cad47be0679b0b7a00cc8fa566d9995a99733333330ccccccd],
    [0x4a867dda0877876545809d29bd0c9d27fef9e96fa4913b23edb6db6d12492493, 0x3dd414f92742ed7bd70dc88cd1efeaad81febddf77769776eeeeeeee66666667, 0x6caeccddf703a573b0063a878907ba84fe81c9c2cffe763f0fffffff10000001, 0x1b46fa31af7059b6a2a432d4b6f8e788c868db4bffff9d2cf0f0f0f0b4b4b4b5, 0x46d8580827a75ac891152076b08d923c24f3e43ab8e28d8d9c71c71bd5555556, 0x6dd3abfdf187ba0e815f38736770e79941dc14a486bb13c9286bca1a00000001, 0x1163a5e6130ad2cad47be0679b0b7a00cc8fa566d9995a99733333330ccccccd, 0xb0a7175a27085d61d427619257d20c38e120f9ec30c08c2f3cf3cf3b6db6db7],
    [0x3dd414f92742ed7bd70dc88cd1efeaad81febddf77769776eeeeeeee66666667, 0x6caeccddf703a573b0063a878907ba84fe81c9c2cffe763f0fffffff10000001, 0x1b46fa31af7059b6a2a432d4b6f8e788c868db4bffff9d2cf0f0f0f0b4b4b4b5, 0x46d8580827a75ac891152076b08d923c24f3e43ab8e28d8d9c71c71bd5555556, 0x6dd3abfdf187ba0e815f38736770e79941dc14a486bb13c9286bca1a00000001, 0x1163a5e6130ad2cad47be0679b0b7a00cc8fa566d9995a99733333330ccccccd, 0xb0a7175a27085d61d427619257d20c38e120f9ec30c08c2f3cf3cf3b6db6db7, 0x6ea8ab5b04d08339482b9407ac1a7cbf444c4b1a22e72944dd1745d080000001]]
  p := [
    [0x656ff268c469cd9f2cd29d07086d9d04a945ef829ffe907f1fffffff20000001, 0x2f1d75b50ef7d5af7aec3de6134de0503ccb55a4c65f8e898720b19582b252df, 0x24b692b5b9ae837705b13e366235c2fbcbd7317b03395918f353c2abd97d161f, 0x2ba3a628c9875126eca13e4a94afff7d30694be8a5d21272a41a7dacaab31cd3, 0x5a6994f3e5859bf86b5d83a81856d71b1b016575bf21233e03ad672cf94478a0, 0x4031c8ee627b0cedf9a86f842d470b0316913781dcaeb13e7eaf35388194f2fc, 0x1a208fb18cb0b87007296625308ac13a0f7468535e13899b449e3ed4a26c4bb2, 0x34634df1cf62fb007c3cc34d70923927e833866c20b63736856bc0a3f99ca4d8],
    [0x19c308bd25b13848eef068e557794c72f62a247271c6bf1c38e38e38aaaaaaab, 0x2dfe736c98b70cfc6d6de2d25c87bde1629e7a2b5a21cbfb2dcb1b7674425aab, 0x51d7dc3bc4c2d25aa06633feaa7bea67a5ef44e1a6738d9d90a8c3d91cbbb7e1, 0x10f48f8f5fb040cc5a797b98ce12614254dc42fecc39749dcb907394ae13aecb, 0x46cab1fe80dcddd7af1dfb7eacc9be4f4ae823be6d51be64e393a201f0e2c095, 0x17046c2b83268d66d2fb478786dc0b09a869cb3372fafb3f0d595c600d22761c, 0x4fdc84b84f0a3423b051a20610851a0c76582cd7c4a836da4109547cdb76a14, 0x387234874f8e601c0e1886ae1aba889cdb1d8ba77e6d081f5b8774ae71860b92],
    [0x22c74bcc2615a595a8f7c0cf3616f401991f4acdb332b532e66666661999999a, 0x51d7dc3bc4c2d25aa06633feaa7bea67a5ef44e1a6738d9d90a8c3d91cbbb7e1, 0x5557d20270a377c954374b2f557accd398b6eaedee29a70557bf6c5c6ea7ce1b, 0x20d89f6f86b7d9544de35d14bf9e488cafe116554d8ee78a027f2018a85d393b, 0x53c043e2f5cbcf3a22d1ad62896bec89d28037a7d6b5cdebd6cf1263547defab, 0x3dee368e36d155cc105ce76ad50226f2259721e9e0514efd65ad82f73ab9d3ec, 0xce442d36041b6abd964688a58997fb0c44ed9a5d3540e1adbc6ab16e80036a3, 0x74fde4cf473a03ed218dfccc768fe0e487d89d65068f677a9ed9afc0c1af40d],
    [0x6963af62e003892a5d1d50074e93217934daf23145cff68aba2e8ba200000001, 0x10f48f8f5fb040cc5a797b98ce12614254dc42fecc39749dcb907394ae13aecb, 0x20d89f6f86b7d9544de35d14bf9e488cafe116554d8ee78a027f2018a85d393b, 0x729bd8696db75c0f6f7713414b2e3e3938852c4c9da5e84c72dc72845717aa1b, 0x6e08e0b1f6fd099a55bb0a38215396e8be6c80a2d848bf1708c015c87a578bc2, 0x56662481c5ec7b9ca245e0e4cf4d534c055f02ab7b887ab1321f9350e9ea76fa, 0x226a8d8d4fb8935c70a769db5f61a15c79ca3918df7305c0cc8d92c87c2c3aa6, 0x4c8887337e6eb139da5f4fa9edb268748dc389ac91ce24d5de4d08234c930378],
    [0x6a44840c3b7b082cd99fb0b208d45b5a376dd6581553d4546aaaaaa9c0000001, 0x46cab1fe80dcddd7af1dfb7eacc9be4f4ae823be6d51be64e393a201f0e2c095, 0x53c043e2f5cbcf3a22d1ad62896bec89d28037a7d6b5cdebd6cf1263547defab, 0x6e08e0b1f6fd099a55bb0a38215396e8be6c80a2d848bf1708c015c87a578bc2, 0x130854a105bbb218d9caecdc6b9b569b208b7535013f86a22cd2d819a2e6f3cc, 0x3891f182e171a8fdc67745dd0b2661e3e1368acb02f8c1283bab58546874082d, 0x18345daa63eb04f868853a98db45a0cd224b3b1f5bc792b3f1a6fb548dd4e2da, 0x20a16fc8e4791aea8fc214bba1cd453bd9f47a921d7078036ba888836061e22a],
    [0x6217dc5a0f85429f8dce7bb808267bb5bd02ed3d9d88753a3b13b13a3b13b13c, 0x17046c2b83268d66d2fb478786dc0b09a869cb3372fafb3f0d595c600d22761c, 0x3dee368e36d155cc105ce76ad50226f2259721e9e0514efd65ad82f73ab9d3ec, 0x56662481c5ec7b9ca245e0e4cf4d534c055f02ab7b887ab1321f9350e9ea76fa, 0x3891f182e171a8fdc67745dd0b2661e3e1368acb02f8c1283bab58546874082d, 0x6ee808dcc4d6e2483056311b7bcc2ccf11746e3d05c0de4c52bc7009e4b0127f, 0x49c7d2da1d7ce9925767b938d9730273d8961198685d014af8956228b35c70d, 0x452ffd01e4c2bc6fb1c46fe3268e5400ff2145be9de09526609885d2ef031932],
    [0x4a867dda0877876545809d29bd0c9d27fef9e96fa4913b23edb6db6d12492493, 0x4fdc84b84f0a3423b051a20610851a0c76582cd7c4a836da4109547cdb76a14, 0xce442d36041b6abd964688a58997fb0c44ed9a5d3540e1adbc6ab16e80036a3, 0x226a8d8d4fb8935c70a769db5f61a15c79ca3918df7305c0cc8d92c87c2c3aa6, 0x18345daa63eb04f868853a98db45a0cd224b3b1f5bc792b3f1a6fb548dd4e2da, 0x49c7d2da1d7ce9925767b938d9730273d8961198685d014af8956228b35c70d, 0x6b1ffd370c2ee32e20835121eebf3ddd3a4bfc4f7ec0f529ca842acadf936ab3, 0x39e0c319b38efc1f195d73d0f920b51c7c3c6cd921d3f34abf1e98ae5a432b43],
    [0x3dd414f92742ed7bd70dc88cd1efeaad81febddf77769776eeeeeeee66666667, 0x387234874f8e601c0e1886ae1aba889cdb1d8ba77e6d081f5b8774ae71860b92, 0x74fde4cf473a03ed218dfccc768fe0e487d89d65068f677a9ed9afc0c1af40d, 0x4c8887337e6eb139da5f4fa9edb268748dc389ac91ce24d5de4d08234c930378, 0x20a16fc8e4791aea8fc214bba1cd453bd9f47a921d7078036ba888836061e22a, 0x452ffd01e4c2bc6fb1c46fe3268e5400ff2145be9de09526609885d2ef031932, 0x39e0c319b38efc1f195d73d0f920b51c7c3c6cd921d3f34abf1e98ae5a432b43, 0x1f23e526f6888268948d6f79d5f1a4cbb29bf573dd1e1ceb1ed702645d1b049b]]
  s := [
    [0x656ff268c469cd9f2cd29d07086d9d04a945ef829ffe907f1fffffff20000001, 0x2a2f5f2e1576e84e436e2f45bfe7bd83685e09aa373d085ca5f24993fe286133, 0x67b681b37703b4a97cb2f823cbeaccdda7520682ea1d1e3cc731bd0947ce50dc, 0x16ae4541d34e22abf50e234622e1da83f68f7d9c843095a915c5b9cbbea481a2, 0x6bc58cbffe4e56242f5b77307afde6f6b160dcd0e601842c6e92683d60526724, 0x110c561c69fcac1397ccf15f57328fc9e9d3e758bc4a17312e7b75f1947e9f0a, 0x1ac9f2eb908235b6fe6385a57a98045c88be7069b645fdc231daed9ec13af0dc, 0x3fad5ba96c0016ed16fbe5d46f55d315caa09b4cc299721c570d430c3562f712, 0x639cec1cc9487b98094a6b85138bb0a0fe441ce5ebef7b459d460b905e142a1e, 0x2850098b9c03afeefbc75727174d0e52ff135d63645d00ad86bfe913e7478ec5, 0x53568ecf9ae8da692080059c0d5dfc7a7a52698ad12f91ebef0fc0653217f373, 0x5662103b5f5684012d60962b1602218dc441ea064598aab0a16bc28730c93d70, 0x47a9e22d592fdd0e75e8ac28916a425ec082b1eaeee06672ae2bee3f1feeb296, 0x1a93dbea498b3505a34512194c1b6ef4524d7378d6f5fcbb9eee13633518ead, 0x3c02365f77114b29305c5ee14835ab42e97a1f1538759548e66b4ad4c582fd90],
    [0x656ff268c469cd9f2cd29d07086d9d04a945ef829ffe907f1fffffff20000001, 0x6349a4914316d836b36b75617ddc4f81ff0def2f46c7b69210eb6b9ab8a693df, 0x4338ab2100317a45b29cd6e971f61a716a0d8b4c8761cfd4f0b451b77d9e41b5, 0x5860136391e439c4a469bf2cb5af89365677249b168a904ec36b2fe4d379c1ad, 0x3107b0be0c83e27d49f7edee27e77246a9bb982e25845bfdcb9bdd49c578f081, 0x6acbb5847c3a481faca7d8d4e5f4c8aee8433f97420511db0c6f43b51e06c0f8, 0x65d307e387107adda2154a27c18f5d70a4e1c7eac57364a751e9f1290bd8ce75, 0x340c12a2e7a99c379da157084419bfeac82a7124a1c7da30f968df1934ac9fac, 0x74c4487d802aa17b561945ce917bb7199f7c18238b09e00775f6e91e396f271, 0x51d0dcbb783dbfcf7f6ad096f97e7512c8c1062eebdc69b4a36bfc3f841dc604, 0x59c11ae355ddd0a129f65ff73d790622bfe815bb83c35cd3466e733113638cef, 0x6e594812ba4b0a196ceb567b40bcb07eb1cc1e58cf9b674cf402ffd12c9dd13e, 0x598d80da08354b69f63f0a02f9f08c0eced447665f14a9261da01c15cf4531eb, 0x1279429924f2a11be374697d0a5e19aaac9122a90ebe5c34d8c2f3ca3de6a8a6, 0x73870544c6ec0d7d0f3f5beaad4597e3bdf0385e686ef027bba89960655ae996],
    [0x656ff268c469cd9f2cd29d07086d9d04a945ef829ffe907f1fffffff20000001, 0x475bda4a5d325da771f4494cc7e81d4d3464eb5f911153e77780bb2ff8f587d1, 0x4e0288582f7ebd57e3eec7ed51d33595293d6918455aac5af20a8e8e5986dad2, 0x19252e0804d90e1438a232f527d2a5c0e06499cad7826035268d50914c13905e, 0x1ca7d5a011a4c187e3f16a3bd1a9e107b5ac5d76a5f4cf039aad4a7d7f965e34, 0x23fc8f369f7fbed34580086b0eaba1c36d6c7e9c4f24372a9040527639da40cd, 0x278ee83e721b7a382486237ea581db47aac380d2ee483310484fb6760852a3c1, 0xe85217a19f248aac8459ea8e90ca114820a9e26cd28594fa93179cff889d0f8, 0xe9ae91be44a7e6b69334339265435db862edd099dc2919598e16892797dfbbe, 0x28acffa30fcd2658a2e9c566571cc35a51a3fdab8be50e00d92f4a81a1fc05ae, 0x5e68dad40d6b032bd2d148229a164d4ebd1526548cf06457a94c1ba9407b2812, 0x52b7d242aa32857388bf4afaa3827049b85ef65f5d764241be76aaaa8d14fb74, 0xaf020c0724557b5d22388a5db008f937adf6ff1e0c3e927b709868c1fd739cd, 0x665650e0958bf517c9b25bdb374bf6cebc2e1329147274e18f30acfd832463b8, 0x2e0a87c407d8a24c1efa2dee2181d62f7adc9f02e16856c16683a942def5a5e],
    [0x656ff268c469cd9f2cd29d07086d9d04a945ef829ffe907f1fffffff20000001, 0x3925b5a3b7c03815c24b93f216be5534097c521fb536b30dc6fe25baea0bcbdd, 0x72e4a939252ae40780cda86c4b9943bd086ff0b0a80f23bbc41574082e44069, 0x41e0e24c3596d0cf379554d30c9983ed8230c822fcd72ef64da21129c7b329f9, 0x4b7e1047f556a85fa839b6fcb3819198f294f231f1086ae325fa077954852229, 0x4d7dd50b75bd6eea8977e4e275685494b844accce1068acc044d563474ab2fa8, 0x3cc8b82976c4b6a44717edb0963e5b2518cc246be1ce3ec41b6f092718d3eb99, 0x2975b8204b2812553ff9c1e9ce0b004b0765b975e234b5ac4bb10fed5c12efc9, 0xd3965a24ca65ec81aad0abf71975801cb1217b00eb5d5839bcd49f8c39e4de8, 0x5f27f73fcc301b134a8172cc0ffc9649273d54287dd1c223d364e4f35d66982d, 0x437e61009ec95a570e111d7d014cf3a3c5807d8890c444f00a4f8463ce850004, 0x61b03351521e09be9653fe56564ba3921bf2dbdb6c01735492bb3f327c214d81, 0x15fdeba90a7f78cee0c46eb7b800823190d3859270d605a4e14d81bd5812eb05, 0x2687f657a158ff9439e94063f2fc692d6730f3a62746688e40e22e80c684d9f1, 0x4597d55816972ad88759a972f800ef905addb56ee0a13db035bdfb704812dd0b],
    [0x656ff268c469cd9f2cd29d07086d9d04a945ef829ffe907f1fffffff20000001, 0x500005e3d6d73de8b2cb1019a83f35d6f2721f9bf30673b229c74d4cae89b950, 0x5c2b8de9643e4c7a09399eb60b141de737eb9511e537821af030d67bb3fec5f5, 0x7706f31f92f4172111d51b83f0221347d13fb59c9bee7b1b459cbc1edf56c36, 0x4ae5d9eb34a359ec77908c050bd6f2ddfe1b3dcae4214dd2a4648fd3a3613a33, 0x2266026ce21793a1fb990cb83889e03f448af1965b7a6ba093c6379efcaaa303, 0x1b65fd29b33f4688d9e633f6570b2414c8c06bd31b76b27037367c7599080a4, 0x2520d134fae3205a0699adb86435d33fa8011de5cd6af85b75e63f636d385c31, 0x390fab1a0bc239563943a75d886ae10eb61b68787914df4712555686f334f535, 0x19442cdd04d87ecc320d7ad00f6b2ca68dac058f78c780679ce8d52fe8afd5cc, 0x4d5b690fb2372c6f4dfe3f86ea78b8358b4f3fb551c1cbc50f4a9e96b66c3746, 0xa05a9b7e92f6c4897b91d25490f3b0cfab91af7d62059b4ad04f39b16d8a7e4, 0x4e22fe430da37d6666d3a3c8b1c86bb493007d652d2f14237c82af3eb079eb05, 0x637dcdc32412051b87bebc1404dfc803b41fe24483e107afd46aaaa895e3bbcc, 0x6b9d14245f466e7b3514b7dad8ec0e80734e4c0f5354b913a6bc68dd0f60b68e],
    [0x656ff268c469cd9f2cd29d07086d9d04a945ef829ffe907f1fffffff20000001, 0x5653bc3f3eb6e87bd5f6db84f8c3742dad9e265398ef701521976a4ab08fcfd2, 0x6db3e0e49e7782156b868f7e5f5a4b57bd2db3c0e5fafb0544545e446192629e, 0x4c3781d4de29dd0df71756e77cdc247a7daa5b39aebd2e1795cf22c021068c73, 0x3941295e8799edb8bbb05ad1f2c6e5b2bb0eadeeb763bcdf460aea5d4e72f0b3, 0x27724aeb8b8de5552553e25d2ea057c6ae2e2ce39f57f5b66bdbb0d2f3769b40, 0x1373db2b533cd0439348a1de38649bce597b7dfcfeb37e8f3f8ef93b9b99d6a5, 0x55ce819e743ad6b5a9eb53110b1f0f09132444d3e865db6fec2d0abe5c27debd, 0x5b227135462d8d3e2b612d33704b5ef797c3c3886b5f29ffa82ec73dbc422efd, 0x456439780ad51581bc3cfcc808aeaf370f702178caa4e16727f2204ae24b1b2c, 0x4a69f55e78fe1e0b3ed7940883a498344d09aa43613e564303e821a5ff1613b6, 0x5c13274f5551c8e87b3fb3887f0d510e2f6c5561f60f2191c11d989070ef34e1, 0x4794e2407c3e6d04f25d2ba1ea591c9a8f407ca4addd2d1a8190cbb82efd33fe, 0x3c23d3edb187cd10764b1e233ec6a4b66afa04cc1a9eba00d55be2290be10853, 0x434c57a004e7902306a8284ce886c76f2fd3fefa84b75cb6aca38167ce6fc67d],
    [0x656ff268c469cd9f2cd29d07086d9d04a945ef829ffe907f1fffffff20000001, 0x6e587afd6de6edcff3c2c75685e1438725395f304c2e2c2652780eb3bd0bb761, 0x67eed42b1ae96e6a867187514d9b3f91438bd9dfd5bb0740b55ec6f68e550996, 0x4c8b8a15ec6609f9b4273ec415c9b65b21498b7966e476e528df2da6ed407ad8, 0x60760be8f6b28540132c728a150ee9fa61df74156321a095121489d16e991072, 0x2c4b0b2266dd720158062f285f583c876adbf604143ae097065955021c8d5fb1, 0x72fe452c68109ff86ea668d46ca51775fa8de1afbef717bab46903dfb25aa003, 0x66ae5b9b0c116ce8a97815858e578c8085e9e612ddbf5a84887cc8fa719d6178, 0x610408d71f67ecdd7df1fa016c2abcfd55c154be54f801acf28608d6874614ff, 0x445ab2b0b9005ff4543f46720dbe7761a8f6d223eb8f38be2970b0d13477b78e, 0x18ce28cf5bebeb057566cb84a1ca78521fe309d8dcca360fa56146ff97d3f45b, 0x3d6ad861c8a3840e9b2393bea89f728d5a6512c4ed09ead7ca8da30209210af9, 0x675234eb125c15bc5fef59529965f846fa5fba3cedeb362602612a8d1bf75938, 0x104a7aefecd33278f294ee86c4bd98fa93450756b096969e93b382a550b4098a, 0x1249ae88731dda694dc6ae509af0ffadbfb0fb8c79a753729c80653d2ac76bf6],
    [0x656ff268c469cd9f2cd29d07086d9d04a945ef829ffe907f1fffffff20000001, 0x6d198eec53fbe13943777eb96c63e170fa91719db6f7345fddafee953dd56bb8, 0x36ddf4ecc60ee881eb925dac731dbd26b8edd67a672306a8e23489d09cb06a54, 0x2a6dba73e2b7bded1d11d952c74e74933e7a3fe0ced6746a64371901d18a641d, 0x5c7541e523d032273e68ed08ac40af5f52acb150c40ac2bc8399a8cc956ef141, 0x5a277f5f17f6885d0b7c0b0630d373576d8589eefe00330c3495afe1c9b47702, 0xed15f20b709d35707635e8fec0c97d0456596562b7ee5eea2f2b2834bdcb1b5, 0x3c0aae346d43ba53e88322f5da8c37852c898fbd8ca3208f6145fc9a073d2f66, 0x1f8d3c63c0039c741d46b49bb43c60be04e9a9bf1304373e2452faf5374c2e2a, 0x6a221b3ec149e5ffadb433772a878747ffe39caa0d0e567bb292f69ef1a205b4, 0x183f944f58a9cf4335df6dc039615de51a83466972643fb2f7a643c167b4be8e, 0x4d499fdac73beb29cc9c8a0fba9a8d6dbd19b94bb5b0ed8d4113cf9643686c9e, 0x1b09624cb23943fb5b00fc525ee5b83b9cb1b010ef40751a405c81a81f3a0b87, 0x254df4cd3f6f9219bf11dfa4587f251ffa020e6b3fac8b351ee3540b81f29034, 0x21e7a775e3409ebe7767fc88f9a77397dacde8040043c337a3af05b8296efdd3],
    [0x656ff268c469cd9f2cd29d07086d9d04a945ef829ffe907f1fffffff20000001, 0xd5a244c055b4ce19ccca42a3c5f243783cad201aa874bafc5c4015c5699422d, 0x6fe3a781bc697b93c88d963c3ff4cce9c4d7e745674b3cb6bf5410fb31ae2618, 0x429b288ccfe419f16c0fb2d88bc5fd7540214967a6d0df992b6c8c39fd4dff99, 0x1695a549261151f6f4fc2618efc9cf28cb01f32fff0a633c76e09177de7653d7, 0x1f23c051a2556f4bdd265c8271f555f8fffcc5d36dfd47d4ff226dffaa160bc, 0x119b0d01f5a6f6908c4d7c6ecba23ecf64cbcb70abf8b340298451c74b194f9b, 0xb5f361d4e3a19afcc763ed5ac4c929f63f5e5871a24875b0d1cf07250736f7f, 0x6a770e1655f8785de34a796c2e97ab9504caf9ac0fb8178485ba4f40c224b42e, 0x27b11f09cdbb0227acf33032869ac69573645cbc28f0ac3e7c2caac7f8114f52, 0x55a651933b3ce6284280d21e5ef469c79cc58f0c3749753a30af8b0d5167a97e, 0x6f346a944291966382ccab542ea701809b719c7f07dd22465fc6de81960fb001, 0x15fb3ec1dc8ea62b62d6170f4061fc6299693d7fae49ae7669d05789af9c080e, 0x531b92a5921af9dab5ce386fc689102f015942c0c444f4c377dc0efe02ef56ef, 0x5c0c284e23fcdb5be302717bbf47dace4422017234d731ed28454c1a2b3e349d],
    [0x656ff268c469cd9f2cd29d07086d9d04a945ef829ffe907f1fffffff20000001, 0x4122263b86cb6ecf35a88e3347fe1c8dd31e19ad640fd9b2dc5273ac0c057d88, 0x1a7bf9e867654dfd040bffe80c13e79e47cee5d4bdcfd05841a6ccdb1301ecbe, 0x27391ba42c0b5116f190aa3abfcb6ace653ce3a23c495e08927ad18777289645, 0x3cd83bb671d284e302230692c6fee401177315e16b486cfc0b23a2af92878d1d, 0xe1f16abd93f3d71579e19b5d3c93ada4b5d92eb0482fe9c0ef21baf38f4e19, 0x1a80cd6ce4a76cf046f47bf85253e50d5f8bbd14b9242c3387d5a71e931f9080, 0x4a989b79b1c1d6b7dead1d5f770f038cb135ea0f6b47f95342b71433199d4139, 0x3c25042cc31fd432a182fefffe691ad765ddb9bd2833c97e860dc32ca19d5b53, 0x3e96acbd9860c569da5ebba2cc01884d2134c2eea12a09173e2e48ec7655b1bf, 0x5f60fba81202f1660c8fcbaddedcb5205733047a477a8d37e2039b5eeada4f8, 0x4b8ef8cec59f4a94e702aa4122a7e044c1c11d42bae438d05bbb72012b50a6e2, 0x27ca874294c30bf2c4ed0226240191c54c660b4e9d46e6eca7666252767b0976, 0x156fa564339dc6143d100e1d1a94c089fc6b4ed6d4b69ccaaab1ab8fc584317d, 0x679bfaef45ff2c0a5b26cd6eedc7eae9362a48847d54a17c9417042645c9cda5],
    [0x656ff268c469cd9f2cd29d07086d9d04a945ef829ffe907f1fffffff20000001, 0x2412b23d8cab9252c73d24a880e2673ddfe900a1f93a899d4a5ec689ad7dc5c1, 0x4835b60658ffc1a8bc37498104c9d072444e4bba3ab5e855f5d3234aeb47beeb, 0x40690ddba18de6f18fd003a5b5e4b146acdb58191f3b80f1582fba6f5fa5a250, 0x4fb6b4768da94724df970a656bf2607b86c07f9ce70172635aebf3e1c777a063, 0xf43342ac6896be7fe3b98bf7de3e3cbbbec11d988c1bd93e86f3f4241f651e1, 0x366cd241f1c81f14d0efd561124d7a5f0b9d9cb410da74ab5d3ff133b62157fb, 0x1dfb398abfb736bc476d9b92aa83851c110b614d0d81abfccab56898a4e3ad23, 0x71b2363a4a17d036764272c640f741e981473171c6e4073e252ec53a2e746ac5, 0x47fe14e79c329d921bf66eedda50de087f16f500b268c8f06c649200d305d82d, 0x6934c5c476ed70b04a944d788c92fb697eff498c05d587037b84b94a5eff0af6, 0x710201161255f3b64fa1a58c52e3895adfd59f393510f620f47ea0de58a70c12, 0x11f0133296b8fc08067568d6fb311eabe3b270617179c665ba9e4ce44b1d0106, 0x57b49c0d953f333a678007539d0780dda6da39e1bee0f7e5d30f7c061c13c857, 0x3e1c037337808b4b08f52189e8e62a7c23dab515675070890c2b33c9de713f0b],
    [0x656ff268c469cd9f2cd29d07086d9d04a945ef829ffe907f1fffffff20000001, 0x4a4ceb15f54c4948001beb2e17f8fe523b075ea0cc197b5ba3f96b1bb2a7aeab, 0x546d7ae788132aff2323a17a98c1437b5c88ad1daad538734244acc4791c52a, 0x49ca90b75b982461b4cd0d57484fb39dda374f4ebc4a9dcc6a635c8567fa337, 0x180c8f2e61c118eb91f7e90cf781beb4739e870cb328f9a7ac5309d764aefaab, 0xd15bbe02e4e171f3d28a73914654ed453ffd5bb05af7979e949fa2ca3ee0d9b, 0x72f69a2d6e6f83e7b365fc88d355279be83e42f4f54bb83dc95da9756b380042, 0x336711d15796ae7a8669d645585e670793c76b9953c9519a64011c76456a51bd, 0x562d04d207cacd6a960c4400deabebf8b11d70fa3d88683f7d95e39a6f24c3a7, 0x565dfc72173ab3f42618c73be8dca46cfcaffdffcb0167d1f8ff6752dd76e691, 0x2ce774825468d7664ee1cca819c722d279ba0d1a4bc7b94e42f49834b5c1a79c, 0x58fc1340a8dab1382e4319c5698b7a48bc813eeed3c888714da07a22ad530295, 0x491cf7a11c329bbbcaf8a051ea176dea7149c8e89605437e5e68e0bf91aafc98, 0x11dec1f6b0e7c30a0272ac97c3c5c3ae08c4f8b9f39f9879a9289d891254df1, 0x19565c15a5a5c097f2a44c43f42b4ed45b8af186b2a67836f7268a2855fc8fb7],
    [0x656ff268c469cd9f2cd29d07086d9d04a945ef829ffe907f1fffffff20000001, 0x3bf639969219eeb4d944f04d7f1769b7ba125313d4a8619f3c1696e0300e166f, 0x641bff260cae161c5f9348f6a0313c53f586a249c32a8d169836eb5f6b36a4d4, 0x72c27c5648c78881f58bc15720bd6e50746e15c291cff91d050806b5debed94f, 0x2563b0c43747597f385e1cefe63384af59a1b75c1d65a43470adba4a5eccc4f9, 0x9af37262e3ca0067ef86becab14813556efd71f8fbab723ab0c12163e05f078, 0x5608837d154794f616ba9d6e441924a9b9cf7a186585ec654b5abdf856883075, 0x453f959ebe1f433f3670eb887767ac632678be5967dd6e6ebe90dfbcc4b7d153, 0x2fa2d908a57839d0b0957e97a2b1940c3ab1341a5169f1ab77cfa90318724db8, 0x3b39a6c72210be44dcc63e0a0ad263835f7ea5001254350b192caf0e283969f3, 0x1158aa6afdf3c85b4f15b6be0717220bc8404198736172f32d7e21aab0e42128, 0x30070e4c556aaccd54dcee5387d99e8e6ea05369d771b35e1b8709f20dc9c22d, 0x45a545d6780941c8a0ca1fcfd887ba62942e7518acc8c91532589e50a7e34162, 0x57082b7bdeb407086b793874823126101b99dba2658978a39fb0787117eb9620, 0x5f3ddbf2b2241527f9e4b0d4bdf2786e7b782c9a0c82da28b76ed37328436f3a],
    [0x656ff268c469cd9f2cd29d07086d9d04a945ef829ffe907f1fffffff20000001, 0xa0383d19d8a2239f1117d9b372dbe40e98c8c5bbd78af6423086ad9c0c91a51, 0x59da4ca9ade9d6020f93dced9805784ac9f033461288103e093457512900cac3, 0x2bc0425fe0ac13226a4cd626a5811b4c14523ba394aa417d5999442ae4718553, 0x4f664170fe0502acbc40ede4c8e944a9a1e3b47e169b2de003c7899825418c35, 0x6245a6c8fa70aa0d549b11d131569b665b7aa9ba815ced3fd92d51a2c29f11c, 0x42bc740c1e5aa7021343352870a1f75d59b30b75eb8fce2628a5572536e2ee24, 0x2f2930a79c5fe2ad4cabe15fe2f13d13a83750b7a0682dc51c8ef600eb1fbb69, 0x4fa8571c34454c319c9d07b7e383cc72a2387b77e7d0224d41aff7733d51ba64, 0x1332709542662f25b960819158c58d5f23d8bb5f57e12c0335e242c8027c0abe, 0x2644abc4e846b1b437b49344f3bece0ddada1c354551ad9bd85f874d9bbd9c84, 0x5c5b1405fd4642afce9ef39395f12630b69073920a94f9e612767a07bdad797d, 0x1d37ff4dafe1be9c44b9794825bbf063dfcf8f2fa76eeead6e188fac335c4545, 0x3a4c47aff7adcd7b94ac92a788539b93d0924a53283e2e13693513f7a01abc1c, 0x5d1e8da49be02674b1792e667f7a16fdf3510a761d5954447bda3f07e698e7ce],
    [0x656ff268c469cd9f2cd29d07086d9d04a945ef829ffe907f1fffffff20000001, 0x6e737c819076a874e87055198cb2dcac331917171385894899d0abc9cdfd3ac5, 0x774585ee9f27ec508ff236133df0572694c7fc6796450a56d4d761c8c39d904, 0xe136ba9fe196f75d6d7a6c7c2fbd70ee584444ce50577793d3ffd04a5defd11, 0x1a251276da69414be110d5b70058f3f3627d374ce35dd949e5e4b896e6a371fc, 0xb317e14caa77d5ba2e3272bb2a3e9dc13d7c4f72d9c965ea2cb97a8fc38ef17, 0x460b88ea5a3c6cafd60881e1a87a884a45375c82ed44fd7ec3c75856ae3c4777, 0x79f7173595c4f3ea1df5e2c37804f15925793f155d861d69037a22174c547, 0x38f76aca97324d9f8a02c2ed7ad84247e0f3add8fbdecd7f3078e44ef453fe57, 0x1bef3eb117add28bc8bec26f202d0a4db076b2b6667da58af97ad911ee678ffc, 0x70acdb1302154e9f9805be18fb7fb6df730f5373836c0a3d61abed0801babb9e, 0x546ec7b95da990998e49626381224945ae91c324f7164aba76cee1b41d8a0596, 0x69e9fb9f8e0b34702101280ec4f0106c3b228ab42725f362345c80e7a671bd68, 0x654ce49fb60f04cb123ecd3208850d614551a9a2e8a4c831f02b42fcd357b026, 0x56152f6631773638a46aed7aa79d5450a02cc2532b897f3290b26f7a2bda31bc],
    [0x656ff268c469cd9f2cd29d07086d9d04a945ef829ffe907f1fffffff20000001, 0xe1656a3058378ad9189d0eaa04ee3413c10112af336162f70af6ca75ec4823, 0x44eccd97a08a0e440f5d2d77b55917a2ec231b9216d15fe3898533860279080f, 0x464ba2b14d45d032c8d70fb0e1c5b92b77cceeb6aa48e9458bc82f1c61226281, 0x21214ee776e6af76808331da8fb9e79da4adc00761cbc73446e800f05ae57136, 0x42c1ea2c37ac91244820b0c3c89fc1c02cb60d2f02ed3739fa814abe02567fce, 0x33a00469597b70b17e8dfdd7088ca33996d052d82425f5d69a232accd069fe01, 0x594c0a240a82737e3689603646e15412127e403002419b4153359f6f66abd6ae, 0xf9f518abbf980096a0f9c0518b853e2ac02783622b280a7368b16f69cc60f09, 0x38b77c3a489ef9ced3e1c2792392cdb5586f203551d4518a4cb41fda75c0a953, 0x32c6883acf94b63c7bdbfb69cae96ba02b52735a90803d25da4a4404036c3b6, 0x58ffa283e8c2c05bf1a3c459b6e4a393652ccf1b749f279dadbbb4e9a8b8dd38, 0x4488713679acb56d77061a827a384286edf2b3e5050eeb5f6a56ee2387d1ab3c, 0x4feb016e39b88963933aa28d69b7a3877c33e2d517126b39333d798a2cbd2e96, 0x2b2b967461d8b548f9c77405e96a0f845cf3d2e35df19fa16dc61ee7281efeda],
    [0x656ff268c469cd9f2cd29d07086d9d04a945ef829ffe907f1fffffff20000001, 0x22f7eeab953fd9835ed29e7f24d099239193a67756a9dc9af39d8e48d812d970, 0x18ca0a6cdb133929c881751cfdf6c7b55d1b1273b933cb7c99dc25fc4cd61058, 0x17ace8755367654924253de8e5ae64198911e562f734b3b06ea0549eaab4bee4, 0x321eacd489223c8d163c0ca27083c09125cda966b519cccb47e15247e21c7c7b, 0x2ac9dffdd539b804a76a03933e8595f37d4071f6d2eec51cff0a9011de8fbd1d, 0x169a1b90ee2bae354ad714b11b8101b3f97aa84c721d2f748ba5f6f9d0b5c859, 0x4f8e136a7adeb0788a0890394ee23891b139c0a74e285e63a4934d7cb6823a24, 0x44114e980badba9ee16ef4ed70b243e5c2d88c0c1c23e7d4f6fb8fe96a39a484, 0x41bddb5a56ea0785c936d827774b5822a99e72e26328122245afb7e24260c0ad, 0x6e9b1d33566f848ebac3886f57b83f89a2433430cb62a8d7567c53642d590ee9, 0x3f3c117e0f448e0457813bca593c8292cfb7e5b3926c4e744867885e3f000f60, 0x72b88ee50f48d9c74a726c2e4086c54583ccc82e9c19ad5822c6db8c83c515d, 0x24bcfa90b0a34b29e2642751e5c625ffea0c7f0d60ac28a2d42ba85775dd8352, 0x28376924050b15bf87e6b4b7230b768f197f74ad6edb744df4bcbd4d195e8fc],
    [0x656ff268c469cd9f2cd29d07086d9d04a945ef829ffe907f1fffffff20000001, 0x6f7ffb89ce58fdc22ec0309654e57fad1383b18363b747488aee6a403ee37738, 0xe02bd887367462d6a809eccf921dab74a9fc40a4454d7c4cbcf3accac06de8e, 0x510b517c7ebf5b76c2dcc8ab128d2eeec5a6ecbad9628eda5554890bfb2581cd, 0x6b0e8b996b93bf29349adf89983fc8ef040d3f55da491d7dd694776bf3cf1a80, 0x3921986a02d25acc40051b53e5dfa550790baf73b657e2605ca80afda0b2eca7, 0x2c082a3ef27aa771bc31ddc55fcf1a1483a8029dfab5451706fe4e02d43b993b, 0x5ed5596f1dc1d60e2fe37bf5fd51ed594baddfde4cdfd1568c02429e7dd8bfce, 0x6c37a3bc021b1ade5f41ce91b304e5b04a38adffbcbbad241452e6e34aa97e8c, 0x5025c8a7ae7a4a07badd2054eb49f6e2ef720ac3acad693daeb0850b3d846bce, 0x3d4bc27cbdc890bbd7d84f79bfe404312b494e853075c170863fde857d7ddb52, 0x2cdfd414a47b8cc6f909dbd514df4b2b46e199f7c3ecb5f9ec5b2e74e39fc758, 0x12f8ae96be1b434c2c0537cab595879f1b236489de0a9b79abacdd735dbf5e03, 0xa8d98f7e5606acdb7393c102d7725141cafb0888cb7d722956a38796a82d316, 0x1bde13900417258af5454c2435bf70938db3c4a2aabe05585dee46ce714f29ee],
    [0x656ff268c469cd9f2cd29d07086d9d04a945ef829ffe907f1fffffff20000001, 0x1d4af9e8269566c85f290da79cfce78e72c24d0c1dc3202f2e299c10744cff78, 0x62c294be764b3372ed138ef9109337aefa704ae628611dc5ce6fd06049239cce, 0x53b727a29429f5ddaba4ec4e002dfbc8559a2e1c95d98d70a997cf889933cf3e, 0x5b7073431ea57930b49ab9a390047941cf6567b8281cbcac7acac5ff4fe032cd, 0x2d6c86946acabe109a725f7fe175b7e7b9fb6f78883187f0d7304435112454cb, 0x520ffa4fa12398c28f21a14ce6c6b79c7f3141b35ef51820f092b684b2ecf33e, 0x8186c524b6d3a884fa648f4ce26a8d0f5454895db51a635a5ded78cd9b9dffe, 0x2cc1c50a8bb0d95702369819617e3f69fb48e1cb48cd2b9e4fc48d3e3e0f5d4a, 0x61bf323d777813428ade22a9fb5708f970eca0d830bae189467c8d657ac2da00, 0x5d525c97d8ff1e9785a88fc65ecceef374aa0fbe12b99fe954a921c957332d9a, 0x3fc703df14982d6f5e9148eeb41acb8ce93646fe03affcf5e168764c846605a9, 0x6a5580348d8cf2e9a1c5c00edbcd7b39a4b66cfdcde8fd3fb7f7c4736d60f354, 0x23a3da8af6b684713ee1e85f246eb969b3b7d7e9943ff3b92c42654ab40a50f9, 0x6ec7d9e1e5733530f10394002c1233d1c330809973e53769dcec21cebe5028e4],
    [0x656ff268c469cd9f2cd29d07086d9d04a945ef829ffe907f1fffffff20000001, 0xe5e702e00c0c60ceeb6e46e9f032fffb3ecf56c6497b1d167bcdafca11498b1, 0x2076f1ce9c063a4612d70762cf55e2eb3a224c7f880509ab2103421f12d39cd4, 0x2d79f1103eb0b37c9174f535731675d7221700f767d19755787264bda5796615, 0x47a5e59e3c6bca9578922c6a35cdd958c7d1ad9c5aa780b1affb1373cbeec199, 0x37a0db664d87dc9540d34efc51f78f2095c528e1b4975627b94c5b9fb89c9174, 0x489f5e4d11df7523f3cde89142eca36d72f8bdb416fdcdcda13a50ab13b54f8c, 0x322fc69e8601750284d6a1952e9ba25e4372f3eab6c10f986cfd2c7c215a566f, 0x667d24c4ff61a521a0d6621fd7630ca3044f29889ea79d15d96d567bce0673a0, 0x6aca19c3022f13657ed14ee99eaf1b5efac5c0631cf05e3952e5bd8efc05a526, 0x6b9d9d7566c8c15e11b2bffdf78b9610db5b859dca41afaa23a2007e6ec4b33, 0x95028d84f24674f0f42863295aa18abb76450c1211b5de5ef47c650014f887e, 0x1052dba6bf35bdfe4f8720fc7e8c668ec39b64e70b2dbd67154fc549a5d8fd57, 0x416d63b685148e65da8ea44ef878509702a27e20479d3621157bd37fa2bf56b2, 0x3d13d56f8f37ecd63aabd06ae5c9cf49765d1252c7ac7adda1201c17d38e5fc1],
    [0x656ff268c469cd9f2cd29d07086d9d04a945ef829ffe907f1fffffff20000001, 0x709f163e58891ad534740adb7a9b5cc100fffda23684387def5e19af6227ff41, 0x376d09c0c803a9e81bd767f5c55b37e000d68f9fab4e7c25eed3685818ff3731, 0x1c0a3538c5655f2bbc68e7203ac5ffdddc616d0737bfe4b674c5d038ac76a8c9, 0x64921b2b5fd22a0cf7243521fcac553999ef9603c1170277e89fc254db2a5aa3, 0x5f5830d69e421a238787099dd30bc272c935abfd9927089b9b16992d37c44200, 0x1c1da51a3f516abb4e1848c8b821b7875167f0ecd12d5040c4f14f46fc912d4b, 0xc4ae2b482003b2a3dc9d9e5e1eaa50b4225e2d18bd4429b2541a3cd154e56a, 0x650fe448885a919da9c4827dd2c3520ff83ae6da986964f763488ee2250d64b, 0x19718667de4aa93be09ce898b714a0ebdd75e0d25703cb91343a36f5b2272bcb, 0x48c9bda9f34cb2604c8bd31df3fb8c8c55384eec236b62790945aa84e3e1379b, 0x4e4f897f7bc27b5429afd5fa587bf2853825a5386edadc30b2bb1fdbeac3bd63, 0x3a8262f71fe72c817d9a50fd4a7ab9ca73cc6038e8f6447aab930337b0d13c07, 0xdf0e98cd2c072f377197cd9d8c7aa1fbe8ff55302da42373b3b13b55bc70e8e, 0x4d26f80f4d4657dfc64265906cdde2101dcfae68af8581220cd057032d4ff77a],
    [0x656ff268c469cd9f2cd29d07086d9d04a945ef829ffe907f1fffffff20000001, 0x31a2d78eca77e1bb55d41a520bee5f7e370a9e7625ed8d13c0e97b1ac5953a08, 0x14af1eee0c67106153b33916b0ddeda1d5ed261e0386ba29cd59e48e4063dda6, 0x3183bb41190a754e6b92675137400d4584a814e4628d65fd47af97cb6e17084, 0x56f006223ae62103023bc741e3fb7c9f363b2366400c0e7d32e99880b95b9ddd, 0x1a7f36e813b782bfcf0f271d7ec21879587c7853e811be4c85fafc72360936db, 0x734a91106c241edd656dba96b1b8be21f7fbab4f9a95e4c359fc590511478108, 0x654333595f9d812b7a0356dc92732e802c7e7124de2b45fb9ab247a1ddb21932, 0x3a81949412278097cdc707cc81ca6982ab00d01f4ae64ac5314be5508eef4661, 0x5da656abe07d6c8868de3f2df0235a161000b78929eb5c0d023a5b8baf0b8864, 0x67a08214850a03902f172fc54e6ac92c3ea2d50b6fac54a151f875c9119433f8, 0x3416d9e79a1134af5587f58f5a787498d0f15f1d54088da99455d737af3654d6, 0x73dfe5cd7e7d8d026b306a84e709f8cb798de42f5cf68db693ef7986c3a14434, 0x39e4273b075eddb1634637cd37a8fe6d8447f1462e2e28a8f99b7133761b9ac9, 0x8f33ac050e6f203df705bcdf78588757f349524c05422f45808503d58b08526],
    [0x656ff268c469cd9f2cd29d07086d9d04a945ef829ffe907f1fffffff20000001, 0x494b2d89618a1ee19212b2d6cee9fa7ca471070cb034105aea55ef8d1b698844, 0x3c59e1287588fe26edfaa8275ccad960f2a75cba7d79dbcbad0df8cb8c4e6d99, 0x388e198df5f413aa3b088bd99d780b334fd443c822e2928571765964f7fbe447, 0x1dabf410b1d9de18ac5b1c1be4b9cb2da236876d5fd710124410e2fa95e11d91, 0x520e5d9be3922e21f91b514ea5420036726baa5ac9246e5cfe8d00146ad0100b, 0x5f39fe45e22f4f196c9e6ffe69a88110aea498f4703194774ae701fa030c42df, 0x70ab9be068312a7c919a4a8b8daae8039165e92c3a7a3bf19fc6b3a212156481, 0x513963a478f834cb3ccd015ef2f03743ee6904761ef83ef70a973ddcd338eec4, 0x7238afdabbc2e3ed8519f521d8f5253be8d10f3c95faa223f4b0a6f3efcb57cb, 0x1baa17023935c4152adaf8d01027600ab03a98fa3e11184880e49a47f8532fa8, 0x5479d05876067a8ea98c2b4b46604e6298a0413cd8a98e7edcf98092b0408a73, 0x673b18516759b34190a8035e03b810af2aeb667e889e329027b978e4239f53ac, 0x494a1091500b9ae133caf85c740984266d86d24d2aac58006bef7c169cf95f7a, 0x4bfb7997f2e383bb4b18548268c2046898b24959c5ddf5cbdbb6b05399be4bfa],
    [0x656ff268c469cd9f2cd29d07086d9d04a945ef829ffe907f1fffffff20000001, 0x93d4ffdd1bbe0564ea75db7cfae73e4e1bb51fa2678b87723c616bba7b74d83, 0x34ff10a3d113a5b3fca5cbca9d230eccc417f45e9735cd7c6014c2aff794094a, 0x59cc6f4e9c116c365730d06c535792c8dfb6335803d5ead12b7e67a54ac918ca, 0x4096009a63629327b51ec2c1473a435e78aa5282380be51cb0a165214f6df41, 0x6997b2556f61fd8a380ee967d3fa1549f030d42f38184a3fab96ced6c674c97b, 0x3a7de7261c9d3b771056c27048e61ecf3c66d1c80d55daaf9e20af913af9460b, 0x71155dca86c4789893a213258357e5ba990f9c5fbb1afb76fb469910877c820, 0x37b1aa1371035311b586c3f55d1f9d5d8e2f76758e1d02c4ad07ab3d0d97fe6, 0x75cdcd6a0f6572a6f46b7db5cdb5a26cdc322858f74cc256a2640c024c94e0, 0x6f4eba5f491b9ff8549f5297ed419dacdfcf92131ff059636b892743a88befc4, 0x4733344f7a117199c089eb9b1af8468e1729a564943a26f99dd559eae2ca7d32, 0x3bf7e2f6a463124948dc281e506c7c7ee57027073c90caea2301562cea232da1, 0x6e667d4645b7f2ecfcc9d5465a0af9544718df5726837cfbd5dc9c45c15cd343, 0x5f645d8c9133e954823d4e5c34f2cda125718cd9dad2faa5a3d267ad1b985c72],
    [0x656ff268c469cd9f2cd29d07086d9d04a945ef829ffe907f1fffffff20000001, 0xddb69fb50c0efecf80c25d9d6da2465042761fb2556127627ef284e27c0f685, 0x953b5e468b77a3e698d0f0cf7a3e3f1cb4f8d01ecaeba8499dc7d18d555aba9, 0x34a23e2c73acc77662f917144077e5a03a8bce72823c6198c2f04b29595655b4, 0x91919fb1a50019c00fded49d8557eaea985fd2d294b2597688d188c8c6d143d, 0x7f9440c319735bad8eabe632d1f86e80ff1aee468f0cfad05b5a73185e853b6, 0xc20386cc982ba4249aa2a4440a84e2ecf77738e6056e5b985501d49a789ba65, 0x34323f4745df659e9e44a01daa23abcf6df4b69905fb454b305f5db2e8e0908d, 0x5f31fb56d65f917ea83e8f9ec4ce8bed5366e5a19da4e0eb8daf14326e6601c8, 0x39ff1c2331fe433ed94326cb9881c10e63993abb23dc109ed83fb4fdd2b45c37, 0x6cb2f8fdbd32ef0f0823bebc5d9a9e584ef285347fdd0384d9a96f55d9079a2f, 0x6fd9375acc05f18b7d06249cee02275e9e3da9c7e21e539d30120ce424d43cf1, 0x5fbbf3edd277d2f830cfb868f06e71e78bf4f1c6015bc4cdd20506f2b56b4787, 0x57e82b6eccdee1bac4bb31e654aff12c656692668ea625e58d9daf121961fda6, 0x665f3b11fd4b62b116d358ed9901a865d82c6dc9d443c5025cf4b38c17ace224],
    [0x656ff268c469cd9f2cd29d07086d9d04a945ef829ffe907f1fffffff20000001, 0x2f226e6dd130c4dc0f150fedfe581a284510fe227be7eec82388a64254d0195c, 0xb384a2a9548068e6730d5e7dcff3a141cb8bede4d65ddf1300300991268b6af, 0xb7108edc8d8d9594862a1fd2be0af1ee817fb7d717fad3026d3811a94e45cd9, 0x8889cc8b2c02d8face7957d50677bc577ce5c0fb39ced1e12e630a6a7173e42, 0x573b6f470d389160037f8756a008eb3345907e387cd4ab495ec2a9020331e7d2, 0x3f58932f0a2d73b20933e329e135bc4203e3195ac24d5f329bd00ca536098999, 0x4a0f410626440ac1e69839e3bab9e86d1cb5660da64bd98e9205bb3142c5a7c3, 0x3846482bac352ee070beb8fb293b2a3c5cd6db7dbaa9a7864490792673751724, 0x70488142bd74c65487e1a8607f915043d4a695f46d87a1b6bda9fc8b9ebf726c, 0x10d3ac885a884dcb66110f811544a85ee0be4a512800129365141102203a6532, 0x3dec9505c97cbb251718672d935e48ff9811e7eed3d5938405f6a14aa3ce8771, 0x2f26381f2b61d2a52dab1017d11059047cbee916dfb1833d26eb22fd88702de9, 0x2ffd93596db20149490320ec7945d28f9a4032a270341acf185fe0ef5e866c1d, 0x5b83cc609ee0c3c855a446f519a4be6aa9ea0cb6c8b887f3e6629476ed8f52fc],
    [0x656ff268c469cd9f2cd29d07086d9d04a945ef829ffe907f1fffffff20000001, 0x1481c32e0e398a11f63ae2e4aceb6e5f4356e15503daf3ccba22325f8145df87, 0x4c67e48a9dbe0997d5e201186fb8612a9c318476427c96430bdc6d40354e5f6f, 0xbaee240c735f756b9f77a6a8851b1a9d53a257244063bc1c3a35ca90b7e5217, 0x34701da3ac6b78cc4af43964cbd70474bc6016777be2f9bc2070541f03f8c443, 0x319085a6279a7520788c0652e791686d70eb79384eaabae7ec7cc07c9b5f4bcb, 0x4bbe8b300567eee3008301af75d6e4c030b22eabad5d91415c950894aaddab35, 0x597bbc53230f4aac2c45a25dbf5f0b2cebac840de8a2a4eb397167425d3edb10, 0xe6f4e8898f6067c94aa7d9643d9b876a88b9efea4c41517e4162b1567348caf, 0x3b90c90229d5de973072ba465171ab4a74630848396927d6d9a4d1a98074f92e, 0x11d856217a67f6ea75e163f58123c8bb91ae60d89c40054f3c7d71b9d54fac74, 0x3687caebc73821e1ac1307a4c1bf70b56f23181e1d3df8fc90846493b345bf64, 0x5caa0134a170cbb8ff5dbd53f852a7cb8cc25054ae1f97b8292509ec96170319, 0x3753f2f5d55adb6120a7a1944a27e1a9d7942b15028c467f181afb1b4a498e59, 0x2bd4cf8846088bf3661a5ba11f91003604981f9372fdb926bac3d36d7ac7436a],
    [0x656ff268c469cd9f2cd29d07086d9d04a945ef829ffe907f1fffffff20000001, 0x5d6bffeed13cb9bc8dfd54a8c08c52421b0e4b13927939ff6e24c663794ddab8, 0x5d45a4a9e2c202607f91c4a6a7722e42b786f841bcc809e6a3d61186ae6c87e8, 0x2c523f37779435a4260c37890cab746c62ba8bd07abb869cdc6abf92b4c80f2, 0x63b69050ea5b8e88d3fa37d63c371f502ed7fb1de974efb034f08e8c3fc9eeca, 0x4362a2937840b9934e12ba58e8e74ee6392e9cc3dc462fef2ece8a1459bf64de, 0x32b2218872584ac39e438825b5230e4cc952e01b4fee4c83f5673afcbf405afc, 0x365a1ab2bc64f9c665f328eddd5b82e5051f6fb4ed61141e5b13a1e9f06cef22, 0x20c44b2f240753af152ec75e623416c8a52c92c86dea35d6bfc5336b200a7800, 0x5f4e20c582dae8ee1f0e459a1d5ad437a4df6840ba06dd89e912c25959194bc9, 0x507ccf22f11f5ad6d679c6f369535580a29d7d19628b8fd909aabbfb21180d5b, 0x2adf0667b285244f2afde73fe251ca23e58ca65bc06d39c1fa9c787dc92fce32, 0x6d5d8d1ae48e184cce9f09e29e14696ed5e35bd5638aec4000f6010b4b0db55a, 0x1e74a19ccbffaa0eedea3766430aef38a4b2e14a77fd00640456af292e5070a1, 0x1435bc721e0066e97691b2f1566cbb1875ee7ad64338fce4759ea8ecb19acdf1],
    [0x656ff268c469cd9f2cd29d07086d9d04a945ef829ffe907f1fffffff20000001, 0x6028661b9acb84d008572cd5860d469727f9e3070d6e1a7dfa20556ff15fccb0, 0x49e5bbf8be2e143a637299096fb00969157b90e4b3b4837d510713141b962e70, 0x500ccbc28dc0a9b743b9518783e0fd29396fe9ff82709917172cea62f28347cd, 0x24115e0961870e01ff550c3316f493621b09a835bae38852003252490953444f, 0x6e33d14c2f7b88973bd3a1d32234c94315690e63b6e7757e99a9f9ce3cb741b2, 0x627077cb567aac42e6a537d2cbb21e60024de2dfdd316f5e7e3acda9b12ac824, 0x2778a569889c3fb47d64c3f177b9dcd790949e7840c72c876af887fce957afc6, 0x4026bf136ce6a3728a51befab63a61ac47ad46dfd5a6c1edf2cf1330f93ddc53, 0x637caf45394fa72b6a2bf95927b3ebb024fd81237e4f2dc9c28b4840e15dd203, 0x37df3b061ff9754546961c0e1c33f6549a19e4e50862e9121979679a447ca4d5, 0x12552239e729f41fb1da48c889fdca729fc92f6dc30d71a6606d9999f70053ec, 0x657bbb6f418e3ffaa599dc91b99bed99f4b08b6991daa6d9aac06220611aa409, 0x4285b9d1f265212e56eeab33932d88f5219dea7155520379ce7df6afc29962e0, 0x23175d3056378ce8751f87222ff4179d5512d94c8f5c4a240cdcf2f45c4de4b],
    [0x656ff268c469cd9f2cd29d07086d9d04a945ef829ffe907f1fffffff20000001, 0x564dca3387abf4e5e14f472acb270d86bf41843cfab1c72a1f78e03bd4182a87, 0x63e2630eea5e71bc8f16172fd27188a4c82a8925dad6c0aa35a32e9c2025ec6e, 0x1faa8dad282d54084b3e927a000de9388a1b36f291bf56317f8b34033d2a3ab8, 0x4dbbaa1c4148c8a4b91124071eb18cc9cb2ece2d58233e67231b9c21e8438e27, 0x3b37968d6aedad89d1882651b233f736bb47dcba1377baaf848d92a71fc1f60a, 0x2de4fd3eb965706e124ff540a985571a4d79ea88febf36a7482094aa7d246e41, 0x4662033337ab9248ec8dd7f33b83d968e16f37d32f2f46fe6fc4e01d37638087, 0x5388adc899f716913567d2d71f52426514c3ecf54b60d892d029cc6107ecec1a, 0xa014ef57d07ac521bfea9e0ebd8401f3659c6e0b6dc924d24fe03404d7d322a, 0x72b75d3f9ad47e73d85c8e7989a79712c6ce14cc581b6c58433fa621be763686, 0x3e16efb0121da4786c8a1a3a71bf01e695cbe19bdef67a173e8c2ddcc7e7c6aa, 0x67d870f054ab177cc181c3a30c202f97bd338a8da6fa8d5a8e1350b51a52d6, 0x1985aea716984edfbbf9b72c7c1538865cb375c97b74181bd4e16734fe7baabc, 0x5e9dd25247ddfa22fc6dc725696065707b22cc75603a336e822b226a1381d775],
    [0x656ff268c469cd9f2cd29d07086d9d04a945ef829ffe907f1fffffff20000001, 0x1334854c7cbc8d003edd8550347247712138139754587ef44f91965209338966, 0x63efac3a1ceaec099ee8abb71429777a040cb632137727465a8ed9e1ef00bd3c, 0x4574fbbce5d201dbed7d062b5e80f0ad7fe182cd98447121215d422b8ae1e15b, 0x61b2e71859bc26312f907ff949a62956b5a3256002459d73be01ce049c645aca, 0x243a6e533c7bd773fe4dbb3b84f80846e3c87433885309f57e7d3cbd5d6484cf, 0x4731206dfac40a899dc7832ee5725e1beda264812d6c96af21589d39dd5259f7, 0xeb9804b491e6e390d6fb552f99a76cc2f00c33fb6a023928a0f14a4280d6e7a, 0x69fe09da779ac1bda6eacbe015618faf7e5f5e05ee2f671e03f0349b3f7cdb16, 0x240185c060411085dbd29eef98a08af4a7dcd2f39308aa7c0d0547c23e38df01, 0x4a3abb20013eacdd9cfa2545d636ed1080b576055ed833fc0a45d13e72699c9f, 0x4967746f2e844be3731390110193f53405341336f95c86c6b2bb17a091115673, 0x614d7fefc7f87625d112f6265527ab8167458b702305ee09210cd209492a6bcf, 0x1ea89e39618050b8b347e96099069ba997225941da1449962bdae147923d0b09, 0x634f4e2acc87508e4cfc0d3aa1f852734e9f0816a81b6cdb7369cbc005d20bcf],
    [0x656ff268c469cd9f2cd29d07086d9d04a945ef829ffe907f1fffffff20000001, 0x5b38a2549666ad047204959a042280dfa4e23b386f5538b351e5fc06c685ffe0, 0x51501f07cf640141e5330eae76cdb0f90e660478ba195707b7d7fde817d216e8, 0x41a854fe138e9b6fa4cc622bd0f32e52927264193ec0d51935ad011903659867, 0x73abfdec6761f52c6ad207e2eeeb5fd88dc9a72674714e6e0e4d35d19ae40ada, 0x3b6a256417514e5e23c7dcab0a1afeb21c4597fb1230350b9c32451fd062fdd6, 0x4fad33612598f75da3d35c8c2990f93c112549b52d73ca8f5bd24ec6e80b7fb0, 0x4202b7b4ee840112b58fd2bfc69aa059042eeb334ed6f2f72cea7477f441ed7e, 0x4ecd221501f5c00c00a65698be97699712c69681ebec1f1542c57d985ce02601, 0x15aa53bc66840ea2d2f68d7c93bfb60028e115f9212b841583aecf20b1e97394, 0x14caff91354e4e44521e6a29916b8595e720ae99939c897c5188f076fac19e6a, 0x4566a65b6ada13a0add96d202a380f0d365f85195ff80d00fa3d67b177855dbc, 0x6b7184c482a1359709010ce1787ac4abe58d0a52bf9f5e21435278a6dcef13ec, 0x1b0d498af254abceaf49c5b1bebacda4cfc72801327736d0043cc078d394eb80, 0x47dc90dee703731a32ac37dd610707fbac1d50eb9f0d2edbea2e8dc870526dcb],
    [0x656ff268c469cd9f2cd29d07086d9d04a945ef829ffe907f1fffffff20000001, 0x60d5fafd546a7767d67ece5b95bc7d09e82fecf401fcba590b36d8ef9d9c7463, 0x5e343c81df8005d9bb24e78674e93242f816e6950afa9d0eaa1b4556334d7909, 0x28ee01618868b86ab5f3bf1111a09cbd2718bbae7c9c4842d81965c7c6c535dd, 0x11667717076b35175c0d604e78b09524ef98e68ae866af2a98a514bfe73c173f, 0x208bab570454f083bf1a81a23117f4fbab112b34668c337d5b7728932c631abe, 0x5b8263c8ef3c2c0af217408fff5495892a5f1f19a0438d035f204ee84a52ce8d, 0x2df0104b5c10157b7b5df39c66299c5d051e2dd48886ae44848cdbd881687e75, 0x2a017e4c6627401020bab77fdef373cdc78abb85732409f2b46fbd8e85fdd12c, 0x472b03598b16a8d3916621f7055bc9f90812700cc49c8c01341152246a140318, 0x3cc256eaafa3af3dfd2a64b0245579c2bb087bfad938f7bcc8e7d3c31522e4b1, 0x54f980f9eba243c3b7f0ad00fdc456b4ddbc2f22e855f3f84926066ba8850920, 0x8e7b273469050eeb0da45c26956f612ded6bcb69c36368684113ae0f2b4af4a, 0x33190fa033a73ffce0a73d29fa55bd20b21facee6beb6db520c34e1d4ab66f29, 0x19c3301251323ddb45fd3d522392eb79904a14f96bd840b18c0636e93f634e60],
    [0x656ff268c469cd9f2cd29d07086d9d04a945ef829ffe907f1fffffff20000001, 0x3c1eb677ee7dfc6212e4f1fecc60982a022759d736073cd2a6ba28cac8ed9fcd, 0x2dfe3b4871a218bba0034540ef844bfb78dc22a7b5f367a3558ae30872cc458a, 0xc0d40a0391971878812ba376803b87643083eb5ed29d6889c8356ca7a5a6cc4, 0x1fc21017db6e0c0a14f6c87ef7fb3fc705e5927c2bf7bf4e6ad2438322a4b71, 0x3984195451842ea94b690ca796cc9528bbc0f88df3374faa59bac6970f41a83b, 0x62bba1b3d878a2a053e3afc4e53c7391a9720823a9d551c25efb1d4623b92e62, 0xa5d5a324ea0767549f4ff065df354c062d659b1541ddf526e675a2710e5f2b6, 0x12437887113b3b7d0c49eb0a032348ec602a35cb3051ce8d6a14a2991715b49d, 0x32f55b3a9ce65739812691559f7c6d6016f40bf9bb38cb339228fd93c6958f18, 0x15ea99e91af1b01e49221fb6dbef492efaa13599f0415d1536750391f4278ec4, 0x5099feb3157e352443889a1abe0974108c3ffdd7867e9cf79b98b14d593c7474, 0x477f4586d0110035df4f95ca37dde69b61126404dbf9704f8fc0aa68ef388194, 0x4a473a7e7ce0b3a59391a0a763908bab023d281c8e2fa000cb57dea2d93ab119, 0x699ad54864acb101014f189ecd02bebf449bd324ae1bfa2f4f5c3b6e1ed12a84],
    [0x656ff268c469cd9f2cd29d07086d9d04a945ef829ffe907f1fffffff20000001, 0x262de9b8d8d9ced51e588c325c02ccf4faeede3465bc41aedd11e454ab02c685, 0x49d2abfa37ea5680eefb7b1b5de3fd39e5fc50c1e24e28633eeaac8c198de26d, 0x6ee76d09e652418e97f1e01db51499b1dcb14b6a529c492935239b0a0d5af4be, 0xaa45da0dab813b3708c582ef6a32f7fb071f2e6ccdadd0d2b7e1814faaa377f, 0x5154cb57d5513aae8e61abc96ea54cef77f8f11b62816ede2a45ff196b5ecca5, 0x4a13913925a3aa7869bba061ae90d9665d3aa5db9487011eb6d286257535b25f, 0x60880e0cd3de411823a2ac1689186096709a60530d582e4a4ffb485d972aa086, 0x24b6b88c32ae9e55adbffdf7956087a9de216babd7bf36699261d72a21e9be9, 0x689f8261d9bf4107f74c5ed7ef52370a47e8c5e815c537fe047ebf926d7315c6, 0x4f378177682985ddb5cccab7056d50292437ebbab71b81838e70bb3f41574736, 0x48a4a110ef0287ac64d9ab99b55186944b291f3002ffb552b02d265786dd00eb, 0x5242e90ef02a395d3603dd0cf7ee0884cfaf8e973a22402e4b48f27d1ec641d9, 0x2e37cfcd3bdf393983d0b0168660046fa3dcda33d7cb11be522cd05f5e06c8b4, 0x57c7bcc5e464c061c58860f4842179acc144da8c72e2e79408f329d600ba0157],
    [0x656ff268c469cd9f2cd29d07086d9d04a945ef829ffe907f1fffffff20000001, 0x25629e332a8e585c95412df5e683da80f37cd5178159ab4c0badab0e11ac4ddb, 0x2d2cbeee62ea6b7222fb3c2a2d46c91dbdb77621ca5de2d73701c559a523e5e5, 0x30fc75992837bb98b52ad92bd7869f0fe40dffe782cb14932b326e6ac16292ef, 0x5f49bf92f9111563f9af83e4dfa8170012bdfd9fa1b2b8c68f8530edc5a0fdf1, 0x50b2eda586b137cd5a4e38ea07f9534bf38504860ac9934cf1bca0c6a26f3439, 0x71bceeee94c8a9b9e0c67491121888b7daa412ace6a0a80015749a01d1fbafa1, 0x3b1fdc77a0d71f5178c9bf88056babef79380ea6dbd7d2be4728654ccfac5dc4, 0x35c8b662ed74d6ed8ce50106a75a9d3c024a119aba8c43ef24004014e4ad62e0, 0x67a519bf783ed5eb6d0d45d0e59f5bf22ff3ce848d988d0f5efe0e68fb51625e, 0x517618e3c3b937144ccfa645ac4c7984c6bf8f7ee600eebc40a2e40c17ade22e, 0x1d69e336fe552938be3cad7c3643683a7f873866b63b68431c904a0069975a54, 0x1bd7abb3d3c76636c7152933cca162c7c541db76bb6feb7ad27232e0673add3f, 0x2032ff729cc0c345528c8a9e701596bd9cf0ae4db4427760f66d56c2d712e951, 0x3fa8d3d180baff0b8f0d146734eaccf6ec929bbb6a06f7a0a40cb3fc96778ae0],
    [0x656ff268c469cd9f2cd29d07086d9d04a945ef829ffe907f1fffffff20000001, 0x6a31364d864592254648a8c9ddb809bec5ed64cffb14f0546fe6e97c33bb2d37, 0x513580ab127d70945a80b97581d508576be72feed213d9bbc440a5e963d0e10d, 0x550eeda03a322743dc1a253ba2188ad6055af4098e9ac96f779aa5adc744bda9, 0x3a70c664516459d17a8b2d87e0cc06c9c4d9368e56618dca3dcabdb8ed867727, 0x6ecf8c514c9fe09b9b85df2a3d3f554df8b401d4016e034619a85c9392ac3228, 0x1c975d875a9feaf0b4c05fe31f442ba8de850d3ade0b8bf7a47e8e917880871f, 0x2830cabda5b9b9bea29e5aea879a2229d664a7bddb23163d9d85f762143586ac, 0x60bfdb2d4ba86692646c790a8881b0bc87af5c1a3c7e9331ed9bdc7f515b9a4c, 0x28b02d3211bea8cffeb2f654c2c6dd23f76e0604344b7ac03a98ebe9b0d47c73, 0x1a4cdd2fd2873a3ff94cecd7345c1ff84b2a176079f85f63a1ea7d294d7d8287, 0x2be79354265e1cbf1c84fc798953d63621da700094917ad9ddd66e7662963b57, 0x11d6628ae97dc9b0b48bf0089fe4930b2a56da64e270dc19e9a7c4da296867c2, 0x6f1d41da2dbfb8f3842eae3cc01789c4e588f1285e59a41e59307309e5eb30e7, 0x213c53a8dd2411a43d035bb056b9e0e4bb1fc84bd1b068f017fdaf90f22c25ee],
    [0x656ff268c469cd9f2cd29d07086d9d04a945ef829ffe907f1fffffff20000001, 0x202cc1dcd96b9567c88667131e48e94ad43e603bb6566a13b5071dadb7d6e68e, 0x34256955d674d5b435b80ad0295d43a297dbbb10d7ae0279d17247d2db431f0, 0x26c3b762c0d6bc450edc7574223ce3fe60be60a1ad517d25dd872b8b17ef41f9, 0x3133f4adc911fc0be9a52774f2926df105d61e9f4da6436040fe421253c895e3, 0x23f0538b01e725f47f92f0f06ab06e29085a414f78066e71034102df410c6177, 0x1ccd6c4fbe1f10645aeff2b8c1fbce1505acadae7e5042635372bf217459096f, 0x141de3f01ed94d7856ae139ea20bee01e65d7088c9a9963e6907bf1dfe53afce, 0xc561c0cc9a011314b3503b30f02eff048b3b1065fc8dd196cad15b551f59c3a, 0x40ca6ee63d3c4d08ace8415a553d0c07310f273e574412bc5ceb121c4da872aa, 0xe32fa9ea050db5b3ac8e497caface1428260a6586121269b0cd15754ba2ea54, 0x67397c9300fd086b9f45388107c897862920a7d112d070271fc9d7d0e3c75fd0, 0x737b3e19672de110524ed37d01da456cbb63e857b90d9874b85d78910c5ef295, 0x1fbe29a3784e9a443bc499fb2c8c3a9e32c64856c85fdb789b77444fe21ea2c0, 0x18c5ab7f346a9eb36f23b89e1bfca24e89ab1b1b5a887ff763f4e6002befef92],
    [0x656ff268c469cd9f2cd29d07086d9d04a945ef829ffe907f1fffffff20000001, 0x50b863f5d424adbd51599c59b7de8bc880758ef83ccf9261b41f318408fc49e5, 0x4c2eaaf13c27a8e8601656560cc94b65236f0354533c72d72fab28bada7c88e7, 0x66642065536e2d28288bcc5b4f5106f32746688baa848ad21b7c2f1a38d60220, 0x6868f60655fabc71c0a915f2cfb8b58f36a9b5f95549c7a23282e40c67143af4, 0x25a1e6e06aa59e0ae5ab163c212987a50f7f3662a6aba3e4fcc93776e7815811, 0x5d273033b0d1c1d81aadbdd2eca016c901804b0f991204e108fd0a72ddf15621, 0x5653fc68a0b028647fff5302b361e42f389bf9953ac9642ca3024d1e12e7dd6f, 0x63888979c3937728a7a423b48c2018c023e36bcab71148519d20b841d5af47e4, 0x3850f03e04ecd8e34a418d8a3b0551b9fb5bacfc26a1f2b556b4f28ee6b8c8a7, 0x5fae9e9f71717bfc9035b9376d5b072d7de99e2f7da608c89b7c940e2a92ab76, 0x35720450888db11255d878e9efd96af745f16871865c8c32ae3896f9f54cdfa4, 0x2596d7a74ad1503c80e4ec7e55e1a5baef7f785dd94cd10b229e676c66042582, 0x70901fc38f3da9976f3ea7035fa4d0ba0845544a682f6c6ca92c3c1a68fa597e, 0x1702fb945ce7c39f8363d5e49900b8ecf27c17933065acb41fb8d003f4afd3ee],
    [0x656ff268c469cd9f2cd29d07086d9d04a945ef829ffe907f1fffffff20000001, 0x5b3a003f50b586d9677ebd70d44d0b9d1eccf7ce6ffbd9170d79e34ffe98f7c1, 0x249c68ff3ea4574bd4b5e55f4457d41922a7c4c4328a05d9152ab0274c26b525, 0x175cdedadc1cdc4b6d88b9b91a898f6478003f26575cdd3be184971acb32b233, 0x73d995606d0d8e3f7352526aeba6bb6f3c2dbcfeb61a6236a7091cefc91873f7, 0x71b36ac94428784d6534025281d57ffe71be2d79c306c37e55e71f4c6b004120, 0x32eddd10d293d9029e3a3ad1327864a1d890b4bf69a96d7b3168ca9b4f32d01b, 0x120469806fd67b938f800065194d71e3869e54a453d313b903065522fa231ee4, 0x23db7c28b0d96fc8e731005bf6ceaa61495c968ef10b9a748265897d86d3902f, 0x11089ddd3281704138fc885f3f60fd138949641755ef18fac32ca58be49551c4, 0x5ab18f95baeb9178385ab0830d2646d706324d923021301bae9cc01d43d22efc, 0x6e6bd258597b79082c992141f3fd3593ac3050cd2b756ce07793cf79b77ae15, 0x273dffd4fd2e177e0e47d060c7d3ec1ff99e96cb5df5d31dc2eaebb97497ce3a, 0x33cc2bc2de6c1b3710fd09c3004df13a6775fc3dd061328f5e757bc6abd58322, 0xd4cc276bc802cf15caf77e90ad9f9f6b4254c0b468bd1cc194d4baa16ca6fdf],
    [0x656ff268c469cd9f2cd29d07086d9d04a945ef829ffe907f1fffffff20000001, 0x3a3e043b819c4e554be926b03312e41635a10462cc9d079d34727209da174961, 0x2b783a719ae6d450d4a87e10678a1a4f7df37a17ad8f89a7d286540bf0a34892, 0x24b81e2d09d8e7d4bef46d9082dd444c7624e6dbca9e71fc58baa3d21d259fac, 0x541b626a072b6559a1d558d408d159c51046118e29f4963d5dcd38d1601463f, 0x230798711897009f3bd0e1462b36927ceb0bd63202503eea2ea16cace9798e41, 0x45b1f1c4825f2851fe7b749ac7ae9cf062c4a2cf2e6625a10d420acd2047c866, 0x1c2ac14632cda55ff68f7824c3fd977df344e0b1e58d76ff04664fcaed5eb423, 0x1953187c4bca7beb2c32f42166b731c994e8396f762ca9b3449f945ecba12296, 0x4f3cada8d0c60a97d41d6f71f3d88a3eaaf10f624c4fa9b2041214a76edf8d60, 0x4cbf00e49ff193bf5544620eb4fa4ad6df39b43260ce8068f2018a8884cf892c, 0x3b9b475421959bf82b2e6900cd468a82303e97b5c65f6d8a5f803b6d45b6afae, 0x4be61b2496cb3e702e29467d8a36724772759f5e425e630609a45e277d29e8ed, 0x4ef1baf2dea71a60f9961fb851cc3be30046c3b88fa8f54f142057f965e08a71, 0x734c92aa68410a2d00d8f29469c6264e413db518fa17868faabb89e822e0eeb6],
    [0x656ff268c469cd9f2cd29d07086d9d04a945ef829ffe907f1fffffff20000001, 0x4d59cb51e3dfe13d54654c40bb90472539ff3b6710e9d3adab224af653f48843, 0x2a065cfd526056107fdaf4d17357b29d62d8ddf6eafa7b5609087adf9fd2d96e, 0x65422093209950870fab85546918c63bc0ce2f6a68ed7501d75b4acf250d9f, 0x4a1a45f41b8620c750c55c9bbd684e7f8548b5137866a6def79e6ac444979339, 0x53ff292d9607d09cafc107fa7a767502c03f206be616ced2adc6009ace457810, 0x4c087b258882ad84bb99ccf7a457ebbe1454b37a27a18104369259aac9ccbec8, 0x73db40d43ffc09ac299cb7bfb34c87015cc20b99627a8607a7e84f4dfd4bcc1d, 0x1e31e9cb2743d4c2fc20943ee15f698e46b1bc9481c01360f74520fd95db7339, 0x4b8f4019ceaa33fc719b2d2c398772798f2d58ff3b097a112bf7d01ae608364b, 0x721aa02af87ffe536b6321334c0b0b7876b29d697b40c19e7548ace7b2f7feb2, 0x3fd14979546ec50d5d23d187ecc8cd94f12e1ed95b7daa8f1b57d9c3bdca009f, 0x645a7ab207cf3524986df5abc11536619372b64859fba3371ecc3eb6a75ebdc3, 0x561d1e981641aef08e565938066f2f8ee1bab6ad8f3e2fa6f4b15ca4c180e5d0, 0x5acb9010220d0aa2d39b713e5b4522f6e4fcf2b5c82e0ba13fe78eef027ea41f],
    [0x656ff268c469cd9f2cd29d07086d9d04a945ef829ffe907f1fffffff20000001, 0x31c43da304e11bea17ec42aff22a2acf28596348584d8591ad79c1eb5d5a8c68, 0x707fb0131818e2b278aaaeac31a987e8af255ac1aa76512d7cb0834d29adf2fa, 0x11c0f760774d27a7fde9b3a728e273bd8235336e2ab5e7f040b5b140f287e6e7, 0x516167e10d2fa27fc983b25e96e321f9ff42a5290f2d4aaa28534209fe4e36bd, 0x375fcb58002b19317f6f9195b27dc7822c83050cee2488481e722b671358889, 0x102aaabe14c782d389327dea4dd0b2944038e081d5ebbfaaef8294b15b345b0a, 0x6f7601eb1cae4e822702f5dd332942e283c95da3b75d9b59eddbbc2e2a1f9239, 0x4e0f6871e93d4c07bda09325ad4eb792e5ba977768ed5add5acad86999188a9c, 0x346241d5367055ac17e3f4571836af1d242557dca7b441ad26bc885ad557f3c, 0x4a5a87b0982c4f68d34887f907eab0d301c684028ec03256d75814e5b9b25e3, 0x50064898f20de28114eb622a2cf2c5b8f7753ac95c52579207c79615005c3b39, 0x37cb242ed4845f40c60dbf5ef317a4a375799b9faa2af06339de7307beeffb31, 0x7357b60018f6e9218fc8d530af19c2199d06cd16ecdca8ecb6d368108b3da871, 0x6435ed305e33c7ecd5e670944b20b4511da3a1f71540bf8c0b33563039b6dd5c],
    [0x656ff268c469cd9f2cd29d07086d9d04a945ef829ffe907f1fffffff20000001, 0x1ae0ee1f4b0d167d6251373011c05d224c11f2ce1f84fd43cab7a0539f82c6a7, 0x2a746fc001bb9247046d06177428b62628550378c4d7d622933b6a0ff0fb7d2, 0x5b8bc7adf3189249fca12bbfde65cd0cee42e9726a83ceac38bbcc25f3c58a38, 0x1e4584431bb12723c8248945d0b5f5de98b4415873844e109f60aaf2f6b4391a, 0x5c9cde2dd12cc419de31618beb5bb624b6a13c45b8e0e0409d0566eac21c0790, 0x3eb972055a701b6516137c20bcb3ac5acb6e0d1224af09967113aa49d447187b, 0x1e718142d0f1ca2b3daa3d5ec67385d3df238e546d4e07508a94bae213012774, 0x147a1dbbdbcdb93c726308d99c4298424c0bf4c5db9b8123d5a927a81b344220, 0x5393ebcda9bf0b3eb46fccb8a6a4b9e3ed007d8ca244dd1dd00a332a6cb74416, 0x554d3dedcbd0a62c48127846a613f05b730ea3f302f4a5d2f633e21d922b72, 0x5edb26aa255bc3a5da84ef7c07457d33575034832657eb755071c43140483945, 0x69a0597d3e6e89bde76a1823d5f19e6f584b601b244000c4e16278edb25cdf7a, 0x44ee3f9d71983c883bbf50d256cace006f281b0372d3b571995dd59e15e8132d, 0x667630758003f53eef54be06c106106359f423ac86f935803ee5b93505c27e29],
    [0x656ff268c469cd9f2cd29d07086d9d04a945ef829ffe907f1fffffff20000001, 0x3d64b1aa9dc2e40d6037c2c6528d705f23e23468824c65b4250fe14154907920, 0x3336f8718a54015f5125ba0740aea97a98e9078a7d417da6759130a06be56d31, 0x12705b72e558de3e63b2d2c07e56a03e55ffd3814f2c02e66d7dfbc4b3180eea, 0x5a7ba484fff0bb117f4d79d3b20091082b77b6f3293b24ea5e914edd9f016da2, 0x441bc42fbcb9e828844cf0412d930de20a76035a21ed42e433ab47a445432de0, 0x159c3f3d1eae5dc3c9dda6bc8c2f52fce5f39c94a8d548d5016fcb6b7d0ec310, 0x13c19d47bb580fe31f92548a60f266a175efe400f950735284a62a53c0ed9d5f, 0x4e80480dec24c94552c5851462c79289ef6f26726fca577ea3054feb97aa2c75, 0x1e31eb82b89f5fe8d93569060396ddb0e809662607e5b65f9c0adae05a7b662c, 0xb41f5ca2ee342c3e920b32431c83a8658fefe99bd74643ebbc039804fd36fd8, 0x6ee7a75f2addf3b912f64989559ae8f37e713db8a66f8a363da3e8268805ae8, 0x562b9d4f56790db62412c1c6b51fc5aa1d6a79d9b41ab0cabb06646febecb69f, 0x257bac7df41f17be1d0be8b64a4b39f640ef1c9c99f2b88d39a2cf823f89f532, 0x137e3f9a140ba45ca7cc07ae4113d8ebe4e5e300ba4eab96bef5bdec7b72c793],
    [0x656ff268c469cd9f2cd29d07086d9d04a945ef829ffe907f1fffffff20000001, 0x1b026c6ee6be09281a8d96d2b27b58594a56d943c9f12fcdf8bc03ac3dff6c56, 0x310db558216370d364e17747763635b726e7137b36bc9c9c8f09f1ed0c60c650, 0x37c991047b15ed05a40a67adea07ebb4d9b17dcfcc88cc85f2cede59344d77c1, 0x5d2509c414c8da70be712e10e8658515fd2b0a12eebcd575ea52de68604efbb4, 0x3336f4b2254713b88dced3106b11ede9d6a536fc04255b5609f050f28b5d9041, 0x5cd906342c5b0925129fd93c8c5585b0c377cd2e57f77cdff675ffd777c6dd57, 0x79da4fcf72038e5b828a194e016451257a24b9bba4dc1ba1e403c3a478b0629, 0x61a3f05dc3f81dec474e8a8671af9d3c61a613b36cb756db28cd97b275c4ce07, 0x60bb927921055a25ad262ed1958b956cee0d5e33247245db7d90de5034787b01, 0x248baf3149b0cc788ccc3427a8322096045f94588090893182f9a1de1a3009f4, 0x10625be790143d482bf8dec6bccc10d98c5ff1bafe7bd8cfd3a4511d037e723c, 0x6f3c6aeb1a2bb0757d5296db3f50bf7e35036770bd76e96d0b790ddd6d09e51b, 0x73882fcd8b7483db1e77dee925fd2e63437706a76f607528520bddd43c3c7937, 0x454673a516c34207c593ecabeab9668d6a31b886d6f0a25c2701249a99a1f743],
    [0x656ff268c469cd9f2cd29d07086d9d04a945ef829ffe907f1fffffff20000001, 0x5936e30dbcd75bac608ad5c13eaff5048d064da442cdc6e2808357b5afb0627c, 0x6af6f11edaad9806a8151d3d48387efe1ebfd3c5dc01452ea1da42f0addb1198, 0x263fd7f2877c5d959085b70270c3676e91a212aced1bc593fb8ee8db72d0935b, 0xaf5d47a90ad11c047bc6ff878a885d926c3788203d556920f53fa4d75b918b5, 0x17a4637efa26e968bea814eb33b3c1fde30402c83d993fa0fcdcc8537a9f3c24, 0x1c49d7e1200d417c215e149f89cfba0ca9cfcfcf130fdbb2f95507e0947c3f81, 0x7a7065717aa20fd77eeb9e6aa7c743a9666044e6c7d6a38a319ddbd128ac5be, 0x672c0fabf47000bfa9c0faba07a3f64b65fbf0d91c0149ca720e5a5631a48fd, 0x190b022b918cac68bf7c30d367d78d4b88c645ffc888fd0ebaf7253289b1156d, 0x196fca547864dc652fcc45295d0bf1f38e687bf1e963adc772c2a389e97f1da4, 0x4aad6951bdf01c1d0a524a4c396465ce2f9dc752d0fc5beab8d45fcf2c8d4650, 0x65d4e01363dbc2722922a8250ad23c4ed90067179ea8f81906cfc481fa0e89d1, 0x3b955f5831f7f0c076500b30579c3765d0219a7943ca3cc2ac0125eb1bb33f22, 0x59c3eff77e50969f55321d6d0b69b36821bec5473e477bbc859e879582d1634b],
    [0x656ff268c469cd9f2cd29d07086d9d04a945ef829ffe907f1fffffff20000001, 0x59ad891929701843947f78621215413f4962728d6d9b58f1a996a16f385f5a74, 0x6814042b2e327574683d6c1a20078295c0e98bdc37d56ab41118ddfcc1e778a9, 0x6f4df48bd2e99c966ec22b28ba0fc16f525312365df9315a908e422c79e651e, 0x532ca2bfe1eb4c810b90f6cccc2233ef2c35a0d04f028f0971ead78cfaba1d53, 0x3a4a373d4848594c92028435a6968bd0eb315e6426f754fb47a4c2df2cf18cc8, 0x5739e901d5a3e3e838ce8a852e24ec456164c2cd9729aa511188060ac9559b91, 0x18316e342c9a00a231c5b7b0999b0580678b512fe6b78d6798deaea9fb25a05a, 0x4074c81239d23d5226cc0082e3a54ec51dcd4db34795427360115d8043adc5a9, 0xc241a15ff2b7e4b885fa049a353546f37c7acfb2ce57f5ce45338ace0bcda49, 0xfd83771f29c843f55293e8ee04dd71fc887982b499be9dbb517e1300030403, 0x21f66f44fb086b06aa7d60e0bb710953c5744f81e2b72e7762d5c2c174db6f74, 0x44cfd7d3f223e1f583396806615175f50bfed1b5762e2f74040052965d5a06fb, 0x282fa4e4de066d0dc9afa6e8edb1b6ab8273f362a57fe7e04cf4b3ffdf091e7, 0x3e96d78daebc6db3d2b8110c5fc4c5c1864bfc2ed109c47abea03bf3e8c8e2a2],
    [0x656ff268c469cd9f2cd29d07086d9d04a945ef829ffe907f1fffffff20000001, 0x675434225b2d9a2ef0461a6d7d2291cadd2d534ca62a76bab96b47d61080b336, 0x10c4b032a690681cb995270963d1a012696cdd1d3696f4d3831e229cba119b68, 0x4bb408007dd10aa83ea4c606f8c869bb6891991de44fb580c9d5d8f7ece704e0, 0x2ab33d98e6d68dc75950d6b090e5bbbf4ab0bdc800c53e9ebc0edb64a0a0f209, 0x5a287f081198b263e5f7a1e2f810d5cc71d49c5abc4f21487226b17695dd8e87, 0x5a7e9011eb3b41c5065137561dacddf8d55e7828bb99e38ce89e0edb023de2df, 0x220440838d7ec4fa8e5f83e7410884537bec6b63ebacba2dd5032b90f9c40f97, 0x1e956838234d6f0570716e5a2f5a3bba33cb1abb4104c7a34796f401644d5db5, 0x2a7152e6fc68a39ad4b268032dd8e656921d401184f74faf00a26899fad10ca2, 0x5fe45d698ebfdf771b231abbe12ab7e1c93639345b1206b9cbb4a539114e5330, 0x4d63fe4c6e89a43260412143c106688a40dfeb9afb4e3074d183dc2c43032e3a, 0x3a13e0e455cfd56c4ad66ccd57b7627e16c245550eb557b6a9ac0d41cbcc4d54, 0x64058a1e817b1b9c1e31477e4cdd7be15fdd7d3943b968268186b3f59a274e52, 0x194ce223284d7cb5e6c411bc66eaafc9f9f99ea7400c381237f7f76f58b9698b],
    [0x656ff268c469cd9f2cd29d07086d9d04a945ef829ffe907f1fffffff20000001, 0x1903104e46cd9d24754a2239c473ab912eee1a2e30278925d1353598adf0ead7, 0x2a8c4c0a33c0124f14141d3eee3f9cc487d72ec149733c79eba69f57775b254e, 0x192d2e0a569c988ee00fed35d1b08005ed5cef64c2fae5fc413cf174bb23657c, 0x330bd34f037a6a64631997ffc2ec438272f4823b2ac27f997fdf9a3374025968, 0x497814817d40385acb3b106e05404cd912bde6d146b6784d5264f8b54f40dd23, 0x5d6de2f99b3a80769ac84b651c38c694d896576723637dac0e21cb45f69d83ef, 0x60dbb7573c2eb84699b97ae75a55e4402a2bb8c939bbe15504abf448e82e4fa4, 0x601e31c4152cb0ffad5a7d79706d7eb8280bf3a5f6408030e3e570a028b69c81, 0x42b0fefd242f7827653f8bee934545f71d7a0d7b37a0d2bee8deb28fcea62f74, 0x16d4571fbfb3d199b61c0f4dac62c0f826d6733c8af0396dd3cd8fadb82fff4, 0x32feef73b3e26959ff956f5ae07e6c291742a1124cd9b492573a36abb3a1aa6b, 0x54e99336cae4745fe9474b19edbf1f90385b319a808b9404d35ef0e0937138c4, 0x632440272fa67efee73eaf91c7b7ead1447a910208f5c04ea7a8129ebead592f, 0x6b1dd99453557dceb1cf8c09b5490390afe94f0940942a793fd2d109a73c64cd],
    [0x656ff268c469cd9f2cd29d07086d9d04a945ef829ffe907f1fffffff20000001, 0x61425e266200ace9e9f307626104cc81ec7d6ed1105f1e49ab42c983b71c71a7, 0x50ba7a3ddd3c16771227e36137c1ce9b2df38b8da70873db846e585d8d55568f, 0x3b24613e1a868a84276dbfca1d57353579f4a3a36ade2f709f7287ccad174124, 0x4b4ab7ec56d493b0e4b867cae0e9220e4dfc15563900d5bf42cc286333c1f9c5, 0x2088a9dabb7a543edf2d3a85024d523a1c2d1c90a9ec677abc2eb4adbc880439, 0x6085622382ab8ff85df1b01fdba7cb8faa9d2b212cfe0d7d5696ad6844a4b8c2, 0x2029b50a2b520f656ef344aa6c0de5cbcf55fdcca799aa842b59926def2df18b, 0x34452748c8a53ffe695be10eb2036cca86fe39717407482295d98b1894e0a528, 0x1e8ec524a0613368c15f58175fbe0a583a8cfb8e6143e40c3254780321fbe26e, 0xd7ddbacb599f721914c1458cf830ec52d5a0569e52f1ccb662703bb5ea389f4, 0x2a73ba78f5af08cc9a56cd963d659b6442281cede3eb3569080ce4f5111b4edb, 0x55749bb1105991566a5c9e1e0ff953336e06ee5c7ebe5640ab01180cf2dea732, 0x5f9123d41bf274c3925b811ac05198f6e7a7077c6b96b3ebe4ef5b5642b8f3a6, 0x20ccf5a1a28377f4866d1824d45842ff7bb08f57153ca242aee0be7bf7c98da8],
    [0x656ff268c469cd9f2cd29d07086d9d04a945ef829ffe907f1fffffff20000001, 0x19c308bd278a478d251af40c9c26c4a0d94b16c2d38f46ac5b19a9e78ac71c72, 0x4d491a375f866358998f3879c254a5257b119751142e70166bbd9ff78bd55556, 0x3f3bcfa1fccabc5c2ab3b646614c8a851ba69fe1a808bb0e5b9950d4a01745d2, 0x706a54a5678c5a12a5638e44d23a6600d4206918f60c6c2c45bedd0c6df07c2, 0x81b5c433fc6bba5c4a434f83c789db4d26854fd49f8d7f29d90fead0f4b3056, 0x73eda752d74c887f0211bd6ee8871415aff32a5fb5bc05f3d847d09f1b800001, 0x4d491a37842b8d828969bd4f2f7143933c020fea16dea9067f52f122c4555556, 0x5acd4732e126dd57286e002b1c2064ccae52eb7cf3ae6ec2d16cf0084e3b783e, 0x23313560049b945a743fdb149291ce242c9f5f1ff2f6b5dee936f99ea9177beb, 0x4291ac8fd122d6b0b3e139078a9c6a25631c79b84183c5a37ca86967f65b4ff9, 0xb7eec0ac3de23fe143d1dc74b4643588f7eb8eec9a5b9d0acd41e240887ef0c, 0x65b6c26a51daf184f5636342f8f4061c725fe5bc03aaefda0ac4ba399c88e06a, 0x31ef127de8e263324814867b5cbe46d1bbd78adc848beaa319a85fa1e5407abc, 0xfc66083469ea0692289f12da6b7c0fc7992f651a046cc8f51dd27f98b3180a7],
    [0x656ff268c469cd9f2cd29d07086d9d04a945ef829ffe907f1fffffff20000001, 0x406795d8de3b0cb6555940d317e6e6ca7c39b76f946d6cebce93b4e89561c71d, 0x4d491a377113a8dacccf0e3ab547459be743dce06514b47aa7f053e6ac8d5556, 0x34b1d7b17001c4952e96f9fbfc15eec5c0e827f7a61dcf6ff5b8186d8f38ba2f, 0x312e850c0223c88b3c74a46ee2cf9ea1f9f72d9c3d0902d860b80cd24805364e, 0x6b02c1d69c915ff3e0961f1a02cb0db385f9fcfab9329d2b8cd969059cc3b13c, 0x63b6eecdcc131969112b23d6266030189c70b977a84ccab366fec64ba6919f55, 0x6809caad183800d7c4f4a27c50f9e58f34c5d0d3909cfcaedaf1c9a8102a41a5, 0x50ac7c6ba6d41452c5b0ef7d49ca962e0ff84930706183526e68cffb2ff81406, 0x4db9db1e4a04802c939f8f522bfa3d1c9f81203235b5cc1c3c8e5552163ae209, 0x42e235369cf08be82fdaf772cdecca4b52c564f7f54af81c1b8692509100c60a, 0x307c7008bd228226e2c7a4bc4abf1c52c9917bcf789027612ce0d4b44566bb0d, 0x62d01a0aeef83417b07589f9e7512d200c5ec76416e2621e2702f0c3b8312400, 0x3d64ba39aaaba7709e3fd540f30ab4a878a493cdda51fd8d158860dbf3bf6999, 0x64517a9aa89675ef7c1e2df9bbc2359f2915e1345c0ef9f611ae25e6af0994dc],
    [0x656ff268c469cd9f2cd29d07086d9d04a945ef829ffe907f1fffffff20000001, 0x670c22f496c4e123bbc1a3955de531d31a04590eb942aa2d48ce027fbe9571c8, 0x4d491a377113a8daccd13ab0066be513f8b5a3ca068688d314ea48505e9bd556, 0x1f9de7d0dccddc5982559802312c24ac2494bd781e84f21ebe04dbeb91eea2e9, 0x1c1a952b6eefe04f904c155748273a1518fc3685a6086cb85bc226e9b0e6df08, 0x19219e01ea96813374ba309f47e8044c63a56b391b796976581983846347af71, 0x6ca1d44a591f36bd63eb03b8c33530fea9d7b8e8bc49b194c55a358850b16e1a, 0x5f1ee5308b2be383723c970007e74657ec0224ecb7cfcf3ce81420e2be1df2e, 0x9416c4e71b8afb4b0d4c27b37b46691235e586c6b060bfa5c70a097ad2835e8, 0x96a1ba87a1e9ff456613ce7f741a21870f5e9d342874bc489e7b32070217db3, 0x2eb30b9aac36f66ba9514c090bb469276129f189d38f22db4813bed48d126d58, 0x6ceb2356b3d9da8f6ebf43d87accaf95100e7d864fc5e6c5a15744bd66c94a22, 0x3220bf0c1394e3b61540eb54a0857dd60857b888e67a0af6042c85b87c8042ed, 0x1961e98388629dc920673010eebbf2cced32e5bf6979d89e2a34f9d70817b855, 0x29f6168fa1f950423af904dd6ba327599d334d656b28a34a9c3c5ff0a79570b5],
    [0x656ff268c469cd9f2cd29d07086d9d04a945ef829ffe907f1fffffff20000001, 0x19c308bd25b13848eef068e557794c72f62a247272acc494323b709492c00c72, 0x4d491a377113a8daccd13ab0066be558e27e6d574ccb6d6881b65a5cf54c8d56, 0x1513efe09333e83bac391001761d6d183dc563a39507a467c28d8db1b4f96746, 0x65e05cbd72258d206b13cd5c658e39f52a8f6195c6f458b7ffd070ef339f1c7d, 0x538036486e88b589ef30d3197b4d302ecd52e356937b607209c29f56e8c6eea9, 0x49c5c7920335acd0dac7b8051d66fdd4d832dcbbef3e4c71c0a3cb0ce8b1f975, 0x4d491a377113a8daccd13ab0066be558e27e6d575e9cead719db1c91b4876556, 0x52e0b0b54bcb596b3356341f636c6ecedb7ee117a087753bc0b9ef26877b566e, 0xd30e2ee0089f1fed6c405b63384622079b171759ef19fe5c5b599cbbbe2e018, 0x53ff57852c2d24ddfbcce8479e326a99c02f0ae76bdc13ed5288e43ec839fee9, 0x5399543ad2767662256632152ba73a106060777a7e1115e6b48ebdb17f44d082, 0x64df1255f1c07a6ff7addd78ee6cb1ea4edc79d0759e65c0d4425245159cd4ae, 0x4da2ebe6e39b3294c6596a00268ab82e5b804c374d5f223b8192323e981dfb03, 0x31f8af91b7fae02073e1382ceee7772405d32d7f2f1adb31066e03dcd04f2583],
    [0x656ff268c469cd9f2cd29d07086d9d04a945ef829ffe907f1fffffff20000001, 0x406795d8de3b0cb65559063d5aaf3f1f67695b1e1c70ddc68e390019fa39a01d, 0x4d491a377113a8daccd13ab0066be558e27e6d5755543d54aaa99bb363e8abd6, 0x1f9de7d0dccddc5982559802312c23a45ca815752e8b305cd178699d8a8225e9, 0x1c1a952b6eefe04f904c155748273c20525c84d9f07bb9360f7bda162474a9c8, 0x6d715d8437662222259e70a5205db67405a84a46dc3093b7729b86f79cc55189, 0xc290a640627cae7598361d9755fbef072680840c321d7862927cd3282c36401, 0x5633ffb3fe1fc62f1f86e8d807299380addbc8ba068f30b70d21f815422e131b, 0x2101e332584b101d72240665d81369f34b65feb2a1c6a4dc28e38e389aaaaaab, 0x14411a6667782dfe3c3bca302b98bb360e0e371a2a7cde710f2c81d6ffc7c7c8, 0x3fa91128e5a357e227e88952ff9d9f3a2a95b564a0a1d5f4beb1ed666368be14, 0x2edb02e23eb7557133fe850de80f145bdd54b8785c1f909a5f952a30ba8e8e8f, 0x63ff1ced75508cd52ff34651a01f00a302a6b0593daed101a7a43af4d1b36c89, 0x4a96fe48c12a0b682620c7c5726c1bed0711f14203a8273c6004cb8b135278ec, 0x17d60261c32bf529942be2b9f703c55964a98bc1a18084cd796c0fc4e85551b4],
    [0x656ff268c469cd9f2cd29d07086d9d04a945ef829ffe907f1fffffff20000001, 0x670c22f496c4e123bbc1a3955de531cbd8a891c9c71afc70e38e38e2aaaaaab8, 0x1eea0a7c93a176bdeb86e44668f7f556c0ff5eefbbbb4bbb77777777333332f4, 0x6963af62e003892a5d1d50074e93217934daf23145cff68aba2e8ba2000000ae, 0x706a54adbbbf813e4130555d209cf08149721367c1eee4d83e0f83dfffffeee, 0x2f05171c5c1154d3e2a6ad8d1b2df35d761aca940393ec06c157b863d89d8ad6, 0x5c6b1bc4fb94d2de41e681417c0ade5698b03eb8fe3465fb9f5423cd13b13a96, 0x260c5bad0477f49afa7ea2cccff61a4363b074d849840e7093093092b52b52d0, 0x19c308bd25b13848eef068e557794c72f62a247271c6bf1c38e38e38aaaaaaab, 0x22c74bcc2615a595a8f7c0cf3616f401991f4acdb332b532e66666661999999a, 0x6963af62e003892a5d1d50074e93217934daf23145cff68aba2e8ba200000001, 0x6a44840c3b7b082cd99fb0b208d45b5a376dd6581553d4546aaaaaa9c0000001, 0x6217dc5a0f85429f8dce7bb808267bb5bd02ed3d9d88753a3b13b13a3b13b13c, 0x4a867dda0877876545809d29bd0c9d27fef9e96fa4913b23edb6db6d12492493, 0x3dd414f92742ed7bd70dc88cd1efeaad81febddf77769776eeeeeeee66666667]]

/-- the inverse of the matrix (not in the code) -/
def mInv8 : List (List Nat) := [
    [0x13bed648, 0x73eda753299d7d483339d80809a1d80553bda402fffe5bfefffffffe0a475c81, 0x4e52da840, 0x73eda753299d7d483339d80809a1d80553bda402fffe5bfefffffff1a63da981, 0x152373b3a0, 0x73eda753299d7d483339d80809a1d80553bda402fffe5bfeffffffeb7cd04681, 0x9c197dcc0, 0x73eda753299d7d483339d80809a1d80553bda402fffe5bfefffffffcf4b1db81],
    [0x73eda753299d7d483339d80809a1d80553bda402fffe5bfefffffffe0a475c81, 0xc18167280, 0x73eda753299d7d483339d80809a1d80553bda402fffe5bfeffffffc0b2751701, 0xab553e00c0, 0x73eda753299d7d483339d80809a1d80553bda402fffe5bfefffffeedd363db01, 0xfda96c6b80, 0x73eda753299d7d483339d80809a1d80553bda402fffe5bfeffffff7f84c83301, 0x1ad4619f10],
    [0x4e52da840, 0x73eda753299d7d483339d80809a1d80553bda402fffe5bfeffffffc0b2751701, 0x143a10356c0, 0x73eda753299d7d483339d80809a1d80553bda402fffe5bfefffffc7ecbf6c101, 0x59d6abbb680, 0x73eda753299d7d483339d80809a1d80553bda402fffe5bfefffffac1692eab01, 0x2a53e987110, 0x73eda753299d7d483339d80809a1d80553bda402fffe5bfeffffff6fe8a20501],
    [0x73eda753299d7d483339d80809a1d80553bda402fffe5bfefffffff1a63da981, 0xab553e00c0, 0x73eda753299d7d483339d80809a1d80553bda402fffe5bfefffffc7ecbf6c101, 0x9c090f52f80, 0x73eda753299d7d483339d80809a1d80553bda402fffe5bfefffff0463b8c0101, 0xebd382cbf10, 0x73eda753299d7d483339d80809a1d80553bda402fffe5bfefffff886c7bafd01, 0x1956cdf9c80],
    [0x152373b3a0, 0x73eda753299d7d483339d80809a1d80553bda402fffe5bfefffffeedd363db01, 0x59d6abbb680, 0x73eda753299d7d483339d80809a1d80553bda402fffe5bfefffff0463b8c0101, 0x197561077890, 0x73eda753299d7d483339d80809a1d80553bda402fffe5bfeffffe808ff080701, 0xc2f6de4f180, 0x73eda753299d7d483339d80809a1d80553bda402fffe5bfefffffd6793a95d01],
    [0x73eda753299d7d483339d80809a1d80553bda402fffe5bfeffffffeb7cd04681, 0xfda96c6b80, 0x73eda753299d7d483339d80809a1d80553bda402fffe5bfefffffac1692eab01, 0xebd382cbf10, 0x73eda753299d7d483339d80809a1d80553bda402fffe5bfeffffe808ff080701, 0x16a139cdc080, 0x73eda753299d7d483339d80809a1d80553bda402fffe5bfefffff473c04f8701, 0x27640858140],
    [0x9c197dcc0, 0x73eda753299d7d483339d80809a1d80553bda402fffe5bfeffffff7f84c83301, 0x2a53e987110, 0x73eda753299d7d483339d80809a1d80553bda402fffe5bfefffff886c7bafd01, 0xc2f6de4f180, 0x73eda753299d7d483339d80809a1d80553bda402fffe5bfefffff473c04f8701, 0x5e7b931e740, 0x73eda753299d7d483339d80809a1d80553bda402fffe5bfefffffebbcb384101],
    [0x73eda753299d7d483339d80809a1d80553bda402fffe5bfefffffffcf4b1db81, 0x1ad4619f10, 0x73eda753299d7d483339d80809a1d80553bda402fffe5bfeffffff6fe8a20501, 0x1956cdf9c80, 0x73eda753299d7d483339d80809a1d80553bda402fffe5bfefffffd6793a95d01, 0x27640858140, 0x73eda753299d7d483339d80809a1d80553bda402fffe5bfefffffebbcb384101, 0x45422acd80]]

/-- the tables have the sizes that the code reads and load without a panic -/
theorem sized8 : (opt8.sized 7 4 57 && opt8.below blsMod) = true := by decide +kernel

theorem ok8 : opt8.check blsMod 7 4 57 (opt8.plainC blsMod 7 (opt8.plainM 7)) (opt8.plainM 7) = true := by decide +kernel

theorem inv8 : invOk blsMod mInv8 7 opt8.m = true := by decide +kernel

end Verif.Poseidon.Bls
