import Verif.Poseidon.Check
import Verif.Poseidon.Primes
import Verif.Poseidon.BlsT16 -- only so that the large tables are not checked at the same time (memory)

/-!
# Poseidon over BN254, 15 inputs (t = 16): the tables, copied verbatim, and their checks
-/
namespace Verif.Poseidon.Bn128

set_option maxRecDepth 1000000

/-- starky/src/poseidon_bn128_constants_opt.rs: C L1849-2042, M L3756-4045, P L5878-6167, S L20579-22564 -/
def opt16 : Table where
  cF := [
    [0x11e27da7b7ef964948a332974d07cceea778bc33aedbcd09de222fa22ad0b101, 0x1f60381b83b44a8fe65a0f4142faaafc5fbf55f79133c5740c53f036a3065b65, 0xfc1e1ac8ad3524ebdbfa45dcc51576548234d0292adfe1cd70a706a1b6dadd8, 0xa40798ead3a12b78bcd8f10bb15cb0c426bbd2282a81dcdc070084ce78b8d76, 0x2dc09d3357051155987ea95594436b6cbf393b0135f51e2f675ea5f462f4a9c5, 0x104b9241d534264532eda181de1a154dd175ee150f349033e46ddc54181da088, 0x127a6208d98f6cd387b802fa44cab2037b3b91f0622f17084f1b8d8ac9d12698, 0x2d075ceebab54341dc02fb1f50d938ce1dfdcde659955a930ec18f8625f86d4d, 0x44fd5c2101a20be2ad923bebe15a477f40c6039a3dd0d7443fe72758042010c, 0x2b302c8511fbd3702b815564c5399acb8a8f2a8eb77f96c7f0849628e09f9bc8, 0x7cbe339db90599455d1eded1e8a870bd302c92a79b1d0f4ee87222cce99e22b, 0x1326749312c6e8bd4ef24c97c809f78ae548394c94c3df2f28ffa8105debe211, 0x54021406b8d1f8c7080e7c245304e4b7a797cd236dad92d929b223f269780e0, 0x5c0e033b589f8ddb23a9d559eaeecf98691a8d018f1279bf406d08f2787cc42, 0x2508a8cdd450f969b61c749d566c9459a16ead4330e35d5415b12eca38584bb1, 0x264dccc02e574ca7e736da25072bd8fbe9909621fd4f4169b2bae8d368ff12d2],
    [0x137199f796d310d7fe22d83663c8e607d342407dc28c10d27aedc4a45c8ff70d, 0x2f6877c1a818cf1f087343dc38dd120833574b9691540d03128a2d051c1be240, 0xf418e13a90e4295bd384c4d4764398e1e44865058e6d85f10396a7cb0716494, 0x1a6864de7ca70730f8657bed417c428aa5dddafee26ee78b942c86be61a962c7, 0xf8be2e253cba2f128e7365d8b1ad95f8986968cc60224445f2bd717c26088d9, 0x16a8d9f265a66f69fad6d7b744cf090e490552c6d4ac77f89f09d0ae70095a5b, 0x25f1a51ea7f88847cd19c9dfa9c8587ac7a4f4b8a10bf900d20270398b9613e5, 0x28d4a6eebf392a9378b7ad9aab8862245279a9f2c0b1678cb6d3141ebb14644e, 0xad7537d9d5bb7e34936eadf66fe924d80c893745fdcebd5ea08b79f9137aed5, 0x6ae9e1b3a2edb869b5c6f231fede58dc7dfe42bf3802394ce5d62c3a65567f7, 0x1f5d4250771eb130c046c8df1e77f7f77da20709346a334dbd22c72191045cb1, 0x14bd6a1b5678cda4ea3a16c3b5abbf38ee1d82219849cc37fbcbd934e7de1162, 0x22905156b6bb357e2727bdcb8f39a66a09828307046296c6d5322abdb932d0bf, 0x2023fcb87f89e6fe4cefc3d315249ed8133834b56aeab6fe07b7fc246b096c, 0xeef78e23ad00648fcdb65eb246c737b7b4060b37b6b845eb914108f1316646f, 0x1f3030be5da4e16c0468d631074a65f5457462fd6be6db36c3a522453164e48e],
    [0x10dc200b8c1b565d4c2e88d5bc1bad12c490a20d05dcc4cf55e9644f3534455c, 0x11a9cf0b8e97ea26ed0d49abf3a09233703333789a390d72db661fa70b1cc2c6, 0x15b97860d1a835a706f54a97ff04a15c69dd3beb0f86b51c83803d490c2cf2f, 0x1225bfd0d701b349214873ab03716319d9c96e3cd8d962028b17db843e4a7f19, 0xf4ebaee2abcbc49d408aa52c60dcc093cb0da884c4a92d0f280d7b100600560, 0xadeeea75944cd5d35045ec8cb6a57487287a92d1f70cd0b2389a4f128792ac6, 0x1874870c72a32f0d385294a73d0ff67d7234af8e0ec57c63b4f77e72130591fc, 0xcd011ee52170682d3777ba0085ec1620e19b1485d9898800dd2b1d74f613576, 0x2e72b9107cc1e1a9bef16bb21a308c9fe3fc9221e55f5d4cbd43ee8de297e02b, 0x7ad8d8e863868745d2c0c6e1d08dd357803f4653ea2045792edb563399f7d84, 0x273d3298e5b22284dd66bb0f5e963f0a6af68c14018c728fc42cc82acc384db3, 0x111b832918546dae5a1a71d312b412462b9d2bbe867be4fdf089eb15820bfe13, 0xc4dec2328aabeec22bef040c565b1227753c1dbcd9e470f906a4fcb5cdbe7ee, 0xd21f2bf0ab2f74a5eb38abf787121f015d88ac22de1490c548d0606b8e6d7b4, 0x1e08837512f3cfe1319b8f8babf49e738abd159e322227401b7a5441978f77d3, 0x211eaccc37cea3485cb8300994538c153b1dc5b8d63c96b437b91434642a11b4],
    [0x123e045851f8649e6332e3e208b9d4db39099f077a1104555bc38f68c62deee8, 0x8b66ae60a35e192963af9ca3e8681012d5288a5abc67065ba52bb151d4042e1, 0x2e9188c8e02a08b719f7cf8af307de827d424a166e6f9ebb172ba41855a405c, 0x52458b94157b0e5d0b5cef9ffe8e014eafd7cfc1b43611faf31c2d8d59b4eac, 0x24bb0266c20a04010addd514bf76e3da1276d13cc58faf89668e238b9ed2ed6f, 0xcd9a619dc0621a5f4cdba8303b5f69da6206bf28a04b96d4fdfd3a214e3e54e, 0x119949b91445ca55fa6ea8da2c11d93892e5b4cf3485599f41106eef149eea9a, 0x265ec37b545cd5dc12a27c1128c314a13e8cb222b5d25c3b9061934e93cb97b, 0x6aa84e7c246cd723c78fa394a7ded19596e074fff4ac200171a1f4c75bd7924, 0x1b4e6c237527565068aa65269cd73b5c4675b1148fc31fbabcdcaa341f63205f, 0x2bc7d97b099113c5ab67254ffaca493041bc43e8d344be98152e98a4fb786da1, 0x1e8fd4145c4cda03e17eb62c0f9d8cc97f5b13b83ba8400b57a3d80009c00eeb, 0xde458ac4a2ca65e25c6c028b23e73fcad1bdb3e3f1b6a730eb47e04dfa65318, 0x2d1ba2bfddb58785ae140c239197729f0c60ef611f3b377d4aae3c6dd444b5b, 0x29d94b0688e3236b20967ec747b92e837fcbc396fd6c348b1e0c748a6ee021f1, 0x2ec6c5500bc7998c7b821d209c608a630195b734c02a5aeb15b1c755b7857d5f],
    [0xd185c970b8d03fab0cb058605d2c0871c76af2047efcaca0e1be393a4817ef2, 0x300c58a0b3c59893a5acfa7a0adc1de29dfa3f16b4689af0535cc2513d60920c, 0x2360aebfee8827a4b9037013a6dec8af8f38308d119b3167df19e3eced62ef6, 0x43ba139aaacd5a1c1349104235e9855ee8802cae5a30a85edad853b092b5181, 0x1b0597b0023cc90297b8a4e996676d65276b1a4c6409d7c3c26008e56cfe6f63, 0xeb1857692cae615046d0febd92edbed96417c07b841b462f78b90960771ed0, 0x6399b5873506855684d027c760fa5b89721ac3004096114ee2b0c5ea727eaa0, 0x92636eca31acead1a2e63131e25a2cb4cb5e5db766615861f4fcb06e4321eb, 0x2e1d940f15c6a1f49a28f66c0d539f5ec4431ebc533ddfef8acf0f5463b7d0fd, 0x946412137bd02c889bc3f6600635398e5c29347a580994338e44a6fa41b40b9, 0x18ec2c5948557c8699e5e425ae42b5f51db8faeadb62bab808d1662253e61cae, 0xac166679eb2864d7674a89bda016c235736783820591cb9504b890b9117fe4b, 0x4db97e1cff9f2fb62e16077221c20306c32f579be40d7838e6ec15320c38443, 0xc4d540ab17d3ba0328f95369e86fb073f3660896d85a679ff9c6c99268bb7fc, 0x2e6b4be5eef898dd7bf66b3754ad1bdbab013ab0ed99c1632a489c76987f2ef2, 0x15f2072ffd2d6caa3d6ca13f7703a47c0bba942b0d9ba0b141047a297ae19899]]
  cP := [0x1ef8155e5c33f8855bfdcc24ac895db935559d5dbc442514d4272e0b2270604d, 0x194f4e345835e516564677d1af5193e67f26573afe1d12fd77673126e4b6c1e0, 0x2a3fd58a40436abcf4ff7d7a582c5bab55edf2150a786ed51c56c6ff2b668c98, 0x11729c1bf0a0f91ac34e4456d39ee6d2dd1c064368c2f0a8b76f555802d9af0d, 0x2e13f7ce1f37ee5f2839bacd94feb1063960ee6438f10e01000769bc2856e755, 0xe1442f5f0fa8737f50d8935fdfc204cf07e6fb3acd7c7cbc78fd28dce78deea, 0x1aac56dc7ff6d0adb2cb7b01c67f487e3c812350450993bccb186b2fba077957, 0xdb64a35a35a8fd6b486cf00f5324887f84c20240637b071d462a8896af11134, 0x2cf6b1eb727612b4676e65d750a2cb15c82f13bc858e0bf6c1cf87b96f8796f2, 0x761d1ff3a90fa0ece518705f2f80055b7667ff667063fb5bdaa950efc805199, 0x92a84456e8ab1a26ed09f4c9c78dfbedbf4904937bbbaaae9a23dc680fb01c0, 0xcf9cb1a0a9e17a9d6bf4b296ee0530c1b88141bce69357f964fbc22796465ce, 0x1fd3b34a7c3a44e18fa8eadb896e5a17ed439bed8efd723246a009446bb95f0d, 0x4b5ad182b4ba40ada5f69e436740417c1bc901b58515f969cff2fbde530787a, 0x17aed43f02895475ab9427f84c57b965683d44ac92554d140ebd0434fefd6944, 0x302772848bcacef898d59e149ef84e4822edaa6091e236aa41bd683acbd43a7f, 0x14b66c4b0f5ee36c9f94644a4110cd09825cc8c85f6cb328391e83fcc86c71e9, 0x18d6d00bd7b85619dd8b979158baaa87e5fd97a0c6d536c211a3ec663458fb2b, 0xc094c29ad77018d4da01ac5d06bbaf353330bafc55a942fbaa30b4876e11240, 0x1f6c4bd9672a340c114623c83ff250c8e410f0a3a11b4fe769099f8be230e4d, 0x279d9751ee739e974ab65792beb9276773537e2095dbe80baf236adaf2d9de3f, 0x2560999bf8b9ba17804b13067dd4b0b0022219dcbe167dab5f9300b68236da2a, 0x211d8050a0cc08d433d487381dfee76e39c8afc46292f336565121fddf4f8b4, 0x26dc6f484d1445c5f5c208ff1a487e372f1f8782dec0a5da03a85f706ef48e8c, 0xd11eab567c463fd6796c3bb711467a6a78f7d847de201eb717dba516808d237, 0x239b30a866e3778491b842a8c2df9ae14a6315981c2394c26d99ce97c4e7fce0, 0x2e35cdbf79533471e4849a97467eb4d1b21c6ad8ef34691e08b74ef19c27735a, 0x2237729ead5273e8d6acd40a63eb08813a2293e21dff54ea02619c6bdbb18c77, 0x290c8723936f36b91aa1fc42768007ea904952ec0e41480d074b96d41703d648, 0x1c279f1d50860ece8148cc1b59f5c14a850af2f3a7e2afb8fddf72964fdf9c53, 0x1938e4214605f8e2fa59e7f90eb10eba0e984c24a5f5c1b719f41421229922e2, 0x1b45ae36a32c689150489056ea161cf38ed1506f33a711d6b471657277d770ee, 0x2f0ac8b7be349d38f0ae7f7dcd7cc86eb3aa06c708b3faff90f6b24a8b691431, 0x1c40238de6c61dc8fdb5a75611be0d4bf7f5c4eb39fe9c065c26ae970e2b1f06, 0x1b4baa71e93d13018ae4ebb790bc188c4b46c892c6782a27115bcac4d165f3dc, 0x145d0fd15960dfe597187dcdd2927c5170b853928ee08686555ca5a57ab4b1d3, 0x83791a423ac40504e7c99084980599a3359ca693c6aacc47b192a325d6df626, 0x2999885c947c9dd00616bbfc088819ffe4c0d2f9033b04f408acfcf1d79651a3, 0x8d0a62a3ee05bc36241af5eea0b62dfd4f28c31fbe77fbaae392fa7b05af4f2, 0x18e93970a8a8070a1835114c4316e7ffc242eb128031aca086d3ce2cd3558e33, 0x126590f273bacddc28fc87c100b5bccf95eea5c1607dbbcbf05b6db2992cc12e, 0x21a7b2a18aba9b81406cfe7c64c1b0b4037c241e7565b52760d74e7720e92117, 0x4985dff243cbbd8eac16b7b6f03603118293966de095b2e057043891bf5174d, 0x18ad558446b1c9342e3846c398d05727ebc22d4a8c03de6380cbe55aab7241bb, 0x1b055d908da8e662ee4b05c3c66886a35bcefb67946cfa6baeeddd8cb06fb65f, 0x1a10263fb63bd4f23fdbacba6fb3f0d7499fea2e1e1547b36b17c4fa79dc0eba, 0x114b2c3f7730ae08a1a31bbdc27ca1b3fda63d5d8eb55bdac6578b27633395cc, 0x1a3f27e20df3c4045f3a67065ed869377e0c63a9a367f09f7a3bc63d4006bae3, 0x1eebb48e654885e9fdc60b3ad67b988530923f65fa76983851b1092640bebef7, 0x2ab3b05b9cc58838ee853f9d4a4817c7bbb1efa9deedb84d52c90ad9d80c2b1e, 0xbe8d510c3f0d8edd5716971f2452b3106ae0f4933d894404bc0b5eeecebe356, 0x300225e792be5f679ad2d4f8b3d070495bcdf876e50523cd877b4fce9bd30543, 0x2df4b36388d11c2ca5d95c24c93e8ad10ba7b74735753cd0c7aa4805fadbf0f7, 0xef6deac5ae321c054639444d4f0031663195997b4cfde163c75e989eb0629b6, 0xfe041753831aa6a6bc0ea08a153bd5a409de14ecf636b3682539074356e5852, 0x107105d12a394dbcb31832b57081aedb73e0aa17ac7c2faee1870d2dac147f89, 0x1c2618562f04166bcfa93b80c537ea8b35aa07d8ee33703fda76079f7b78f1ce, 0x27f7f4d91b9f452211799438a638f0c80e3db58ecb8d194e97e211e158df46fb, 0x2a9982f31c9f628b43652dc20217d9a91bdfa94bd125e1e032e4f6626eb3bb02, 0x2676c1451011dab5891ee8f715409412396960849613d13334af036176b7f343, 0x27c95df56dbab27660262717556e57b6d3d66869a0f834bffdcdf58c80de932, 0x50255c8e75aa4e294b921733803da9d6b9a9eeee28606bbda643a9122fc76b7, 0x26a0dbba1128c1eed674bf21e7a7d23163d48634967d0daf7e467501768d237, 0x16e80c84883b3370e75f1ab266b46f0b839accab3726278ec206998b62e789df]
  cL := [
    [0x9782b1fb5ac39e3124c5e857253337a4503950a6dd151f005963c92254ad7d, 0xa6975f45d3f7bb18c7db0a286cfdfbe0d75b79c74e67ad2265cd168c1670c1f, 0x9b2d6b4df7d70732ad35eeed1b468efd932a780e9e74cb82c3dc1c47b4c8440, 0x96195e37522c163f5fd66f13cac8bee72ae4b445224ebd85340a69b5a322739, 0x26d015d70931042ece8bd15db6b08bc1496b7501baf0c8bf4a5534fd60422941, 0x39f5d3bf59ceb12854079a2675ecece7b8cc5d9ab9c3d79adc1d181ca6198a9, 0x1352b30ec61d92dd82e2360d38137d2fb02c1e78d6f99cc437e8640becc56122, 0xbd8e9fb03b03709c0be6510b233fcffbc1f9f63f4d6019b110f77417fe381b1, 0x14d37b7920faff9ff10ac3568122fe38221ac783e675bd5f6e69494755853723, 0x2208c576d439a6c9c0c380e7063fff76a1f2685bbed6fd7bed23c732f345501a, 0x8f4fa71b7c3c71c66c0075a5b7a0cb6271c6f7568979d3742e2847cd650aa55, 0x30553e47d42844f4dc97d3b96dee7b6c483d2868125eb7de508164de2466b74e, 0xe10c2cb9014f110cb54d27ae0130988b0c32a55f8d111f2bf797dc5b2c39a86, 0x2801868c0861bcc953405e4964dfd447a8888d8839aa7e414de176c7c061e238, 0x23ea7dafbfe7bf1d8f8b4ec83aa1f0ce31fdfc9ac5d2cca02f14ed1b87caf599, 0x22ff012edcab66b7416dca632a59caba6d641e02f6fe47e7510ce945966f3721],
    [0x2dfd80076ffbaecd97311a5c0b2314400005a1f07b6c21d92228583ca5b5a4b, 0x23c45a61f4f2c8b3e066a26e232e26db93aaa24e2f65d26601ab2d7a1b95606, 0x2072907f984ca35bce9ad3e82d8c30f9acc0ce98d145e4fe277e628489594e2e, 0x8964e49de9a9fee1ca762ffbf07f8c4a8122bc4e90e7b567fcff008a6e45e6, 0x2dc503267b1497a821453a73030f2a3523213bf0db9d5b061342cd859a1cd907, 0x5fd4295ee0e76dc56af4119e7376a593e4bb185af60adddf232b91e67fb2aee, 0x2092ffeb6b7760870dfaf471823ed7591fcf6e6bd5b1bcf43775d3c07b462706, 0xbf1a49f9b9ac34d30e463ba797e3e08dfb424791ea612b280932ec208c7f800, 0x272a88a53e263ff0a56bff4cc645fcc269d3ad5a63f9625ffe9eac93a36b77d4, 0x27bb4022b1f689184b10d6f29824311ccc5e2ef14a3914aea8f06ccb7f2aa8ce, 0x178f0ee74c834c0d22f7aebc5171f960b20546dd9cb53b3ded78a351ab41ce10, 0xbf6df276b3f28afd5206a8646dd6f4c095fd98871a5060502f3a6444be321b5, 0x219d4e79092df13b3223f935d2a0a2573c1f7d509a91dd7fc5533d4c3c5d098f, 0x20f5702b749f56df810411ad9950ca9f87f1e0f97b8163280b3b2df05b679b4d, 0x117284f038872bce68c791ad18246ed84badb692e338f716793f5a6bf216386e, 0x2c2dbc65a26b313f84567ed71d40847093d08ce8c2b8a343c62b7f57ef63d968],
    [0x1743373e3858cdc0582049ef7e0284d33403cc8bf56997c508a10b5fb008ae77, 0xba28f299d1ca31db5a3bc0e8202e9ce8fe85f80c4f03f9eae2dab5de051a659, 0xe46831dc32f73c1086055faeadf047d3408c2cc0dc2e725c878dc9ce68f17eb, 0x1d8635cde2ec64aa50d8d979e29ef11fa0060bf86ea00762250e314e2881f70a, 0xeb6d86f7e11b1e3dc21882511e03b7aa64063688fc52f655f12e34a343dbcb9, 0x20bb2d1b0caed114b06fca648b0703a7346f6b2690f220f82e7710b586b6a81, 0x1c4db5ac81e0e47818bfc08f7ec2d66bf15daaab8ee766728f588539eb60075e, 0x16eba5f5dd46415f55abb8199b0069ad3ab7a78e8eedfafcae845760a4b1e525, 0x46718c49cfcd67cfc27daaf0bc00db0165a8b34bd1801110b85c3f890779f02, 0x10eccf3b4cf167cd78f9eeeacc462eed71eb92a2e31bdc1fc4b16c0b19feb44f, 0x16e1b2c0dd88527774f18bc53f4274fd15a5afcf3656f149ba7bf0d67050f3dd, 0x1d13bd396da5a68e7b801ff0b2c6c2725f961bf633d0dfaf1a4b2c904969ae53, 0x2023518104868b1b97d9a5170d7a33230bff0618df4a31b381fbe9a0ea3224f4, 0x84c4f9050120239d86cb0d84535ccb94821f0a1def04495ffeb559f153ddc26, 0x1ff6f423d94667ef2d79660600e05c570f74d77ae07139d2019069ff96c83566, 0x7b5719a1e09b96a5ce2c130b9d3ec76002d81bd6a8b46ad27274036bb363bba]]
  m := [
    [0x2b6fd7bc3a3b595c206c43daac752b765a12255c37ab51ae183933737a8b8099, 0x111d04c083f51a6fdf87412a537f6601076d61f435094ea16946efbfa4893e97, 0x133c5913f25ff5eaa860d0318f6a4b4349fd22f2d53530e5c785b70988a3a88, 0x8875f47d6f518c8c2df51a786bf2207aade284067228f440e7d0307520a56cf, 0xba9f44a107a81cb23fba66f2bc34152728f5f5ca68406649a7efe47c9473f21, 0x542832ab23b6c7a4b547a1066037152a2442e998c5381ba97698413153ba6f1, 0xba1f764367360952942ccb6edf051c8f937906a816641e0d1e9e2ed26906fa8, 0x2e0611fa4ca3985d7bfaf512f21a4081141f4ed0dc4b022834d3cb6cfd8b7ffc, 0xe6f23c0ef6f159dec68341a87830fb864b6c08cb954a14a2500876697897fb7, 0x1a7a2a4a08d87e75f720302bead7ca21c8f7c2ed2debaced9b8b1b2da461cbc, 0x1d8005df48c8565987dbb442b482cae5bfc10ee486ecc5b670ce861345979d1d, 0x28122254823f8926acb7e98f557e796282e5e1271618858e76d49d0886da16f3, 0x2414d4aefc7b4857df681328e68a582d23b2dcffd579a8e6aeed6c61050e05cd, 0x2f710c72d6da19c7d87cbffd55665b472b0265d13e2326a9a33b96e95d3746b6, 0x2e285441d0bed90bb41d6480836850e4d76da8211b04a236dbc7c3c30320c00e, 0x2964901a2b42e9aea1a6593662aeb9e12077a287434bda4ec2012e36a19dc95c],
    [0x69b1779dec3eaded3f07d0c3e6cecd6cffe78d747faedad9c90665aa2d92cb3, 0x187aae261ef3ee21b37023518a071675c6d00bde82bd7f5441448abb632a764b, 0x169538094d4f752529471e3fddc9ef994cfad4f96dcc7d636f0fd509b8eb9c31, 0xa68830f19c0a729b2f89be27373d397ae1157bf507e7799d4220166ea0982d7, 0x18ae39086eebb98d1fc5f05fa0f87ddcb149b0afe38d1bbb85a65697895e63f, 0x4c5ebc771344cc0612765710bfcb1c2e6097abc3d346f049495f7d7b7f06cb1, 0x29faa7dadc8b7e9588d4a601e77bd80aadf272a1bfec3c443ca3ccac81d9e1e1, 0x2acf3493012bbd818724e7ceda2431e97c8933bfaeb5d7463b512e6e8e8f7fcc, 0x23b34612e7d052f6b312ca0e0cf70034ad232d9bf63c88821085383b6f6ec4a3, 0x11680cc6e80b0e430a4cd3607017fa8331d86c4d03a96dfc18767c97cbe0a197, 0x1fa772ebde6f3732444623d67fe991116298f8f30a2d1010c8ae6132a3d6907f, 0x2e63f1740332f57e8317f2592ebd8db0812714d6604132d525e33e19b3c98494, 0x1202e349d1d7b805846e90834efc911eb6b10c2a09eaeaa29ed288bd779b14f1, 0x168fdc32d4aa8dc9034ad4a4fafee89f0ed5c980d3db424d38f8ce5cd04c237c, 0xb9ae9f5ee6ad70a651b4b66e34f521b130d18c49464d86fe5d4b1820489028f, 0x6c2194af72fac58ca13a2a5e3223104ef49a540fd2eaea0d67a920d8567040a],
    [0x1fa4effc83498d19aaa598b7771f88a0554dddda89d32dcf8a6f4cf776d13b99, 0xda28ede7f63f75596a2568b2dd7a584576e5b282f284795b1a7aa21663822b1, 0x199835da95f6eb22c591ebe514c7f283f674fcfa1eb787dfee5781a64f082439, 0x2af560600b3e25abcc7f78a4d6e2cd3fd99bcba075ab82b55e9841bef7b9210d, 0x101544d131454f20b549b24a65ec84f1b3221fd9b43461ddc6d156833b34c52a, 0x1a51740cda5e45ea4d4bd7bf5ce5466a66a11afb5bc93cf10d5309e07d410e4e, 0x1324558b8a5d4ba61b17790128be9f2440c0085dd5d6065b88f0a3b2537bdadd, 0x13473024ba419fc2a7743e7df8fc8375aab150d3753a54250a808d66f2d06b91, 0x13f15bc6453df6f9383446550534dc57aedb10139e3053e83bafdd99356175f0, 0x1314b54f8786096244532c9f054b379636e2b58bfdceb3d48dfb2210b529b4e5, 0x56a8ecd232a674c63d7b603ef8cd06321c560df2fd3f6c2649af576467fd798, 0x98b740976c2a1031e75132e050bf3838b739d061582543c1c7f95c152ee262, 0x24b96dbebfab6d23fa32c2c8e7758cb240bacd8143323c53cdb48dc8b65f8e4, 0x15bbd5619f0d59790804f2b9b37e069fc909a2796d1f77d0c62609deda2d0278, 0x4760054bd5d07132548bed7657f17c61c038ebcdfdd4025c7b802e08948e108, 0xa5494c9bcfa06aa72c36fd22d98fe72dc14dc0e4e74e03d1755f38ac34050ad],
    [0x1676f5c07417ab54c37ec8ae1a8314bdeeb09964769881592043dffcb26bf41, 0x2043bfe52d2964e4a3b2da5e30107716cc764f9b1c8ba463f215ab1f7f03498b, 0xdbd8662511dd7000991b39da129f9d03b565a0cd2f218d6eabbb49a25f105e5, 0x11b33a9f1818ed7f581cac020051de26fe28dc0bd8cb1a4457d5a8447bdbd6fc, 0x26f2f58d63ca6ef59bb95206ce3ed3124885ec21762bbb1db1d6a7771ec6650, 0x2eb6ed568377b696ad3cb237064ec68e390c24886e1f122d21d7cf3290dc6d08, 0x18faaf1c91e002f7dbbd12f408bd5c5b92f38e02ce3635824821e0347faf53ec, 0x29437af1b14f637a1f0e39955f2604bf20439fcb2a090e346aa65a9ebe69788e, 0xedf86bf1b1599fe27c66f3494862d75df7764070a8263cf88778f7287938d8e, 0x1336b208e00d8ebac83246a96ebdde351063fa3f635887e753a0ce3e29c7eedd, 0x2646341eb44b4800d56084cb48500fac48fc533891f557e96784cc6004d8928b, 0x6f53c79fed9e09848e112a0742d8ae84a04bd9ba5aa2765b1e5edfb1602140f, 0x2a3c9f55afacee735a1b515526426384ad044291f7691974d9c05c634b43947e, 0x1e16e9ca2502d696023bce3427244ad6553ce86bbc4c349a34ba61067c6b6d6a, 0x2a4c6d3259779c396ef8173ae5fe87bd611dbe25d1c048ada96306db1e3a40d, 0x265ca211180b012c378e0198f0b5f7758c155e3675fadf92ca79156bd56fe339],
    [0x1f4e7bbc8d42779e58aa07bf54ff324b814fe687b4c8eb81b9b7e74448ee27ff, 0x27b48a636a39b51a938aea3eb552091559fbfbe71e096d518c40d908dd2570ee, 0xdd0c118f15ae07e5db55077dfa46e08109954d99e18d72cd2caf613920e390b, 0x45c617f604c1ac9fb8d76e8d380322e5a3b69fa7b7c2ae2c8ec5966d6a4c788, 0x25b974fc5129d82ae4c6246e35f802e03440ead09995865313c8ca91c820c2d1, 0x181589b140c9109e492fc3ec7d8ca8e3c25a7ce58df06f13ef43561d58c5926e, 0xee1288b29855e2e38dd26292b39e260529841344538d6499996a32e7cc523f3, 0x206e4d445315b764280cc643b9479f49946ea86d7304b6a2c692ac34d7c98d34, 0x1641648c26b5a2dc297daaa6d4ddb6a2f258ba738f9094e7c5cda6efa8c993b1, 0x1887be87f7a352410482ef3bdcf7ef17976e087eb8990c76d7e971c44c048239, 0x231f2c98bda8d48bb4a6d9c98bbbc16027235a22a1ed4f88bc8d3a6e582209f2, 0x1fcea89286dc1db61fe1111606af396e98cb53dab5199750aa5e5d11561fb145, 0xf7bfcfab17db34c144cee44636bdeadfab44a6bf4fc8ef384ec89a4ae9ed209, 0x1dd0a5502743aaa9f583bd0ad35de13ad8d5fc98f1961f2612ad4c28fd9f9fa, 0x1959db01f5c8bb0cf483490373e75b0451b87b43e59181be0b6016674f3f5efb, 0x21f659fedaf6c2617f17d637cd6f54a27782f4e8431f87af5c8591932ce7dab7],
    [0xf6b18c98fc89fbfa99a04c8c96ae5db35c296479f484b680df905d4cbd1dfa9, 0x17fe75a3d11b4b9d2acf7856d6dea3bbac62ade0c501347b16864f3c73ebb7f9, 0x7c921bf45e354848a60b0e5f292bb03c2469498b9c1e4d322f4afd1867408c9, 0xe6197fe502328d0ef7f9b930355312b347204b877e7f85d9b569dc34f064c1a, 0x2d409bf78bd6f6a4eca7397d065023f0bb6732207925d3ce4beef9f621da2ba2, 0x205a6d5aab2d224b668c70fcb41582ee9ebe1ff099292b4bc50af8b292c0ea42, 0x2380ab051d0ac580a7d116f4a9337eb31090a4c7ecbd4e638e7717b7a52bf106, 0x1382c3c24bf2489fe9efd80a163e650111f5d9885e58a9ed729dca1f9a74e59f, 0x280c4522ad0ffd92c391e94c70f87120b8341890c3329af050625f2be52f3a41, 0x1f405a9483311e1497568f1bdcd6d58cd6bc813982a0e71561b620003b888204, 0x1cafcfb62926fbc04857b0bd7d7392b8d8add16b5cbefb54b4d5312826e89942, 0xa12e162620e71beeb203be56594416b083e7e94eec23e0f44a5ffe9e159508b, 0x17203c4d2e1a428a17be2c27d1c4c5960dfc6aa36f22bdde8be56a0cd44e71ab, 0xed2cfae7b36f470a7d1f6940f914e8ecd322bfd6b50f9ad9f6a2226e7a95db4, 0x1849cd0910d72eacc32d891b71faf500bcb93e1cef2504af443b94f8b1ce7212, 0x1e463ae3f4c3bd047aa1049f4f091a2f1d5d3550e3d5801fcff68f9a5e6828f4],
    [0xe6cd10883e1e11c6c191d36329f30eb0045af06c2d86d0c439f5c1f4fef54b, 0x2326c3dca7aab6b1852654fb13fff42a152ca9632124216cc7cc6f6d37522a59, 0x1f694d1acbaab0ea5bc026a1864d568be555b89c0f49b6134e9b895ae141da86, 0xcdfe099e7a154278dfb6c0388b9daa1e8ff323a20be6a6aa7a8438333f879cb, 0x17f732cc1354b1fb476e70568d2dcb0b6683d30b02415dfd385504736aa86de6, 0x28239a882dc7b2f3ff7b9aa8de9e3d81af736d4ee6ed991d5c6b4fa540148f43, 0x158926b9e94b10fcb321b293bb8a8647627a5bd31315808d397c1c94f650f2cd, 0x17cd11864fd2c73d0867d37264b4ca14df935a82f2a6f432c4998135fa5f4aa0, 0x1d772098b6154921db8e7506e6f0372ca44f20af3386e13bcf71ff5dc0d61b1b, 0x209576be72db7b0c9fe2b8329125e7dff0489a8e900a5f14c1e6e48604134264, 0xb7ab1ef17ff6235f7737f044161902f03d594cf4a0cc67b4ffb4711ade1eb0f, 0x1b1bbf4e9f706051716a0e28990caf17573086a5d818c038836696808b12d8e5, 0x22a8ee74367413eccf7aa03fdd420c6bb6255a6dd82081d6b14eda9a9752329b, 0x2c785f9d8834f5cf5d08f106d5f9918340fd414abe24f0a9ff2b8e0492b44d83, 0x4b5dc2057b88170a718a102e0ca9177afc757ee26773a0290c6bab159ca4fb9, 0x27412191fa2b2e5327a11d290e4b439a4124f48145c61ff4ece8448a4373eadf],
    [0x425a9641fb01558bc7170a2ffc24eb6a514198b296a1629cc284d983bca8757, 0x80c442909227f4a9da92e33237f9a82cb0c6f7d0c4155bdea5c6517b046eb9e, 0x1604de6a2db122bdd5d839540a1005ed402425bac3b85e3a72224d337402bdec, 0x15ded859d501c2733feaddde22ff36fa8ae85803aec7a204f42b1f6553bcc655, 0x40db0defe6ba4797b74a43125cf34d86a2b33e7a22e2710b0fb7a5568893aac, 0x1ab15f2fde6f535e77e615c8c2602193d45860cc015849df578f9fef9a5bb283, 0x264fadcc791aa18e76751a895242c30cdbbd1197a90a456dc278e10bf0bff5e5, 0x2de279fcf77a270823a91a6cd1aafb58e9e3ab32fdff0b3b05c98d554db6fad3, 0x53ed8ad550d8992f4b9814920183dd839bf355eaca8cc7b07020a22614a808a, 0x279702b135d144ede943195269c00bf620f058bf0186ce9fff3cb38b22245a, 0x179a82b77f2ccb94b38eb582ac4abbb16df429ecc22471be73cc7766f96d9948, 0x89efed00e9d993f5fc1d5af2f2b5d47a9b70e6d5a603fbaaa8f65102123efd7, 0x21e25f0a7f8edc38de25ba605a86cc08e08ccb03e77c5e0b9edabe74768b60c0, 0xd8dbc3fc854c0665c30c48846d7bb0eb18d3d78a4f70fef07f242e45b865eaa, 0x17bdf338072884b522ce3c50ef4711091b9daf48a43374bdc0a830c37e5dcdc8, 0xb3a769c8b371562260395ee4f348f88bb056a2f0ec0f98e4e633bf7d943615f],
    [0x397a7d7434b0aa941348de45aec442cd5cad2c398884950e8233c58dd50335, 0x2b1c00ea00893f9f91331bc907397db865c37d3bc6c4b39b81cd931696fd7837, 0x25970ce31b7b10cef221267bb1be1656ec29146df06fdb5b4f6fe6607523aa08, 0x2d4026bfa7b37a19a300abaf2e1d5c32dbcd42240ed860f681f61dd6d6214cef, 0x29e89034942414a1ff6833d6e22742d4106e0f5f37d1f2ab80e5444e5a52c9c7, 0x32b6266f24017fde1b281d0fe206dff30b539d5c5ba13b5312e488d8d6f194b, 0x2ea014b61ed575392239bd9411c0a6c4202b7334cf2e0dd8c3040528e4a3dfda, 0x12ced5254e260a9db7abe0cbea26396680f6e57dc07732a755d409ef751200b9, 0x1d4f9ba4fd8ce4ef193b9f870f44956079538d63bce344f9016ac5ed63a99a5e, 0x2c9c3135cf64b89eb5b714d7b2ebcd81fc7edae637cc6116591df208b6b2583, 0x18b63685f6fed2aa1904856378442151dd1fa01c7ce6121d23e1e9ee20b42558, 0x2b202e1d2626c6793d68aacf9c3a8fffb27cdf5a0b83ff8f3504f9ab26a43d15, 0x6a78dfde1458ee341a089c15f953a2193527dffb43f552cdad595da7c6fecc6, 0x22f62e45e50084696ac2512a25db9925244cf0214b6b543d3a9f83b8e8e58ffa, 0x2d9379e69b178208b8496b8a0a0a90d578b21f090c53042be4767e3c10d3b40e, 0x1adb4c87433d866e8fe5ae26d01477e3962879c20c8c3a170c0727167c06d0b8],
    [0x1d66f208fc04411a1385c22e203dc08f0bac2f7cd9dfaccdec20d3b93252ad04, 0x92f03c7e98e61c2a85943ffaf9c04dbb0145fc2055e4d5be90bb68b90109746, 0x14956f80a65b01f9ee97e2eb070e9df2711cb8bcb538dd98e532636cc60782e8, 0xbccb669cb016d498464944f7192ecff6716e6cb5f895d2715bcbbb65b1288c0, 0x121d2ba5bd8f232ecf44aacf1044cd6ab6f93f1e537d7d1541754fd49f51b225, 0x4e358f259a33244f4058a056110a26816bbec3c76ab6a5f7be93c9e0c92f3eb, 0x2da2603a26d4fdec35318204ba5060663e15a0b1e4d9395258d5e6eecaea8fb1, 0xef5f9ee6ba1ae1d1264cf1a36e0fe4b8043ab0bddf9b9c3200fb687a8ea5c83, 0xd53d61c8a5214e0c4715274ad67a5d6a2cfb9fc3c1e791d41de22c8ba8468a4, 0x252e78b4838ad5007f518bb9c6a4ce501871f71128eee3f0c9784cd64b183fbf, 0xa27a8d1af6a0460ae1724f32f21a06b036668d0a863be50fcc47fec5763ce93, 0x3048a265d0eeb40e5a531633ac22bb825f75cee9036e66a061be3d4d248c862, 0x3fd94e51bbda6843d31a282530d54240aa496165d644d5d7737b1e5a7d60d52, 0x2f26bc13ae48520a439c9f546abb35a1222a307e38fafc3e7ffc843f6c77d7ad, 0x14057d02e5ebcf33c166e18fe904defa9e342a19e88d42336377f1c5e67ec30, 0x1fc26ed027db7b9e7241c2c760176662f634ba05a9ca7a850e184ae588cbe215],
    [0xec1ed3ae3beac4ddd1fdb17b9c7c648e7ec81885a07a5bcbd967e6a3676f356, 0x2a0f77bb3624fc4826c9a2a66be4ec75dbc21642a16fcc4182d2d65c0fd8d7ff, 0x1d799ae83ef6552f30edc47b9e82adc0503dc4b74da40ba0bbd2cc9eb1b0a53, 0x5de1099c65f08a990ac0f1f45ec2fb872c771e10275dccfa4fce1146639d0d5, 0xf0913eb4ee7d3c02d8ce73d1cec2b6cbb176a92129b34a294adf066243ff6bd, 0x25a9ac2d1ef84abd98927b52c24f38796ea60e63858ec5b50196d7e169c93b84, 0x20a0e3f4e1249c4c6af100dfdf63f8bdc69ec7885bcd0d2c2e98d98f9bb9d104, 0x6b7e18d01b47ff8e4ef08078e8128a06693be657489492ac4195a854722bdfd, 0x12cf87253913d45d287e975f2b4f5b909d16a87d89c889057f666f6ba61389b0, 0x29a7d554e9ffbee639867842fd0e7d41ea9b1bc9621b654fcb398f71c95b668e, 0x186756775058d09c639cdabbacd01bf3c2744152156fbf7e8f3e999fb610ed38, 0x2532dd7487fcae0dc3a7ac50b80ec330c6fb6d4cf885f1135988bf6dfc010a6f, 0x2efe529db1de3c01d6fe7fb8a71f1eaab6af1641fb1f7aad4f2b88cd13c9fe5, 0xaf825f7ca24b4a285f544762d9defdc99f2b85c1b89fc5ff2079d3d50e6d4ea, 0x17818dd0254b291d0d8f4f1a458c6a21d8841153661812bbe986b1403cf270df, 0x10175fb6f81b16436af30682f36fbab396eddb7829a50e946c75f27e260987c7],
    [0xb3e601e36a5d82e0214362c8419474dc1cc2c0ed8126534d69a3f790b27c603, 0x1083b742d35332a8b79b80e7dc04a72f7e86692e529b6a1ec5687334b607da7c, 0x12417c001be86197013b2b4871c4e9b0dceb83991919a9cafacfe54666f590af, 0x2c465d9b5eb852d79338b427b3184d941f34046172a82cce44e2b8e5c4379478, 0xa0fe66c0d4de00cc7761008732a0097fb14d6465f9d1df835e0423fb207d979, 0x2f521f24bc02286ae2bf8484fbbc39843886755f52bfec7d3dd5df78d340721d, 0x2f1d3eed36018f9679711e030bdbae51224b5efb8b1eb1cdca8ab886212f0fb, 0x23aa7ccc3751b740eec9f35a29986bc958a4dbc7c4b12eab2be8376706deb20e, 0x2b088cd30a10899babc325bba32aa343d329f9a8782469c4d25f0f237ff607fd, 0x305a0c2c2c4d35998e9913829f5602504363f21bd720347350b604193e79bc3f, 0x8bd9ddd192d797a19dd1da049beb39fa6596598a27031ea1c2b28966d96180c, 0x12cee8e3d1cac1ca84517ab3def487c460aec058348ff220c801b78979af9e61, 0xcab504b22a3573d09509f85d3fbd94e94417acb25392342bacd684006c37185, 0x160590968429f480f55611c6448912fdf423d37bf483c36acccc1ac9a29d2a53, 0x1c95c2917353c53b4cdb7f750a0fe86ce10f8d5bdb018032d3f793797d7c0a35, 0x23d300373bb8ebf7dbcf314a3c0b1fdecd5cae23f7e7bb915bcdb6a6782b57fb],
    [0x163cb4e3a5ec92e57b25b095a3aaa8cfdc4ce59267718cc6090a07e14af10b0d, 0x53e95f9455bc6499d447b6cedd0b6aad9cbced97ccf10060f3c9ef51e28e76d, 0x2171fd11f94485466a819e24d0acef08b0c87d78b46d93bb9462b443fa40cdc5, 0x23918075c8fa0929befc2b171f99ebe9ddd6683594ef9a83f84d4acfd9592d59, 0x898ed1ec1a43687ff6aba32de5f819434528a0752b3928331899b0646b2f061, 0x1dc3f7a659530a13accad181b6e265474108d8b1469266552dfbc38cb679d06d, 0xe388bb105242406e372080e997a31392cf4ffbd9c694163fc366eae770e435d, 0x2273c370eb5810c03903605d7cc94d5a92af6aaaa7b844f35189e77406a7e86b, 0x19972ffdde7898ec8be4fb28e4b19efaa43c7ee20c88e29096ebe872e1c19475, 0x61d78e1953d1943e2d968335b73e15fecef89075e96c943d39702b214ddc5fa, 0x194184a825de9e9b63ed7a7bd071253ef5903e1e75a50536db93c26311a72017, 0x21c0d1874decaf90613183ea827b91c1b2951839f71f329cb9c9b0753ffaefee, 0x1cb33ad2ba7dd0c2063443432a847bccce775a8daf868e0c474905a4fa36d70e, 0x2bb32cf60f8d469edb1b6c56493d4c9338b4051ae2514d4b6082ef18b1d5228a, 0x2495b3c1bfec60741808149333fc43f04d79dec56582c292829ffdfb3c1a3c4, 0xf0417fa6237167e741525261306c17664dc3efa9247aa0d4bcfff38e89dedee],
    [0x2dca90f3e5a15b29895f48d7a1290d7a33646b89620dd0a8ccde3aa3a51d41cb, 0x5904dae3470d40ce12749b27d646e620e8519e2b17cfa016caeb89d9e34ee6e, 0x22e9bf2aa02fe65e3cc74fb3d83d4e3351869bd30528c378958af462efd645ff, 0x15d7fba62bac57be5d97452a3c06d9fa757f144df166479ee7306967480a287d, 0x11e0b2343ef371d2d6d22805974f2539b6e510d761e0da170d0da90095a13262, 0x2ba39845393fcc776fd383e535d567621c7f64005a83a6f7f48222bc902092a8, 0x25143649c13e08d4b00bf34d2aa1a8e450f89788e27766896217047155c5bf1e, 0x2a7310e75fafe902e20287a91abe388aae8420b1ea4660dd7c159c26b9632cd1, 0x1fa6944703fe0012a16ee6042529ff02bc804313ef8c6d8b0f910a75e6f47739, 0x261f975babd7692822473b8e39f948b9cf98730a9785de393179d4bb99dacdc8, 0x2e08b28bdcc417d9643b3008085a27f4a9876792d3915c8b9da3567a6dd6ce82, 0x17e9ed191c5641d768b0e55ec0d4a85f6e5419d32f5668d397d5b6cb805387f, 0xaaf37d1f53dd0556e347ec705962379077cd543198e1c27593f4454521261f7, 0x2a4a72e9dfe5bf25f6fde750a1847e5b44298ba58fb504be57a595e7fccdc404, 0x2adec8549dffde7238b2bda6e7732990a911700c8d35288baa39e67015953231, 0x1e8fd20a8030fdd94e2c4353d8f82b4b212bf887bc59615814890b0f92a47d90],
    [0x2c78ee5ea16d38f0beb9dc0733c4bb1893cb33ff671b737a1122d64f729cff22, 0x2e563b9dc5a3d4d5a93f476b466e371019c77fd6eea506126a4f79274f2f6b9b, 0x72ea2f5cdc8a3789fbcea414a91e7b27bbfb3151df510d080ff4ef7cc73f0d9, 0x2b6f16f812ba903901355955cc4ddb99f24f1c6e26430947e51811a68311bbf, 0x1d59d5c10b0c9dd347899377da35b7e677c7d39ef1b49166b974a7f2bc99c946, 0x4730fe04e0108c9a5145a5c48e60c5457e4708522157bfe0f82af5c664d6ea2, 0x12ec24239ba1b0fc9f952550a223a52d209d8d22b8b21ac24881a2719276be0e, 0x20098399725ee15d93ffd3e481e4a7b95c8c5083f9d69bff1714eea7c7d82d49, 0x18237af733bc44418ac84e623f483a6be28b8f21d033fbf099d645ba20f1fc26, 0x1e3d6cef37f9bdac23d1b381a6c58d0ecf06a6ebf58dfa7a995a443ed7df68e9, 0x28e55b0bed59191216d5dbe1dd05b22c009b079de877fd54aaf5401d2c867e02, 0xc6c9ec31c9e3be0744919fc555c77c0c125927bd16de2807712b35ca26dd045, 0x2a607facd3936fdd0e84e9bc3e4b4bac86e8102c2b5ad15cae550d28b3654e73, 0xc509a4bf48ad76e90410bea34a8919741608bbbb6b5503c93e732036f079d12, 0x178074303b90d8985e376584b8b8dfb7f952f8f4cf84d815f90baaa3b644c4c6, 0x18572826385dfc6eeca4d3c71d110b04abae013c5450d9e4947a3d019bb41b6f],
    [0x2af324ec4f9e7786dcf00439c75a294bff753e3292bbf62e66471fa730f19c79, 0x14560083d980d172dd40c9426cff41467acea41d7f48ff11ac5fcc087ba2d5b8, 0x260f751c7823abae61b8f3748c84791c0bd84acf7eb6854870250178e9a52cf5, 0xf6673b7fb4be8cdea74aaa7802c9c73ff0d53a98e94a2bc60685d890a24fdeb, 0x1a15b7e2de27125f2e6a74f4ec7cd2455f1bbfaeb1155f1af819bdb5fe54241d, 0x75a09e41e74de8a2ac7fef27591e76a77c851e1a51185f31e99b5e08f01cc74, 0x79c04944d50b4777dd0bebe953600645ceca9d65fba020f97365146bef9c6ce, 0x2ca2bac7c1aa0c64e684123f0ffe22173923052b6a01f3c29be80137fd8972c, 0x13d9035a0dc798b04dcef0f08edd241524fdca0e95ba9cac05d207bd317e19cf, 0x1d6657d791831169c56b6e9a201f8b7b240246a2d0f854430489b983454032d4, 0x1c89d8f975f0304282ad8f7bd41c12c3b18ac6b80e4065fccda423bbb3ffa786, 0x20829ef3df9c183f8965e49c8f315c2995a6446a76053543eb750145f1a77400, 0x14a2bd5a56f87009db981546533202f3af812d2ef4d6b037f2830853b9f9039c, 0x199733da4aeed8d6cd148461617e8e46de22d3720431fc1605619b12a7fd4e2a, 0x1f5fc060028ba07d11fc9477f4faffe79a81040ea9a04c568267644895e6737f, 0x208b7c8c1ff8422d4a1bd13a02a94681ce217d925f40d2875f73def14de7a220]]
  p := [
    [0x2b6fd7bc3a3b595c206c43daac752b765a12255c37ab51ae183933737a8b8099, 0x214e865e2eabdb9fe5d563a141ce18bb254029e0e04e59c2fecb0850b5ff572f, 0x1e0e35883b0f1794db023f80354a83951383b62282dab4129db1d19e605c316e, 0x5c51080a74b8d28b50b14228c6a6de8ad5397cb9a4b9c6cf86bb807cad76074, 0x244e0857b01e7d7aa0eb2ef334fde51f16a2411abfec2c3beb6c62f7a7036217, 0x2a04852a90b74143f3808a150e9f1371e0177a1b6e72cbcb0fb8f1ddce8a8d02, 0x305a319725a0b7bf3def3f71517cc2bbae386b651550fe9405cec98dee21b1d6, 0xd92a7b009466985fef388ca3d70c7e2c0c2670d2260df83659d776002843107, 0x2a67eefc0930f82c8bc66ffad5ac09c107407814131cd645bc18cda6fff4f52e, 0x99674734918ce9329409e50f2e9041bd072f9d827737de601f09c7ade19d35, 0x449112125b3f10a53b2c465f2bf1183f03c13825e76d40af75da04b8137780e, 0x2c1ee387a8c15e7dbe92032a242801d1f7b411a7e5a36bfc4fa2749a22cacca, 0x1d687a4e31c6b3c91e67dc9d9dd9c47493c839b5e13ca1a9310e6ba011421cf7, 0x1dc79a5d9de443db444de0f08ac67be4826d018fd86139ee9eea781f4df48939, 0x2d5cf8172c587c0513f26105419f56319763c5cb42cf9ecb5e27d9a88c5d16c9, 0x25bacabe48b3f030c806aa879f25241fbbb17534d686bda8f5d478662b2a5ab5],
    [0x69b1779dec3eaded3f07d0c3e6cecd6cffe78d747faedad9c90665aa2d92cb3, 0x29fb24fcfdda928bc18f54d5594a0c23bb822c277fe2bb999e04a37830c7595b, 0xc05c2d8ee022c59521bd441aa15fa2ddf43e6ef9811b10fe9640ee5e888c388, 0x122ca048d7c6d4b9053b59ab67650d10d22515f1365b2267c086dc7a168de657, 0x2fbb74d7dd4ab190e6244236580314c820bbfe34045f43ce14d1ec0049afa187, 0x2cadba86ff66600cf28005f0ac4870914118c62e110e3ae0513dedf3bd846d29, 0x30d436b101fcfc29d67d7fc4473218360f1a52bb7316c4a080a55c0d01a709e, 0x1041a8891a37452dae7c58396d225a87ef1985f94485bc3bb94588dd00132b2b, 0x20e8656cb5d68cf5f5aabd0cbc2384b00cd1b65ea77b1c0495a65f3270e4d881, 0x17107096614bacedf147ec8ba8ddbff1d99d5ec24df5495279a720144ad00dd2, 0x2615060f9b8b7972aad3c06f80079700edc591d0e701ac424203a6a7beb5931f, 0x1406d86f9f6ed52732899488e062f293c681767645a636d8f078dd40672e632f, 0x47dbe55f778c815cd8c79dac7d59526dc76570fef2224a93640c98770c056cf, 0x2dcdb0a971c5aa120c3d873cbd072083a649e903145e00829aa8202ef09be93b, 0x2bf712452a11b06765a0d8c7f0af790527a665863294a32cfa3d762a5aca3b0c, 0x12a68ac33549f6902b128cb376c2f52cff07f1279106386b26fde8fc49de31eb],
    [0x1fa4effc83498d19aaa598b7771f88a0554dddda89d32dcf8a6f4cf776d13b99, 0x19b1577a9e5fe67f71e733732ff6ba035dbb18d129f701a566068c4aad32165f, 0x82f3674a3860d8034eee2f705933c2ebf23a5ebc7a3d77c46c9279df8930298, 0x1011963b5e7be95fbbfa2848d56da05d6229a3f0292c50760027cfb98577a2fb, 0x2ab86635f447d66ea5ef5e5339031197ae8e86b7350744069280de59d7256486, 0x14fc3fe2445bef8547b023a1ced3ba9e137e16fb0e3645dec813cdd7e584ebc8, 0x136afe9a53acd5e1d68cfc75c5630d39701cae3744ad5aa2aa34f735ea830703, 0x18bef702cd3178eb4ba589b84783071cef268ed6828f70c960e379508b9ff1e2, 0x2c5c474a63c172ea6d6a1fa8be92e4bc6891e74e87c5a65c42b61aa42a9aae4e, 0x27e3943ac99174b2829fd8ffab17b16837fdb88a0c6060e20c3e5c72fb420f8, 0x288a44d1afb6a92a5c7dc766d4cde4874b0f49cc3e798fc25292cd13cfc4ebda, 0x2d255d4f28b56db356773293cbca39f6f9c06bc4cb5275839555db772a969ba6, 0x262650e9b1667b31877c8d79a5816cae80e222df97e48b574ba91e6cb509e931, 0x22bf34fc02aa2e215c993994c7cff2626dcb7212975f7ffcf11cd90b07808e70, 0x14078ef63c2a106c8895143763824ffec7a868e80b89ad6aea82263b298132ed, 0x1d16de8069581b62949f3e5bfc1188e21cbdf5d67a5bd403927da3a66f49c6b5],
    [0x1676f5c07417ab54c37ec8ae1a8314bdeeb09964769881592043dffcb26bf41, 0x286415acbcc8aba3e5b854a6a357f300ba4037eb8b7c5ef6bbac868d1b4a5635, 0x1aef1d337ca51ca5d2c5c116a275a81a21f90d89834bd1af61b3aa6bed65c7c0, 0x17e864b0c0ebadbd2fd4f75177b9e7fd801bf3c066464070c6527f096b0b4e9, 0x2587c2ffb837fcc5be1b5a0d520f0f2145000b6797a9a5205ae30240af69c7a3, 0x2ad5b37b82f9ac35848de9a7b0bed4262b3074c8047d8a4736959a21946f7db2, 0xa32e49eccc90d7135c8c66fbb1953bed9da04400221cc606416f0db0b06930d, 0x24e2c86170a5b4a8c95066d5f553eaaede655dba90c32e485adb53c3db9f65df, 0x2e90955a65c11aa740e8592c94a983b542bf95bedd9bc24673647687c57a419b, 0x11ced1dc351f0b67b8de31d678da740e5a0c4bb1e9adb04b119e8de79e908283, 0x9de8b7bde7c2aa28539fc3f31b1f28538a766c53ca6e92a1639bf1706369482, 0x12550c43d8d9b152c039868ca4c52f074e02f31e1834978c8b554daf43632d88, 0x40dfc65f3133acc65a961dfc4b365d21d41b9e82cd7d65aa2a3238a3ac5b92d, 0x12f7124beb62cae35c093ed96975ab5dfc8e00f2668c6ddba351f458127e96a6, 0x530ae305c7c8a9ce61943baa1bfc0b2e16199a994469f41aec17cdbd7d074a5, 0x243efe17e4617bc0c20ecb5f9bd76f48a8dd796fa1058366f55826b80aa69794],
    [0x1f4e7bbc8d42779e58aa07bf54ff324b814fe687b4c8eb81b9b7e74448ee27ff, 0x238f0b87f232229a5c7489e1c7edc9d319f816c21e6fe403ff65c60c1ca4b178, 0x1df906bd755c6a965e2ecd7d32768ae2fd8c522dd0ddcbb002389e90f5c6a707, 0x2da47d7b5389318990e3d6eb9f9e93eb7404439b362a0d84da24d8c715fa8bf1, 0x17c623def2d2610588b3c5dd236ac31026a16354f29b2f8a1b0955c391701f5a, 0x1c6c37b8caf25198a4a9cc93c559e73b7c90ca6df6ac721a2f52cee03f57221b, 0x27feaf5bb57db47ec317018969e6e767f48d768fb138698ceb4aad474f10fb3, 0x4e392117390c777ae93ee29db53979f4f0e168595d9dc5fec4eed18ea0e33c8, 0xa1bf9ddee072347f46524461f66c65582c5533be183c39ebc5325c2e111eb55, 0x23382c75620eda77c18e3d166fee7b74e30202ae8309890010849e1a79cb90db, 0x234c33dc7c164b187746919301403d75c58237965627738d9f48d393a44829af, 0x216ffb6e7e5316ddb852406f11331c24f717439f27d57ca15de065958ea44462, 0x21269800c6b53df048610f35d1b344e03a0fe15f0a5b21b73c799a48e4d0721f, 0x86ec72230cd5fc6c7842cd5eb4fd6b75c3051a915deaaeb61e9b22780579a70, 0x2f54161c4ccd936ae2c3edc204637dc114d4d3d6d98bd9b6d8bdf603bd4b7e72, 0xec71181ac2bd7226495ff60adb20a3c9a7636dd9faf14db5335d8c4c1ba3a06],
    [0xf6b18c98fc89fbfa99a04c8c96ae5db35c296479f484b680df905d4cbd1dfa9, 0x12567e67abc9b35af4ffb381ed3acf244a2f9019839f5f8d2f0b442f51be88, 0x178391cf8f91a1e3b00f545a3a4a5331feafd2a0d10d9027c56954c8a3f8ebc6, 0x2abf38b2c05989402c75ec5263e3ac75bdbe9af0c1eb92883d5cda564ecbdc37, 0x2a2c5e5b24751e4a10e893ec2f7ab96f83a970cdf3a543b20a48357cc7ec8570, 0xdf7d4b832373582fd4fbcdf7f3c49749f6efb59fd99f4e8fbedbc8190a0d8de, 0x72011cfb8afcbd8b431269dd5d74aa99e795c6628dc1dcf6c2d8db003bfb436, 0x2e369b2dc96609f8c17a592f2ce063683d148204c2912b0e53a70a3c46bfa9b5, 0x59b27028b4f0949345ed48b3e799d1081350784e0042c994243297744e2e226, 0x222dddba5c72cc2d12f0aa37e940a09424f6e3d679cf725bd059b4182393c08d, 0x1d4f2427689a1dc5f1d7c68311ce5b0a56a961b3d42a746f356dd81fa147680b, 0x2b29f8fb4f37691d3981e3fc495ee58c25ecd758d6e24c3f41e5c56221a64fd4, 0x267bb17bba0da1b457e2fc71493f7d7b9da4ef5d13a62e525defa3d080b766bf, 0x2e6530de833c3b1d1f5bda0c6f6a244ad8288750865136dc22bb752c8e044039, 0x1f0b90c52358a8a14da112639c7d2ea2ff1df537b41227f4d3c9ebf7014c75e6, 0xd9acd7178242914b81219b9a60ef7a0d6dd0fb571609e4335f8d419ff982d12],
    [0xe6cd10883e1e11c6c191d36329f30eb0045af06c2d86d0c439f5c1f4fef54b, 0x2bbfad45e5a92d2fccecc514648ba944d35abca3f6570958eda96ab2e03d8095, 0x1f8bbb7ab0780d5bf4070ddbd1b99eecde357757f3773ce6a8a33cb6d3d6060a, 0x2578863a750b236e5975de83fceb91727b4f588c453a94e40327a18394e835ea, 0x28284f2eb4ef38ef729f8637df230532e3a410186dbbe5ae5497c69a7cafac78, 0x1c535fdc7111ed734def9074724899bea8525c2571335159af33af57310a8db4, 0x29037a8126d3d81fcaadaff1995a15f9e5113b205c2f7c2d0bc0361f06a9678d, 0x1cc53180a2b9cfb4978339d086ed54c748a5f77190e30dc2879a76a107553e6, 0x2fd6d01024cdac4f279edd9fb5219b414815163b384f502b615537e03cff2b25, 0x205885190c6d00c1420074e1a4a3163c382f7193754fa5f87ddb98a393d032f0, 0x23cf89940b6418fdbed6f84bbfe0c5f850a9ba88c41e998554a4a4123d0ae5e9, 0x968d36ff2a38e6aeca306fe28458719e69ba1b0fc76bb561fed0f82255cba8, 0x2c9814c96a72fb32442dbda9249a412f98a23304a86ba9848567c5b0754554d, 0xc11ab9629bc935469b9fdb33f48f22db895f5dd5e182575b2cbbb221105fc69, 0x2b98eb64b8642bf4f5291ffce416102088b471aac3d2f80da585b5fe1f245886, 0x2ba9f7efe0d61c8460085cdca6c1bb78aa7bc086533f20f301e010d5099ee790],
    [0x425a9641fb01558bc7170a2ffc24eb6a514198b296a1629cc284d983bca8757, 0xd964da26287f09bc190e8235411bb9bc9068003fa6d6ee03229dde65db07fcf, 0x289c0cb7f84d62638c2a2f37f10f30a58d8bd8b4c5bd8f5a3ca448e9c668f615, 0x6622bf28a5fcb361e0b7bdfd7fa08717b51640d05d1f6f6ba94b50d26ddcab6, 0x2aca8f7acb59233bc4d4df65b9c6f30479e9a72f5e6821860b39ba9dc4d03f82, 0x1330fe288bcb4ad27de36ef48f063baa8ab30be65940592fd97623c7faed4e50, 0x9efcc692545703bcbeb641ece624880f73a10c0d2c2e6132f9624eb5f41b1b6, 0x2ae8d813634a87b031bb08573bdf237ab3701215b77ee9a4e6a2c01c1c1d4ffc, 0xc2b9bb36e8ab693866b2885bd4482ed5c89f069b3e6445655d70f4d6687f8c0, 0x1a606372725698e7d7f3a7280617fd86de9acaf98bbd8971d8ee53932c2eb6a3, 0xa6632613bfca8afc8939b33e4912ddf18b034be621106ad695ebd5065afe00c, 0x2479769cd60838cc140a649e8937be28ac92c71980f149caaaf0100d1f102374, 0x1f925ba0001429fe493f48ea404a8ed283ab2cc2f3275ecfe320afe90426f462, 0x1231fe074b771ac643d6e188f5732c209c71b768739b22447e6b5dcf499b4887, 0xeda204f434a347cbc55ef698aefb23df064c57fcd4cd4cdd810e05ece651535, 0x33bf863141b2b9aea2e59cf6c4faf11466700aa5c383af451d403c9c53160bd],
    [0x397a7d7434b0aa941348de45aec442cd5cad2c398884950e8233c58dd50335, 0x1495e990865f559df4c7bd6f21272b8106e2c91cbb1a9e2089922c62b2a76ca7, 0x125496878120d9ff89d702f58154ba82158e818db90e3d12d6a08c5543536368, 0xf8ba5444de18d199aabbc5442c1d7c01cafafc79fe095da31928d776bf984, 0x1eeaa31dabd6b6a9efa74e4315917d902b02760a04b04eedb57e261fa2c6632a, 0x3776a7d69106118a4d22f86060ea7db0c9c8f3ce3ccd6c88ada43ee175cc811, 0xcef77234c42547957e950e45ad3b723735c011ef47ceee8ba422bd16759be2, 0x1cebeac557d2337e4687501f9f71fad7ecb14ad09550b52417ac33c2e8bca21, 0x6521b700ca47f222ea2e280f3193df67e1a5966b8cebffb01890aa3a87bb328, 0x100a85e6da4a0b92a81f1512710c889a29c8ed3e0695bc285a71ca5617705fbf, 0x1a6288255e7a54d4397ca40b3be72c0469bc489e66f916c1a90476816a2f791c, 0x33125b9cf766513a8e82a0d04374ff181bfa818f67ac1c7dd4298cf32b85e76, 0xf7e82720135b35277fc54ebdd88a026af545b745fc20449b7068c6865eac1fd, 0xa9f28e621172d911bffad3b5ea4b73a49a959de5c86e8ac52745d558a6f588, 0x18a93b5dbdde2e99c234253d4a49348312e58f033e87d4446945727da833c54, 0x2237324de68d18d407db3fce2a401e8af47ea8c5bc09d862d12b8dbfd3af5f3b],
    [0x1d66f208fc04411a1385c22e203dc08f0bac2f7cd9dfaccdec20d3b93252ad04, 0x1014b540da45955bbe759dfc9ec4bdf32a99d56cd2742d269ff8691d915cf247, 0x1720174606224668a7067c3e8c53b1ee68349144af6d6972d38c90bfa6bca639, 0x6693893b45a40bc7366925fe7978bb80fbd5b9a3ea27c9dcb456b2b04670c4f, 0x249c8751e7443e96c6e3b6b78d7f288e8a00c05f12597c984f8f0eb3f9c0d4f6, 0x19afe6d81031fe1cbdff2b24eb7d691a50bd6bd8da98ef658d75171480cd664c, 0x2034957e3fc373e94d77e0a050a8a84ba49095ffc6eb3a7776dd86940d90f01d, 0x1d65f2f3574c1fe006df2d50fed257bb935f902970c7aae131a41f2de4b48bb7, 0x1563bb61629e83922438cf0723716cd4daed36ae948e74c5c85dbb7e9893d645, 0x2f10b78f744104a54a8149200cae59e443e74edab1cc3cbc2d8c170ccf2f7889, 0x7396d51d19d94cb34b304ac606b54399e89273abb22ff7bb6b433e472ce1e8e, 0x1cbb8fa4be4e9fdf0ec9ea67df8df2c1b796291e75db4f427c843216fe48834a, 0x14e3a6920a412da81d917e7b9d98bba849cc165e406fb3c43ac421f9ade0c228, 0x2a8e486afaa01aa8eeda571541d2199b55c8f5f730ca5c3879f246c227809c9c, 0x7abc38167a01b6bc5831587de4d790de43e68e6ca9eabcb64b8af6895ad968, 0x1e825483a9f85081590c0ba40059fea7861719e2b7da11323437313b77b6a8d],
    [0xec1ed3ae3beac4ddd1fdb17b9c7c648e7ec81885a07a5bcbd967e6a3676f356, 0x1d8385e9787d1456bda399aa4d7f5c643cfaf25d6ed60e1be9ae8b98fbede91d, 0x2f574b85296045a2b1328f482a3ec674793ea300e0817720e6912d467df067a5, 0x291fb174e5ee77c060615a7f5a737a57d56e2060844aedd0aa86329b9b361496, 0x2362c38ea538ee898a12c6458c399d2870bdd8826307d56f03bb28e0e30d09f, 0x231713410ae9a8da08284c29b8b975410dab6f84f56475da37711345e68d5e2d, 0x2ef69fc1a737db3abc895f656811e59e7d873355b2e1342aa5134d8bf702ac90, 0xefb60fb18584fc86d88ee569da71046f765526b11f6c20099a6dcdfeebc4f70, 0xb044ec6d148637a47f917944f81e9c8b83b0c0c5ca1bd3462a4e0daa7703dac, 0x202678e431648172713afaabe2c8ea148061205c639f639b5e45d498be1550d7, 0x2a1e1954e5b010440c1679719e5a0db27c0aa7957b755ecf2c9b3571a8aa0a0d, 0x154d9e7b0dc8fa67c82016fc687836f61284431fc9d681405edfb38ccf28a6fc, 0x2a704d1d93253cb1096070fbf26d4df2baf4d92057d87596cadd063176267917, 0x2a24d4dfd6e9d6435e4ca1994ca11ad7adba2924b6ab7cf7c6a9ef5e7ef9ae21, 0x1688b9a9cbc3a63df3a2a35c6923aa0949816cb57fefa6e95d7627b7663a6317, 0x1d1caa8449da721f7c949ccdc38ec8c6134d97d7bbcdf58fa3c471c51a672ac],
    [0xb3e601e36a5d82e0214362c8419474dc1cc2c0ed8126534d69a3f790b27c603, 0xe6b936ecb8a59274624533d03746cd5d266e6c5490d3c95ada22f4a22e80e32, 0xd56cdd730e1401d9d7f93da88d6f3bfb8eb1fba440c552b078bb38a7cba55b2, 0x12c0b93d829ff5b9641d9f6f2ddb4f92c7a7b147b794139bce98ad87d680d717, 0x2de07475e19762eb5baccae3e88aa1493d35d276c4d05c670697b43824a41640, 0x2ea094a22ee4755e5df8352b2ac671e231c24785db343b9145f9e44297b361ac, 0x2ab4682e32feba55370b3a477ad83f30c88db387bb20c6a9b2e567f5d60a4a73, 0x1a70ee4fd1e45c498e771e9d0210dd14145cc2740c3607e044e3c68b6a6017d4, 0x20a815e19a6198e3a2f8a8bc2631c552521182f63e125477cf765a27707035a1, 0x266fe05c631b74ae1cceb24143a96e0e9fff59304f04fedcf4db3da13508578, 0x190dd58a88fdd887a0ca830681aca5949ea89050fab84b66297d7d14dcb91a74, 0x1ae686eecd7623655c55154aa8c5c82136eb56020fb8d1199aff5c8bc11eb0c0, 0x20ad4678ee812d96e544ff8e5e65d4fb7bf15cc6a524e6f19de6af983c997b03, 0x2caf670c84f98b68d05f4ee672a1388306376e7886e30bd2b163bfa7fc15b443, 0x1a336a86dd0b3325933238a53bf68f21ff35e9569fef12cbb61d8ab9c1f50ae6, 0xe5fc7c1d17854a0673479d4589da85e6e61f48cc950b3cc531564ce5fca874f],
    [0x163cb4e3a5ec92e57b25b095a3aaa8cfdc4ce59267718cc6090a07e14af10b0d, 0x19853b1669534b82fee656f037c33af733bed785ab726b0825dee79b629b9706, 0x1b164a2238c5e107696834ac58de1b21e49a366ff6307159dd461a3dd40c2f53, 0x2923c2a5464dc991733e46124db74c405e32b3fd9dfb2acb7d889b19a340ce9c, 0x2fa1a6b0c6b0e9d686ad60801c72955c1ac256d23c545152efa81dca6fe1480e, 0x27cf8750197630022efad9203e63aea2f195315a1d065a36894a5bed32bc8941, 0x23f9c83f88ce7c78d0c6cb8059fb86c2110c7c266778ba8169b665dafd9de184, 0x1d3ce51d11885aacc9a7a3b9fd2813e7ed602b33d3339fbd91bb869c6881ad73, 0x293f18aa77d8372bc9ca53668a9870de638a706734631c21edaddb20c4a6b85e, 0x197b9d069564454b7f26166ee1614896f153ed11f6215f06951b834c4da38045, 0x131c5cce643d2b8d9d294b32abf2c9010ec622bad6f1181e4dadba9545684bf3, 0x2556b61b7729a527f2c01544abc585ad6da9c92b3df9121f37bb0fd0c03d2cd1, 0x5a0d89380a2a2a14acb860c3bf32ab6b3c973d84b0d61a308ca73257c19cdb1, 0x24785c81f63404b46126436afb27fd2340122e9a98a58c467ff14abb5a90241e, 0x9fdc6f6ceaf2566ee3a618ac4d77e86327ef278b968013e33f0813190472b31, 0x2afc8316618c153350f4ba229e3382245c1399b2ee4aca25580229fc237f94e],
    [0x2dca90f3e5a15b29895f48d7a1290d7a33646b89620dd0a8ccde3aa3a51d41cb, 0x1ac11195f74d7fde657d093a313171f0bc3cfe2fb965e5c352900faac25305e5, 0x28fae6efd55d9648b0d9dd3b8c6e928c11a5941dd6ec235a9014c6dd35ad315a, 0x12e496bb2680b7d14ebabfb8797e9c6bbac68a40c8b8fd65b5dfb18e38c99680, 0x190489ef4eb4182eca51332b895875d6ccb7dd060aa364c1d289e2e1a7741119, 0x15776583d7d261c6e8b338c3b3fa4323abde66ed0f477d0355119c9ff5482eb8, 0x1370c01789f712284290ef1cffc5d33288fb504c5763d2801852b960ab98afe0, 0x786ebb71e920bd16e3ddfdeb748e040b7f1b1a0f04967f55210bae2f76bccf2, 0x15d4d2c713cf58f480500c6e5916f52b6ea1ac070771b0c83a6fa17cf6c9b904, 0xfab2ea8e500aed64630a51f8bf9ebf040073e23a3cf189638656d6dd1af86bb, 0x1338a1a447a9df2fde50aa09745ed3bf09e32e4ff2caea1b3b736a666c715014, 0x59df1b1e661d317d01a513fc7dfbbd80c9192d33adc60602b0b0b9d45e08535, 0x2f840b4ac5c9227c0a648693878cf37e955a037877bd5e5ccbd8efcfa38466c5, 0x844b5753fd61108fd7fb8a707e770af891ec99da9d5df68b013a3a87599ff7e, 0x2049ee37129926ecd6ff3a08e0632a007ccaadafd0d402a409561a2ce095b52, 0x1f6570fb39247442fc03a5139944567ea46f6f534a0214b611fd3b2d3b878369],
    [0x2c78ee5ea16d38f0beb9dc0733c4bb1893cb33ff671b737a1122d64f729cff22, 0x350e8d2eed84802dfd14d7878b0b77cd9077778c41ff7733d2ce688961a4b30, 0x2aee7c9d86aeb8744b9d3bd7cec5c292e1c65cb633de0afc101e9d6fd2a36d5, 0x16ba6796332fb56050e3fc4111f320cc05255c292f34db71e816440fcc452baf, 0x14ae46529aa1f2b79da80878382a86338323f6a293adbd91cd58270513f4b693, 0xcf33eddfc73e29bbd785035283f6e805133bf1e34bb9e3cc2f915e06b272e27, 0x28f704162c3bd521df847d4a8a4f75439e668ef7816a91103158619fd52e5ee, 0x1c207d7a9081da93b7375312e4ea754523d9198c501f65638f5af885708d23ae, 0x1cc29ba8eed43aa2f71831b62eca71c1a46ab68007777679aaa8d6121faa5b55, 0xb39596ec65e453830650f8dd87d0fe8abc96cb59636252e27797920e06b6a2, 0x162ceb46008b073da8c811a25a68b56da01182fb893ae1c6b03d310ac8944fb5, 0x1f2526ae9adfccd223ab57e9de7e50f5d3ee83284a8d62a5e40148f4dceafab8, 0x28ff311d4a44251feee051511cac4832e177edc8a03053e133d206e9f6704f9a, 0x1c362078a104c738bf6c5fda0edf9ce2cac3b21eb2779e734d14d7276a8e5267, 0x4458b88b13af0f9d45c2b43df72abe53d6e9b56fafb1d0c15cd45a13d33b05e, 0x23897eb294a5fa4f300110fb96ec236f8c0e049f29da5078d1224337e256e703],
    [0x2af324ec4f9e7786dcf00439c75a294bff753e3292bbf62e66471fa730f19c79, 0x11930ca8a8841441dd799a0e3e78e1a949f05bf99603b382ff771021770f92d3, 0x1bd210b6e6c2074d94d9f310d6906e81890175e675cc8dd659c287438a08cc4a, 0x14bb891ffdff2ba6b222332764a72059404e581f328265eafce4faee0637c6cf, 0xfa8399ba775a9e98ea3fc29231e1ae7177dd8f63c616ed4f4819f0db982aae3, 0x17749627adaf3ea1f31f149cb0fdb032b9c2f17c262aefa35ec1d516e577e6d3, 0x17a14cbbc6c3e70e50145daab58ccda20416fa7a0b0564056e0366be14d9754a, 0x1ff273747279cce54284fbfbb61bbd04f403afba107507f76812a645fa9fb774, 0x20edba75b3695a0f934c68c90d4ef19ccf1d8b1e3042d32362b5238b10deb274, 0x26852fe3fdad04b05eaab62ab7fe15fcfa55e0340534e28e2d8a3d8181b1c859, 0xbb7167ac0c34acc1d3e0b83212f50e3360eb4e967004da532861a8bb527ab66, 0x957401bb640d15d04d93e3ce3756b5f06f9869e51076b13d42a53be28a36b5a, 0x4d4b72c6c7a5922a3c9ab0b0154d7b12c45e50f8a237a930802e4c64cc7163c, 0x38fd3c972d8ed7705ffbf9d462381628ab654b76aedf4f4bb29a2fc6c922cbc, 0x98ff2fb46bfa9b48439294ce85ad25768cde5510c85175e073f1414a65e4ea0, 0xc872f10e24c0b992944862abd52152c0faa0aa508afb99a6e9a3d2d363a5c1e]]
  s := [
    [0x2b6fd7bc3a3b595c206c43daac752b765a12255c37ab51ae183933737a8b8099, 0x2fb280a1f23df0c4566f310cf31beafdc3e238a7d873fdc50655fe827868e909, 0x36f175c993f4e409a6275e71558b9e1a0fcd7e4183891a7471ea6f987d6d0f2, 0x3be177a0fe1bf76a94d443647e0f69c0a74cc5dc7af217762210b2855e849f1, 0xed6491c4fd0f129acabcf5a68f01ebd10df6211d4d1fcf54ed75bf6c7cbc146, 0x2158db47b374d9dd31d47c20844fa870005051c013941b2d710ee62e56c0e4ce, 0x637d7b15c4259de4866d36005fb17b866227447e5dce4c27794413980eaa09f, 0xb745dc1580e5e3d6319028050cb792ad8fcb5b1a156dfac6595edff287d4bd0, 0xdc8bdccc8f3ddabca39be41a609714af65f518ef34738fda76e2755e7378699, 0x1fdb7856e27d608c397fa9f7f6d2fdc4b31b17f45c8a347124c8c82ace7e1033, 0xafff33732a140f6759bfd5b2949356a349c26c64b5bb018665e54acb329d3ec, 0x1b1d97c16995fec9aee31a16facade0e2cca653efebee3d5ea70c0f7b39c1383, 0x29ea18e6e4c75a1c3694bdbdb3fd274c37f51e2917f9e0b01d81870ef9235387, 0x15d5f5aaf91baaebd34d07b9634610b85966c008feec7843fab7e50b0616427f, 0xbd8e0c3a167d9eb943bf19f18d765230fd7d224df0645851e669591df01239f, 0x129293724e2d76cbaccac841326365a0b92bfc00437147de6390d964cc0e055a, 0x2d70576548941c2fb6bed6c525db5d0c33ca6c86f81db33838548d672b7b2641, 0x2becbbc12e49825055888292d91ac7439a3cf337d5f9873c735d92e52a054434, 0xcefd0b81bfabcb9920230f3a729ae3303943d8e396c5c0e5ca01f4611f3f617, 0x6e47e966b1b597c61413dc4f996f1456719742257039015c9c1d0aa33c0b0ac, 0xbf90647c85cbc82b06e3a94198e44335720b8afbdff06112e2aca505a43c47d, 0x239bc57d7b109caefd8c614767a590a68f658c69cbec21fef283a50324179227, 0xa36ae4cb35b4f865d7225191366fe691dd65ad5f2966b74f2adc28d26d2d322, 0x11244585fece886e4685fc703c807ec8e0d591b575fcd089a969d684be4ce2b8, 0xcaa7779dc16bdbf99a3f45903ace5079185e317efd5733fc7f766ce57e29694, 0x26996b9d086885f9bd6908adb4aaf6deae8306e463250814dc66e00674193839, 0x135e66a0ee13b287e51f5f1e8f79d4fe7ca55d9135e8921272920ec732bcdc16, 0x233e95062085e2dec808029c59a0e8230077331e358613563788518a3972e5b1, 0x23ab13b15889f8bb381efebe71172f91a0ad65d9f05af6b59e00d0c99f8ae082, 0x1ede4de25a83103e2dea729f0c68a908589fe0e604c86f8d57e058fe11000742, 0x2b5b5bee788dcb23bd488533ccae1431e3f3504e3b89e6eeda4ae8b5bbeb4c78],
    [0x2b6fd7bc3a3b595c206c43daac752b765a12255c37ab51ae183933737a8b8099, 0x257363f01fbb108ce6360b115eb038270946eb8c46b6ececd68596765ed894d3, 0xe06611bd4eee1605582fc2f0a195524e57a552ff9f2c76832189c382d763944, 0xab70fb6823f52c277b8dd4ff261d965a9427d34af4afbf19f3b24260c15f8e0, 0x179c941d644d804a3a4068884fd1c6d7a82d411d4698c91e1b242966d3bbdab5, 0x37f916e90d419042d297bdc952c7cd02746cbc188149a51a0987cfefe0dc13d, 0x43f3dc3d91b0abb531882dc015e1d9d05dd646d42dfd9f4c1493a085cc00a56, 0x143ad19c1249acbef488ea0a074f56afd3f5b89666235cbf8bb5e6fe44096642, 0x1b76610fc8cef2eb0f4fa76df7ce299237fe7b3a9d024b7d405ec095719c4279, 0x1a5148d68913df74c872a1ea5aa4b542b3ab1b9c0dda2ec220cf2bc36d69ad59, 0x13f11022ed02284972037000666e2d3edbeb9a5350c37fedc293be998eba32dc, 0x806f266e4c35c6f066925ff73d6abde5e46f5bc55b01015db95162159092a70, 0x2e14cdaace09d09b49d437ca48752123a6efe3c75660218f408878871d073f64, 0x1c4fa8d7c6c8eaf33116df7af0abe56945403e111f0ed36af029a17a88027839, 0x23436fd3d8d48c7de5ea32899d09e601877896e044051e59d481f26c6f44594, 0x437191fdcb2c0fccb9dd2b70155e1e3eb91a104b14235a84f9c7f715f666b10, 0x2f68a6ebb5daa3c1c0b1f8e1cc3ebbbb29dae51f21dcab1b8f24f30e52f6a1bb, 0x2d82def6705911bbfa278a38d385fe17c9810bcafd7126f48ffbbdd197e1fec5, 0x15fead0f7cceb9fa5a96b903121d234539c447f776bf13290f0d0fd9cd776a63, 0x12390ef95e294ede3c435f9f14ae4f121cdaaa6b5de4f3f79969a8f91fb37793, 0xa9f6f1757a4b1abc8e0a5b0fea83cd2b8e565105fc6d52e692dece89a6c11e6, 0x996db2a2060b0454ec8a132ee6d810df2df49031ce420e4e790c723f578bd49, 0x2670a74f37e6a32596938caea3cec3e05b337ced6c23d2bf2ec5987dfbcc6905, 0x28ae07ea7a529805d3aafe9f5a2ae662f908b17f864ab59b98452ef28e3fd44e, 0x24002c49771a2fcb63c046d1507b8b2259b4eff63a7be958329f6319fe8c787, 0x2703e03745ed8810cc93cca78ea613cf39f492180d6ac47300e4babd4f357dce, 0x22930293c333499085eae55a01cbf8c32b04d211a0709bd9b758f733e2ed7b7b, 0x2a0ac5d7f2daa3edadbdeaaa440967d97baec637cf48a67a36810430014a902b, 0x25fa48cb70003175db4b2241e6bbb08a9d30128c86f68bf6e79e9a3dd4f3f4ec, 0xbae040ff4b1f63b97474a971446b680c23ff4d55212a99d03d1e27278770016, 0x2fa5db728b6058cc42348c90267158f8e76ab99c646e66664dc2b93963218e16],
    [0x2b6fd7bc3a3b595c206c43daac752b765a12255c37ab51ae183933737a8b8099, 0x114401a4ccc83c86ae0fa520a3ebe4478fa6d7c4c634b4a6503da334da8404de, 0x1ca6273af6d2e51a8b7c2ba869a1bf10de7a5b9786ad947a02c2b1b6ee821274, 0x2c7b4af671ec5fa12531b63b511782f1f46ee5428b9184d960caf0deb0e08d03, 0x1230182c434b2175e9362b023e55456bf97d514e5332e4753ffeda60f5d97b0b, 0x22e041c288ef26f1d07c86d6c24f48eb041d83a8260b6772892181e2120c91e1, 0x28acbc69fbf7a25ed38927ba63cde5a18284f26ad6581317782219221cc6bd8e, 0x2487337fffaa7fea6440fb59e8e888c1724bbd1f1118d32ada6a3651e46ef543, 0x61f4630cd8a70b5c6a1950def1f7eeda1d2cfd750eac8bcd21d0928d54503db, 0x3cfcdd58420e81bfedb04dfd4e5b57b03eb8afefb5963b81339d92445458b6, 0x1211f09c601c31128561f10ffdef73487c927091f10086ffa889eec1378757e2, 0xad6247ae3bacb716899003f881ae2cb44e40ff4863dc07a400bde10cabc91b, 0x161bcf48d7d37906ef29d522a6631e22e344ff951be2f5418c1f58ef81106949, 0x1615caafce9cf99656045f01b9050872d167219533072672a6261bdafc405e27, 0x1f1fd1b64c8024c19dc4c906e121bc5023c76b1c9610fecc02e009e384fde164, 0x1a343f06c742b6ea01dcca051e7f812097250e81efa506561817c2accde13fb2, 0x1aa5ad37af4cf033774e8cedb40c36cc1bf2fd2e73c135a2145897e255644ab8, 0xa8e74375e1ca92003153a84d2a88b38796905e42f05a2aeaa22b6174545679b, 0xddcb524f3d1e36d26523b37e7a7a565ca7aafbe8b9d7d21805d79b391345944, 0xc64669d92336353367ff746030b946691eed63a8710d15b44907913558ea892, 0x18663caed52af3125ff734ea821f2b1c0ff63e253eb8df61c23998b3852eeb2b, 0x8aa2a6dc1acace95ae99cfae9f48a5edb8d91e6be62ef97a8e48f7bf9d22cc3, 0x1d810d45be42ede9157e37dd929a6b74d0ace0e72b96d6f1e048532027613e9d, 0x2cc11816c46e64c6e7135d72c00a7dce65a7614cbc164dfca2be624668a51767, 0x6bcac935d9e6233eee8555d901d6cb0b5a18e0baeb0774c42bb2c2216a8d3d7, 0x81f422bb15ef7e9b57b79cad63226fc53cb080e6d412e790b5051b5adb01208, 0x17233f2458d93db35c213a72c969a94aaef62fd6a76435c683129a9795177bfe, 0x223c464793888525ecf5d3c873cdb3a6bd67587499a00b440d924c2fdc45f640, 0x12ff515ef3e169b038bbacf953537c2b28dbd1b5ba3fc7a26900188aef36e2e7, 0x55e0568770fbc4c9b3d698e621b1980736ec4259f0b09d9f1e820f7da4174b3, 0x185b90addcc3b674ecbd0987f9480b74625fd07c91bdcbf048a647d561c756cc],
    [0x2b6fd7bc3a3b595c206c43daac752b765a12255c37ab51ae183933737a8b8099, 0xa4ab29f428a1b4040f5510e8b4f10494ebdbf12885955ce937a17360b4b295e, 0x2a64788ea96296d7253a3a9e357715234f9318c08376c15de69487fbf9b0996d, 0x2385278678bf43e06271b87c3f984f1b425b166ba786b2e1e723739a6752f6c9, 0xf8d204bcf2efaa0866818f1c3986627ff998995317a960b56d8aa3f5c10fbfd, 0x2d07b5bc553344a4887dc8f3db5858e5defda22caa9a6ccbe23e3332ba18aadd, 0x1e1a6765877cb93580433e025985f80aa19c9089c17138480426bcae49aa1c7d, 0x15f1a60617344d29b6da60f57ced335da1dadb402ae9a56ebad3c0aab3b69e73, 0x6be01da4de9af6b0d2937bcb65697fdc23e8bdbf5343938315ef4dbf045d914, 0x204479ba44f6c6079df123ba1a54e248db6d4d0480393913790ff1f10b9ead7e, 0x1967ca2365849a5ba9abe3419797885af9736c42439f1481862a00cb4c83b24b, 0x37b78ab4c6c1cbe83f197633c4c83e22fd38219786d9c5744ed4224eabba54b, 0x21202d9fece3b3517c2d5e79e8a5b47824fe47658704341ba7bfda3a3414fc5a, 0x18bd7e46303c3c2a31e68492472578708a68d1d6036b961650057b7d1ce55eb9, 0xc5f32f34e129de8d01bf9010b16047bb2c2128ee021fce0ae2c03a2f0b20c55, 0x1ea1c77b9ce7d24a4f32fff661e414f0793d9c4477fcc5a577b0e5145c80671f, 0x2abb7ec37e2a52a09fa5ba144d29b8fea69efa205b4690330013d2da27fab6fb, 0x196d47ff262f5a90329962beb3c403490547808ffe4fe96c699195d9ee5a2326, 0x2da5dc389b073e52f92970aaef0d061beba25bbe8520b781911858598682f57e, 0x2cce11343f974369dd5fdeb7a8a796d3a83feedcfa0a78db72dbb789bbe1d847, 0x131262e283cf0b05fef60886f32f084a47755fcb4cb7ccc4c689e4e7f0437b75, 0xae1188d015d3604fb38931c02d790fca244b8b284d547b62fb03f98ac887716, 0x7579345afb1c183eb92a630bb7d061969cdc515414bf9399797d7413f8b904d, 0x2429aebe4a674a80f0a8ae9b38a3f253e45b897ae71a7b5d0afe4fd77d5d8769, 0x1382b92a6c573bb195a953dc0c697bbbf30dcf6806f6ab2a5f7b500a80052de9, 0x1d182578837b58b32dd31a315254bb0a49b04b3d5ea49d582f6426637be87413, 0x2d9888fc8880aa1e4b265cf60218727c3556ac8d31b7a3dc6a1dd5d51b902207, 0x28fab72bbb99f1a6eaf2040a74ff55e87c5a48c2d392a7752c76fd2fb33e3390, 0x2678f1ceacfa8e3b48b5eae7f060021a4f58cef56b12d52b9f06a09e4eda55af, 0x1f61d359d1619ec4ff2f1eafe57827c9316e10754718b9f51b36c71979cc448f, 0x1a1d9f64b52be377e509d5a57f004bcb6db0edc85aed26f51581d912da30e95b],
    [0x2b6fd7bc3a3b595c206c43daac752b765a12255c37ab51ae183933737a8b8099, 0x23884cfd0f045915025a44e9bdb14491e626edf74afffee874c3e4d125a4a177, 0x285d07475f22446af1515c134b10ef890bdd927d0328230d6374ceae21e5f169, 0x353d664345c344fa26ce90da4f498fe33a62e8c46e7e05b47ce11b669bcccd4, 0xa5f24df76f39b004c073e1cfcab0880702b9e84837cbcb21bd002e2449ebff0, 0x12dc4fd8b792019288d665292050cf58bbb2c55be723d6678ddcbcf55cdf5c29, 0x193f04538e44b693b5f03c328610092e8b253895beca308625b8bba24229e6bb, 0xd40fe93ed90a0196dc17eb24b05dbfd08a2d9b85103dd44d887b78bbf08251e, 0x1a1e1f731268025c10698efff9a1898281733296a02ec2e4286c0aa9d766250d, 0x27e53cee0536c3e96bd4b78d76b1b99d611466b687c60dc5242304cf2c7f04aa, 0x1e131e762835f631765d6a0548f8b99786b3379a5423669f348e63c1a3cd4057, 0x18377b53a6b68420631a509767ab747af54ff52fc6a300f6759e89d0fa81f62d, 0x2b52851f9a2c117d24b7b3ef861d3d98145e18be0ab17461bef9170dd124f2a5, 0x203131dfe05f4f3859a2962ce2736f5f665679cd543440e5bbdf8c9e468f8f1a, 0x11ba7216dd386406bd1ee9de577c3015b3b568f612b79d2b901955439b5f47b4, 0x6cff68dad82139580b6ee40346acb41a1b88e34344b1ee124cd845ba4d8db12, 0x176b605012f38593df0d0e12fdaba43a024327554f045875a394ab6d66596693, 0x2bb40088a1add8496b2a0d0774c06d99000d9f7f5e78edefd8267bdc2602823c, 0x6ab5edcd1a597a55efb6f5f3028b5d46dd1838af7e0a7618fabd206ae02db19, 0x1ef4d4d25e3f6731401c06e2327e1dcdd251e5d868a49615d7c9e671b74e52ba, 0x1132917918891833659ae5aa5d4608e9ee52f8bb8c6a15af2bb6c5b2538ee108, 0x3ea727908383eb9c0c5fd4c8f4477c7d7cb3887c6b7408097c2a099ccdb436, 0x1c671af55a23385b16b41f93bc5c9df9244a2b2917fa26f989936d9e10f58965, 0x2877b09253cd0233d358dd5c03a15ebd382a94f65bb32f81a409c3209c83dd16, 0x120ac765f71527adaadbb9e91c78bfbd17f30b1c5824bbbb6eb82d2745bd3352, 0x1c2a7fe3bb93bafb54e3a35f4fccd2685dc5a59ff6b9e76538f37b7c79110633, 0x245676b487e217c63beeb368b204d8fe8e5e051aa91efdbcf6854d9d5ee8aec4, 0x1a0f4f24f3fa75b07185d59f382ff63f277dd1af0a902f7107b63fc9f450d87e, 0x174bb5947efa62f904759a2e85cc92c84b797688ee8c2f05699d0305f6a68abc, 0x93051276353b63507c05bf904de6f8d971f7d386c1748053840b7b775beba02, 0x20110b96b513965874eec9b57166abe7a71dbac4300ded7aea9eb190ef9b082a],
    [0x2b6fd7bc3a3b595c206c43daac752b765a12255c37ab51ae183933737a8b8099, 0x17a51da68d46000951b06fb3f9e3d5b83494d28feae75a0d77381129d1b5cc11, 0x19124aeaabecf4135010e1a965341e48ca4fdb7b0cd507710ce685bece85a51f, 0xd4eff1190530bdc2e0fad57504ad2d927a0d5d19c94424013818bbedac93ccd, 0xc4e91e3b7cef308d9d42940dbf9a496e5e23f954bbf9cd9f6a141bc043c89f1, 0x2a91fff770b866c8ca8c530d786a522131c1526c4694d8b7b7ad3ad8678c6140, 0x211b948fb5c8a9cc45f8dff7f19d5092c441a1749009ee7b0d26d02d15302df7, 0x1e30b1031a24069cc93961bcbe7ae460663d24ac25b376fa8d2a8cea3969e66a, 0x18b82e2032f53458de5b5b8f6c69d0f59033e0e843d3523a0e433aac75004ec6, 0x1dc22b5bfc2732c1f3481351752d7895f5594716a57b22de0953d8675f35784d, 0xbc687ef3b18a77ed8495a8838fa82e35a2be17ae2bba47a9f5abaa26021afd8, 0x2371c26d8f7425cee8f66acc9f647d889b78a20c02fef9bc8e65295536d55666, 0x1477473a9e49c36a60b0415dba5e832e23ba2575682cb706c5cef38c2ee8b9b3, 0x53e482959dcdb79f52e64a3bbe20793fad3af4f4d052c0cb9d36dfa396bf4f5, 0x1f1b58b95eaef51e442d66ed24a23e300b3df3032f45040577402279da01620, 0x141411af50e95784b5365ec3d4879e78d311c06d3b031a47b7b1989ff8e2a05c, 0x2252323b3ec06cc62710778370917d94635eadd0ab946d83c7211df2fd18b12b, 0x1f9f09cfcbdcebaea2b1053db41f39406c4bd7c08d69632e5fa88d11d8db2ff, 0x69d5da11e6652375d70f87ebbe9b7df0addda9634eae09990b68560ac4ed710, 0x1978e5d647456a8b3a66edba35753faa93e3f3af1c89f418aea0f68bb513a0c8, 0x25d9a4e603b812f39a20e6e5eb99c0ed2845d383b952b42e23d65fe68209f458, 0x234b43e3517f8573d5b4b6c905721747501928557ec4165d9513940880050221, 0x3e66cf2636881c8a51bbb3532f0ee3abf099d16c6e029eebc7ae903a9b74d74, 0x1e98f8fa7b0e98762453c23bac6735b00b4fadfe63c0448be0ce344456b7f189, 0x8aa709b54a8df091ca048763f4573cf9917aeac083ca1b7f7eb84c060d0e932, 0x52c7ca7fdca9ac2cd344a294d322f1d71d1384d5e0a6f44d0ac8b34e6aac4cd, 0x331b02bc917bfc6691d8d7f52eba08a5fc3f47d16f02e440644390c39ab7361, 0xd898949994a6f263a9f8225ca5d4a118b7955a4a79606262394ce69d7a7e127, 0x10b47b130c16007b5379d744a7bc19e45f6d92e271a299766420139f20a7766e, 0x1132f014fa7599d744c6d40d1be4ddd44e62b3fa4bdc439a48ca4c08caff36ee, 0x1c5e38ab4551aaa2ab2ab5b69f5d6478d668719523787df968bec6e67c349a0f],
    [0x2b6fd7bc3a3b595c206c43daac752b765a12255c37ab51ae183933737a8b8099, 0x11c9a8d1a7cf032ef4eeb3976cb45ab2639e2328e018f2450eed36a42b51724a, 0xd68b0ef4859a99d9a3d358f48ec049222b4adc40f5211420ff9792d3380451c, 0xf7e3fbe842d222839a6a28926d2b7dbb20cc776f5cc35ebe6de1972a8061070, 0x20ee52f4c572121f278ca8f09daad2f1c0ef8541099378b0bae1913528b01102, 0x24177470839e90548fe652abf877b6e788dfa4e0f4364a20487089349d2b14fa, 0x1fa98b63c69a198ee335de75179b230861470a0f60459ed53930f592106154b0, 0x18fed7ca1d352fdd257bd8999e955d46f48c3fb2f67e9c8b29ca0fd6ed5cc4dc, 0x1e4afb9b1400def427a1a5c956e761be43bc3d15ef07098cb08bfa994e5c69b4, 0x2b8b851fafcc041cedfa64521f6fb53a58788b5b166da469192a1d5aaba1ab06, 0x91cf8ac82b6d84be9f81ac1351faa0de2226260a1019d1dfb24437ca34325de, 0x6f7d61897e3a765d4e4526de3cc13b4c657cc5ec81e08388c41d94a808a9a5c, 0x2862142916a2c23432ee3563951c646c4de7552008c928fa13ce3e3501ed8af, 0x2cc6cc5a7e65d688d27ffcf1c4749764e7294c23d0108a57b29af443bb93f5a1, 0x140d2a34847cb9f0776176010d8070cec8392f612f3573d63e58d69a4c9565bf, 0x19800afc9d05a5b0386e87a855acdcc743a1c80b0f71063d56d0f4d6eafed03a, 0x2691df476c22b56f9d6d0cfeb1b706d66a1e41e69de5f6da9f02b9dfd8954d35, 0xe3d1a370a2c113f55e8be6a59667f72e0bc9018c6c2b7dc154de2ada843cf99, 0x422041cdbb99e9110963285e90c233f1843361d8d36878b2b2425ecc9ad1468, 0x18b3970150586c60e36243d9f787e9cd234ae54249bd47d53d8350431027541d, 0x2608a620c9370842cc1e7eb75ced965212717b22032cff3a90f1916d5d6e4b47, 0x102e638d33d73cd137a4bc97b16ed6ea8ff2114ef025e123a47fae1209212fa7, 0x81127c379d08c86b6283e3ba2f7a163f156ff1efbe2d058b68ff1d8198115ea, 0x1003330e6c9bb087c4e374163f1d93b51ea2747126942a891b93247dc3b9dfe0, 0x26286df4b90a6d6a80afeb845b9b574c8e114dab2b23abd4d92c90d05611792f, 0x2fcbce3693a0f365c77f5da41f04606747334c0e21ceaf4719a9c6c55a6db034, 0xee49f7bf8d9a6b4657cca9a553b12ee1e0375a2251402b6233f14b3ae43c458, 0x1a9ca035a5bba9e01a8339c07711d9c5e79cae3441f272af3e6fd0fa56889e06, 0x1202f2ca7d4f98e448e3cc47113806ec2f94885d536976db84ac4f06b7df6567, 0x89a14bbb8f0965a914cbbf83049d95598ed83fb7aebbc75a4f681efce3130fd, 0x13488f3b0456524d4982305fef6e6c81f959a37da7bbafab57f87e8a2e3f264e],
    [0x2b6fd7bc3a3b595c206c43daac752b765a12255c37ab51ae183933737a8b8099, 0x155c91db5f59fd8ea52fff20993ddc3285ecff97ce2ad697f4a078e8440361e2, 0x5c61ec06f5561c87256ec21c6aa92ab1d3dce01496072af5c5081aed70a073d, 0x9849dc13d2eca871c4dc1d117cb0d5eb5b1a98e63a1821f6e0895d0109138da, 0x133c60ae1597bcae3f030cf1a3ef515ef77f8dfc0fecfff084411ff40a6505ce, 0x120e93850c13de3d06be4ea933f3451cb3d4836d55f8b65b30e3814a1eac7cbd, 0xd29374214e1a4abeeb8d36880e6f43a2a899b3bcca7ffe0fc1482411439cf27, 0x1650118703315ae3ebf1b4f5e333373428251036a1245ace4134f4c9bd3f7a91, 0x1853287541cd687bc66770237fe3e86db9c98208e838ad1c9fbb3c2e9f0d2f5b, 0x845a0b9344d795ba81ca6dc433abb5b9d1e083d460254569573e8ee3e9da5ad, 0x1903d07b2722c0dc818dda893d74a9ee7fcb8b01d3b24ac9d7604c970f68e002, 0x2b153908b83d6a3fc4b9406f891c3d51ee429c8f6906c24326de4baa2c22d6d5, 0x1074ad520b1b0be2f4590ce97d9927f4ba582fdbda90f73810e0a75475fd0d47, 0x1d7a66fca345168c4cbb549ace2478d1e8f0a1906cdfc1c95d323f99d6602f2e, 0x7d8e73fcd6a35b2d8390e56d670b9ecda356fc1da46551b8b4e15380f8cac0f, 0x24398fe811ccf72bb1583121152844be014995a9c213ff371d0302d402a22ab, 0x303c8e1b06ec487e715699736dd043dd4a6308ea6264525634841f4fb530be1c, 0x15186cb1c51f7abd9485ea9ba77cf8fa72584dbc33f909e7e04b01ec550784e1, 0x1800e20927198f24e362f7719ecbedecbfd8bf90b0aa0f804cebd483ea950dee, 0x17b074100a4dda67b9e89789201ba089d0dc1553f4b75858f689d7f9f2608258, 0x12a869d6d8348519d11d32e678bacfd6fe20d7b02422a1e63b958256e786f4dc, 0xd400992babe16a1b5aab5e95bccb91660f22e401082eeec8a2a562cbb098832, 0x67fa6a735e49401ad6d0d4043563326f8e063be13b28875f6f4a9751bed2879, 0x8aa46ab3986198d493b9707ed84a61034da2a8bd1224c5ae8aaa3a839cdb114, 0x7d061661185186a26c40bc3d65c84064b6819dc305e3ea6df08716f415e6be6, 0x164b5a80cc2a390326f6062957d7d325ac244c8c497448f4b96fe6734dbe3058, 0xd267132ff50a0e61e859189065f6bcdafa349aac4881cfeb1b0b68ee179981, 0x29b34d0febeb62b856aaa548a5a9b7308936bd163a46f67f972d4cb32634b5f8, 0x1b1dfe465e4578869a7a113457037d7d3180b6f8be40346f061524e76f9c7812, 0x219d6d65c86a3850cf3648d981b51681ac8e1ac0a5d4d2646b780c9e46895f0d, 0x1709bed140c96224597918a6d6e056c2a6f80c4d27dbba0269f35966aaad986c],
    [0x2b6fd7bc3a3b595c206c43daac752b765a12255c37ab51ae183933737a8b8099, 0x1db013be405e1edce86acb997ef8ea68ad542ecb25ffbb8adecbb9e323e9dc4b, 0x4672cb42f866056fff733c2d9b23531608c1b541ada0026f292d08230520f43, 0x213116708c620427db2bbc1a422b8dbe43c50614ea1ef82ee32a92c71ba78715, 0x1810bf41c304da8f92060da2bd4632295b784150716ec8b59a3a663925fbb556, 0xe60fe1f6ac34ccee378a7743a96cdc77f27e36027f3ba4439f599547efff8e1, 0x150fe3d5f19845673753c10d21683c39d806ba8b4401785d8b993d5d1485370b, 0x106f91d87819b33c496345bfc0bdbaf0a4a6da037e2ee628a609716b120378cc, 0x27f058d01a289b1ab1bea5dd839fc0db887d68fdfc623085c8aaef5a6cc2a2da, 0xe0dc820be1b5a101b96f1536c465ce27a96436616a4fd1580c31e3f0be69d57, 0x1150f83988fd71cce9335017391d240512eaa73c15f11973c28c36eb4be580b6, 0x605b14fe858aca1b47a07bcafecb571d61c2a7d3f3559e78be31efa13632624, 0x18579a82949ea313f07863f545e5f5365a77926f972361cf7104f2fcac832318, 0x21b2b1c8062f7650217eb2d090922460361e6f0777c227cb685ea04e70393062, 0xf83178738a3442e7e4ce6bbdc1750b29b3fc752d8d529d8b28be179f2808b8f, 0x259a80dc2ea8a894232f5592feaa42db627973a90f50443e08bf743273eac236, 0xaabc1bbb9251a3069e43205b96a072e8f69fb446dd7410e4819d6298e47cc95, 0x18f44db51f091bf261627ab6e0be73c16b257fc358b36508627779722f45ecae, 0x2cc4a9fe2f5afe3a0ce906c8339748dd29e2386e5ce4b5aeac22aeee17c3d79f, 0x2c254dd92d7f002da3661a83147bcb7ede550313124d99c6288cfa538db4d904, 0x2541852cd7c4fbea1361b129e8901ca32d9c4b20b7d51fa12c87a074a7fefe31, 0x8c2f801a82520a9a121ffca321896ec7ad60ddd9a50b945cf3f430a05263413, 0x25dfc7f152ac74084d93c2c517b91857c51a33f8cde248d393fa1c326916e93e, 0x29760a2e5d63406ff254da4bbc97152ac8a6a38ad087702e594955add5c50d46, 0x269b6bb00705c31e909147f919817dfc81d8b491b9a76f223e56f81e64a9527d, 0x1a02cef4a79e0643edd8bfcdf61a009605843c26ebedb1e9060473418f75f0b3, 0x12c0261d1e3b247b69e4582b3a80fd958762b0b3d3ba914a52c9e0be24918f0f, 0x263f9acdeb8b3ce3ac83bccb1918a5d5fc712680a72fd8cfaf5e1c6712674375, 0x207434df901289e8916ecdff56dee469a913970920c64804a7ed8a26f927f177, 0x3a1c03c9f1fa1b8391f32fcbaa1efc6ff4b1dee7f377c8dfa5135d38a9c3ad9, 0x1249e6129ef7507c99a866d902312d3876998ad9f62ac34454055d8ff1d352da],
    [0x2b6fd7bc3a3b595c206c43daac752b765a12255c37ab51ae183933737a8b8099, 0x68d6807831b6e785e77a20b94dfbe5fc6c23484310d36a9fb74220671804ad4, 0x85b97abe28e068ee5ef7bb4ccd81fadecedd4818c5a6c9cf4f53dd4b44ecad, 0x2d2caa3b84f92053cc406a11ad2985c860c57a75ac356b95a86a83ca504bc4ee, 0x230561c2208c63a3d10b95a64358c5bc4d68d01ae4447b5c6993c8f6132031e8, 0x151f5672052113e6f14ddd32c28c71436daaadc71d57d830ca551e770c5035a7, 0x2733c9d71eb1f1ce45ffba8efb3de22aef7b84fea901bebe793ffcc3ee20cc1d, 0x122c0d0a07c233c687e8156be1567492ad00e6c48ff395d98541df9044d26051, 0x2844674637b223f5779e688bb8adf49dcbcd9256d5c314a512707b24b7ffcd53, 0x13a9188517254bca715d460f9c6f183ad8bdb5fca7770277117e9c477d0d3de6, 0x1ddd8eec094dfacfe2f915e62129fcba3601daf332dc8e248b4d423586ebcd69, 0x15f2e0c38ac84bf50c136e68f78f913f74562eae48a2c20820841a471208d051, 0x1dd71e73cc0baf4aca734d106ac1a48cf85f182373d81a854575e65ced0dc73e, 0xd3682c39a2dc0c0808498cee222076cfc00f11da2b929fa5e063ebfe307dac, 0x259708945a214cbceecfc4cffd2905b0628b3dd3fa652f3efe1c2af12e8732f2, 0x71baec7a429bd060593730c150ff1fdfa050aed0d708343259063796e831195, 0x26865eff75e2f6fdbc66213ee03b9455a109aae2e97cce07b9319bda64cfc6b6, 0x2864c12ac61c22d4f35fda4911370070e8b588a8ee4a82a89e15c0f1a0e2d7bf, 0x2758b8b601674ca5f526d246d221519ec40a0498db997b8aa855545b3659127a, 0x9002afa8899112493dca6ca6f5c6323db8f352008f7d18a048d265e8cfebef9, 0x173c758aea38f6a7812683a6fa4589e1b4a956e8974af260ddb057519e20f7bd, 0xefe6d624981ff5e0b45e575d0b648600bd184973ebf9d9f653d4a5a8ba17322, 0xd14a691145b25ca49c49605c64a9bad81678ea4a4e8b03fe39321c87f09e1a0, 0x247342aea19afa49a8dbb396dedaa253930af22b2d44fe96cefd464839482abf, 0x161febe2355426c2fe883e58dacff6e6cdc5ad5a65b28335275feba43df71f8c, 0x2dff5bf2cea76d0888dc40cdc73f00e3057e6ebf33793c8551e211aab41155b5, 0x1e6b6e09f8195c35767dd23c82ef5d8862ca77e999d65c69d8dc6860d494e81a, 0x3a8fc10bf4a3949e8469732b0148594cb3759123ce90ae3e692966e31040c61, 0xb185f3d4ca214b2e833301ff4e99b1f9ed7179b41191c9960797b39776df2bb, 0x1ac6b03901fdc40b1329bf3873ff9277c70fce9610151a0ef7921ed08567360c, 0x2beb77187ad776989902a94d06a98deefb1312d0558513c3dea6df48bf637ea7],
    [0x2b6fd7bc3a3b595c206c43daac752b765a12255c37ab51ae183933737a8b8099, 0x149e18f1233f506859275485cf5fc93cebb94ca26cde5d980e6fa2c34a2f7fd6, 0x8a54ca25cc50b034f63d2e4d10b4c735aa759c422ebcac71f6f73c841976105, 0x1c1210f2ce34c2958d640d0a0aaf146eedfaaaef0d37c0a0caf671a8332d34c7, 0x17bfdbafe9e56498cb3d7b15d5cd41ab86ecd47895701cd2d6f26526aafc992a, 0xcd27920c0441d98a8992d408c219f85989ad1056f9692e3db6e9e4196bd6d10, 0x2dd7fb93c20805f91565bd67877e3a4ce43ec79dc435f8c7a85e82c6e5d16375, 0x5b1e6892ff615742f728d3c0cf830aaeedb93ad22d870691a96d951dba7ff3c, 0x831d0a313ccfd57b1cdc9f30e113c29aa35e574b1f55321ae09961b87b6d31e, 0x600e0c844243eadb86618043d2a618ea1f5ed77f1aca63f5e0ef19f6ae09a80, 0x5f0c79e16349cab481128d04a0cbc80b90c2bde9884a94c41ad1b0c4f868018, 0x2aa7de5705ea010daaab30b3b20cef0e74874384af31c04de33a4e1ced8e925f, 0x585493b750ddfe70e3eb6c9be7e72b18e65de229e357d4782b17c76deb2f566, 0x2848f8e38361bd5512352609d7806af1fbc6b1fc285b1c761a78baaa68ff5ef6, 0x2848a529d4f7cd4bf115528eb5e88284150af414523e25d1c012f38842d7a117, 0x30aed4fbdf98cf0212d56baed9bf952466b5347667153e56bae4b0650d8c708, 0x2350edbb556ef46cb8c21bd9841af642ff8b3a399569aa698ac63cb317a280de, 0x2ae5b47ed7dbdef58bfa65f573639845e0677877926e63c9929e47338e4cb926, 0x26e087a50e753431ab4f1ad7dd65cef00d9da6058601b8525a6c517e5259ce48, 0x159d260467ef69e897f646782f03c24d7b3e1dfb3aeb48c469603f51cea2ac01, 0x1e6059ee0ece798edbadc0f3c244b4bdcacb5181e9e470d0591fd8cc3c8798dd, 0x21d0c6c19bc6bdfe12717c533169baf1a57e61fb65b7cb76be2c1265c2c90eab, 0x96ff7a0c18ef35be9bbb3e0af410e1e4b3b902f38cb838150f8db8f034f96e0, 0x27d16991da4e246fd333112d5d5092cd3c888d8ea89eb4ab90f3335f1e11fb80, 0x8a1e7d8bc46b6d0b60d417e4894bdc5ec1b0da7d468cdf0f5b672544145480d, 0x1bbb994d74d79b698beffb2c1360ad7a5da1bc9ed065a38072537bdf998d4ac0, 0x6eaa75b2b8fb3757194332442bbe246a82300fe3d9aeb52548095747567da26, 0x35066f49fddbb428a2316e56cb7542e5ee63e2b84a38caa27f5c07e37f0d514, 0x1a8df2d50679834c0d1d9df72b6a33e1ff4d1a2a02659b635f3908b60411c8f, 0x1a69f234855f2099ce018e287b94696abdd504ffdb8695755a89aac7628ec4d7, 0x282c66cf66f278b3c8f0ed2e1936887b3f4a41968af38ba8435b4dacfe4fa1a1],
    [0x2b6fd7bc3a3b595c206c43daac752b765a12255c37ab51ae183933737a8b8099, 0x85cd4807b25336e1ffefc9b4e5d618c7aba4c4c42e34b0ab5ec21f1e264e3da, 0x1df72bf6d33b417979d0abc3a5879c9c18059bc954a21b1753f44c98a86531c5, 0xed29b17ee6bc79f0d0da95407ff87f10b937c1b72f78ec36499601c536e027f, 0x2d8f67cb6abae1b1cfe21f91b55fdfe5e62fa2fe3c7c2d61254d840c2e22d0e8, 0xc4a844d33d7410ebfaa0be3c062b2876c22b8f4e6a4459a2942eca9902f72df, 0x1597f8a417fa1c847018051e70eedfbb5a6020525e003b207a241f2251c88188, 0x2dc8e5d6f14e2d43cf0b273522b35e2acc391774793f09014b27484e7b5fd137, 0x2d24d4794146908185f2354fd271608d3098e04ab4e5c6991653a1e31ef4cec9, 0x3343e0c40457a059a893250795a6c6ac5085fd7222dee07694f6c562d966312, 0xaf7db3d2850fc1037428a9b6913cb57ed2b17ce12775d10a2ea59921e9ba3c1, 0x2af76fe3326af61814f0596d1e9c7c981214efab22a78ac52e4c0d2ea5f3a559, 0x28c5facdf2832d22fc8c7caebe4d49c28a3eac34e1c06aab03da51f4c675498b, 0x67b910e6a3555653b7d646888b1620dab05b82afdb48c08b91422e1d089e617, 0x1a8198a68db555bb70cbf396e3acf926b66dd19e4ae5f42a62e1870e17943d9, 0xff3bc5a50528f42394cdb10000362e8b645cd1abca45814cae31c0c1736de96, 0x17832e2f6a6abcf1dcf5084dfe2cc5ae9a5a9d51f3d68e74743efab4826951eb, 0x707d9a111e2bf4971e1c28f0993d0700cc18742f7a217c4c1e2027c536d1d7d, 0xd4674bba848291e0bc0b2c36c3e3662f09831f32af732d2163f7873dbd61031, 0xb81f95f06e846785c898ae8f150761bdd156f063b744279ab030cee5e996788, 0x1a4724e7a15045d9cec46bc059a6e06c0abae7410697e867f97e073e7c059e8, 0x195b3b718107bb2d25b6546f49e1a497edc07a78a37c1de15b39b65ded042a6f, 0x117c5877ba019563589a57a738d554caa7c8c4e3342dba0f33ecbb81cf46f7f7, 0x29f739db99ca7b670979f4a8f3b852bab3b3a2fe0b98a4693c49484b2872ab71, 0x8127119728f625a3d35d9dddd7d5393a9086e4192d1b203efbfe9623bd38162, 0x143607b15463dc48fd12ddebae93c174396b76933c25dbf0b2433c789b211a30, 0x271c4725f01cd9767c7908c9217f0377f0da33e9bc492d187df0a215cfe3e886, 0x1053f9e74f700dd3161862102fcbe460e41f0a30adc546b62ffe3ecff5c142f0, 0x19f6aa64f3f2298722cd31bb3789c6b74f6d12f0dbd38e6ce1ff23d667a9122c, 0x1475d80686b48bab18eb1c32e800912b26b82ac0c4b9db036c513e0b30fa7e26, 0x29f8598b62b2e76dfc939ae61c5e7d0a159549f309ebfe2f3f097aee1c41ac2d],
    [0x2b6fd7bc3a3b595c206c43daac752b765a12255c37ab51ae183933737a8b8099, 0x3010b8ed80e49e580f884d5e98414cb0619b5381eb0b72bea15185c32e7f2ea7, 0x18e9d0cd62c490a574aaba9b03b0a11dc0c11b4e632094c91ef72c14266a26d2, 0x2495c41de1debd0cb51280193a02d320e978099f54ec96a970341abe80d96a85, 0x92517d7731c97a877e552eebec76ee7400fd53d9be12d55ff9c6b170d68ec78, 0x643ce7cae313fccba434207e99649376ee888d3e309bc8e5ee454466274d62c, 0x2fa4485f1f97ad4c54fa908b0b25424bdc78255af9c77da99b95095619489583, 0x1b327749a75f8db71a4c33e8b99e2c01808b9090d049e1ab3c7abfdf5aa908c0, 0xa062169c4723669623251a50a4318e3b1381fb5c68556df9fe137474b624234, 0x16c33ff536f271145daec8f03d97b56d0f8cfeedb7cc329290fdc1bbfdc2c74d, 0x1280d067c4c7eced7dd8afac4e4cb3117be7901d7121ab53f3d43c4630f7b07b, 0x479c7cdfb220e4d8d7aca9b5fe7380b2cd447ebf3d8a204320bf81fca29eb19, 0x14e024fd7bab2d5031241686c4aae16ee300422df8b41919ccb73fb15ef06073, 0x1a80d20677cd1bda8c97762d6b9a006cad73d95e78afb3eaf3b7f3f112e39bc0, 0x1434e496824b8ea1ef9ea7f9e324c937492e33eb1af18459d89b29ba30549f84, 0x30485e0cc5588a2f49932117b4dde4c933621ab227abe326f429c8688134893, 0x100acb69114b53c1027ff56df9de3cfd561d7ccc81e881555696e0eddfb91f86, 0x17a974539888ada5b3ee0bc7eaab414895d2111c3a9d5c51784889ec6d41546, 0x194dde27e3f6373c944cf9079a28d68c7c73b7b60f5a1f5aeb7cbda3be4b9e85, 0x2b563b2786180439fbd6f3bc4ab5f3ad52f9f20d7aa31c40b0f7906f2b0418a0, 0x1abd1c97e97d7b5e6e9183f21305dfbc5855ed33636aa7a5cfc39e6329891c61, 0x2aebca431ac4c7b1d96c54432751d6d20134cc8429a51bbdbf10d6a5da4dbcf7, 0x1e93b372a671214f000aa220af2453bb8431f78694d76311abcdefde664b5bb0, 0x195338e68902e870547679d0f4a548d1bc91eb3e144b403b6d9c05ebf879e274, 0x2bb7a0b8bcf9f7540697e3bda7793d42e1ff60838f4b59f86a1ada0373bdb1ab, 0x11be3da5945ef7d140bf9e06b468ec44aac37eb293dddbf871f9292f6969567f, 0x481ae2c70bb522764ba40c7fe992913e56fc640bacb97794fee400861cd20c6, 0x919cadc23acaa8b5e19a54a996c64b59a9032c3ee6b6aacde02696ca462116b, 0x262de0b03fe8c9a6b04ace3660570271804c66ed640998d93362919e13dbe851, 0x2b3c90ac3a4edfbe09b333ff56cec2918a5ef924359ad5e225e08bcf17249df9, 0x1bbbe9819a05a6fdbb2827d1bac2c0c9736aa78280f8a81fc5969b576522014c],
    [0x2b6fd7bc3a3b595c206c43daac752b765a12255c37ab51ae183933737a8b8099, 0x142ac1e836fc30278704b47fa49a84cdaec95cec40a60abfe73a30a10f2d72f3, 0x102f24ed9b7cc4a98957278905f772fe4149fb11befc34b05c7556a0ce1a9444, 0x59a56c684c34007e174577c81d669d1e0b9741d4d2b9d6077d8f8e8c1803df2, 0x1f22f8c87034418d3a79a9f5fbb2ee493c6851499ee2a84800b0e711ba76a918, 0x2614d18359d21d25731090abb6877365f49d58ea4e78a44a9e7adb4409a3aee3, 0xc414a0ecac4fa0637e9a4c9679085a7bb3b1358b396b2bce7eb9af4f0c337c3, 0x11930fb18ae2944cfc25c856cddcff702bbcc81a2c2a8a81ab68e2abd0d63d96, 0x2ae750321489ad6aab14cf7f3089bee01f50f6f1b3a1c046060804d204d6d4, 0x1532fb2f4f6a0dc23fab57fb2988ae3a61bd61eff35634f11687991465849525, 0x29b85c7d9d52c98eaccfab07af6c2aaac1dd55a087ca82cf636f2868dddf398b, 0xd50d222652f613b3cf0a36450c848108600b2c98b5d16e4b75b92a1fca288bd, 0x16bd29ece6542611c44d90e72ca96e7e81bf04cad858b88f65b3cf059348be75, 0x114e95888f1e263e9304531e672fa0533c59aad32e19a6c8e79a0be3daba9dc2, 0x7ed4c3caca93550d939fee72f322f5c45c45c3262481dc6d3fc21a39ba4a9c0, 0x2cf1d8e95a3b2cf8d4c1a0dd53adee6e975640bc902e05c357d43ce4070f6803, 0x3730a82d1114f03ea0f98add20cd73889491c2d362fcf76eaae54df206bb984, 0x2201627d02735d6def85f3d4409b5f675e4f5b670fc8fe334c2da72e9ebb74e9, 0x1de69df65e50bff05222e7d15bb7c25935a419532031efbea0a88d412658025c, 0x199e9757b4a447a466924aeee5f4e3c6c0f7c0f1545808377a8c0c436b374da9, 0x1cc1175e9e818a6ea2646c194f36bec3c37c63294b25baa9c9f48ea3c312d08d, 0x29d4552088b3053c16c885522c794ca388ba38c6b9eb2c55e011532a5f099fbc, 0x23d3b2dc1c7ff3d298997d064606aff743e7df6d7834c775aedbff099d458f78, 0x2388ad46e7bff8d8b43e0ef0fef084fa60cfe32993ea7183504ee738f6445cc0, 0x304e1e25593dbba07c1aa88ebb4a80684d9147c0b2f9247b49b5416f13fc3898, 0xd63f23dde7572c15586188a12a7a1c0b2bd109f6343294fc8f8bc1a778414d9, 0x19cf6ed79057a5fc4398ae7569c1b85519c97218ab842723d6212cfa9a0a2dbe, 0x986267435a69bf6ebcded378d2aa4a02ee3b7a8becaed9ca1e663600fc90c3f, 0x2c1575ee85e8cd3cfb63424d84ea5000786e5927433aa8c0b0211e5d87929c84, 0x300003af788c5a7576b764f88be5b3b1ac8cb0b9466090fb331569d4c6672c3b, 0x9edd428de05fa06b6410c57a5796fcd1ced4e3d20d42bbdc40b00ea28aab387],
    [0x2b6fd7bc3a3b595c206c43daac752b765a12255c37ab51ae183933737a8b8099, 0x1fcc025724948f53d0456e85fb56f3f81e0c8d4c2bced5efe3fa3af8ff77acc5, 0xc37f3e2d38cd3138ea93327d59b885873d41ef32b76409638af6455b5bfd932, 0x1cff93735f5e8bbdab731d6b1a60d946f268b082d912fed0b3ccb525d8cb6485, 0x115632e11c1704f965ea72407243707ec477c716cc429f1a7eb457f4337a5b01, 0x10d1bc0b019f8bc6d1d6f5b74ec4e472b855fb594585e4458e4c269750912717, 0x1bfa4745da3b7737814426f2b9dd6ae7ea034a00263dd091cdd7e118a44d38c7, 0x42f42c6cf5ed0f29ea6535ba858409145772498174886db7dd44bf9ac54d492, 0x27da68d3c98d92e4e93777c0bac6c7cf508e16e748fccd3c0b7b9fb54e605aa7, 0x1c0dd243e40090b31d093d35c80719303b7c49b088bdae82b248fc1dc37fa340, 0x1c3e2814b6eb0de8347ff2db9de7d3bce67b5a97585fc9933bf45f406edb6ff5, 0x4487bf6eb305b13eea5a82659858a64226428712237312fec1f6bd536d7c29, 0x1d4dcc7fc6d31a37c95bdb711a21fa490f4786064834c25d2e15aa82dcb762ca, 0x1ad252b23919c93380ebfd7fe5bcc221a3dbc4fa59e555b8d00bfad872c0c14, 0x1b9bb478853c46abecf434115d5730c6dc59d0c70ae580013d216f9ff259656a, 0xaa2849da666039877d1c63803500ddcb59258d9854bbd817c690b32643a696, 0x1a80c40302e2c50b3a9a9303f10ffce49d7bb5f7e5e19ddc85838f01df61cb28, 0xfa31af23f2b7a127dcc29d7a7896ac68e3ce309a70a86f7e680fae88ae11af1, 0x10b6199654c3e28a05df36e3ece1922c3ef4b7641b2fa8fc80a84e3e47d15fd3, 0x23002a3e74809dbd3de94260eccf0c50b15ad8f1d0b34296d06ae58e4a28b6f6, 0x149568dfaf3fac96b2638c3506a8d25609ca18e846ade9d19afe0c1e05c02c68, 0x27e032df87f6c1641dcbed6816aefdfda13783c301c6e0a90c31a98f4c0b9208, 0x18d75157ff16e95990d83ca5bc9366251a45c6f7935adcd1eed6c944dc87f5e, 0x3019b560b7eb66353bccfe2531464754259870d8246d7f35bbf10c6862bc73b7, 0xf4649bbb3013488fe2f61ad0d590433f5c7876a97cf9c83e821f078834c45b9, 0x2adab3e8388934d5ba7cf03b98c23defda5c4c153364936b136828d06db12d99, 0x149faae0107b1cac1e064cc54d1950602711aa7308dbdad89ec173da0595ff69, 0x18601dd152b8ac338eedb1278d537c16f70e1fccd0dd9f1b1ec673b4b86deb0d, 0x1d65cc6e7ccb7077ab51de992f4282456b818da240f46de874bdd4f6af329aba, 0xfdc0f5a32b65a84e134027c7353503c7e9ed38f49907e28a5969419e8438aa6, 0x65d3e753bec13cdbd2d4cb085fc25c8733f52b5372a4aede46eba19258c2a6d],
    [0x2b6fd7bc3a3b595c206c43daac752b765a12255c37ab51ae183933737a8b8099, 0x180a916e94037f9ef13f05a1ea22bd41ca2d4b0f5eedad386a420ba6188d4882, 0xe6fc284e88c1403f06ab873ec9d803191655d35c290740cc682caca22fc13a0, 0x2753bb09a0c4a77b3af2a69333e51bb27703615d09d56f86423f85cfc8827faf, 0x272db4b6d71f80f52e4aa1061f6a24e98dc041a0bad07dc46aad59e67d96b010, 0x2378ce2c52074b027940891562743047b7b57ffc1f6654c2dcc23bedf1cb7608, 0x26e90f7cfd4093a277600d2c564b6cd8f4ba3899b646d7427ce907a96d25b4e3, 0x1cadb3908ee02353a3c45fbb57dbf6b392d5b1e59a13d58b57b7e0dc71c8d3be, 0x4d30d597f9dd6720e85eabb0a7808098f72d7beae23e0f5845283cb04334e2b, 0x193da68a7a699b7cf33c3ac942a960c154f447a016d957e241786253101b1c88, 0x26484e7897f16c30babb9a4eb821b94e204411ea78e3759bcb55f5f9e1f0ec02, 0x26a496b2c2b5ca5ba3dd8af6dc73aaa2d8bfd2f6715876fc5703ad68aae6a1ed, 0x385b7c09dd2a1a0c2595a940914780d61b49f081e20149c37d920a06dc8ae7c, 0x215ad8b91b54598e0ad7129f26f6eb4e52a27da738fa5ec2aaf3b471c2ef63b8, 0x25c029bc5468787fc40f8b968f9542a8cf39632ebdb520496cf9ade72f289656, 0x2a8bf45fd684c408e8832341397ec0589167c0d26cd7bb73227cc83273632bb6, 0x1621a4527a457936aa11821e0e183c83008e201ac922ef2491a720767d5ac282, 0x2146604597997341b5b512c2d30536fa961d09b5195f4ffe20efd22f4e4e1088, 0xf469417d25748e654a60d7a42da219c2c1ab164e0ecf4950a3c15aaec9d7b4b, 0x854569ac15311adb77dd8f2cee810aca29c09a47b6130b51c16b95178d76f2b, 0xe1696a6980d7dafa5bf5a2e10ae664e0c29153272874153cdbf2b303c6c8762, 0x3eec28f72099f4081b58deb0a95abcef4ca06afe5250a29f565b18fc8c0f3f2, 0xf0359dc677a2208a6b0c627912d16b736e91ab3fa83eb825a7b1ead71d000f1, 0x1eb49e2d0f17845b3e559dc12cc37d706bf9e048e6cb55a766ddad1100a07b7e, 0x2837d91b1501a5d4b95913f0d2c24966fef7f5c347aaa897c210ba15913def29, 0x2bf39f6cf1cef6ccfbbf97a4254acd478c897c8cd9614d3f8f9bbef4de646c94, 0x67912e7144d6029b3bc72d448dcfdbbfe0f7e9591293ab205b389d61eff77d, 0x191b47b69e8adfc904ff67ab36d19fbb1021c70898b9d657fb6a020bd6bfe684, 0x2fbeb5d54229ee582a6275b9977b77ccaa8ddc90265b7c5d59f8d19af69e46cd, 0x223504acf848236a0f7cd946c84289c4b4aba0e123b1db8e588fde7de06ef2f3, 0x11d8e8ef78b313743937e16395c1193c3e46d4b84c78189076d7941fbff04622],
    [0x2b6fd7bc3a3b595c206c43daac752b765a12255c37ab51ae183933737a8b8099, 0x20d2e36125e681535785dc294c751d7557e31dc99c01cc45fb67d0e0f7031e5f, 0x2108085ae6246ae7dd76f7b3f3e0e731b7e4067602f6026c9cc61321806d4b6c, 0x19046a9fb27aa59fd7cbb075905c65e165d16248d948c1fab9ab472c57d8ad1a, 0x93a926faf68ed92e943507a893163b433857a1dc564f3f26c2f497164852c86, 0x2971a879c70793d54854f7ccdeba099226a7034fa5d9911dc81aee80cf49f279, 0xf5f5ba9b74aed76259a159321e26cbe1cd7e5849ae8562ff497c1af96285d1f, 0x20e7786221700e467df64d8d73e4c38753a44996aa732da38e621bd270a16e0e, 0x1f4fc008a41a25739bd41118baabcf2465fcb0e05605bb2193aaca167737e6b5, 0xc4a3ea3f708efc883a4bce4a0651d8517c70a1324de4935aa508c3c0ae24dca, 0x2e7610fe10352af47b616891090714c6802f3fc1fb9efb21248694ef6246ac07, 0x2eb8ad40c535f3b7b05c2fd963b8569e956259227ef21a24b7afe546effe4184, 0x154989e705cf9e62b9416e28834a4a7bce6b573a1235264ce89d4b046b6ebbe1, 0x184749a0e1bec0f94c8f3c5be0c76d87976952449c2bfe6304413dea612e2e1d, 0x24ad4bf83c2f3341dca0c72a3575fb12805568e92cae4472fe19fdff27f11d50, 0xe788a096b2d4192046ee742981fa38918777b65030ef53957571c3b5fb54a6d, 0x1e22b9d4c274fad52d4e5640b4acbff2c4810127a087c42f9be9ab58809d0d5c, 0xc8a3f2ee3246714404abf0521e74a63b83576496aaff85c2be74a7106846f12, 0x21adde943461bfcbd7eb10345a94033b25d4701157c694519fb2b4093b756709, 0x1ea99affaa689d6f19f8a6b82d4b81dfd1f17682831e0c00d7f2f8fd4938a37e, 0x16949199fe4a38750de73fa737a283a6a9ad40a27b0deab631f9295ade2423cc, 0x1e83bd581acd61c3b54afcb7a0a9a0138d9ac4c8739cdae89759da5150138fa, 0x42a61a84c944dcf754f5a97b1dc8c2ee7bdfbde233f789210f506eda56973b3, 0x2b93c28b157ce32bfa3b8d0f585061e75a03b79c366a75856cdb5ca2273e30bd, 0x1f54218a5daea6045fa60b06ab2520c52560282b1cc3ade14b664bfa49752bf5, 0xfbfdd369bdaf703669fa5e36a00aaf0b251a50912048adadc83aaf092e7f2de, 0x3633bd5a72a51fdeca62aefe9434104b52e152655cc42f06e70455cc15f8e2f, 0x2c0eb54b5f8cee8ba898a242dca64def09dda346d06323892957fa30b3c13af7, 0x165035983f563b1e3bcbe6c873fbf911d194fbe54243e039b3cf7b6f2afbd822, 0x2fd9820b3cbb131e3575de4ecece3471352587e10c96e72ad867bbc57f4c778b, 0x1204b919d86a12cea70e977706ab2be78259c6c608dca628eeeccec50b829342],
    [0x2b6fd7bc3a3b595c206c43daac752b765a12255c37ab51ae183933737a8b8099, 0x2f3cd03d82e80e8521a2366bf79e8d4ff5cfc3b4f46db99a4947e1ce4993b2b, 0x1cac3fdc9674c64c1614a5f48d65239daa601e26766fcfcf29cc385d6b3735dd, 0x65415e4dfe08e357c669d145be5fa6cc74b0126f099faf1d7e85fe9befd30d7, 0x28ef19ab4bb2626906730f539497dde648a1a967da5ea31969feb620d115c8b6, 0x3e88e9732a1a572e70d7cb6528857143fb51a949fe9e0fa0fa281b85b64b7d, 0x2486ab5c5311e4bdc65ab49fc60b172f851908d6753f6a9cc40f9b1535af072e, 0xc50469c6c6bd532c6f805d26a30a7e5d703e0537657518cda0e1c6044301ecb, 0x28f8be525277b0346bcd664cfb0a24a028f90b89ca402254b4f95833cb7ee870, 0xa68990da12f327a6d79b356c1d27642392b1b2cd9cc0b5d675d98436066e563, 0x2216dafb41776a1941b1f17a5dd8cca1cbe0f60f81ceaac465861b3dc2ebbe61, 0x20e6c97c374891d9328052361d932372efcb6c0c84628b6f3bfcd41c47d1521c, 0xa2565ccebd103dd144534c109f53c5de275ac56e9170ad9e3ed0b600aa51ea0, 0x1e79a45802b9e7592e60d7e4964e8920a458862cf40212db96483540a62acf3c, 0x29f54f1a96514b9b42ec9d74b5d715e61c265b129a7061bac126bfd50f696fce, 0x26bb61d61ff279242f1e5c7bccae627e1942ef8e103a915b64527fd0eb31a93c, 0x1ed4d606d825d86ddee16689f24ee5d9832a140f44b437258969f41d4c442c7a, 0x25131fe12798f1c8712f4eebbc7213e8f80b23e7d1bdebfd255c18793734f251, 0xd921ed8053ca270d60349d85ba38dfcd05bc96c05a68677185956707385d626, 0x25c7ab17f3ca72fef63042fcfbe1a3d5f1ef5d6e52da6d6dbb5aad46b1e17421, 0x1ee03839ca2483009bebf461b58d11cab852212642d38d1d33e48d9956fc48e1, 0x15a5a2eecd107f307d9565496448cfdbbd14ef42323275c0ab6597aaf1895475, 0x3fe00f465767add4808ec12aab687e16cfd702c1453267b7a2575c6cb557ba7, 0x1577821b07e4ba2ba893bf15ce062c0290a2c757ca7140f76c2f03b53d84edaf, 0xc00f28af5cdd011907df891669d0a43892fbfd24ae7d2abbb951b67334158e0, 0x11f2f4cde668fcb28b27153f0c0d85c86fdb4d0506d38fd5b76d33734868f4cc, 0xf15bcf82d1d583869605309b58d382a4750fa8221ebe8126ee522ae696abfa3, 0x2a87c83c58f55146158830df52d74403e32569179b409d8e97ca8a27c7446bcd, 0x1b655b2c43eaab5b8d104f472d8d84a836246faf3733debaf470b8b68b3c6078, 0x2b4c7891572319263680116a7a29e9ee3c39520dd8bbf33016e31b88444369da, 0xd57a4ba309a380ed8f907c68adee0e2ec336a33d67abfa6d33c0b34191d5c3f],
    [0x2b6fd7bc3a3b595c206c43daac752b765a12255c37ab51ae183933737a8b8099, 0x24d7026b9df6dee3dfc366bf883301d2f5b0d769ffe6f625614731c81638a5f, 0x2ffa9260d3bc1a98adb5d9a4566a673a4ac815d921f66a78c7b6781f5a45bfed, 0x1c49dd9439a135892456c194c0b8b727f5f8dfb8b46332cff79b0e88af0897e, 0x20dc0d730c188f571f944cda64df0385f31ee47784649b38bc8b309fa731002f, 0x2a57e4f3c1d3410302207d53fc653b091b9215b9914f7e21143c5ec3d6080206, 0x18924496a011f1d0f7334c75efc82a756b5fa7b739ac213742e747f0bab85110, 0xb488da92db9fb460de597bdff5917bc07393e560b75df7412a23f86782008ac, 0x181707ed73abc47ed303001ae6fc388dfd30bcaa57b75d4667fbdedea39addf2, 0x2f3fc44c1a30bcc3419b88de657072843f3eb73178989484e010a66c74a4bf41, 0x19fc475149f3945f3fa3c88aa7bb166e056cb353a2bb28e98cb2c647aa72601b, 0x24e52c7ecdfe59ac393a7e3659fc038f582a29f0907d9130e1615a60e0d8ab0, 0x7be6f1cf7191d8cf88349cecd3f83df5493edce1708f65a305c3e749f06da66, 0x1f21a4d143a3496cd6736f6462d52ce24b40630d8dc8ccaee1f4fe83d2d8f8e5, 0x2d26efa6adf5af54f46c6835f4d6d13874b5f0f329b21a280b19399f855401ba, 0x189d55e9c0ea390f2e219fe4abde4c0ec6fafa1b68f5a029e4d2d5f2698c0572, 0xb825420f377252cd094db40d6f37806ac50896f01a6b563627b6fbf45bab59b, 0x1fba0c700b9f301109b83fad61964385ccde2cde69510b66334feb80d8dc5e13, 0xd4c0381cbbb23ff4199900fe9e98b0588229e95cdabde87734b7da4a96728b1, 0x76f5d00e73e4dfcf13f558ced96fd848d34ba5ec48bcc141228c22d18689433, 0x1dae42a7e24553210ec1d37a83e7e379f118af2833a638cfb2f637c2731b167a, 0xa7cc5bf24de2b7a6553cdb103f7b93a2ca50e7b8b2947563fb8eaf4c96ac22a, 0x2b027765c2982281f3f552c9fc239b96b0485bcd6b246567189760387d54a530, 0x1001976662b6ff1ec3f6510318e518e6dba3e69ad0635a41153e18435653e16e, 0x1f0a377816189522f724ea65404ef22847bac0fe95e2a6c666aab27cc4dce446, 0x1e7a94ac5ea43fd868784c2943205aa45994575b494a0c0c469f6be322077c78, 0x2791206766f62a06b3a0a0d71759944425e50d392218b999a86bbdd590184075, 0x11ad87aca6c25e04cb85eb1557e42ecf5851a9d24d20f9ed554ab9de9a561814, 0x7d76ff83e9aa3f5924ed313b0d183a5703f49eb17db9b5192bbc1e5935f41fb, 0x18eec21072c91937e53d9fd0e38007a1d8ecfef89ee0a848e5c42a73324c0897, 0xd7ea1d8a141670f5549461c8e6649e7c0dd2692756c6c25cc4525d437728ac9],
    [0x2b6fd7bc3a3b595c206c43daac752b765a12255c37ab51ae183933737a8b8099, 0x1d9e4a0d2a85dbe20e640964806fa1e5122e2821f6f46ebd2f614f52586612c5, 0x1b0529d2ba99f99c7e4958a1dd940160e451ad60a731f482e0eec4f26806ddb6, 0x2d78de90b2cb9901ccf75821db641e2619beca024e3356fcd20b0744773bec1f, 0xacb58a5c68bfa43b46977a9da02f76727974e24f13f1e6e7646fcc17235bd4, 0x133449d082b88b55b324ec110cdb4dab792843e2915a039b52f1399096abb13d, 0x1e40b0c57597c9efd9e21aa03b9e60edcfcc6313f2b325a1bb552a227f466cf3, 0x1dc4ed7c60899b410745ed729ea5a0066568b97dc007b6e7e804769dcd4d7d36, 0x1146cf1be34558e643e2850cbf90d1e25e3ee122f8292a12b8be4cbbc3b02f15, 0x24cc8fc4c875a88eca4864b038945f81381b829ae63156e314ab257829531a0f, 0x29f9668dddd6103594c092b4955bea42a78b762b014f853d12cc8a435deaf507, 0x423f8acfb6425857f07e45bab4474b2746c987eeb3cccec94f838fe25d524eb, 0x226d21a206f17d649306ea18a42e50d395d65136d082d91b09f226e63fb6540b, 0x50d8e0202485f6ed926f1036d1cfcdc3252b49bee257218aa058f8b7a22323, 0x2c6998a3a1d4988893eaba746cf07ec665089ee1498736a1580f2a7b3f840a5f, 0x8f07def8f9291f940b044443a720f15109a6602e54670e4ddec4f9bed773f4a, 0x15ad9c95848c4eee4228b1da242da640ecdbac2ca6f216306045c794e0cd41eb, 0xb6c94ad59e7195e47046f5e2dbdb395bc45ec654b60c49d8f39d9f8b895d1cc, 0x16915ac62623b19ce2101c05fe7276c373b329f20e1fe2b86f85e3bb18f2eedb, 0x241c174139afa0867f108586e337df3173bca36eb41a669da121cc21cc52e157, 0x2fbc48a493da3632871d2de5a8c22f22112afa88b1e71395eced016a149941d4, 0x1faedef5274cad9d8a55c7f763fa86841960a0746745c35950bedda80b6f4224, 0xe5ca90496f6ab2db273e54bdd99ae0d8bc1c6f0904de14932958f6c837c26f3, 0x1783f5edffc02d572faa7798200083b86b2b1ce2320dc7c8a0b1ebffdbc9d567, 0x1108f89b2285ad02285b4cea8eed22d0fab841f21df3d4ebfb398606a6ba3869, 0xaf33de737c3e1f423c51d89384242ea23bc564bf402282002cd30e3b163468b, 0xc5152ce065fcb30be4405cd338d85ca50d6a06e9344fcc7634d82e0e9759a74, 0x29b859531add0b7229247872552339e4ac2ae3d4b6ca8c705763cc8193103aa0, 0x87622acf27810277fe3cae6e270483d0d53158900fca1849650b0b5ecf0150c, 0x228844894f0ecc516411b0b864dba98a8c26ef510627f2de70e1d13bc30a6e1e, 0x196d69516c701eb00c670cb577336806429642be8b0e301fe0bb12293dbc2548],
    [0x2b6fd7bc3a3b595c206c43daac752b765a12255c37ab51ae183933737a8b8099, 0x1f70d88a852cd16c82f70637d9d973d59f7e77b8268aacd484e4e53500f72b24, 0x141cdcd52cc304528f7f93f23944dd16b3cca1a85b2a84670c504b9792beba19, 0xdb56745ee0dd133af6f37bff1f6dac061ec7e40069f9a811e7d034d7a30abff, 0x2569e01e00c725b48d55d26fd8c49785fc36248299eda8abd3b92b20b15020ba, 0x353c1598121daacd532f8b0ffd175318b309bde28b7ffada32bb73b784d95f2, 0x23dd1ba2b7ada18fb1337535b938fdd5318a1ad228cf00747d07efd159cc23cd, 0xa449d239c51400de8f275b00787790aa508e1e160bb66e87d0f4e32ac5a5bb5, 0x2bcc35ac47eaefc5ceae93b97187f199f4ea9776095a98efa5353da21540b9c9, 0x22e49a4378b6b69566529f55b874d2304e24cbaa5d790f76900ee2f8478e3c07, 0x66ad5b80133fd0a6391c05b7e20b13416e40c29a06469326768f24276fe1841, 0x3f2253229c2810aae5c8411d5130ab418bbe077b0f1122623065532a259b857, 0x2662e6c8a1134a005867e103901a5f6c67ac3737a6620accf8034cb83bdbd4a7, 0x20a86066eeceb6979baadde6a2359befde49875bab142e57e171b0870b292086, 0x13afbc5573e84312a43160ff4045190adc2a9db03980e7126381f4089e7c91f3, 0x7d6db6cddf350cc1d59a474d84fbaad04fa0f2bff915f077708df41d5b2a746, 0x268e93e46fd7f13e1a359ddf6ebb619a21c1068de6d899590aa1048b8829ddb2, 0xf889928b305b304fce28f103f2e4194f2b29cdff231b05efe561e1cff4e70b9, 0xc547ddbbf87c32bfe454d8e8b0ad4402c9b979caaceaebd9d59484d43cd37a9, 0x20da83182faac059a9d00b35dc345ef0115117fd24a15f6b91b501728497ae52, 0x1f6b643b60e535d0f2731a326273576ea723671e6c51e7b74281028ffb0462ef, 0x2d14d43ab2196fc70e26a6b9ef3f2e9d18f60026af5833359f2a4f694ff6f9cf, 0xe9b85853becdc05429b0a28a7e23baa59377d9037615ba740893eb971aadfa2, 0xa664658bab11525d7086e1206ae3c6abb9ec31e3461d6b0b2547a5d6c2ed54f, 0x2e0498e8539d8576df187245d0b1222f43cf4d3f8f0209afdcb2f68767633406, 0x16c87c7662e6724263b44dec088080333793ba2002fb9669eb63dc3b1189b6eb, 0x9c5eba75aefc04d0436380c834da36d20a67fd4e11653498b4ec21b30900f54, 0x1066b5230eec70bbde6c98ed4e48e392feb18967be71a12ac18e732a04ba9841, 0x2dd2a9adc1fd3ed04eb259dda630b58c0791d7ee79b85fc20ff8b37ca0dc0464, 0x2e94a96ea1f18a9d99bfffc3fe43f0f751bcd549d1e5992e366943a85ccf4af4, 0x8d72e9dff20d4f5c4543b725e43e01f1cbd2bd0d9ea8ce6b0c1a9b0b2e8499e],
    [0x2b6fd7bc3a3b595c206c43daac752b765a12255c37ab51ae183933737a8b8099, 0x230050eb9901e2db2f16df59a7f5b8a1c441e5fe9cf3869a4ed073ba25f5d13c, 0x1c2f7f401da1ad989e6cbb5c81e3559a7930ceb1916691b9b2d702eccfa3f844, 0x9b391cab0c34b91b155483a41334a9ae97203942d7683850100acfa35c51600, 0x134816b73312aacf2f573418283f27bca58d4d23624890f7a3b9ca81c12e9718, 0x124b47f9ea87c94130ddcf77f87f4bc53ee087699d0e5f62663a63891c1675d1, 0xfe5a21251a65261e6cfc3709404711f727a610f94057c304e1ba67b2f006526, 0x28ab3b64f6f6f0ce2707fbe854295616d676dfb0d66177af6679b3ffa512e8d, 0x1870499da8f58f00acf6b1133119d757220bb54ecbd793f9ed42d65c31760fb9, 0x20db70356dd8d855ab92b28a96429acd5ca77cd9e5211aac448b991c1650893d, 0x1a1ff1c58192f748174691a98d8c5e733ed80ea5c2fed11b098fcb815b438516, 0x1ab2399c7e7ce1f5d3ef6c3cf33f39ba83f054bd73d8c5d7425666ef390e4f69, 0x1e4b5f8ea2fa22e568978cfd90777937efc072338e173f49cdf7761a9caa2b7a, 0x2305b22483287e9568160f0dfba637f50c63472dd89e56da0611b76cfe869104, 0x1efc74710147e4e7df6580d0ca588b6f338befeb4c6f8e8a0967cf5c9dc07399, 0x43c5e4ba3ceaec4190acd05a266e8d339681eaf1247af047fd0dce72fb37c0f, 0x2ad5f9fe59cb81bb3eb3ae9985a905adbf2fee8426fe0ce3c1b108209aea844f, 0x1f36ba0d22839b3176e55a9ed07dcbf0255e386bcea0a5be9823dbb3300ffc31, 0xa565b3ce5c2aa38618127678d8aec23595e365f5e51d97474b85b16a13362f7, 0x271dfc29144730cfa780f9accc99caaa7d14e05c42df401293d24759c12d8ed3, 0x1119a78dd0cbf88014b97e6e5758b64c8c133a5989b758af60df2ee0540348a, 0x157970a49dadaf8b39d46ada19fd06b34784a6f33b4d85547c2493f27f389e0b, 0x8697357bac4131984b26ea8e352a3c5e5c33ff22f09019646f43b5137d4df31, 0x29fecb3d70e1bd21087322a9d0f0db92c65f141f02b45936d9a5b8535f0b955e, 0x14297a9dad6ee3dd0ad87ee9c2dc63685caae7391012e267da21ade2aaa434b1, 0xc8f3a7ca1b4242199d6a0999b30cf3e61dfda56b98dca4c9bb199a070f9c782, 0x2105bc020b9bfa1a23b0b2edbdfd4ce7bdedcad57906d2f58053b8ab35f11b43, 0x2deb04f6f90c24a07d2f36e40d5bdef34639b092d395bb4a4fb483f84aecbcbf, 0x2964c5940985822a64ac1443efdc41cf37e87dbf858535bc7c87181768091c60, 0x20b68c1b5ede99ccfc7cd1231b13e90d5c9235c36f2f955dc6ff5352133ea9de, 0x30096e11896ed1672687beb4f6725b749550667e8da418713bea7db5f838efca],
    [0x2b6fd7bc3a3b595c206c43daac752b765a12255c37ab51ae183933737a8b8099, 0x6e21228ed894978b90a5e0b691d8916aa63720a5c795b9a07381452e22382b9, 0xc9bcf80dc5fd89ebeb604437262768ae95fa7263924501540552e7a4f2414aa, 0x9a6be7304c6da043de4c03ad5c76101a8bc21f1aac8dc10a695c7c5fc2f9072, 0x1d78923d01c8ac2f59ddf5f046cb5bfc8bfd083ec61b1af080c79c2ddb27a832, 0x272ae649640a5da291be7915b01cba87251bc6272140ff420b36f27774594209, 0x4b1441ef166c520f9309f2f984011a00dfc71d6139603ee90496e59d715f775, 0xe8d1281ac76ae45f6f8116bf74982ba76109c42a2ea163357febe0422658c42, 0x1c5d4250da762fafbf313804257126fea15085a8ee9c103a9992950ab4af92e4, 0x13d55c7c0b5e9acfac2196201e8e4a1ca091505b12b70064dcef6f9d3b1e18b7, 0x3e8a03e1e25fed9131b3de7150da5ad0b53da4fdbea9729dbce40ce2535f0f8, 0x12623c6993f1c30108c7c79868c88e3943a64595eb7bfb5814791aaad5a09ee5, 0x1d38303334b2b1328d7453019c571fc28f1bc5e4e3c9450b491eb870d2c8fe89, 0x192231ebe3469dd102a003b41ea79237429cfc4ae4d7d7b5f49154aa70b918e0, 0x26587d8d2a074923798fa95b78d558a7357f48989f553ba03bbe800e4d4ee582, 0xdbec60681a76725fcf9b009006e1235f2ba2d3f09ec62b50011d19ed58019c6, 0xd79206c8a30d26abcfb375fb8c5a117f3cab1c9fda8ddee17c0991b11c63e13, 0xbc57e048679764b958ec54b82fa3bc4690e99591f42216447ec6ab89e5752ee, 0x19b73a25670160ec2631863fe8b93691a30a5e6cecff4e91e4b56dea4e9d75a8, 0xb02dfd4eb79d59d665794ed829d301ce08e2e5285bcf6f75a83f23815f8c5c4, 0x2e8eda48e5dfeb71e3302274f516a74131fd336a617126a1435cbed8ef6c9d90, 0x282c1f1d562f2927e694715b631a176baaf7621c44a55b90ad2f1af512f2b499, 0xe24552e72a2717b254956fce21df810fe3f1fb66ee0224be74aacac4f9bafee, 0x619d6bb9fad7fe7a063998dec9888beec2a1c2206bc97f6853c10e62ede2ecd, 0x10855580bfa613c21a4efdbb0f302d4d30a87a79a77cad82b37ac76abe5071ac, 0x12e7d2df332cc5d618a22900e665529f2c22bd2b2aa387d9cb30da9483f71155, 0x108fa054801185a6aff619e7ddd9dc8095884ddcf3c85b8c922aaade7fde8f66, 0x2f8cddd8f2c5d14ab14b93182197b8073b4e9c41c138b6764ae3569771e617e9, 0x1f4622a6c051e3696414b2024a39391743479968b4af8dcf07186d5c2ff07972, 0xc379c514adbbdcce4502cce0b85fd03fae98db9d8f36d3f3c56cb9942ab7877, 0x2b139708399f0c23fb51a4d24e7189fb1e619f5c7e03bcb8c8c32945d8e1930e],
    [0x2b6fd7bc3a3b595c206c43daac752b765a12255c37ab51ae183933737a8b8099, 0x1a67fa389778c9489c495deb248e754c3aaaaa63c5ba3c6e5cfd96be4f516c01, 0xa82b7efeec16e6c5aea5e99597b098504973c824edbd47a27cb33d65d7d09dd, 0x58b5d72d0fb9836dab90890a9a9db183959618b7de3d6b7b1fc07621644bc7a, 0x24411fc9331c4465de389c157199ca24f304424c0481d117e7b0ea23657af1bd, 0x210351a45fa4ef26b2837ad06b46629051a464602e52b36ef24fae76d1d6d34e, 0x1e05e49db66c3340e7db14921c0262a7346c687a8c26137437b510e30840eb59, 0x2e6833d4c2d492a05a1c2be458d06a65f6be428714d1d44c2dcea661571da703, 0x2747e0fb93ceedf91d0b703ccd88f179e8f10331090321660985bc63897241cd, 0x21373fe7342c29074309be92546ca3308e28215172d43899d8b34e336e0c2feb, 0x7aca07d0069a023d78e0a91f67dc748ab58990af12f54b14efbf83f6ea3f959, 0xd31908df90c1e9debc10476b0f17dabb3ae150d731c20a321f5ad6d28213be4, 0x28b90adb926df7693277ffd23ca737852a441517a8eca29eccd732b90dc0db56, 0x104147d1f610150c79c7bcf61ef1eb1d1d620af87c49516a193790dc5cb1cd77, 0x22704b0eea545e93d8567947f5736159b8c7559da9346851ef034943a9f64ea8, 0x12cf13867e1f4c665d952955497197af8211929750dd706a6a65dc654b99e8c, 0x2640c797ab409cc3b3ee21869418ced6c6aa32c8d96b9a3da85c99d8a2bc9501, 0x123e01798d0948749ff8ed24a732705e44162826c2c7d28025da133ec358b822, 0x22f5988c47c36f454fc5c2f982b854b4f4f64ac69db58a7820b10ed05a1c1b7b, 0xd71a0b148c465727aec89bdc6601b3bf341159e0eb92672fd2cd29670509550, 0x9c4450c0fab5b77b7feddc8f4c50031a113df973d3dbff0101564f4dda5eb64, 0x216909b9a7ec927ff4be81f45f34004b80de648dccb64e956e689755c1d08c9c, 0x1a676535420e170fdcc7784668b421502d69e5955992d13133f9f53829fbfc74, 0x2f45e803db63d86ba61b8ed3af38c48a00d0ce69c1507e85647022d6f39ee208, 0x3cf89993c4654efb4b1e804dc5abb423ff507f7abc65cc8d1a660671264a2a4, 0x2eb840961ae22d47e776bf9f78d8f09786652eb99782097010e10fcdfdeb9ee3, 0x13b3fcc3c156042dd30d9c935a465c52827dba78cde25cc87a436845a38cc1da, 0x2ac2949357bcdc53d8a234e1954aa94813a0825a9308ee3659d5d386b2f10e59, 0xe15460bf314de3c67d868973288483bc62926bcbd2e7042ea807888f7d9c19b, 0x11c767a3163182d5eeb2ae857a5b3010395f9640b440f75a9b859c30ab1800cc, 0xde4b8312d23ffa47cccedc65de54ccdf9596a2c26a8177b78890f9a0000f1ab],
    [0x2b6fd7bc3a3b595c206c43daac752b765a12255c37ab51ae183933737a8b8099, 0x22a306748bbb7276a025b998d053c75dae5fa78e31d6457189abc977665065d7, 0x11e89b2f5a9f708391bf115992b295c5df50eb4793379139749cd3718dee76c3, 0x170d1801e156ba73911ab491c46bfed177c6cbec44bda6573298cfd6e925324e, 0x99425a344bd24801fd74847ee7524054b2c0be72a58c42928008d7163340593, 0xcb13076d62a1cceafc495baefa2cb03ddbf7bac1a8b24afbf0a84236a1fc1ed, 0x105cd167cbc2994138f2492a42e39c90c71fa1112160c2c3cb86f4a3dc6f36f5, 0x2fe235ad0ae252a09231abadf1884793e1479f8953587d08f0fd843c73cee60d, 0x27b02875c28bfc1217490eaea552ce39441e6348a660a8dff460564b37002abf, 0x1a48ee09ed16a03c4fe2c433bf85bdf4ae6ceaec8706c97bff764912bda1dcde, 0x175b14cc4245b469dbffa6970992a1bfd6c61deab13c5dab26b1481b9e616fbb, 0xd46b0974195aad4698bfd176ee33fcd84a725be4c13009c15d2d00fdc176a16, 0x1aadcefcb3f21adf4b25dc908e1faabcbad408c2b2cc24ca5a35e5649c787361, 0xee80d214b808612daf959f09c2314312cfd09a7050243e69cd993c351f865db, 0x2b92ed72f750583d1091332acc37a8c11ff616ac98ced2e2ab47e2650b783ec3, 0x7bb6c047a0ab37343ed2a2d1809345f72ee0921b06685f6356dca855053699d, 0xb27c5c1f4f08810c4c71b00309204a5ea1602065f18c7c9568a073630551272, 0x10eb21636ad3cc5b882f8eef50b164f5c0f05e3a45245b1f4517b3ba19693feb, 0x139afa8d7c7016d8b50351f05260a2f1661a7be1166add0f281fee3a5fa57c22, 0x10a8316597468b2f19a7ede834ff7ba4745e614ddcf43a373a5afebc45849d74, 0xe7bc88dca5e934a90b30c06fc33c46eb88311db5ffd138d2cdb2376bcaf4ce1, 0x1ed3520f1f7eb308510f20f8ad87099d28c26165a9deb3338c76fbc7b140b4e7, 0xa5b057fe093ed51de90edec1f4fc54c24614c3540f8d36af16022affde42d34, 0xfe1a3def2a011ba748f9b9f263e88aa32335ffb2e9857bb3a2e0a1d14edbc3f, 0x1f6abc03a0caba9732b313a2bc3ee30d379088b772c6ed9e3d9d3cca471c249c, 0x32cc35f494c7b826ddc1bb185d14421decdc35c89c4353e13838ec0de0e777a, 0x3526b4fb75965e49be0d73d43e706e756d84f80db93afde6863cc49b017f199, 0x19033bc3c4271ab5bafbeef999077c33386c044f05405600b0cf174fad12b8e2, 0x17775184817378f639fcc8dbd97df0e13baccbd90c83f0b4807ae9a486bc0d4d, 0xa9e1c95520650bb3f61a8fb1733069fb5eb759593c989c7c8c91cfa6108c3dc, 0x5261006343d0f17ec876854ec7d41315565a07796e7c1735825e9dd2bf16e39],
    [0x2b6fd7bc3a3b595c206c43daac752b765a12255c37ab51ae183933737a8b8099, 0x2fd7377f9006f870d0c079c8b10b62647b7c76cb481b2a330113cc7507effd1, 0x1aa6d67de3f86bd58f04498f5e71270a58c7ecc20d81891ec7bcc29d92c84447, 0x267b52a174ac8e9d118dd2d021043961fe9686c7156c324bfef84286a70a20c8, 0x7131b4b73af0697a2a744e3483a653379f9a6f66e05821b9d12aa2b8fc7f52f, 0x678652eac3805c1636bb62390323860ddaf6f1ebe10b167a39b975cdd89bb54, 0x15209b10675cab6f50d0496771117e050ce5120126d241672e991c2dcc0cd1a2, 0x1a1977bf61184ad35c53ebfdb3af41776eab03b2db826652e35ad3a12f745bd6, 0x229644c842f9907a93becb162b12af3144a7c7f25d064d457db70e9c9cd9c099, 0x17ed9abfbc0e4103e9e4ce7d1fcc95f2a8a0f8adde891b55e424f76a93f7a915, 0x2104040d07bc2a79abc7fe60e6d2bd8ce79b937d7772ecae4e21cd38cef7f792, 0x29b17696048b7c8b2805e7f2adb86cc14a6c54577d4d4b741c844203812cc98c, 0x155b7c97543d530c1784eb12a8c8e9594d423dc45a5a93a6e2ab2aa25210f1b1, 0x2d95cba17ff1a2f3ccb165e7009314c54d1f5d2ea514c54382ec918f0d18822, 0xa9d8db94925ee88c53578d0312159ba4568c4c35b2160748f7dafcc99c966fd, 0xb6f19b020cbf0eb74ccdceb22d7ae4730f72db5fff4462bd39941cb0bb2298b, 0x2f709aa70fb82604e6614b07127fead0d6c889f96277da8085f886a592d8233f, 0xc05d5e71c8ff96a669190965b0d7aed88d1c5df73b70de1783986bf8851507c, 0x8facf13f8dc731b2f216581d4b35f10f3d54b6c41457fd83347417cc9a4dbd0, 0x1bb219a4559f69a5e3ca3241a56ba26e36c86955feac34676c2d13a671f470ee, 0x32054ccbfd7840e0fefec1ccafe4b21091c2b9262c0337b269d7bdeffbd615, 0xad0e2165ff04113883d2e76bc8d519702644c1e938b80c614ef85b966c7ea95, 0x5d0cd6f76ce14c2cc307b211409329b29fe0e80742c329b6468d4cb6c4f8938, 0x2ac21c0635d3d249610b57d8312443a9c30fe4f353e75d7503d4cc646c7cc2f9, 0x2c98f53ad12c6d2f2c1f4ae0922f10c9319cee3b55e1720799c16fa36c65af2c, 0x1fafe9cdd001c028a8c9895b9075a18f93f8ad25632312000154e1b07d6cbafc, 0x1c66e585cd1c5651a3b651ceba4e33bd7954af808b69f4e8171a58339b6754ae, 0x2b8004d7066672e9c51b5efb0810da89bdc481658149d974641e43a8e6150512, 0xf19a8fe86ec9c9146083520d9bd83bad613879a0e422c27e09cbae6558315cc, 0x12199adee14b8fef20070207a6ebfa77f4f9202df37972a31e11cab9c622a3c6, 0xf34bbf250e5eea168f1772d93ab7f53e1dc570c706dc9818639f0181174d8f5],
    [0x2b6fd7bc3a3b595c206c43daac752b765a12255c37ab51ae183933737a8b8099, 0xb2878f79547242381f83f53d71b4a5bb50ae79bac3b09690c2ec04c27952831, 0x1636796259d819596441f2418e0c425ccfbfe67fb7b497c4361122748225fff, 0x230101fb2086c3e4dbb4e19b17dcc891db81d3eef3b5c031b2b1429e46fb956d, 0x2033e660632e0b2e8411b43b8b0fc9d23ba811a64aa846b0882516d954738316, 0x244564f0c62510a5e6f69a1a8fe77d6bc22ec9989b0f97dc4113a2fddcf2fd3e, 0xea22aab739936a78b3b85cf512de08c6ea303f53fb69e073d2da9b94d60ebca, 0x701868cfc18808ef3f8196bdb7bf2a8aee96cd85d269db60a4cd5a1ff9b2e88, 0x904cf11c0b58e3fe3aa7d70d8e365f6f20424f7cda13492c3a1089c3e209378, 0x1d5930f08045de1418cfeab3a30c08015f77a7a19aba209b992fdae1837e01fe, 0x13d07ccbe92ac9848da4c5651b692c3b298bdd002c76c1673e39b0c56c92cc4c, 0x29fabafec859d0eaea7b49a815141e2d5e826c1bcf4fe2e2c4d80d0d9026a9e, 0x1af5ab322e026a1b28a1dc06cba8585550db1bbfd3ee2355d8dd1c7d413126, 0xc60f6e36113ce5d3b8824f68a33bce77f8a963eb0ac4208a35c0fec601a813f, 0x17ac4c1dc0678e3afeeef3a11fabd3d699456839342277c4b6a57256a94cd1bf, 0x18d140a27d4a76d1daace46e5201c2057b4e1353e6e6a90d250798e59b055209, 0xf1336ac56c60c4bc9e27765f43bbc4a25830e514126dedcf518f1f501cab662, 0x240e3c3a7dece37a8e4674ca411513bc5b2ef205d6afef56978ecdaa310a5fc6, 0xc1f16c8ee024584c6e5243038d7324bd631263e4036e9df5422f78c8b01c9ca, 0x236b70f7b76e6f16b6f4d08f6c6755776bbbf2beef38ed9f187294607fba3e4d, 0x2fae92d9a4260c0eb67b8b5c535ef6f43913e506e546b3a1f217ecac1eb0ee5e, 0x1e69a926148d04785f08760176dba2be1ee5b4ea19bd09135d5b68e7572cd1c, 0x2a96f11408f216c5ade40371fac2bd452a578ec23bd220897aa3372513bc4530, 0x1522e73fa41cc4c23e9ac6a6df46dc33e6921b802be72ccaeb06de4736cfe988, 0x6d2c787e7b336c0556293aa8a6bcf7d31be6d8b6d4a644ce77b313bee3cdd01, 0x1f80057bec504946a3e8d5e8d31412d2fb6461b5f174974017f2798fff57c306, 0x139e43308691da278944e95e910ff3c4903e2faac75a6533e7f1fcf0dc8985ab, 0x2958715623868ba98fd982a092a9eb18fd0f2cc9d3ad44d03970b8c2361ed38d, 0x3d037c068aefcaf62bf84b4fe75a8a46a5d85d63b659278b049508fd31d673c, 0x25f8654c412e7d630f046c138dfc4c18332573d9f2cdde26683fb472fc8b2edf, 0x1874b9d07a26cf2fb8c65b8d47c6647008b42804af1e7ceb2c7ee466a2b5807],
    [0x2b6fd7bc3a3b595c206c43daac752b765a12255c37ab51ae183933737a8b8099, 0x22b74f8ab6acc3f3ef0d9352aad479f2db3f5171684734ec6d18c69cfe0b14cd, 0x28ddd3e0a84efcc63090346d5c5c0b9f7a6b8a20abd001e8ad01328ac5ff90b2, 0x21ba1ee2990e2ba981f6e7e97f1aa879eda6e3e4a7f192be055d07d2332aac26, 0x8923f775145f7243003eb5089160d2e0b4be6b68e77211d796e567b026e92db, 0x2168e1158db076bd2c7503d8d78759b741f3d09e8c2863f1bbf77eb8a52f2bd5, 0x2d91a6046ee638587087f34f8f3a45543e5a12e80db1462121d37f3d2f574ca4, 0x19a362b36092714b50b86238ca35b3e9106efe2f1cf4a8f091a687cb71344a16, 0x93ab3a1ec4ad5be6235fb805314d7e9f07ad5aafb214ceae7ebdcf81db72fd0, 0x1e6f239f1cd9a373e4b8a283c86c7dd710a5aeb00a35338dabcd80e14079828e, 0xf8b272d893f2288be54151a7c6e3e3e274b96a395616976d267ba31d59c0bac, 0x22073c45cb975312538a8a8bed28c0a2858793e1e2a234d5fd8a6ebbf8098fad, 0x5a2cdf46b89919b93bff18da44a4cf470a0de6b9bda0ed97d9ef3085678c9a2, 0xb91b6af7828f5e23b06d2ec84a5acc0f6f670e64146bf82dba2cd09d8b9b160, 0x26919b3ee33e46e95680cc8c216d561996b65915418a84d7b3d7bc0d29e3e56d, 0x1615d651e47167b1ee9c70737c1376972ce475a1c66fd778ff5591b2e4e92017, 0x1db6ba6e18012adf2f43482f224541dc5b5ffd5522f9336449fcfed6fdede339, 0x157aee78ba392137b06bd8104872ec13558753788e044d38644249dde49b63f4, 0x1bec3f9426534d61ef5ce8b40e3d9199d929a295c4b2e5768033fa7ba51f628f, 0x1cc2614a3be0eef53905687b6d666d957c6f47b4f340d59106fc5add588b1272, 0x17cc5ecfa4bcb4d4138bad0db4d25b8bdd921969465ce40c3783190855c0f9b6, 0x2b71f219cdc5fca5c1ba861f3bcb51aa08fdfec6c8600ea26ea3f433090d9ec7, 0x209098b02905832cc62767fa60e37a962c4cb7e51b23b6510389b56c510d3a61, 0x22202b42235a0de23ef43301055066d26d87d0ac4ebfb8d4391b05fdcab190bc, 0x27067a1a9cfa43df1faa7904359cebd06abc41ef694c89954ad076e296bc77f3, 0x1dda2ec6fd0f92a515b4b9f0b80aa68260fd6570fe28c35acd8da5233c655c9e, 0x20fcbe551e628d29e3625c948d92057dfb16a486be9fd88ffe308b886a7f3f5a, 0x102b63b63b6594dba0d9502841aaa0bdf0d2aad08d25135f1090f0ed94cadf5c, 0x2665d2b3b1f4711b362b28c1581c139aacf681f189d29cccde608c7f44dac4f7, 0x2534e0a770bb00179e6f7621d96dab342ff960d361c91adb0f8faea486693df0, 0x132de3965797959cbfaf61a239c5f09e1672d3b6387a1e34a53214e9d15c8201],
    [0x2b6fd7bc3a3b595c206c43daac752b765a12255c37ab51ae183933737a8b8099, 0x1b6466ab641f7f30eb2dca03dedb89080833b2bce7b84b6a7b1eefd30677d2d8, 0x690dec480f914c6f77ace87a47b0857ac7fdde73463e4b2445d4656c53653ee, 0x65e0d65c2a3e1786c2bbfbf47102e427e9e31d2218112a86d821496a316d68b, 0x2b5b1af812cfb77b30b821bdb2614c5f09aa73eefa9f6a48bf3eb146148b010c, 0x260f7a81271cbfdc27a85f146221b30fa12e9ffba21d654a371bca4455a37bb4, 0x2a2b6602a481c04475dacea41b360af3926cfcd4627112a8ed4192f213a823cd, 0x11439386af5e26221df0905abda34142ce69f66151192d0143dbfddf3aeaaed8, 0x230508e632c716e903e22a44c6002c2d39b1a0ee072bff9cd0901b3c4801e69e, 0x23ce4e18ef472ed4e4aeb0dca528f14fb7301c6691d43e9632a65f1ec4e7bc7f, 0x237dd8e70aa173bed421d4d488c4326af456322620483fe1a393066187a7cc08, 0x24b0ab054d180e17971795754e027a756bc1f68ecf9cdc8b92b30b4af2c078d3, 0xbaa7bef4cb2a2cbd1b33f9501ad22e365526a100273b8ef1a39152d779bdecf, 0x1fb9b3569c3be925e480fd102a3432ceecdb59d346486b99d22284165df08262, 0xed3418179e711b0a2d9bb44fdd0ff0c82741b531058111031cd123f508fc7a0, 0x2e92aa6007576a4f815c645abb2e9ee10fe75baa5e13ab2a0b0aa700e084f071, 0x2557fee713e3ed365d7fc7c6c07f113506d48dccb98510d84457b6d61c9a448f, 0xeaee37321492b0595cc477585c9fe9573da00ad1619c7409ee76c625c11d447, 0x1b9c9d4230433a193f315fab4f8cb8a7f4b0946f6241dbb2e858f3cec6c33f85, 0x35b1d3045381d5053d0c329ef11458315d69335cd2371fecfefc8a2149a8583, 0x2a0bf648759293e205b62ef858612f4e54cfa78dcf1fda84715cdde20acf4978, 0x2d1f77f7bb34c7adcaac3e88bf34cc32e7aebb82e1dfec3491ed439c6b71c4a, 0x63218d076827fb18e8fd4c14755443dcc3cbfa5bedb57a8aa1ed4b1a69b5261, 0x2808b917c9417f47e1893c4a5b0053c64a054319988e721b42713d4abc351024, 0x4c1b265648f11a5ed40c135675170ff486f6db120056d2b43e476bcda4e0876, 0x1c9625a781c3530ecf4d532c0f1876e8281a454abdc914f34dec624dad8276c6, 0xd9c2ef763966292a4585c0d7b4a1256c7b4687b8c19aefe0f2c5afdb8cb1093, 0x11bacbb8c80b3caddc7be415c49d19c8207467eca352d2d65b3c950df899cf78, 0x2f38ca64de487d59b0332f142c0cc9ee408f947e17bdf1ba7fe217cd50e3b088, 0xa5b42f7d3ef308c007e91ad0b859f46582ca96b8a3fc12c6964b4e3ae230bc1, 0xca6578515e51c2c7da9e898fa1541a6e93bea88ed529e5c1f411141884743cd],
    [0x2b6fd7bc3a3b595c206c43daac752b765a12255c37ab51ae183933737a8b8099, 0x986957cb19cc10c36db88648feeeffc017bc7f344eca7e278313887c521b66e, 0x2df451c36b1789c3b2a6719818a62d1d40597c6c2881225d9bcc95fd6d090f50, 0x2bae223a93b08d3115a949252d906887fbbb2988c127c1e2668c55a00ef22483, 0x5bebef52bb08431bbb9e92d219b4a0b2fe15e2f4346d0e837664369aefc1803, 0x18842bff3ff8988d29a3737afc113f6bfb80c08d5a2cd06473baced406d3e2ad, 0x2f78a8fabd2e97700ab4a2f2b5773ee348cbb2ee491bf33a5671c10e6326be6, 0x8b3f1bcdba14103876b7f57f60d08ee3aaf9ea25f5495680a0c11876117feb5, 0xe536221242a02f1c78e6c59133ed1768bb7c5805ad1a3e59066ad23dc8ad422, 0x2d906eeeb9d7ed09f7fc504db42dfa79bdf74d094eab5d29fd91e70be78b472e, 0x25ffc50d32b7badc1066a06268cdfe0a329957c10b2c448cfca1ff6ab6e0451, 0xe77d99818d5d95b153667917050e800f778a07b2520e0cb2a8d9f3946a59bf3, 0x2434b0943c80797cc13905ed7ee35a700a61bf601c7c3dfe20bd7fa3a62d0dd1, 0x15f77d11fb4fc7c16e4a6670614d85b6eb833f0c96c9ef96dcc861bfbe2e1c8d, 0x2e1db5f958cefae9e831f4d55d6c883847a2eb9f1b8ea404c6131e9cffcae8a4, 0x205947544c2d5c9d1157bc26697d8e3c1949786e6210ab9deca2092dc55d4498, 0xb9ba62195d29f54053e5fadce4e75e7323915fb2d047f61593c0cfe351c406, 0x233eee9f5e744bce4d408b2c0fcd051285199f5e876fa3c6f6c99a289db64542, 0x1818a3f0d1552f34caa7dc40defbb1ed62072bad77ff5a8221fe1bbc655e7dda, 0xa8c36ed2f64ff121cceccda4d723afc80e17c1ed150d4d4afd9618a9be52fbd, 0x2bbaffb37541a9f521ee370836ae3b6f0555f49b0569032f848e15e5d054054f, 0x2dce53865aec616cfd8143aaff05c7bfbb728a48f2b81bc68eed629ffd6537f6, 0x26a4a63df26dbff991a0fea4b9d00094354de33aea2f04f04312250deaf202dd, 0x47dae867b6ada4550e18f2443c44281584a9b07e9104ab3790d65d0bfc2e15b, 0x18672943f827e2833a8d9db988296aa281cac88816b11ea2ce6fc5ebff8566ee, 0x1979353fb46d8cdf3b518ffe145af6a533b9ebfb990582fb36f31085546556a4, 0x1b394c0b4ff11b67a1591f7d190c74f15bd83812ab056d7ba186998adfb5fbd2, 0x2213fbfedeb46fb9bab30d5bbf854cd2945a30d1115a3e2cad6b771bf53a9c45, 0x3045a6b98fe71341427e894e351402342da59067fc44b8a1e321de8b75b5384b, 0x1e560b922f410efbc72ab3137afc2b4bb9d6d11e3d78ebc0c1ef970b8510b0db, 0x793ace2e045d6dce7eb0c50bc654785c69eea92a5ff129ffe2b8224a4e66987],
    [0x2b6fd7bc3a3b595c206c43daac752b765a12255c37ab51ae183933737a8b8099, 0x515c94018effb2fc24a7bb89b1a1055a274cce74cd1bb4fa3751331c55a830, 0x228884947d2d1caacad64b4538521498e6a377f1f531c032a41e8c5999ce7fd5, 0x2d7bb807c37a5dba31490c8996097552a930e55198a0c8f787cab498e4adf8c, 0x15f5cb124b0a18bde04db081df667eb90d722fe38420c7a6a2340dd57823d4ef, 0x2fdb6f2f83a138c09aaf67a5b7f4f2d21f9fb72def9246f8350b3d50fdcff090, 0xdcf875be3c34cf38d62be56fe936e1f76d10f01c9acb657e4dfec02f98c84c, 0x2f2bf29d6b7637980d02644b98030297e4ee87d51476bfe02e430700993b4e3, 0x121dd63b185a3fbbf1e26721e1dc9207ba6ce83246856c780f1ff3f457925f1b, 0x20e79bcfbc14855f607ffe7efdc0408b2366241ee80d388f58fc83f1140b4fc3, 0x153dc31be4cd79fbc0f1757612c6316f994560d88ba2a0936aadabe71d3ab4fd, 0x13804b12bdb77d63ef5f9807e60e1896a5212e1ce314a52f1e65cd6051545ae4, 0xb6cecf0b015284998ff23c23a7c003629f8ee8f8e52d85ef6af13147fb8bb22, 0x267f992fb1c5fd7a2adea64c4789617a205686c01f9743e29c3a36910902f83d, 0x7c739e819b23013c6b2bba0db1f914573d0be98da778fcde3c44a82e8db6a76, 0x15da652416fc44056205298e4837860a96e1accf42af4ddb4b6eec42fbd303a, 0x1c33739471d1bd4fc613afe1e38b71ff3562acde29dc58bf6cabf73a192b372a, 0xedf8c7db59823fb1f76cc67e0e3ebf8de8dd7cbe69ec468515a5f5511c8c1f5, 0x8334b72ea2d0d35ab3dfac4f2696b0d980b65d6e0ec61fe2724c896bd3f517a, 0xf4329ad37ea22a16517b9b1e6d38afdc75a8398df9b9a32aa2f8f2c3346e289, 0x1f8d3e31cde1c2b3564ec9b8acb6d3dc56b946fd1ea3cc6067f04515fe80c352, 0x94a21c0489acb58fc118cde1013f08105058d9e97d6a780ed30705c0e54a838, 0x133b634d187f62fd2ef6d63daee9d3427ac1c9e215749786a2e17cbabda7dab4, 0x18e1b03bf875c00f97c2d24bf7daca95935d8b176bc767f5659379937658f599, 0x18242ad22da674a26206f354d85be06760137fa512cc7f30a5e38737854159a0, 0x294268b5fe2beaa0c99688e9a9e4f7ceab6a87dd42bb950a25022247c790bb6b, 0x1f13839b65eda77875e30eae082527d8b68a45094e0c63295a7130b78ee8ddf0, 0x2baa1faf25902d89902124eda3986279278cc6007b1f7b0f193732e5527fc69e, 0x265cf033142c6d433d701a040d8f9f35c15475a6c7ea5875d74927d37e3a6968, 0x1c4eddd1412f02358286bf07dff4ab2e90e5adf051ff5adc369e93c3fb78cfe6, 0x2fb924230c90e26ac6d37357a6df214f13c24c73725995873df37da56f7a3e77],
    [0x2b6fd7bc3a3b595c206c43daac752b765a12255c37ab51ae183933737a8b8099, 0x19e494853af32baea08fcd358d25c37baa7b42e14a74e62773713083679489b1, 0x24663e25937795d723aba2f413377e470b84418061ccbf2e7ab06545d4f69b15, 0x28194cd3daa20ca6ae03a8dc12cc30cab003f2a1b784c9b64436a984862ad41a, 0x3004d9469414f0a772c99f896e7f27c8d08abf0dc7e30feb91b51820e4591fc, 0x4a90138ae63af6d831112c04dce879f943302f37a462f0c84b4f4b543737a2, 0x16328fe8bc9d3c883accdd09cf2861ff33f072bc58cfe580113864913a5820b4, 0x255342bb3760148dc048617882768a4d198230da53b4ddf87e5178ff4832f301, 0xa494240f29dc89a98ec7fd0f8a70c3e82fc12d2894d92b36c5e472b51cec0c1, 0x26d9764b65cb6775899164e5bb179aeafcaa7c262861bf582c5d6419f86946da, 0xdc64acc51842f225a439b650e5eb3266d2ab80e7ac705ccad646770a338ea77, 0x42d122c394166798b946f03da9b3e06fd5ba1fdbba49d3cfc9ece8244426044, 0x20715b9135e15fd039a728fe347d6825e7cbadca0c792e2755921003b7cf9cee, 0xb8465af4ffc725e0d9d50079c16f1a5a7d8df1fc7067728535b10e19cc70e32, 0x1b3fe32fdaf4a4c9b5186604fb4746695561720c1a7886751635b2a416b4e37f, 0x1ae2fdac7b7d0b3c4739dd9eb27377b3bad124823940e12d0bcb1177c96e0788, 0x1e6b8f955ed56d144d1650f250bb0f8a8da2b631d38d75e6bca34a687eb96a5e, 0x262dc534f682c8f874d877df14acf8ed7dc65a6e42198570d15f49520745c708, 0xf9a4f0271d5c6aa02c42053a8d2b1fd8179a35cadd4f16299cc0037b0b16d6c, 0x6f078c71788acce7f48fcd7271d85077c50ffa7a82ff67d81a10ddaf70d9301, 0x2416d74e36b42dd5519bd3a03935b57120b33c05265a40cc15fa0b36e695185d, 0x19efbe964add94b60109cf8e6795b8afb31ece021bd1e99e06a39b868ba5da18, 0x217825dcb0fb4a2debd0856679d5f138bc28083b0583bcdd2fedd8226d71ea20, 0x29ed9e1b8a1e7d0c5dc4e51ea5f277614970693b65758673625a6b81e0ea6305, 0x8e7139bcf5e35d8c2826234a00c56696400cff2b012a94a6eddd3d1ea94e4bf, 0x23b45cb4566041748ed409f32aaf3b7d59ec85f8ad75bdf008a733d500a24f7, 0x59e1a9cc4208e8f4adc17e95a8dd0a0e0824aa4671a24075116ef1cd29ab280, 0x1084b6a7bdcc2947835bb7f017c5fa4a018dae7a14db23c1f44e821a65434e3, 0xae92ed115475902606d7f3e699d95659acb152108c586a30a912750ed18b0d2, 0x11540ba858d368852b75bd5e3d31e289a182f3068ed6c2654ed4c92e9d4a9a12, 0x219ad9e087618d15eae3780c3b2fbbbcb68667bbedb9d51490a04e4a2986b734],
    [0x2b6fd7bc3a3b595c206c43daac752b765a12255c37ab51ae183933737a8b8099, 0x1af405bd496121de8bf68db182c52f8dcd863e5e9d0d07c332702c652f103155, 0xfb5adb4f2ddee2c786bbd630e10b6af21566e13887264d2627e965b8a7657c0, 0x5735d0a20981c3443c26321ce6aaeb22867087fb482f3fc52564231fe1fbfa1, 0xd5f25ea7cd06c95915cabc11f61a2a640b5109771238b53526673bf353d8efa, 0x276d9d19b50cc160870806a1622acf7cf1df7a5c0afeec2dd77a0962acf14cb1, 0x2d52da76429ebef4234a94a2cf6a41afd471193888b6fdf668885a0c578d3c03, 0x24f84ab4d1acc7cc1b4f842e502865a26591447b8bf24439782e17e032b6f535, 0x21069f3feb18a6d2025501270c070b1bae6035caaa50bc68b6b402a909dca262, 0x1430dd6ac598deab9432e5227ff5fa9da4994f08ea28a781f9fdae630aef746, 0x6fc0f56ea9867dcc10385217771bae7c1901deb59d89d694a14fdad07ef7456, 0x2ae95e39f51c7935a52f31d1e92c2fa1e2a2a43ecfff3849368a226bdf1067cc, 0x2b53d9abe894c47db9a2e81ddc1ea0cfeea5ca257e8c0ae61d4c9db5d8a918f2, 0x18dd0925e43f821fb7c3c9a72e5d409c13e5c42f35b1268e9b36685ab6c60a84, 0xff74b6d96a8d00bb97508280e98c10a1eff834b46b15f474b9f4fe50174233a, 0x18bfa382970f3598061f30c5c18b3e71105a5145ca3e6dd21f779395872e3616, 0x1dee9f00f2b7548ffa9cc5a39edace63c461c528a7bba8a17f59b7df6e247b99, 0x12c5810e9946497e1b6f928182d8511851683ecf234de99c649bcb3dbb8f1e76, 0xe5953881e72ff398e4c34b50c3d66fd073fe79073f7ebd593fefdcc7bc4fe32, 0xd25061d2528dd5351e4e8367c96fe57446429956594b2f752783f06251e1ddb, 0xcd02124b62741431f4baa64fd8a759db1fe86465b36f26e7e91ada1a370e031, 0x2d524e2c0a167d163be6863fb345539da3a8fceb3db496b765ea2fd7c4fedfaf, 0x9f6ef3fd9b8eb4dd5cf6393f681db544e7339f6a129f9bf8e380041e0a43cd2, 0x28bf2b88d392ba9823e2db09d12cda5a103b6e2f581a9a3abb8ce25c5d93476c, 0x209e08cbdf5562b051300a64f3cba7d75c25e5032a2cd5331e6cc386db38c373, 0xe18e80edd86792ddd92cee432ee33b15fc5102cde0ace9f8f7c9fa0663d51c5, 0x27bd8795292bc68b6a8e0ff451cef39f92f7af2d407c1cfcf60297100a9c4841, 0x87d2427a36da27e525bb1956015bb2e0811c037a0cc272f230cc4f18a756a13, 0x5e017f8cba3d41aff70fd421eddd63f464254d65c086e7f5f07981790ffffd9, 0x2eacb959ae5429d219c66b722feea009060a093d33df0cdf225553a0dfc8e7c8, 0x27a8c07ea74055992c66e0003c03b07c090d30d45b940d303e51212a974f05b1],
    [0x2b6fd7bc3a3b595c206c43daac752b765a12255c37ab51ae183933737a8b8099, 0x25b72e38946d8c146ee356367981e74d001803430d4ae023d08a9c68ce8fd58f, 0x29d3d7fe8af458f8f444fc49c4cbb3fde970d6edf8ebd7bd3d067d45994075ed, 0xdc25ac6f52dfc613dae0197322a98c7700cf04dd9d1627c90076bf2384b32d1, 0xaf71c0bd1542973007bff10dfac94ee18f5da9221d3d6fbe04078971e3b80c0, 0x1406d8cf97827b7d25ce71e62d17eff80c493bb0e1f2a6b951723431dde17c18, 0xa177d75332f2aad209c9eef8004879afd6acd5ce56db116f834053ab51296cd, 0x1e42feea60f7d4987938dd58bc9b53d4b5ae4f8ee14b2ad58d723c7c86c130d2, 0x2c5921fa4ccd767fd2533f308d1c18c63cfdc3f7d8e10b217fccbeee2aca0ec7, 0xac4e3d803a6c602ba6fc373c31988c294649478134d462772dbb91e40c56595, 0x68fb1f094571ace723b59d1a0595cdbd2631d93806a5f5c758ce986289ecd0, 0xf5a472661affd8730cefc698d6688fbca3ba07b12637beb8f0722f2f5e8c8d, 0x2ed5af998e49f3d9c92a5badae4eb43a516b1ad840cc01d11c8a441786316c60, 0x9929a608a5256575d7c287db82aacdf5381830b9e18b23ebdfa2adcfb46dbd9, 0x26639e520710e998ed40fb1369c7cb039bdbe0e2e5778055072c8a5466ff9baf, 0x2b3225c35a88f757d4c773363b825191df51b0e1cd4082541d382aff5f7b3f3b, 0x1c1a368cc023f9aee70e3e53341a06e8095022c5413ff1de4286363b4e1b99b, 0x1b39049a6f7088294202da65d65bb190d44745fb93f4073a00d473d38fc37392, 0x2b966bc8a897d76c04f943c5a7aef551f3c6040d0586eebe1f4989a0248ad79f, 0x67a2085143ae9a245bc66bd3374eea946135f565cc0efdb6358a3ccde5b6c6a, 0x27c3ead3d76039b10f3bfe13f32df2823fb8ca146d9aa6b14d8cea182aa76bbc, 0x13ae8e66bda5f40ad3ce0e83305176d5e73b03f2950d5dd78b1087651446f60, 0x267e55ad34a8788497998b79193846c2822a266e8f60799978e66ffbe27018b2, 0x1a964c5c4550c29516171a8a8766faa7159a1376a836d29809d5e901a584a686, 0x216cce9e5b6062cd063ae93e53efdae64cf5479ae01d7549f8cc7e67a600d184, 0x175109dd08b4de441ba589607706769fc506fdeddcf56ad57d0ec008fc3816c4, 0x202ed46ac0e68827ffbab076167ceecbc7a9614234fd6621c6eeeb7283e439d0, 0x2d265e49f35dc88b63abad32d14302d3555c221ae8eff1d3399a66959ee87e6, 0x593f84a55c9e3af185e6e8e689981a9fbe1ab6282f393bf4ac2b77be21d91d6, 0x2fc4427295d575a8fa93101a1b916e123f2652e7e9e94c364c4abae0a424334f, 0xfd26a5a97c3cbdbec343e616c0d93f25d7c5eb827748114e4da61c017e25478],
    [0x2b6fd7bc3a3b595c206c43daac752b765a12255c37ab51ae183933737a8b8099, 0x163e039587ae8bed242103f972c58d7b3570846f3a9ed3b6f65ca9935e0599e6, 0x17b8c9347540a0cf46955fe40c29fe36680969a074eb4e1b7c40ce0c543df4ff, 0x28939f23d63d09adbd1dd196dfd73eb65ffe2fba07a79e2049a8453c7caded55, 0x22f4246a101673a3d58ce953a3740bf807f25fed08cebf1c124565310b10caa1, 0x1335c6f50549b22023d2a973807c510d8c1b7e228e8629c35b7ea3a701ed0277, 0x5cc88a2ab03f9f720d841583cc8387313503e804be95d3311a64d0cc3cce9c6, 0x2000d4715746fa36d8abf22861719b23aaecfcdadcbe71d567b1bece77601904, 0x3c2c00765201729fef4cb1ae8cef326a7de4f3fd5803521e715257f8b392e80, 0xc5affc61d51001d7b0d8aaa6f99d44cc683af806ea1ea1d241ce56f386b5462, 0x153a431981ad712ae13b7530797e5b2ab77c125bcf530880ac8566ad3a5ac417, 0xd2047081d9a8fff7773d8011bbc0b61a6057fa6f9a1627a3cf321fdd666e8da, 0x2eadef1fd011162138dfb0e0200683a3bc27e1ad12dbfb2b94b32203186e591a, 0x21a05d0434000fb05886112242958d74bae54ed2b6f37ece00b0293322e53253, 0x19732c8f836170ba403a0d379561bc5aa6eaecf21c4fb9fc26cd44bdeba475ea, 0xff30532e9f7305c94c298848cf0d54dba01341a79da4db0f2a975c2e4380372, 0x2afe8d3ea06405c8fcdab50d6d6e55b6faa676cd36e6acb87b3836581b06b46, 0x2fd228d6e4c1a1acaeafc4597d69fa30e56282d8f11d4cbd09c360dccf546f80, 0xc203a0ea25b7f9b4066daccb2928dcfb4d1cc0cd2d14671fab5a7928603c8, 0x17ecb26056f6708cfa3aeb6274c3352d6bae402e4d2414526e4c2a2bc9b8e0b0, 0x2b5745b27a5ba71c7afe5d1bf955c578d1ce3c915f4d30974f225f6f7bad7c8d, 0x1a6eb6c48b529c6a0a166e53fa399fb68e8b414869b13ea713c1a0cab8480c23, 0xac89d6b741aee6c180408d6006f130ed945185ee9a213dfe3c8baa49330ee36, 0x86eca38e64cdf2e252134d79160d437d92537324cab25cd8698c5e92e94632f, 0x2bbe2bc0467c7a4d9d1bf2157cd5cc3ee50f10166a0d442c706d9691ee60b8b0, 0x22c4c3d27515f300d879e8bb85b0447341cb7a816d6fda516cdcf31386998d75, 0x23e31259e8fdc69a23a603b4e5b47a90390966aafbb1f4eaf02f783219acd1b, 0x20c0c0f899d24401bf7084d6d0be314dbb3ec267f87a2e8d3769a1f64b469a81, 0x2daba47175558a5930490cadff1f3deaf100589f676649a3a2fb1dbd9bcfd3c0, 0x1e759b766aa310dc7aba2245608ecaaf4fb90f509cdab694155b47e768af3417, 0x135aafeb5b230e030273e42ba704da43085d0ef96408ea8323e7be8b546643c],
    [0x2b6fd7bc3a3b595c206c43daac752b765a12255c37ab51ae183933737a8b8099, 0x2ca2e70a3d8145f60160984452b26220f303eaf6bf539c8055fe2ab037a64883, 0xb25881ede6015137cdf99b53a8591aa6e0c042a5a8c6a9e6fbcd11a37023cf3, 0x258b19d1bac9e53c3c5cc4c59c87543b0e9b33a5e631fdda56298997a5781a7a, 0xd6e7177ca87aa3326c9420369803583d1a1d8d96adc6acc33a3e58cdd3587d9, 0x23cbecf6d9fd7bdc4c426035908bdeef9c9c7a801667ff2b62e8ead282bbcab1, 0x2841e2ca97eb7de3733f8a6d3299c6038e8b17f9d133ed12efb4dc6d923d804f, 0x2bf228ab9b7490f4b0ce01cbf31bed2ee4a6ddc6d5a00a608ef1c7ebcb5a203a, 0x22eb1fde7a1c175f0c152d5f7f85045961d2b01397db24d9de95ff0507627f0e, 0x100932572c12a0bd1f2ee8c6b0af317dc5191c3bc2a177eee791d6e539e5b237, 0x27e881557b4ec0f1128ef0069c22a6e5ce4fe48f7bc9d9789c48d6948bc24c85, 0x25862853fd1b44c6aa26a414ab4f295aaae0fe4457e0fa0c4bc5dc9fc2972246, 0x3947c7ab7d714f1f8d4503829e2edcd06baa8ba87d5b86354bd7254b841ed64, 0x2676b506a75643609e6b0dd8986b8865a93000fc38eeb1f6cf3b026d6191ed47, 0x1f45ca8395b4868c3b68b11911f52425202fcd2108aaba02230dddca7b36546e, 0x1b5fe89e54f508b5188c8487302834d08095b14c1e0938aa82f9365ca3b2b44e, 0x25826f9ae3904e80f7ded17b954c8989a04a060326ca40371dfa204e02b05eb4, 0x2b5324e42bec45328632622c82644bde941e015946d2d9219dd0b805dbab5c26, 0x25e011cab809208c9447ce75dbf6c90f76c6d50640829b861c2392271a51ee91, 0x58ffecff608099006fd59ff7d75f03a528613b3633d1dde3fcb5d6f239a648c, 0x26f052daeaab76f2ca8e18584b8586ae9a8f591a8b97a673d82d50be943aa00f, 0x15d305bc6e3138c409925caf3968367850c6eed0384e46009d38bae5df81fcc9, 0x16f0c3de9b8a76ff18370cc489da46a9bd962742fcbb0a0ab0aee9d12c3c5fb2, 0x137a4fc5e63da4a366b6edd41e255fc4baa73ba9662ab7d2b69e0b7d4986b562, 0x25a59d3b46f5c8b7a763518797faf55cc4773967c1772b01c7c23f186a75178, 0x13df1d61814fda2e0d26ca861adbfe9b6a92c05bc3afc953cfe008d176be2c30, 0x15b63fe5843c661cb40dd42feb664dbadbb27866e119a28f9ed8d35b537870b0, 0x23352a3a3bae8c2e34359d75bcc9a5d870b69555ddf57948caaf074538044a80, 0x2d223c52d6fbcb0e82e9fef6b9bd7384a2b789c4d9c273ebb35b4efe8e51e75f, 0x1f208f14c51b48c7776faea01878bce6507182ea071505581658173217492863, 0x194984a1a5106ddcb1bce1299b1b043edaf26b85c4afd80cb6785cc5c83b346f],
    [0x2b6fd7bc3a3b595c206c43daac752b765a12255c37ab51ae183933737a8b8099, 0x28bdf0652d4964a6e9ea2faa6ce2d823253364d311762578721f87736aaad803, 0x1183224ea82a68db5fdf6a21052477c8c8ff500e97b8cedc09427cbc02d57e6f, 0xc61d22c912bef8507c6b08cbd36f7cb7979f3b56b36549613794515eb4e02d9, 0x2ee8c7f8684dedbb1c177fa9f2574a20cc4ff3c10562877bcfb0d53c90649b77, 0xf56193999816a0f4b15e38974273b5c5863422b93da9e94f47c5f10351d4705, 0x90b70ecafba579d37d6d211358523ed992e26d5a7752598bbb68b637a59295, 0x2de97266af0468dc5a587231f1b1e3aa2cdd4d1d7208205be90826491f263752, 0x198553fff8aa46adc9af3b38d6c01cc00f1a6594ed0e1a8b8f370965f8a89669, 0x192b3300ef2574b4a7053c24d7dbdea81c04da6f3c803269ee85c22c110782b0, 0x1f4c7a76da30fd0e604d14833d0ceae25eaadfcf937d4ba5a6bd7507b70fcef3, 0x11194b46ea91741f761662d56b64c9d127f2bf36142f681bca579af2e8856cc6, 0x13233cba082bb1579428bd4a19847aef4c5031956805f6e2522e00dc9a92a087, 0x6fc54c9a27cabca0bd75d53cefe2992bf4b744ee1f1e0cf7c254492e584886e, 0x14870645f35e85921f579a47d013cf8812201a133bd14b6f5604f77c10ba8ba, 0x246344f1ccee4dab0e0409bc96fbb618937e6bc629d9b1bb83a669055ee9e210, 0x1e1c72c73d9444d6bc46a7834c66426ce4bb91446e804909153e6bf86511e628, 0x662c514923e41038cfd078fee4bdbe72c8f6e90e5a3cfa51082a1a4f7523754, 0x25c7e06ac250334f38bd664db0bba786d54e9d40e7c104b95989232ba0776db0, 0x1c63774bb6aa72c366712c86792d85668f833b7af35eb91f36176de375fb2522, 0xeef372e915f3263f31e2c3c4d214b4c9aea86fda813ddbe1cb15441881ade05, 0x29db12448c6eb73422accef5a2a3794c7f372c283f37b2b194cbcf09b23b480e, 0x161b72d834fdd269571186b3847084d251f4765a5b9ffaf77fe720319e0dc7c1, 0x2434332138c93a69feb06521af0ef32c08b680bb50eb61398e377447ded461c2, 0x140867fa61caa3dcea10be9b46b76871d983e8a7952e3d1f71aab2f531a85714, 0x1e3877e58d7f25a988f737f229650cdd345c308a37c66366683771f9e249acd0, 0x2e00f80aa5ba054560070a3f21c0bd37e311ce8060a7cc1c64650560c9715088, 0x9673ea23dba537a4a0f6dd66a13df85d8887dc3431666a86730becd72f04fc4, 0x2a05b10d1faf68ab7e607388f7c9b3de54bc151f0b2da02702e471eb5b786a50, 0x2e8fb8bd00af6741fe18ee679ee378e8602ce8bbc429ca9986d016e17b2fb22e, 0x23cf3f042a56c7d2da94772521a21ae6bcb3fd0433f8778cbf68fe1c365c8c08],
    [0x2b6fd7bc3a3b595c206c43daac752b765a12255c37ab51ae183933737a8b8099, 0xd4d295bd6bcb6716dd82907d89b8809a8af69859728773689e073bda41c709b, 0x14f8df38aa9592d59519054d8f0ac2c79b6a1303905a9770731a3a7081b2bcda, 0x27ca9533e2a56a644d35c53fa9cb66187a7c0ef7322168932c330724edbfbd0f, 0x1acea5282de35d35337503c8c8a221fe22bc24d39164850efa9a7acdf1377f07, 0xdde135f69d5ee7253d1cfffdf878b3ea75ca2c56b15907329147969fb120d46, 0x8565cb565140d42d33d5b907a0e23f7af7daf91ea5aff759fd8ca916579ce25, 0x19343a528505b6b303ed193e33810a005abe738057cb00f34c9a3329ca808b, 0x9cd47fc8ac46b3e49d737eb4714d522ce235c1b0feffada0852d8173d4b080a, 0x2b87d075e7fab29849291a7700eae8317cb01676a36c0d2c138257b852732a2f, 0x106694e160db35b2d35998e4ebbd1769c69c448afd1ce6aaa8e1bc1ce53dbf4c, 0x163d91a57022a4734ea17ab01fb85d94622acff6582dcf7e4b46dd0a5d72d823, 0x2b8cbbe66ed1e1d9c5a1361ef0a80599de75573c62d6e3aa718ba233e2594408, 0x305e4c4a93d931f927f0a213cebe1a5a3b258ec726fc912ca59590febd9b6020, 0x26d0c3492063959cd8c3dc0e5c791356b19b9bc6e39b4da13a4d2a612e56356e, 0x2076ca2026d04b98f821b9bd52d64fab129526fc2e626fafcc92d0d2e23a33bd, 0xd89c4483e40c415d266d3c7f2ff6d1d66412132770be71bcf1178849502d231, 0x13671ddf2f49e97410f41ead0e1a80564d862771c7543664bd20762324fafdbc, 0x19694e401d2bd6b6ca4d8929129a85c9e8834e40fd1f6089da9bd69f66f840a1, 0x1a801c574279164c937f3798748bf115f09f56044461771cdfd67c9606f1a170, 0x7359e7661550f4af1bfd7620cedab2b030fb9645b06945a8c166a617423e588, 0xdc31ce178e60f8dd171002e2e5849759d9caefc7dc7a1fc551b677b410c4274, 0x3b7d51b2b8b3390923b28d0f1e181c8378bfd0910f03835a1edce3ded58ffa3, 0x20feaca74003f750c7d517aca7f2c181745a7d26a47051da7209fd1b3ba67aed, 0x7c71a9d84dc8d9b2d223b3302e1804f6d6cde6702ebe991c5c976a4aab0971a, 0x1ff2e7a7045e92d955d0b3a679eb1168aaf735a7cffec5e90fd0e47fc946ee3b, 0x1ccad4ad13abfe58d0a69ea967e9477f20630d928dc93970033796ca8049edd2, 0x1d2277a4c8ac3e7ae945f05461d7a72caeedb456f30c1e12911c8e3dcc3a66b2, 0x2ec2d28dcd7e75e100c13ef572e9e270d251a774f44b7c59df767ca50fe10434, 0x2ea447c02e059970eb92d1fd14b1ecb189dd900b281e67d68b3e742523c6a801, 0x2b4adec5ee014b305fdb460cdb1ae30796202ec0fe11d13c23dfd65703f0434f],
    [0x2b6fd7bc3a3b595c206c43daac752b765a12255c37ab51ae183933737a8b8099, 0x1784bd17cb0965878549fc4b0e1b40bea37668f94d8da890caa7bd27d22cb2fd, 0x149f1d9787366b84b3fc40ed430e96b646eb16901093590e7b68ba3601c364ef, 0xe1161f13b91ea8432e12df3ab58706410da5e6a10ad20b1f62d1c34c09cdfa9, 0x7e6d996431e217b60bc4d3e74aa3c337263f1183c92cc73807d19e59c4e6804, 0x2086834b2a03db22c71e71dcbc89688aa02cc362496e4992be9845f57e8bee9f, 0x1a593864d072783fe6e1ef8ac83665aaadd593b63b3dd3d4919237bf5b2c7106, 0x1570ec833fe8f21ec48539c6ae273c34cae3bfee0acc5578c96cde92b493680, 0x13b62a93db33b6f0e9114d3f2f19c083b397a193f6ef0f5b087f2079c2581a9b, 0x2ab8bd24dd963ee466e2e0c3380cc88a4f82397cf9f7dada2d80ad5ea21db875, 0xcedea082a17bcba725bc9633d2e5e67fcd43650e22b22df9aac3037daeef8e4, 0x5df20d895beb2374b5ed6d81ed5494a6ae0e9c3bc184d7861bffbe7243b616a, 0x1ab529db00143d7038a6e01e23d0e9d56ce89bd34002727061c8e56944e4003f, 0x2548c562cab2de540520c050393f949e10bb8d9ed4c3fc387e21e454f1ac83cc, 0x29042d35cc97955a80eb09f15a15b66f0c4193a58193a080662b6a5e79e68051, 0x685b96bc1e8d70b1a7b70216b5c74a4e5db315dc36faa59eaa39f2e0494ac08, 0x2ddbbc66fe69dd188a2e9c306cf6f7de9faa106756186b82f3fb440dd0b912a6, 0x18c70260e52a67ab417aeea60b5d3f88eaeea2508829ae7ea3c063443cc0945b, 0xfd423845f9f9970561e33fb0f913821e1e3180dbd45815a9238ad515543a634, 0x6715e87f1daa773cab6957c11605b0c6ff2ee937057373dafdc2f284d95b1a9, 0x20af32b63bd2e6aa4adb6d0f474ccd105b78a2dbb269dfbfcd615d4ccda0666a, 0xa4333899e37c411cb633251ea98d8858dd944f73c4378b66fdfa5904ef8d9c2, 0x92b057185e62fb11b22b5f3583d1943d561f827c54936cf20d7106b9416f3dd, 0x1eda5120d5fdf5f2cfc9e303a45a4ac8710bdc7a9c28b5e801eb248f60ae08f6, 0x1282a8b79cc5039edc8852ec1bbd5835f3b8004ccbc9a669f88a331e966db3d1, 0x2335e0bc60883b59b1390d2b3652ed0bef230324e7fdab725a5d4743d5fff8c2, 0x2e23e4d93a4b72ad0551b740879ffb0da4ee65bdc1ab71f8207d2d9da0f26d01, 0x1b06fee7ffca419618d3bb646a203316838a684e7c878024bc058645fad01e55, 0x66ddb3bad4a4b1374fed6b3a88b1bdc812ddf9a6bea1b028735dcf90a77bdbc, 0x280b71aedbbd3761124fe6fad719c6930ce0ef6695938cce777ab77ea3536637, 0x21d130fa258f6e1fe201071b3d0f643832f4aad07a3a983ea00c26890b546e5b],
    [0x2b6fd7bc3a3b595c206c43daac752b765a12255c37ab51ae183933737a8b8099, 0x305f7337dfc2c6591e5b3d53a4783555e1ea91efc44648529448fa3e463333eb, 0x1d69e17e5678ac53a1c046ed0326666c84b909b85e5aa9e34e516d26ab655573, 0x1f5d0bf5a9c458a3c9c9bbe3fe48211a1127a176d4f54547aaf34589bf9128c2, 0x2385bad332ae963b60ae73862cf86c5f723dfd37e56b05918373912d8f9754ad, 0xd68dbe874d206f45efd8724adfd9b10999a7da1226c394c4e7959269a17a79c, 0x27f8bff9822ba76b43b54939686caef37cac685d60efd3bb87b468808b480c1e, 0xf2cbf2fed229b81bf91c08a642730c9633136dcf1e68907c192e34464560b24, 0x27e6783451cd61e229f062e38e360d9d022cc244222ff2128d4901de0c5b3c1b, 0xb0bf852c95f2476ab5280b94660b1d9d2cf5439c34d7b6a928d596b13555f32, 0x2b543c7e1d2f84fac470489446df876c7f64956d82c8897e268cc4e2af130a2c, 0x4367a2851e9b84ece7172ed126f7cfb63d5fb445ea19ef5a31a67517afd2fce, 0x1dc8a2abfce437021fed52e83b1e6708a20e07d84206e4c6038bb9ff36b325a0, 0xb217141d35c2aadebbad8d9a426b52df23d7db7c3c72f0914963046e120d5b, 0x10682c3505cec77ba65f4af68963f3310562527b2bf1c812c04a2eff94d33376, 0x2f3fa61cf4696622abc02bd664be628da8ff5f9b49d93db65af12a0ec0d25593, 0x3798c88da7c1c70322f72888f6fd783585ad279f4cc06029f3bb23f3c32fd3a, 0x154b3f2f885e3d61fa5c27875fc9b03509b9f36a18981b13e1aff4d29b7d23af, 0x45e3caacff06ee391f46ae43cf78a2ba1e2134de0405120228cbad0694d2fdd, 0x21a443268cf1db0a1edc3f7c366de6cbc690e1939658278de9679814a5ad4a30, 0xfa574382520b0170ac21d000d9ab5d2523b5f86758226d49bab96fc1ad9c59b, 0x1b8f07226473c28fc3cf78ffe2f5fb3967b6beeed42866814c648f5d4adf5fb6, 0xdc48483de7d0df83232e5a41cc287618b7957ad2fa3db03556429286ed6a2d8, 0x2327d3dacc8f80fa05d075b7f9b8544356c04f4e600f53d8d4d2d0f147590eef, 0x16a6266bd6ed429272c69aac579c9032d9be7e86973b578f27d5cb8d2f6045da, 0x9eb4e66285aa7cbb62217465768138d73953baf7eb68bcad15b749419255e25, 0x15f3a6b27c8a2ce27e931cb599a0bbaf6042cc6f8d411d2daf1969c02c67f5e1, 0x2727c9236d43b41a34c74c52420674daadfafc76eb313b17fcae0e77ccae7bfa, 0x149bd00eb1da39e22ab0d8dc78d7abff54bd9c13ba38a6a531f696cc993a3f96, 0x13ebcf06a5c9485e1767a124c3e035223eac6be5816041fa077d5cc6fcd10228, 0x22aec7f8873c75702e0c55c1b1529b1290831cb4df73c3ae6441da67c21e8169],
    [0x2b6fd7bc3a3b595c206c43daac752b765a12255c37ab51ae183933737a8b8099, 0x1d45f9fa11307f6de88e220e633519a3ff18d9dd8071a39b38ee29d5910fac47, 0x215ff3e875d70ad4b7aa08800aebf47f83fdd05a246186a8ec09f674ef5aa160, 0x1552de26acf195af643fa2625cbd3e1723284c2cfd05bfbc23495a0cf88aa369, 0x1f9836a1eabee49b2d2e6cb1f1f666753813f5201323d302faae128f08e45168, 0x1f8cf510bcd58b2fe258f3f812dabf08a301a71ed710d4647cd60fdf5beb779b, 0x2c446f645eb661152de44865a3ac149bc20a76447616094884c9b6515ed45674, 0x50a3718e48640cb644bb787fc184aa61f4e44044dc0f3f3006ceba81b8dcaae, 0xb370b71f98dc10706712c7f348474fefe5dd772f6786fe96cce94999cb09fb7, 0x287473939b5c47568612b150cdb25b30808c058b4b5a3633c03af83f7a7e26f2, 0x1f5ec7598f6da577826ac5afcd6ec3721b963562999125d9d356eac51d0d513c, 0xa9850058f74f3196f58585e6fc80ce0405dc510ea89e33eb1a9c87ff91e58b, 0x22227d59d1ffc328aee2ff956f45c3b6adbeb782538809edbb6a1e70f262a23, 0xac7b869caf4e71585f9f567e94b1ee6e0d802ed6af49d30b24d41b1c784e448, 0x6d671ea1fc8bcd0d824e101c3732425de5a4435fae1bcfd1c85f501ca205d43, 0x6cff4c2918d4ce74f4ebde86e5951ad143b09a951d136618cacc9cb40dd5799, 0x2d9f0ee4ed51e979a0f1a582077e8e5f6669f89d79225a7da2687446184347aa, 0x12dc6ad0e0daf28768e85b026179300312feb26584b2a4b50f830499e14f5e06, 0x2f94df6b211d8a8a514facf931d71a3f23e3d9a8a51a11d29c0221fc9873d756, 0x29ee741287f545a19cd02af760d56286c27ab5d4122c001fc297d43db2bd030, 0x7d43ba525c44a894d64b500aca3b68f2e3c2577927390f60181ed36c0df68f, 0x252866633477b3aaa0f9fda731b4dfa0d78905ab39c177ae1f4f76da5d9e5547, 0x2308ec0db73437f83200db8f914733431ebe5149e61cf3afe3e67304c8fa8d44, 0x517e4ee288992d99e59515e91c5be6957e839b8ba8c9c7430fd31eac44c56a2, 0x2ab15d8887615c04e22f1e988b9d8450cddc2cfaf2b582bdb006204a50e596cf, 0x116e33a713748ad93004391adb07d5ca64962c8af2a8835e50eb7e1b6662a557, 0x68150e1248e7ae44ef5619127e8cc28616d7277091afb4c209ddd504923f50f, 0x1e9e3d2964594dd5bc87a93e4bb67e6ad71b037049f90493165954fcd86a1e4e, 0x1751f2e99cf8cf643a5ec6b3cbc81def5aa8679977cbd2779f34f476f9496911, 0x248ef2921bdf968c74dbadcae0db56cb022ca98b983628d7110c724cdae048d6, 0x2fb6d1bd57da1cc3610b201535bd42a2cd405ecb52b28c215237581257354352],
    [0x2b6fd7bc3a3b595c206c43daac752b765a12255c37ab51ae183933737a8b8099, 0xce40ef4d37ae58008a4d1b02e78aa4fec563e8840cc28fd1af61144986866fd, 0x1f94afec8fa62f53e4bb20f756a08236e40e98a346afea85c78280f0ea33e337, 0xf2164352021aaa641a7176ca76674a465b3b728d8af12c7b2a5f9339d6f5e47, 0x1b86c9a7cb8287520b3943987397e8c7a742f3059fe12bea664989ae08d00e5b, 0x11e4db5228177f30bb2a2f96098eaa7ea941229180bed1869a0d0be04cc60b0e, 0x6378bcef2ce91bf24365b51a0970028dda29ebd7da3054a8440207c15eda844, 0x192ef0949ebb3224247a83c74eba36e47252f4dd8c3f20eedaa39484ea78ca65, 0x21c1cae79f5fa8283d7a8c2acb29a4f46a76b8b3f7d51fd93941bdf32d38fed8, 0xfc260daea1f470febcdeb84cc58f03b1100ffe23ab52e88a7832c18b1b13213, 0x1f6f7bc07589916ebe3fee5025672ad9af9a3ab798fd01c6c2228ecca20c395e, 0x197e205923ec11dafeeb697b87ad973ba4a85d9d9d3817c364c3609ff78c18dc, 0x2935c393a884a244b08aa314b2d261c999959d415d00857cd883277d439fc00a, 0x2c639ac544a75088ec7aee01a854471f7b6538d83fc1c7541d9018c0a87b1916, 0x25b2c9c2f413762e843c10e546ced0572e1a30d1a9b2c5c781d24de864ef4973, 0x1d28735cd6da088ff72fe8cd4eadb8bc28268e15a9d754a5eede53d3513e0317, 0x205c309b41e6c8bf2fea4671a502abcebbf0aa33c807369adb9869c0d0b1661b, 0x2e8e8dbf8f9ab3be24fb4e8b95c2188103a384cdbcc2b65fc5b931a730416e0e, 0x20e1291175551be80f70fa6ce6e111ad5403d1765c4bf47f611103fda64b098e, 0xba9120de0cb289db8a951b5d348853a839af34529c972296703db5c217054dd, 0x2898c38f27c64311d90346dfaaf3554ff6b104e56124b35af7cb322402264620, 0x286e3762e815adfe1ce18e59928e04beb43dbdc6d4d1eb52b5741326da3c688e, 0x2d316495c1c92a8ab5fc456dd8e7b1ea97f5cb70e90624d1af3e4bbc18cb75ef, 0xdeb856e2bb0ca11bf197de3dbe8e8cc5dbaac998dcc275cab91acf7af3ff347, 0x247b87e0ea690afabb1beeccffc7c12fb20f31484d684b97302ee67f588d1eed, 0x2003afe0fe29cee7641b7f41a31c8a2fc27bdd619f85a8fe53a4536884d684f9, 0x25d9c2e2d66052c7d5cf3d56c8865d939cba18e0bfac725dc04f468837112253, 0x1a711ba1a3eece6595c4ee4dee4ab3e865dd77e6b58797c3677e1f494d13144, 0x7c74f66ff199856f077f29b06acc03305bb03d7a1beae045e199b9596ac9a31, 0x1a4d513506c6ae66d0e1a077b9e9604ad4359a6cba7738d9721db0ba826fe704, 0x172f82b5caa7f65eb8044ae3faefe81d837e53b8e615c2d46ed02e4036142ecf],
    [0x2b6fd7bc3a3b595c206c43daac752b765a12255c37ab51ae183933737a8b8099, 0x1c81a64c5d581191f40a709788a4fd607c71e461de2ad166b9bcca742e0a9db8, 0x65284960bf09eab2773324ead048c3bec54af7ceba50805e3532a5a11b96b94, 0x234f635b921f9d7a056c0fe63af46afb8b9b5430d81905bfb16ef051369fee7b, 0x1488199577c500214d8d9c4bf6d64db0811d5e69b44f3b86a585d9410f875be5, 0x2237a1388bd8962921cc637d8a4c5d0faa6b5fb138d589db98a508bdf9c225f6, 0x1b89bdbe9e9ab40f2ac20793f4182a7f33ad93e907304fb0440d1e7d40063ed4, 0x20bfe61092f2e5cb0508a73ca1dd8983127a395f6800ccbec4ed56aa95ad8c7f, 0x5acd0c7611cfa9170896d7606a8f5c672883ceb42c2b829c29c8dae08df2ec4, 0x2e3a22fd34491f153094c93bcf17a8e45940e4a1191fcd2d1741ef841681e0a8, 0x26504b2d5b079c4aee6f588f825b8b28c337137e9ac1f945f715b85b5cdae979, 0x201fbd4f4c9cac24b23d8bbf86efe15d86abe8f18838bb542975fa10e9f2a895, 0xb13dc6afd9a8566a90cb50c82f1876fad84ffd092241c028b9ee470cd64cbbd, 0x9c0853fae2070c4ea816a54daecef43a5940c647229be0fd869ef36f23159e, 0x1a926cac03b4e6f41bf021460cb129cb4b20253b3c172a6f2b531d57d7a7d645, 0x2334c0b56015f6c5a9083193b17d225ea2d977932521f5d7e328c3f0baaf7a5a, 0x2cbf73905b5489ed3b0c5763eee04fed6594411a1381d0bd617a208a9e38d208, 0x1e06c4d1e2edd5530f226649871f8fc83b9e7b5708d75bdf6b9a31b963be7bfb, 0x260c2e5e5364bd914ccbfb785d01ab898a2a961daf708f5f3e34bff953b24b00, 0x26689f7259e1061156947b136c0dbd5e8c2c1972b4823f4dcf04df33e95532cd, 0x291df0e62b563da670d44db58d0060e20935852eb699daee6e342b3c59b6d73c, 0x14e05591b9b889b8899134c8079886d87829cfc39538b78b7a6378b30be1c683, 0x2be6bdf824d2cccd56cec6d1953e0f6b3117f6cba035592433b7daca12ed43db, 0x1dbbd7c3c3ca0eaa01cd309dcc57d0c6331814ae9640071cc6bb9483ab6f9a8a, 0x2227b2d0979591731b87cef94237e7068a5c5e03d609e61df240b7f7944e9264, 0x1d351ed4b59e46571e5727529ed92e6ce55aaedb36e3d54cbc6c2a73fc4a2786, 0x2312bb7364e690f64210acaf695e5d8d03a9059b261b9f5bc2fd2dd78ebfe499, 0x1532d3c7fefda9a7e81fc949f72956bd5f6d55bc4be421d27d64847d81cdcbd4, 0x8916c1ca3dc2d21a671ff4989f5f7ae581c2102c172054472cb63e25fd58101, 0x199a3556e4c7a370f0832fd385952688d469177c78a0e77107ee586aeed025ca, 0x4297e87f69747dad1391582ac26a54249d004fbd16bfc50ec12d7e6b95faa92],
    [0x2b6fd7bc3a3b595c206c43daac752b765a12255c37ab51ae183933737a8b8099, 0x63db3a46c3e1e822357db637c8910722b22e531454a1da26f2768f59a8457bf, 0x82793e5ecd44bfe57289068ca1bd6dcb1a9dac086bfec2ce99aba4d04c46b2f, 0xb5214e4d1f2227947a3aa13e7b57a4d85dd94df40e39dbace02df0e7c0eec0f, 0x15fde89fae0bd5593e8f2bea040a6f837a7bfd5c5e13b04514c39eb1ae15624d, 0x27e7e6eea879199109f7a165585ffcb5da626a4d0c39b2681fc7b55402510f1d, 0x82b46075b3da1e178cd6367971caf87a3676229dbc745e031b45136618255db, 0x176668330b14e97d4f77547f3b9f430b7fdcfb1bfccd46fa70839bae63df4872, 0x10104450f5b03a0638bddb9c1d9db41998094de2cd8a8cf7d3f04143122e5a9e, 0x18c84287abb1d81afb7c16b5380aad2edf054867661c07e44b252ed26cc7b68e, 0x4d7f1edeed756ae0598fe4b0ff7edc488b75f0376b1923fdc417fe7df3bae7b, 0x16b3bcf2e5fe28543072f71ef9d83e31887dc632c0c86b4389ee730449207658, 0x2f29c8f376d462946533c1f349391834f2ec826c08eab0eee6a263f759a43797, 0x20d394abb3b23967e223f5b9f0a556ce582128c8ac5193f66f8c959a1efc3344, 0xb207d38d762517ba978fd184ccf152ba1c46333dbd979194b9ff06b27a792a6, 0xfadffe100a5861695b7059f6ad8e0d5426ffe92c2bff0d81825b72f6da517b0, 0x279aebdde647b4118234d886bd169f051ed193b0edcf46f54a8aca2f4d3cdb4c, 0x119f36daffe8b2be75f4e64c32fc2ecd118f319409499fa007819ce95ca2df6e, 0x1242a6c181fe90f95fd6bdb02918b14c7bcef634ee3d02e30bad0caa161b1bb0, 0x13b4546c3da77fdc8779f6ab0d770bcd3cd72d927c72c69fc1dd01de9ead8dc3, 0x888fd59a93f104c423ecc2271c5926305abadf9f458f70ebbbe28a6fc401f71, 0x25a8ff35f85072e4f8ac148e53991882409a73be3156a865cd00ce4f9fd05e39, 0x11ebf2fa3b30212183347f0fe5632e3ac31f93a68a3b8ffb47960b505601a7dd, 0x24e547cf052f879aed9d43e772fbe7809c500603eaf4ee69e41df75d2cdd213a, 0xfc85a22c05e5ea21235ff75ce1128c7bdadfd9fcdf18f1bcb66e5eeb76125e6, 0x2a9f2576a85c827399655ee856b94ee757335582e476846106dbccc7028bf19f, 0x13a5b0372ba5ed8b2718e46b25d797b56a6cb0a2f03c621e8969b371a5d1f2dd, 0x2cf328cd5a7f16316989013b1db59f8e8c148cea1a09bbcbefc464ec3577f253, 0x2c6f8ae3d08a528068b4ff4da059a1a0dc88e311f87a1a9c5ba99738369762f2, 0x2108fe376f8ae97694e36f575eaa0aa0dae306505c70d5a0575f5697daddf530, 0x23a2991e713b01022cbb8d2d3b81cc5b71117d663e3be0f7153757231ad22cb9],
    [0x2b6fd7bc3a3b595c206c43daac752b765a12255c37ab51ae183933737a8b8099, 0x1e9d125fb7c35dfc0064d4351a05731b95b37e5ebee77e1ca055ea754902c75c, 0x119d649d362c0f09efab4076c479c9833ccbc80a2f0da6c362d653ecab381599, 0xb682593d09250dc35e376127d33a34d30ea21f79f3f112066618f947872c35a, 0x16670c641709033c5f1bb409f530b7799d280e7c9025defdbba706d9e1371733, 0x16013d4393fb316871311a22728aa5de989bcd030f2a54ff08fbc7317375e8da, 0x2a7d4518b4393070d22a8d824b75d8a474fef8ee3eae40cacc38d40cb525937a, 0xa2af4ab955f7dc6d09a9c72bbff55d30ca01013651b387523782487fd6bfdb4, 0x4fcc21d258b270458eb662ec8b16deae2c8039d68ccab74e19b4573ae413940, 0xb5547d0028fa903aa9a2cf2eb9ba2d303bfff9ceb1d4070f87cb2821cf684c0, 0x4eb04b4aa22c6ab9e0cd8c331a04aeb1546b58540f460621f2696f453c0e0e3, 0x27757b5fad20eb99a306317b872275532a31ae4ac34dcbf20e80843f2511af23, 0x23c5cd44bdc3e761827ccfffcf09d470a55aba69e7ad0fc83fd2eb7bfff41e67, 0x21bb1a37cc6a1ca1d65febe7d1868754bf85d082215397b8985df2fa8c47c25c, 0x2050602a2f6da4117d3257061d22608527508e58e8a578d00f2c3685f601846c, 0x2a896c598d40d992207040a5f1629dc61549fbb0dba65e33a8cae98ad46afc16, 0xb2f10b968c76b4a1c338057e1c67985cc3f571380db66b1c38ff9f6d630e34a, 0x7a1e6e9dd512b10eb0817b56839e3bb85b736442b50f32e18f07a5ebdf3c191, 0xc0a72a48434504036597a74ce362796f9021d0dc8d318ef086225a55ca1a9f1, 0x28e3e34de5c1de1c85186e7d604e5e4a24ad603b676abbe3674a0ed2d802be72, 0xa6d55bc7826b1e2b03850d677928f501bf4c6398104c009eccbc2b2fc5cbf17, 0x2c042a68d06b5f7110513182d5c54efd6ab0dbbdce57f1eeb5ab12cac26322a4, 0x18cbfbb6607f28f928f1fa2ef21ce8be9d4719a8d7c33a7fd1279b6722f151a3, 0x2d7e6e039f81c66f329b2dc40ad3b116bb9bf4db88bd3e44be39acb676ab36ec, 0x2ba3cf36a0580465928db18f630e47aaef388d04aea7f10ac3c600df5d2108cd, 0x2403116000d75fb1a8bf3d0a18ab068fccc0c149c46a935d91678c45fc948b2b, 0x62b5c358a18921954449fd14b3a2dcf3f2974710e9616b9805f715d7a9f9e50, 0x14307431f749d428d15fa3fc56a517c677c22e0a80bfd0fa2bfa3f35f323e156, 0x2c04854c96aaceae379bc0f7474cd235436186a5f9f01f4d059e0fc83037a57, 0x1ba6107ff34a8cb1ec3b4536325f2845a05b0c4b8da6dc5c0e0327419880b484, 0x1e7b9fcdcabb49b7aadb17219fb4a0bf4da78d4dcdbb6d1437e7fa56e13ff4fe],
    [0x2b6fd7bc3a3b595c206c43daac752b765a12255c37ab51ae183933737a8b8099, 0x26968495cbd99f547d94c82d24b714e3cfea387ae1112be450ef48a93752ac5f, 0x1ddd4f2ebf1e1ee5b8b6715e69df13d58c524c6b0bd5120777b78e26a054b978, 0x1771396e072f342e14fa40e37a4f9e45a385b5badab8a10b8bae6bc325392c75, 0x1334b3e12b51d4e658735203dfe259c022ddc5deac72bfc942bd8970c7d3f31e, 0x2e7aef8fc027f0f4ed42c4ac674ff86a2314b9a88094a214325ae5f7611d3f5d, 0x2f66d8f2e4c63ceff37adcb96812010dec93be84a18b260a659909f18ad00789, 0x1cc80a4e8114c2086b90d7c7f0f33007d33b613444a63823b465939af409705e, 0x4eee4396019744ef67fd43fa3739511a2370f23f80e2b5ebc5c5a1c9655135c, 0x28ba26ef284bc535f288779980dfc0da8530588823a2f83a3d5edb7a5a25afb9, 0x2fd84d8520146a01398ac84f33cfb557ac2850195fee0c5b28d2ee1d629b4d9b, 0xd831e57b1adcb20c227a1adf2a6ab52a0a1cf4104e493c327cbea8897cbffdf, 0x186b1b6b8ac98a038ece2b61971b0c83f28f32e097e28cdcdfb07aa8e685030c, 0x7630c5932b486e74bfccc6d06d6ca99e499c8913a3a1a2ace3f6546696d9975, 0x2ea3fc0c165f38d9aa02eec6a46e19a5854a0bb2584c2d35354e1c814babb896, 0x1c62f3196e53f51fcda6620317b4d088d2132531a7367c8e5793bfdd5dc07395, 0x1f352e27dd80d315a273a3ee1a159f18875744c5169bfdfa5ed6a29113caab02, 0x193d8985e3f9126daaa4ecb2b4fec04425eafd71dafc86ff521d81fcf62cdcce, 0x2271c906b9605c4dd48e925fa831f1267939342ec2a6f2d68dddb62a5241bb94, 0x32817d35a0d57fe0fd10584116d3b5c48ddfd6ebe990e91ff469b1e679b7df6, 0x164540210c18239fd0e4301e0e729018a7f419f438fcf829294179bb2c076221, 0x2de749d2d5c5c9db3652813190e49ecd8ad1d3b3ae308c3c9efb6e98822e8dea, 0x2a562decd5b704192adf41195234f4e1bd8d9d58b4cc48cf57a2ec9dee7ee410, 0xdd5762ff7a8f652831aa96e9c74370e71b2e0fa1ddd1db85427bd2e79f84724, 0x260f24c836dc07efdae65db907fd8390b38f5341faed0fc553cc7c0ad7fa549a, 0x1a9d4050de78961851fd12689cc0f93fdf5278e1430d7295cf620713b01f2901, 0x27d255a40de38041587f907cc4d84a8ab1a5ca07f6abf6d5342248c0df6dc441, 0x2187634627013d30fff1a44ecd3d5a018c06352be5d480bd3146898cc004385a, 0x2e0eed49a09486c41002557ade478e57b8ec175f9ca36fd481536189766291d, 0x1abacf3780a60d304e373bd2f40ff6112b068c0c5d5966a3327c386e480c9181, 0x2839a53cd148fc18db287c3ac9cbefa3a479e414095fe667b74151d2b78c6342],
    [0x2b6fd7bc3a3b595c206c43daac752b765a12255c37ab51ae183933737a8b8099, 0x121ab2b6ab8e2c5ecf89dfc2bda8337d7f52d76cf7a2e444859fa1b714be8f01, 0x23a405c7644f6a9b7106d4ebc99b0f2c6c5543352d391d31a2965478230f2c13, 0x3de1ccb8e26e8dbfaf06a08bf5189bb38e8e5cf181d154fbb0c4afed03d551, 0xd594c3a1903abb67bede24f66447fa6cc8f8696ddbdd54830a32ef205495e43, 0x2d13cfd974b0624734fe4a5127b23dae16f69033c9b1b0d7a8ffcbb55158737, 0x4ad4148506cf6e6d9795ef784c6c1875e322ab0cc3b6380311b19f9441d8f82, 0x5bba1c4d35ea9bdb593e19848c3510f2450abcd24bc392456d97a6e4f18e49e, 0x9236c366e97d741479d565c45311478a3c918e62d52d12c5f54b7366c5bf57d, 0x2a5630fe33c0d5616c41d0953c305e67503306f2ab6942e472ee89cf34e4403f, 0x2458e51f0164821f0ed092a42b94fedaf0d801a9e7baef3ada586ce5e8cd3c64, 0xa3218660ff4767aca5b77aaa3060a4e1fc8f5fcc0fcd6813c9892deefd7e96e, 0x10c628fb41830cad0df1d4045657412e0833451d9f6fb341987afcbb98cac300, 0x365b8f2fc30b7f0e91046966b67e804b88f2e1eb7ec6c132456467e05d179a3, 0xbde78ed9fb95b8dabde79d55c92e119f0ca502be0ed08a0dc381f89ad85cde1, 0x1e98a3f1c8e8f9a35eeac2782615c96e12950e627ba89a9ac0b873797d30107f, 0xc0308caff3a47cc92f51163e05a00bea0517f621a4d69cb9e680c79577542a7, 0xbb209639cdeae029ede39f912e33007334877c0004842f75035a7ee26a5e4d5, 0x13ffc065d98f8ba997a11cab00fea19d1efe62e20f1bd7103de4858e210b011d, 0x24ce589a99dd7149b8a0a25f95e766a44b081e5d475d17b7cec54daa028418e0, 0x2ab971f8aa28d7fb11b7cedc6d85bfb947bd64690e6d6cc0fd9cede6ccfc1e10, 0x1b2e15dd9e25ad8b2506ff8f0286f34d26254d2b4732cab5dbb713d2203ac283, 0x1f1c3559f788fed19f86c71628547cd1d5092b0d30b4be4ea634b744923cea21, 0x1c83b3ff9fa324bc9a5316f0a85a8657123a493a9b0220006ba1100a393919a0, 0x28958a5831727ed80010116885dc7c66a1c245f6fcab56362c986ac87caee035, 0x282c38627758b1648078b241bbe3557375aed2e83f18278ca6c962963297a142, 0xddeead8fcccedced8e4d4376a2bc530466bef45054731d5243454ff4acd04c1, 0xbdb032ee13a67d9c75df4c44570244e4f78e19a039b30f9f12c532e9b0ad601, 0x651ba2f04803d5f77235caf50305de5e55431a6abfac178f524a5a01fb4f1b3, 0x6541fd461b311dfcdc647b2c33e272d9a3733b5ff38c7e0a2cf51a65e22c19, 0x32293b2b6e94545d3606b723f7a3149ff5d997ff1e8097359e0e0eb2444fab4],
    [0x2b6fd7bc3a3b595c206c43daac752b765a12255c37ab51ae183933737a8b8099, 0x1e47d96559f3d9eb6bd2fafe210c31f4a8140b853eab986dc12ee2527613016d, 0x1aaa3fbb3f33fb63d4504fb8ea859f4156ee20b59e198b531546e6891a2497d4, 0x65c97f1a22d2c6561ed6b3e8bb68fbc299fa56e40bbb54d49e02ec33ad6d913, 0x2ccf556ae01de7dbe15ba504437271b8a33651d5249fc5282b8cd38fd23ef378, 0xab4b8237c68daded18da81c5a6bfb657b4d879d4164db2b2e6ee4b854f34933, 0x2c3329b267d11041b788317f56c3fb8a685b69c0f782ab2213d393befc80f0b, 0x22f60f1fbc046baeefcae40d2b7843cd95c8dff7d49e0e18851f7fdacf3a4eb4, 0x1d22dc88706281f80405f66fb60fbe665639969df32efc6e47d33635da644922, 0x1aaf58dbdd1a14018d33f48de1b98e6f7a937d81ae46aa5313e9a6ad886e7f60, 0x6f13d3dd83b99f56b8d840e73d3c695efa8ca7a38a891c9df57fb945b8507de, 0x2d7c3ec573e9cc8350964a20d0a2ec03d2e948a3f8eaab6d520406808d80576b, 0x293a2e55abaf167cedd278dc3d355975bc1f29dc3354310f21f9ce01574b0d23, 0x2682132e373c18a17f78601edeea4f8772240bfb889b3db93b2e8ea10b2270e1, 0x301508db6c1f9710285b1e6e44d46a133310c29c28426d90417d7c21e4f0b20d, 0x1834c2d44e5774a7e63ba311a3896fa595c04c96df216e3f04ed409c2de9b112, 0x76c49e633f12eb93ba03d627acf0c95d1d623b6cb42f773f3a20e02f23120af, 0xfea2b1df3510f6e74dc89be1a061ec7f8255cff0eecea778e1cca99becab586, 0x19c3a8e23b946d64526696670270f49298ee4eee4402888bf2ad3ced11f7ad53, 0x86cbbeae69e83af8d6af50cd4f161f345017a925318acc46be5cca969697042, 0x1a8a851cf400ea4e9b7a51f0bcd5b636e7894d05f3e0faedeba662bf80e901cf, 0x1fb9f1ed4cfe567b8183fb0f9f5edd26e8af56bbae47cfb6fb6a2c5323303797, 0xfd5bdd425e00b499e57e34f19cfae9bf0396e405fcd9b4df234a73d15f96f03, 0x2dd4591301dce89c25a6b690ce98e4cb6c5603505055f6c84e9fb8980cdd3025, 0x11cbe00cf364a4bfa71c70b6a4b180724765a2a4cc0f31035e44cea45c1719b, 0x1919aba9eae5d5cbd57d3851ee4011af47be08e151339d0fe9b32602d1fbb827, 0x6dc27862b0c4f31489bd8c0c6e2a9d8e1c8d52284f4f381b88f6ca94495f798, 0x1911c33355ced9c551e5aadd528bde012e913b283a67667f4f269675ada590a0, 0x2facca82fdc63330a3628ec9435d193a47caea8fd2de6617d601bbad8adb0faa, 0x168bb7d0c7b38df856af9831f4b1da200df248edab92ab41e638e6800c57252e, 0x33864c3cc0a4cc3fc23c51ba07bd1f797a55394f4e0c39ca4dec1dfd6473aec],
    [0x2b6fd7bc3a3b595c206c43daac752b765a12255c37ab51ae183933737a8b8099, 0xc732637dd53a9e2035cb048fb5ac32b68613e0cd12f68a8b8d07fabc738cbc2, 0x2b44e82a5cbaec37e208762b75b37d4ad4bbc4d83192241a4acb22383f26dd06, 0xcf7e6a8815f6122fceeb778851d85155384796be9a1df53639f5d81631a2555, 0x976401c8c12d415f389d4bb64621b71f225619dd93897525be9e8134ab912a4, 0x1a23f2aa5a0ca939496eeceea3d7a9e386f641a248fb689682a8616ea98202d3, 0x1295f50377875eea2b8757bd93e3543b59a727da7874e646cc3ef523ffcb79fd, 0x1f4a65f81b3fe858fee5fe292da8d2594efc08a385f89dc60be97c9c7cbd0032, 0x12e6d92557037dc2fc85c17c4148e9018fca489e90ea096ea7f400c74297a2f7, 0x2f1e3906e4a5b87c714556abde45934dad466c1044609b2c865e5a835667b38, 0x102c4d0a2eb569486e7c6c7893f6491c03626259388fc7d55b519a55e377a921, 0x2c427c75876fd20b334a45663dc28359937368097c46f7b685eb6e3fbda1a6bb, 0x12f1968b1e77f14f0f2e90f5fa44799cf2d5cbb3b77558d1493667db2ae55267, 0xb8730598feb9ee21584d55d5447d8bb6540b84e40c7d4f14b6062ec02ae00c6, 0x2e13857a53b9dd57a62a790b221ecd3d8ac27dd7ddf4f10ec48e680f1a17041b, 0x86f9752b777f6b6260f53770c94056c12f444af68c40c75bf7396dc1ca7ebd5, 0x144d5e3d11651e180a16152b3106f937942d48ee746f217a89db2e410f06e08f, 0x27956794096d302fe3cec23f3cd713e1e4c7ebf7a9599ac1b3734cc032811a03, 0x2464182f248bc3f32e7d5650870a79c371dd8fc8d67034dcfca621a1f1bc596b, 0xa75f1c2e431c46447da58c4b53b5a707030003dd525a6746963b144c9a51803, 0x441eb396ba8329b88880db7d7b29b57e7165262b02108544170278e444e11e4, 0x1c271f16943c48bb48f4e2d178b77e4c31f22355466d641974957a5804e78765, 0x209c46dbafa81cd4c62071ab840fa1f138a8289e87150177ce20c6f9942dff38, 0x3002dc8c48624cf7f6e207ed3dc4656f6c6fd56f260c96c9362714d4cd667726, 0xfcb2bd431b6f99702c0f6b220885e57f93fadf7a8d3a365aeafa0ceb1fb7447, 0x2a74154c3f7dc063f12decedcee953b7e7d3d71dc48f867f72c8a75b5dc7ef62, 0x129ef0b882070816acf093a88c660245a4e58261b307457eb99fd6c697f0ed7f, 0x24f76ebf17e1a43056e1e4767cf4aff954b2f9fde49f05fda6c18ee7d2909471, 0x1d099f0d638efa534bd9c758f9856a7943eff18350feb2d90dd7bffc48e80c16, 0x2c9f441f31d9aea42026c0e7cd8765aed321ad391f4c869d87118b7a1107e94b, 0x7af13e241cfaaec4578b52b9315b5017dad324fd69bf1a6a6aa79ce75b044ad],
    [0x2b6fd7bc3a3b595c206c43daac752b765a12255c37ab51ae183933737a8b8099, 0x255345cb88354e31d381742d0d5b42072662445df9b98a247d617c92f27cd9f1, 0x17e5c7c425cad2fb89e6acb07a2cea4bd5b1cb02fc04fe38dbdb341be1cf7d89, 0x146fa4eb974c8faa9f821f63aca3727479d548d9f663f6934c1f458af3999ad, 0x727942876c6eda2c90f98458ef4f4d6ed010e0562236f1febfaa72bd11a5fff, 0x1bc84a56570ec875efdf985272b5df66c86cfe58a5be052d91787a8e3f8d49a, 0x1053ebe1413b33bc188e06fe047235dd3028615fed58dbd6c1d014980ed7777f, 0x20b12ab6f4bfecc04ee5c75f4108f2d842f004e84437e9093b15542dc26803cd, 0x1ec0cef9e5ffc3472ebeaec671ad6ccd1fc85e2fa7c5e02e619053976eae5d56, 0x2a42e9eca9fcaefc84ca320b72a0415eece1512b0afed7bcf4938985727b633f, 0x1a172b2e81e2559ff3ab9b31a103e77c71b2e617bf7064f7a910803ef7cc9f9a, 0x2f2cb2dcec93e9d768a5e77302b98fe0c291467a8bf3922e270123e45f06bc56, 0x73e947e3b071d91accefd64d9242ecf3516181b583e27222d05ac64e57e61ca, 0x201e11dd656c3292b05c202ea3916c78752b9a796fb97bfdb2fe67a935b761ec, 0x12ba1b074f8b55da42206d4637431163a1aa6c0891681fd604ee17a7b4a4d054, 0x1caf77967696809dd4e470183d00c935860fe2758b85ee6c6b8212eab0bad880, 0x2e2c8e680ddec801ea189dd679d2e16c364bf28a69d7b79cb81842ee2469b8a1, 0x29fa1929e7f6864a6c4856e9cb2dbf44d4c77cca135cee9eae611cb42d1e950, 0xfa23e57bcdb977f185df4258bc1ac55957909e6613086a44a6581cd275a7160, 0x2bd1a5ba49a19dd33ecc36aad236b0e0b4a03942f42a62fe825750889d4a1524, 0x160ac4ad5eec95bc5910faceeb460088ab7d25fa15cb698e9ed17e1612fe2bfc, 0x4c78cf3e48577cedb8cb5245a9607cdc9254ca8a8704f78d18db58f2552b2e3, 0x1e9ef315dfdc99112d0e410fd65fccc9c7ac728617537da3e977d7afde414c61, 0x2b4421616df11dfe94cd2b5500891f07eaf2900bdd8ee8eb42b0175be52be74f, 0x8a13f8dbc82ec943c8ecaae0690bd0a4bd51a9762d670c8d059038d4259744d, 0x14167eea5c641fb122863698bbf6897cbcd778d289c28685417d02e86db36ca0, 0x1b2d84e924984926c742b426b7ccc5841c4bd193d3e05bbd5c5ed5868991741b, 0xa14c4040634221a68633cf4f4622251ca34e42c9ae254eb7d02a7eaf1abc3d, 0x1aae6b2f56d3acc7ed2fa5f310a29d4e54bdb4e5f531f68c59ca5b430e1f3f81, 0x1c6bef1a7a903d4fd215a1754ad8f30011e676e498a3812d4f15d0a8422b35d4, 0x260d34eb550364a018d509e831a281cb5b187033ecb4814ef42f240a5c1ea119],
    [0x2b6fd7bc3a3b595c206c43daac752b765a12255c37ab51ae183933737a8b8099, 0x29455194183fea94109c945206f2c16429d01c0a34919ffcf42ac314a969ba28, 0x11f4f3b6a1a747fc1aa22c66926e6511a4cbf6269f30c62f36f54b580f891a86, 0x2df1cbfe1e9ff79c44eac7909de01dbee45e899e3500bcce8269bfca310c5d39, 0x1e3ed2a6dd4ec05059b8dd11063a93d0b6c48226115d09b7e58d6d0f620be4b, 0x235eade019a1ac892102280841960624b179b82bb21f7a571cfbb8f4cae5434b, 0x1063dc692e42acecc27654967d85f8c3b48760c3b269565f3581c30cecaeb6fc, 0x144c087d0bba6b2651508013332ba01ca36cfa926efb37633cc9423e9b257275, 0x8dc44909d34e4fbeded6e5b8802fcb8ac3c31e0c2a966956ecf0cf4c027eabc, 0xdbb16e5b88711eb895a12babfb81dbedf8de29ce530aff091a3a16f9d363468, 0x2bcf5c9c863de574f3fc6dd7e35b84d333faabe43e1d6cd827ad58061476fbce, 0x13cc6568623778319060d01c7e7780d9ddf3e6fdc11dbd6e0d1daf61c0ca5904, 0x17a2edcf8bf40ac243662fdb41e4156e987fc66e00d5077523caf74b970cecc1, 0x193dcdfd2950a934cc3b92c1b9e826a11e6829cdd6bbf699d702c902c9c8bdf0, 0x1f049cb7d14ebd687ac611414b6186ea76938c1d239f8bbf5f83972b778dde5b, 0x4d9595ab4d18bed55ef3c3fd0cd99e829d8e55b8c101df09c2acda3acca9af5, 0x11a10e1656c16d3c53f889073d9f910945506af2e029aacfd7223cd45b457f23, 0x1c84c1b888ff8d6396ee63866219b3e1d7473ade3c14ceed3c1fdfa44b51edff, 0xf5531ef3a85171c99a9927bd9d1cbe04e84dc94c7ac68c06004d99a391ed06a, 0x6ee08fc691f0b4229dc871b3676f380042f6b7ac1e5344149cd7d64cc9ab46, 0x237628e422a57b51577905847eec949cc0938adcda2e97fc960492898d0c8d4f, 0x4b4e368d0d486b2d4772a9fb808db251fdfaadaabb59a5bcc20c97bfa38ce7b, 0x2a0484d90b9de4de15deca9a4f8795a61a8cea3d5eed0e938bd5c2203fbe45c2, 0x2cfa30139fcfe50e07673bfc8029dfd08f511118dd4a4bf0a77a7bb3e1e894ae, 0x278fd68bb5971f9d8b52b9e924814f3e07af8931796fc2b5d09605eeeba95c3, 0x24ea4315f2dfe3e361e0ec7213e50dd9b25ff8bd654d83f6d26ca562e2a7ddc9, 0x8612599ae2e4a878ecd88d9194ec5ceedd16b40c51e6edae2cc43f5e94a2534, 0x2003edf69a810b8a3eb8208b455fb3a6e04bfdfa7f6198f2a0475312da1da37c, 0x1ed96d9e0748ab37d6984b7be85b6c4342d341113d255cbaca749da545d34981, 0x24947686594e925c8ce4f919309d5ddd789f62d268e7c6340022fe0d45a8b816, 0xa42b268cf646e69a84152d6323e1eb318392a14827ae3241981f6ef34173e],
    [0x2b6fd7bc3a3b595c206c43daac752b765a12255c37ab51ae183933737a8b8099, 0x2c16f80293a1d647de56a4a26abf5cb6840e67570999e804d434ba92326b0758, 0x10003b7c47202671bda6e5bd46c2564c634d600e0fb23f898d73a217eb1f7cbd, 0x8f99c641f5a436daeb9e269146b505771e8d18f847cadd3028c959e39e47f77, 0x174ecd880d0e89617db1a52d076801bbddcc8f63c753467e7e4b7284f9c065c6, 0x124823019c96feb400979fbc9e8b3ea028ba45199a99118e5be4885ea25c594e, 0x1476f2bb8bb265ecee769b8092d9687ce6b822ea2d4fc8d9aa75927be24bd03c, 0x19dac45643cf0ec46184ef121ab7e9a1c03707c7aec4620bccc80ae83d4ceab8, 0x14674e4b8eab3fc1f80cf57e344d0fca2081743241898bcad999dd7939cb9b7d, 0x1ed72b8e2da7a2fd16d8accd8eafb4cbb51c59a9d05d221cc608f74b7230358b, 0x1da5ab440f2cdb9bc079ecdeceb673ecd86b906ffc33509225c6364ebdf4f9d6, 0xc751d0ea79515c1ac0584876431dc1ce6226dd8420077d52dcc644638eb389, 0x6a9dda83669129d53d499be9d18471ccc3decdaa7ddb14c4c19981f7937033d, 0x280a6226e729cc5a5fef6b66266003fb72a99a97e1985f9c1b2f3d6e1c5f4696, 0x277ccb7f226a1920bf5ab883e320f05c6edb580037be022f9a699079c9ea1501, 0x207e4c2a1f9d4bfda41396d244cbc313a5a5755ce9cb8780f6a6cf8ff67b090f, 0xab72e9f2261bc7dacdf730b02c9772d67b34b71c154f06480e2576995ab7fbe, 0x26dc9a65057fde68cbf2b518e47e52c3089085c30015d873da81924ee8117970, 0xee4ec60b28b8ae1bde8ab75521531748078f397b9914ed1d600f94f65edb2cb, 0x26f7aaca92a139c5e2a653e9ebb132aaa385aa192ed9e1702b04f2c89d9bb766, 0x2d2f1c2e5326bf8b3439310ed43a8721d8705e6d1c031af9facfb15f4ff8de85, 0x1fd6ab80e45a94d9ee539f3247f22d8fab16026c5d0126cc5570514599c94b22, 0xf94a3d03ba6eb3cbb84ecbf443474976b4b610b2c7e0be7bd18ec026f26833d, 0x9fda6221cf5e2593d796d7185867ab6576bf2f79813f55b6a1ae9a1fcb3437c, 0x26846396de6a8b113b784a7dfb9c63b0b950a69a20e63634954936f520470063, 0x19e400a2ed9606a0a39041bba22cbbeaa8547c89ca0eb006c614b5d6d1b9e0aa, 0xe2a3a5f42587d60aec0abbbf38902fd54d392c4cf26f8359deeca160061a02e, 0x165836d2e5f94bd9868ae471de1b194fb407c3c27a3b322c956f13789d95fa23, 0x2bba296744ead7cb7fa4e64b0d9854814e303a8a685433053ada126285b12dd2, 0x1c42b83e0bf8cd6e2072b5602d85f5161ba6cc9aa752366791cec9eee1228510, 0x2a8345e521ad75f61773023d905bc873ae8754b28c0273063d4970030cf6afd1],
    [0x2b6fd7bc3a3b595c206c43daac752b765a12255c37ab51ae183933737a8b8099, 0xdc769889e4e60328ced67e231f45e241283d9435602a724dd8d1f8a709ba50b, 0x1002f962d594a9b3a1cf2dfdc940b80a6b67d3fc3148be7c0d11be50e277f1fa, 0x11604b56f285ee9acad757b62e0a8679ec868a468c6715500cb84e72be72c7a6, 0x2cbee753288f68a90a3c4a83783d30862b6e89e21ec3ae112af1b016ee9445ce, 0x2df869ed85aad1cf7a17b58d217df7738c29e7ee5b0d254c1d4976ab71916b6a, 0x52b2ba2fc76a7c40e4eebc062b1c353e2c7af8430a11222e64b8f1c09e57b69, 0x23446fb653ba07d93115d3413ff7c9676f57d1e17a08329c153eb0e89d3e303d, 0x11f1fad8b82ef8c047feb379042297cebe6f2a6d5660e7a993f67fc10e58adff, 0x17af0f2c5f514d29665cde2023d8662f453954101bb66e15ff582604b86147a, 0x11d7ceb7a58360c894abafcafbbb0b08e302ea940d29f5c403971e7a7a014fab, 0x74ad08dcce384bd2df324e56ae0ec65f035aa90479bf25d940ae94f25bcde95, 0xa9e0e2b8db72860fd3308d7982d4c51766d89ccc8939e0087c3fc1e15d53558, 0x10053dd72d3e24c8040482217ea6d61c3e419cbdefe8709bc58951fd2a0711a6, 0xb8feb7949a8116ad1ec2cfe47910318bd5dc9e54ee0caffb08a23e4fa0ea22b, 0x1b3f78f18b178ee8df4bad8cf2fade21d1698ef13f78d3598c44a063fefdda25, 0x15af1e8fd71f0799f8c7dec891c12d89bb687b8f14d0f12b4a52084bd68af74d, 0x147d419b1999d7896f7f2c9ab68937f4e1ddf75ce3615b51e275a33e5fa8fe96, 0x28b7cdada2f2cb2b1ae17064a61f03b36fe64faf9db752b7470da8398a1578e7, 0x2163e931b6d3e6641d34369bb808b3745c1003771dba9dec9bf9d5fe24c43577, 0x1fe3bf03ba1752e0d93486397e28ff2a9350c56abb949f7f6a02575b1436636e, 0x2ec24f69b227550297bee72b056181c91364f54f9cb31e0b14d38fc2ac37f147, 0x98d9ca655e17d9af5fc7933beb8f6b100d78644eeb19c1e7346bbd6077fef4f, 0x2e296e61aafd6d219daefc2b994d52310770830b5767a3c8220c2f5251e4d786, 0x2f6884b2602c50e4cbdfb45ed64863dcb689af3b917fb10dfaf9cfa8307d112c, 0x5e81ed97199a7c32f5844b9e3c48c60dfcae2e703bb19855260479d6556b63, 0x7b3281ec445d3a58654d72a48b86be8a10380910a57602460c91e4efcc812ff, 0x14e55ee2871da3b1e051cb0857adeaefa5e9101d9b5d7623580fa70cdd041385, 0x53f6a1c6bba5a4ce92962a6a23cdf21096b5c1c0652444a52174efaaa6287ac, 0xf55c1add25dc95f9602356a6ad006ec557378a038b09d9f46daf00b359d88e1, 0x302ef214c4c4e78688cfe22c58544d3cb8888bac5512044709e1c56fb3a6a513],
    [0x2b6fd7bc3a3b595c206c43daac752b765a12255c37ab51ae183933737a8b8099, 0x1e97abc82dd29d2284a66edf1d38115a8cf9d2316c79b2262afc5a43487217a, 0x18c844b544ec0da670ba7fcad86b7e4cc3b790c3269507ce0cf608308e63d5f2, 0x27e894e463d2d999c5bb6c29e9f5573603b4e3f55fa4b1eb315b0664794a8897, 0x1ec3f26b1af76185f0de2d894157ddf696e80aaa3661e94163e9106a9fbddd3e, 0x22978d983a255eae6840d50dcf586263d5a0afd5b8eb552f720cc0affc8cf533, 0x1618d7d7b6d7ba2dafd24690ada4cfa7ec3e961f395b9c7fbf7d76d0dd837125, 0x1df2e4ba9ba44ca6f24877919be6d84c97a6f6cc318c7297d608f1aa4f050848, 0x1fa6c7cfaefb71fe88191e62ec1e69611c76c503ca8c6c2b45e0ae286588cacf, 0x2f00266e50bc17514d27873eb92eee8038696ada6decb01a1138f09aaefb625, 0x24b0ef6c8ddd8d74acd34fd2977a27c6e584febb5cc1ed119e43333934a5efa1, 0x2eba590f514eb52770d140bbb2bfd1909fbb0056559a5bb18fbeb72f9bf1c7e5, 0x1c01664f520b12562f93bb93f40874300703ca11b39eb1e8bae9f21944f0c4a6, 0x158c6e1a418426179c9216cf35095705395180c264802302c2b5bdda75b4a4f6, 0x2609db7fe10c939e0289595aad97807442c4ac5b28205bb6fd6ef7bfcb55adaa, 0x68bca148cf00ddb73bcb32b580db9423292a3d0ca547207c281222c5ac64f05, 0x17bcbd81a901026df975e1a27ca02b7db2b6c7daa5dc0fc9a7d71e4210c16715, 0x2dfab84b8b358320cfd6fe1fdaadd8ee01d4658d701376506800ce70020c680c, 0x120819aae37b3d91fc8c0babac388c536f3f091923ca13587c8fc91d2c27a9c7, 0x12313b69bd606ca46c7008f6f4fccf3ddef09743f311adba1200581089985509, 0x11e9b992c04a4ee4586a62142f37868d6535f948e89ebfc54151c61e1fc4378a, 0x5f557dea69dabf8f49032a07a021b292a4cd73e51dc82f9b8e4d96d82569a53, 0xce2bc653061b09a271f64d5ac546f7b2f3a270910f2505ed186e11b0d4eea44, 0x195b61bc0d16c176128158e7463b3e3ee0df476d31cf641e297c8cb9f5d6368f, 0x1d0df7d7da33f468a43a413dfd4e4e188385c6c87bd767486c4a4a6babcda2cc, 0x13904564817a3bf9e98b1a21f1f360e5830764da4a300f059268111b51b0b761, 0xee010fca95f45250a5ce94a89a91fbd64f2c118e2755127a562ebb00fd27ef5, 0x279d86c488716103a7ec21aaf9d2139f72c7f72a18eabfd581ef619e0c3b20b6, 0x11b803d7d692745f2ba754f16d795a2c51bc5576576c244edb6f80cd790dd8d3, 0x3d093d2500c614852a3802e498bdd965dbb993e8d07397b6ccd9c3832a0907b, 0x16652d5f69932fa04272068446046190f9c83f85e9ccbcd36210c5877778f1b8],
    [0x2b6fd7bc3a3b595c206c43daac752b765a12255c37ab51ae183933737a8b8099, 0x2959b7c18c774ae5de1749af01c678a88eb32215afbd962a0561d6d198525e79, 0xc26abdc5e7b095a4e2237c872e90bcbee8a10618572ec9aabe2d7b1a377d6a8, 0x17303e79bb1728eecb88e18d8b7db784ea1a70e4eed67e7f9e6deba761b863ec, 0x8f1351b765587773fc254d4e9c6215178b81698a6e1332bdbb16c5626879b92, 0x24587c5be08773ab2fc2250421c4988b332bfc432cd4e283fc86de3882b7898c, 0x972bc46f752662ec72acc9851fb74ef8fa89a03f2ceea01849ea839f9a80d2a, 0x185382531567193bffc137ce0a17f1f087da191bab36af539545a6929b44697c, 0x2f835f068a500a33e6b44b3a492d8f09228c2d660f84558123e6292e93f906b2, 0x159abee658fae6ddaf7329b5f76a81e713dfff71c438f7e678a5b64365285949, 0x2ceaccfe0874e534eb39a86b066ca9b40e25793df513a2e1a8edeee8398489ec, 0x3e5251b721d2cd67a46b4e7bc90015c36a1134a8ec5d25194d5c7c309c0b029, 0x1018c8b0a3de1c528680503ffa391ed74fb1b89e3dc09b140f7625249f061249, 0x2c0015ecad1833f9b004d902644feebfde2a27e50aee9da314e4e7480a1eb9c0, 0x24feb7104d161a328cdf2dc7c125422879578cce893fccf80e5bb265bfbe2e6c, 0x2944d98697f7ddec78e5165cbaee2bbf0cea6359981a13c27bbd17a60709b7c3, 0x1eb6e93cbfd035bc4f79bd6d32e25c05be28216616655908dd394f8e4beb0c17, 0x15274c4215b3498cece507e5a9c78c728a2927ae24b72d580caca25885158c01, 0x244439d87914ea7af64471c047d1afb3ef3e4d3eb41afc5ff4551e34e0b2e03b, 0x7c60d6d98c85efea799c2d359aebd1cf865015712f99f6f5078776b44455899, 0xb4448d85c58321886de5cad02508cb079e475ad06a5691610848e530cfcabdc, 0x2d385f71e742fc3698c688df7df2ac0cd06bf1eda4db74246d5b3ef234d66603, 0xc3c7aa72581cf03932ea40da64bf0454b26ca6c02b25798eaaa3ee0893f1479, 0x2f4091dafd791bb3cf7089c8e714a34bbc2f5fab044416870a1110bd68da326e, 0x9a9203152f7c7a322535f3c2445dca0be8621df8f0c9bc63a8e3654145b2388, 0xc9944612dd0f8e184d07ec5a44ca257d67514ac9ae15e4f5be49b6c0356915a, 0x465c847c7d119bdefe896bf452c77f78e124ee0bb245270d21ed2bd79e11721, 0x1725856f51139de9097ed3842a414f8e8f63ea6b9e6414e5eb220842583af5bb, 0x276c1b109f88cc834ed8c2e68672a592250c6cbfea5f9bddd0834c5563f9a886, 0x2baf5485e19edbc5772e04a26dea28931742966fdf39011b1c16f2832ffbe3d7, 0x2042b1e0d4a962b95c5dbcc044fa0ec53a00e8ad677a6dc39e36b41a016eb036],
    [0x2b6fd7bc3a3b595c206c43daac752b765a12255c37ab51ae183933737a8b8099, 0x1eb87ed83839103c87434e39c910399447d9c63134d442335fb3e226f84b47b2, 0x80a226b8c5b7ae68105818ce707b2441a0da70860d771bb4d58585ea1a62866, 0x1b038c8d59fa36e1dfd4cca8bff7d38b6161bff01ffaad9e95e3c8591174525b, 0x2ae9c92470f8f4d5ef9b96d9c1c235c46b5ca275d4e08dd1d193abee581d763b, 0x21fb57daf9b4cdf828d74de7723985b3a1b0226d90f563ef1cbc0d9232fe3429, 0x22bfeba5a5a36cd515fa31b9da51ef26a15ad6050bb42853f59ffda0277a99c4, 0x20f3df888830ae894646d1166204af05d9817613c719cda745c09aa141590c02, 0x63b2355acdad1a0032a2f2c7a2ea5f307e3c0321d261c9d7f5fa10934119f28, 0x16de60437f4609882b9eafa6ac6ded955b8225b0985fc4e3983ea640add5028c, 0x2ab849a10d24540498ba4c7ee7afac4ecdb81e0083fb82ef56b91d025e33756, 0x25d60a27489116c12d3fb8af52c877f5691d57ad645946fc4dda53db186e2c50, 0x1b1442dc351aedc7917b1008bbdc4a05d92e4639e7f3af1b7f8c1efc9bbc79c8, 0x2502537d03523d64eacdc4da240a03f6981a89c3f3352ed51b95231d129f6efa, 0x1b786044b15312f04f057fcb32f799f0176237a9e5c70bf309a9860ab90fc724, 0x13aa1eb0dde09e3816e83ef9027b5b12fcb298f469d8523b588d728f6fbcc841, 0x15d72e8723e077bfbcd6fc983a47dc7b580681f0c4c4225c58011bae84f8e1a, 0x1369471512c4227330fa0c25299570db00e2db62554fdaae3159988504703cf4, 0x1b7142089a165fc6d053090f4e2797f7ebd8faf20861604b3ca39ffa78d8fb6, 0x65028c49121ab4bb6dd4b70ceda8065e546521a801b3690d836602df5c07a4e, 0xb0c93a4ca60bd6782440a3ed7ed610e4ae11dbb6d73cbd43bab80e55c0ef062, 0x538fe578ac88710d6dd29a5916aa739c9a9ffcf0f692b1f03d0e890a26a7ae7, 0x2aaf085390a5682425de02d9feca6b1713d016d1682042a9283f70b773eb8388, 0x12d3a3b814c1bbef754dd237698ca763867b464e9a81d9bb031ccc91574878b2, 0x24fb699b2d537bd375a53a4cfca82569a0f7bf3417e1d05c2f0a996c5e85eded, 0x11dff9e9c33f3786c5cceec919601c95a9569a01502843f7d4ea0a7078111ab3, 0x261e407b0cd0b43f5b9e5c229e1372500707db45aca65d3c28421a3583367e4b, 0x2351bf0327b143b2094e336337c156efd6dea461b8c2d23baacb18abdab7454b, 0x1ccff891ab723798b4de646bb5ad6d3e3da5970a79a4f25dee25aee7ddc543d9, 0x476e4b00efa019c97bd3cf545fe7a670aac04ebc418c4937827ca368ed3cbc2, 0xc1e697b8e69d9e6cd15a5b7e2d446038e11a06250f693e21a7ef4d9ee11e53c],
    [0x2b6fd7bc3a3b595c206c43daac752b765a12255c37ab51ae183933737a8b8099, 0x1a09d2b7e646521dd535d06cb8c4de0a1b42910ea066edc264f59380e26cffe9, 0x17cd99a103a4adc1725b545ef98b3cb45b2bc761caf0eca510891356c0f6b6b, 0x6b9bdeed92c495a84a828dd539be8327529a051131bea1a198bd849018a5a8b, 0x8680012993a07914e68e1df59d14f13f130cb8c1099833fc0d2d2d11fb311d3, 0x247b79afdd0a99fa80e82045bf81474ef05d19174b15ddfb6a5eaee7d98a66a7, 0xeace989a2a643839e86a96e5f8a1e99e868ba1becec4171ed39c7bd2aacffc, 0x1537fa1eb45e0b8dca81475c350eb64701fd14bacb0a2948609c9fa1b9d57fac, 0x9ebc426effe66fcd5bbff51e0aa1f60385dbc0c7feb0d9c6f4fe06384456ea0, 0x18467be5d0a4e54aab055cc7dbc4f876d56097c5eec5b27f9a15264059b0eea7, 0x2dcdc0099307f6a54c05fe4f82494e0611c4909ebe6643697f44ac932f533934, 0x3fb3d6990d8e8da405a112fc11f9caa56723a2f6093e1870a866c21d2f3433b, 0x7903dff1ca5b78cd6e95e1284f7a87002f00a81d612f82842bb2af82fb850ab, 0x1ccb172a7b0f1139bc8118dbba6bda8ef321cbdf153a4db826b08ad2450cb8a4, 0x231cbab35a8a0e9dc999dba368451cb41d7456f2cc0481a14a2a7d72f201663f, 0x1185df89f8a40ac6098d898334d0747a5b3d0285d41e2038e38712cd26081dba, 0x2fa064d281be156cf97dda9141c6ac20d0e19d85474475ee359e109bc25a5670, 0xa2114ecb4bb88293eba241bc0fc4a3b375da6aba30cca76e84810154a093044, 0x2bd5621d46d2dcb41cd8f8a22620ef625d6fcee5d6d507250d157b39e469240b, 0x1584517e545411ec6c849b82e0fe8cfe70cd715c5a657d78fe4dfa92cf690d64, 0x612bd1a5329c91f6c6f6c31809951e143c4b5ecf97e2ff8c6b02463fe29ae6e, 0x26d3d348ee74cbe27e5a4745e738151b3f61fbaac3ca334b1c6f0ee18a763294, 0xd69c097ff13bad16f04826fcbc91eb99221410fdabfb06a04c69daf5d0d46ae, 0x19df85abb6034b86a237f3c2a1849853eea70da522f725111bd78831a70f29b2, 0xb67940a72701ac24d81e056c7ad73e3dfad45f6c1147693e8e56ae8759c75f1, 0x2d067334ff4cab892a24cb40846b591176ac47451dbbcde9cac1de766bfd225e, 0x250e8bf6d939e2294f6723c8b2e001809923b7157ba297cfe107b8220cbfc006, 0x106265f59a713f1de605f071461cc7765c6eb2ce12b7494c021e07b5e0b0a121, 0x268591932728ffa445ab526d9cb60f6a1de6c10e244cff633ba59b9bdb957e04, 0x28a264cf3eeeb2d81d4c1532e63e34496b3500da9e62fc9e8070bd5967c5b9f5, 0x2e289ec9d9fb747c577898f2104373a49adc00a51974b8fb1c63793f22414f2d],
    [0x2b6fd7bc3a3b595c206c43daac752b765a12255c37ab51ae183933737a8b8099, 0x292cdc4fac941966f3f2fdcd0b64ced5ebf1766246e1cac45abc40423575d9c0, 0x8f9166b886a64e24bd5cb9f5327942cd66aefe8904bab3ea68f1c93da72ff30, 0x1d9346b55cfdbce62471674a48c93173f222039ca540946df8cad8f1adc4abbc, 0x284445af50c975330a1d48657b764cf7b19c8b5d8cfd72bd8cd1aed812458804, 0xe5caefd895dbae4ac6d9a50ba9da1fccf2e99182801e50def13f656cc52e823, 0x2c549e8a4cd3cb9c925dcf4af0af39cc5d419957e85a1734fbe0cd495b4e6239, 0x2f691c2890ed7ae20244dd12ee9fac94cbcacea42bbd323484146b83beef3964, 0x189c18874e9397abc281643bfa747739e2ab4f51c2ce1c64d8e0f6e0f65f065, 0x2eb6705a02c7da98061b74e10ca594d9fa85f2e8a76991313d2720268f65223d, 0xb8c7b073c91922a0a25ac24de7c5781f5b95c1d29676b097409380c6e4f0d2a, 0x2b254c1c989381315f1b091c685873377c05d1d40e3d20d41f56506756ce5ce3, 0x1f9e68c2a44b9a206a5d1c428c27604031de91570926a23190329781dda14dec, 0x107e82331d1a1db3aa814c0e3854ceef0db0270c842945e09b352cc69e959fdb, 0x17fcb1867c52d50eff04a137a183d3f0dae94b5656c8818b4fe024b7a343dfda, 0x263f802111aadcc99cc129d051f90acde70278801f4dcb1781b744c208b6aa52, 0x27ecf8ec238d8089ba1393e8bacc856c9b4bb554dfa37c89a6d6bcb0a5954c9, 0x2aac3bfa20e64a0c0012512611b5460908616ec7282197ab7345172daf70f421, 0xf822bf90a6d6c7e046af505fa63c58152f880dba55cefc639313d104a99435, 0x1d482f74f7352cc3b1e07f0c4e0ca4685417ff468574b7694f6ff7e9b438323b, 0x9efb3fd5f2af95e1269ca6e40bfdecad8ed10297b2261e7a27cfa076bda8348, 0xd70b85544585d7520bc48048e716d4bacc8a357c3efd735e10376c3a68e58f7, 0x2a96c2d2c57ff7ff8a1fee90d4f30a427c4ee5faad1bc0c7640dd2628d7be337, 0x467014fd75c87da4bc08542150237dc948da566956c03a7734f8aa3d4ce2a0b, 0xb26d2f933b0b528867e896f30e7045af1f496d73a13e58fa1456f4aae1a911c, 0x25d68e5bef9420f64c42a4d44aee71b216ad9054d968dab70bc5eff77556c9f, 0x177f027b0cab57291463ca56e3be569fd5579d89ebf5fd528742f123718a79f, 0x2c5132a44be83d88879ea114016e67092bd966a9ba0364ba501fc05b63887493, 0x14bf8d2e43f7d1338bd93c4350007077fa9ec02ec8e64e03950d17efa18711a8, 0x309414aa73703addc97561bbcecee45d25f19b4591dc6d772fcfe0801a85f30, 0x40ea41587d4a40b935571880dcadf45e722e4273f0f2b32dda53e53e70a7a87],
    [0x2b6fd7bc3a3b595c206c43daac752b765a12255c37ab51ae183933737a8b8099, 0x10b0d37ca26e90c6c139a01ff17861c46ebfb646f348fa543a44fa933dc6c7ef, 0x175da5183f974e9606eb7d7e22cd12ae8e27dbecb9bd3c4c12b3f6ee0f7518f0, 0xed8273a2cea837930a2c09a3f7b24188cf44b7d3b2fe41b13e03bcf26b925c9, 0x1217c887532e425c1502f9fa496dc792acbce0cc79c661b16e4c35009e7d84a6, 0x1903752f1c798c095c24ee714d1b8124a4b4b14d2ee2ff49ff7169ddbcd5b4b1, 0x2803547df88fabd669511738ffb17cff8919c233c053e2b10d01bb398629deaf, 0x4ee5ecf2b925246a34bfeaafc9239f9a5f7277fb1e39131900b432baada6dfd, 0x4c37b33555c362050a25021d96f000d1a1dbc15c9965b2536bc4ef59b52fe8f, 0x1a68530699df479a39fd71d5699898f91c440b61d7138d4c95a353ec2a60f0a4, 0x62492de9362ceef05e663b2e14cfc1065415c4dabdca0d4b49b602228ab9aea, 0xfb5d4b500ecd21e402496acd0c39a0ce6aa93741dd846628387324004b15dc7, 0x1747b55b705c98dbe7c38903fca5260a313fb1ae77984671f6c2fd594bfddafd, 0x2d5a953c65e21d277459d6ac17330055536bc85c49205e6e75cda3a58faf9b2c, 0x12246b22f19de420b776858c17df7b57d3dcb9dc48a34167b9b92a429fd7a403, 0x1133d3224669f992858632b54a9a2f3cae9a86979684bca621d21fb8a7a84dee, 0x42c7ff4112c72f96e2a90a37d0b9755a935d43ada317de49047e45bace9214f, 0x20948256d2882d787bd97ceb71a8f9413ca287382dead6b80ec8511a0f820a94, 0x1a3624b0bd43a88ac7c7de460e246ca48ff71a5a23098ce0a713ed4cd3b42b7b, 0x1df0dccc539de543bb1cc2f5a0747c1a1d39398b7e5d2542ad7df388cb9a2c1b, 0x21dfd5ed89c255e1c584093f98d854f81cfc58f92674fe0fe8dfca8d7c1c70a, 0x2161ac36dd50d34ad7ff8e2af49bbe1088d3318678e3a8d8e0e0b3f430d55d2a, 0x1ed3cc39023610359593bf3e49a58dfbe99ee1afb33acb553bf08012aeac1747, 0x24c8d8944de112708df57b28fd012d576868d998ed87276f7192f8fe82044fbc, 0x183fb7baba3d12e905bb7184ef691982c1dd489844c06e9f7a048793c46a3b9e, 0x67c083da1428ce521951ba41ccef834d99cb41e8b92a4c4cc7ce8dde2de4adc, 0x1a18a9c1c45e95a541ac8dfb96cf2bcb5f93ceedd0135bde9344813b3b5762aa, 0xddf7ac0878db5f4f384ed02d5fc90adf7215e4c3bc57d37f4c27ce4379db9a4, 0x2adab562b4f7991948d9cebbe53a821fa08c96b9100b17a92d2ade4032f490c5, 0x1f36cd6e66832646861d1a44378f81777cee66ee7b66ffa4466e9f9827d3efad, 0x16c514bc623520a3c63d724ff9f8e2128de3a4e93ec26cd60596d2b74cf90df3],
    [0x2b6fd7bc3a3b595c206c43daac752b765a12255c37ab51ae183933737a8b8099, 0x276235e6cd6b4ad073433414a39f872c42ae47d5caff6a0fd2b11db226627d13, 0x288fc36fe0e39bf7f8deb74d5edcc5d6ac0b0e13f715a911a696212c8244cf30, 0x1f6e77bcaf2e10160d53e81aa4bd1fb9620841cd7cdcf5626cd1347714f1790f, 0x2c50c513ccdbe60dd9d14262db601d085beb529f9f9809e734b12cee63ad60b2, 0x1048a932b87cf43cf61b9fe7d5e7824a9c0be2d3d8a6927819a1dbce4de7594b, 0x258802f01620793e2b886ba9978721882e6ede295ab05ad492dfcb56055677d4, 0x1fdefe23f71f9c4e4b5a27bb8c5ef9e97f8a272361f8e6ba93334d5292ab1c4f, 0x1f46592f6d4c77467466a48358c5c195e12db247070f684bb30caf332e050b15, 0x1a0628c0617ed94340450e8b212d19bb6d80e0c336a0c73ebd489718d0245512, 0x362fec7e50a9ebf5cbc1bbd06320a44839f3e1a24c6dcec2cea98dc2ed8958a, 0x1434da4216548b811c240f289b634c70bd0217c2c78d3515981a08f0b4228a56, 0x2a5a298ee338866a51ab733cd5d912aefca609abb924c3b91334ff31968db1a8, 0x2fe35de4f8239cb701957994cb678fa76b45ac2ca62d155abc6bd0063d8477f8, 0xe81871313b59264be15b4d24465ccdfa520f1aae5e34762e48814c151eae20f, 0x1dccfa84663bd168fead0d648a7024cc7f45de299a1552c65c9aee69800a21d, 0xddcb95ed4ccd6154052d0399bbb3eed354d1348a26e7e3e3b767f888b7fc1c1, 0xbdb5ed04d13305bc7abdc9a1f72a3cd3c325a8d5d0b37b3f6bc32f5bf2bc30e, 0x1a3791a5d480f586e225f6a3419d92bc7c93d3c2c941e201aba2db0db9f15d73, 0xab254daa5ccaa47e3ea7ddf885a32e8192d280ff8b96254036f22562e3280af, 0x10d084b180585ee9000d1537f77b4d6d3befba3b2585edb286f9e382257acbd2, 0xe99d44a8d7b3633a48109e8437a866139b546ddc3a43911413edf9c0abed951, 0x1abb36484f304e28d2b406edd5d4232f52246a2642bb87e5e8049639a5a7e48e, 0x1f24c896eadcd0d5f6b1067845c87cae3897a454e6093fc062b6e9fa9dc327db, 0x1f8c613272cb2e0085c3de18d2c0063422bd3a3f7b34ebd39462a54f96690dd9, 0x3f8600811917a21e6893b3147b75a987a7ad447437ad24fa472b3016129f86a, 0x21268f597b84752db51be08a3a6a2a8b1b2284d8b0442b549ee5aaee395c020b, 0x28d3ef83eb355a7d306caba33c70e6e86900ba153ad61f6b8b41ce49daaf52b, 0x25d200e83b7288530086b690322a530ec8b502505f3080a7a46e6e822ac90d2, 0x2a7f6b2aebe3142b2662d473a358fc1bb9d816498b3c2edfff86866e2ac00082, 0x299afa0d0121fc23c6d42fb127eab14f2dd8ecb1ee0c04376b9c732e97a5bb71],
    [0x2b6fd7bc3a3b595c206c43daac752b765a12255c37ab51ae183933737a8b8099, 0x292e5deb4d74974e5601e05fdd2a01a57ccfce1962e3f12ffc47ecf62cccddd5, 0xb7fe07627b2b86b9e560c5c6058f62a23b9cb416af6d749319a5f0a731e9b99, 0x1be04625c4aae2000e9e13a7959133e86b7888be0de9c4bed8431578d87ddbf6, 0xd6b21b10daf3f589d71fb89c727278c0cce92db0d4b058ddb3b23e379fa5c7b, 0x208f14de82a7cdf5b8f2d2c2d77fe963748847574dc8f168c53b1dc68674daed, 0x261b3202a10a92f8f818f5c9b768d891b3fed3ae03b189e5a743b6a2f631210a, 0x21da24b99fc179077a9f8ecd8f3ec7a3a6d4e8c62c3721f5a3f4a12fed074d91, 0xf821357065851a94b6fc9d8d679679a05ca9ca81839c786603a98d92cd3be72, 0x146cf2ddedf7045102306285a0322a26b9b312d8ae0d5638e122fa42221bd203, 0x1f5595159d4bf74c70466f5a5df27f878727f037c6821bd0b4a16b9a1f9e22e1, 0x2e555ab81d4af50711a229745a65dc974ecbbf16d855767d3ee973f261c6958b, 0x9d88eb8fedc6dfcad4ab68ce84e1bf329725e89adb094aac5a25e36f8fa1248, 0x5becaddb686664747af21bf5a5e4ddcb030a20314b123c58dca055cc8f47200, 0x2b5133b32b578393ff342e4ba0169b60ad72d1082fda97c4b696610dcf06bc50, 0x209f4bb986abb2671c9ac555ce282948dd3ec049e67812e9add90f3d83d62346, 0x2986e1901bec371bcf3f2bfadcc34003a901cf3c6c8fce5a86715bfa70dd05d1, 0x36f213f560cda1028bca7da534b8bcebf84ce7b4b275d873de14b03fbb8ecc, 0x220d1b8cdb11be75d11b27932ab7026a54326b5b340ab065e1e4e35d26398677, 0x1fcd7370575ccadc60429c962fcfd8f4b3ec9614c085d1383a943d7e487c4e37, 0x1c49ea5e5ab4635be0cc07f0d40a8f6bf68622bed5daf5c3aae2a2001d19cce4, 0x2c33a36c54999aaa2e54efe70048654f4d8fa8bf7001a8c92d86cce2077c8f26, 0xe70e72a3a3d2e267a2b6af5dfdd55a25435c6f581a46ff5fd461f08d0e9f7dd, 0x6cc0728f4993107d1ad1cc3c083d7f23847df303de20d92b5ec90ff8785e8d1, 0x14adb5029eecd4e65bc58af84408697c8591fc5f6f74b6cb8335e7766a93ed1b, 0x55d9943e138d24cf72d400134a020e38d4ffab9f52f85610b0e5e678b6ef47f, 0x24659e5fd5b9d42642221039b404c0940c7a560dac0e780c59ef19df7fbb1134, 0xe5d9ffb29775cf1d63fc54110f1e384ff63a353331c2935bc061eb0bcef7bf4, 0x231f3394c59385b1e8bfd5709fd95d00e580cdf3e37f8a940c4213d03e6fc636, 0x1d74d876aa5187f518188bece8d3f4510ad7c73380c362ad8252e6c61c4cbe88, 0x22873eaa2fc0f1d24d83ad4e8c090f276cee48919965304fffe237a5c555a0ce],
    [0x2b6fd7bc3a3b595c206c43daac752b765a12255c37ab51ae183933737a8b8099, 0x1cfde7b00570ae56d610b0ecf469c6d5417dae9656a9b36a35c5a72dd38f14a4, 0x1a5111cb0a961ae216f5a1d83ac8da38d6910c2f74475efc1d49a8e494d161e5, 0xcb1846e6664d919ddcd95c78357bf2029b750dd3cf02f4731b4975b4cac64f8, 0x2cf7d663f92d7fb9c20dbd49208ff17b66a023c460eef5837a124bd89e3e607c, 0x203ff2de4108ca7567b52a45ca3100b18c3015afbaa01b951010a46fe7b3a2d6, 0x2abcc429149a29c4015959567a3aeb77ec781847dd62ce295a4cc9487f58d2e, 0x172032b322c260b66b56d12d9f27327bb14859be5cc0238dfcb9d1f3a8a7c424, 0xa0e87895274d1193436e943de47d8ee0909c998fa08a714a375656872fc5702, 0x21eee81004b563924c0089d162a2a0b5047ad60910a5931ba25103364967bd41, 0x19271e4f9e7b8a7f54041ca93fa5005d76e5960bc6d3dc132e1de6b2ea072329, 0x42dc1a29bd582fd08c781efc0e67506afacecfb6997ac871b203cbf71df7120, 0x6b8d08b07a1b58558a9dd55596a67cd72960514db555a0c21c6ba29fbe1d563, 0x116c800fc674c2d6909c1e55568650ca2439ce3fc1ac3a81ef5ad8fe2e9ef30, 0x21b9ef80d19679af571fb185e6c0eaa780bbff382e8bb7ed8bbd342c40aeaf04, 0x1aed5bf3d3bf68f2ec32aaf43e0b43e380244f25666254b23a0321a33a6a5840, 0x276ae4e84f3446a707103550805c52c0510cb0c2e253ec32f2fcba255e90ee3b, 0x677e26ecdb28f20a7d565510f73b24c036bb6ee0636010e6bd2654a15ce49aa, 0x144b679dfe4fdf64adcc33da78a377591421c486df1ac1247f8962762eec6353, 0x2b3e47433e01893ba1416ba93aaa4e39de8ee93f6782e1b1f9d709701d26caeb, 0x21007ada7a8cf858670017f02b6f452abbeea2cff05ba63511a32408bf8c55de, 0x99eb11c109ca74fd589d0647392ff6056a100ae0659e60d0c34b9da3f27365d, 0x256f44ae0dcaebe716aa9569b9373053ba6fa022693bd865017a093e029231e8, 0xb43042d175b108a0e9c553cd99a4d288ba1bd0ab4b2cffc049bd63ee949bc2c, 0x2820651d09922281a40505d755c0951dbc15977d8f3ac9c9bae3929044039a19, 0x7c75e7a56b94c4942d893c12b0e8ba3d7ca49e2435fcafe0ec9fdf4520bb9f8, 0x2407140cad6a6c1d58b3e8bb6f083b3d1ec411228763dc4cecef95c56ef9f801, 0x19f6713df3399cc47648b497f80707e11c962f694d9486a1884214d63b1e2423, 0x126880836b31b2ad4d3941a65eeb12015282959888382bbafb662ffcb146cdc9, 0x10f48b8b5d3586007a9da374301e5246ab668094850451f601316f889073b66, 0x2b35da385f9daebfec630113748adcdbec531e80323e00627efaaa55b9b9e977],
    [0x2b6fd7bc3a3b595c206c43daac752b765a12255c37ab51ae183933737a8b8099, 0x413c2aabbde38d94bf1bba05b680f5fbeb526118e75df7740e03c6497fc2a93, 0x1f5a1a9d111269b8fc9c4bf295f95df0068a17c12544161132d3d06cc6c28e17, 0x212d07b689f77ab9b11d9c58b8eedfbc84a0f3a5c3d011c43558d04096b3c595, 0x7c689aeb8426becf2d38e8e501aaee897c6a9aee5e479b40bf1b84a50fee324, 0x20ad507d2e6bd8caa8b7b879d8a0f22b037fc7784994576a2053e173b8799f6, 0x29a7b5d1df34024626bcd4d01586e1ac5addfc06e8ae7e20e4856705d6921e7d, 0x1cbb5f6c2ab4fe1fb5e81b5bf2c583b7f0f6a3e23f51899071e6feda30610084, 0x1ddfe3794bfaccff166ddf4fed76cb5ce75606b016aea81a4decd295fcb73d6, 0x2b49298bd3a4415198bd2f444de89a1ad359aa90b14caf77d1afb21ce7a50b30, 0x2c10b2b301be57504c8689054ac301f071e6aa6d9f60b9c428fce09a60acae5a, 0x2672e1c103d7a3f8b4f25389d69b884d9bf997dc4caba63c15f4ae73f7db96a3, 0x414ada0c4576f5279952e118e442480aabc46107cfeeda9ef834410483d7716, 0x1c20492095f5c09599f0ca32e7df69be7724356280f799fbe074b29870e67700, 0x3ac96e8e3ea740c8e808309ea5dcc35d62ebe5d72b66c239d5bd07be9523ce9, 0x198f45a7fcf410eb81a12e1b309f0f95abc6608e847c5a68e3c352abf72bc469, 0x1f46d6ace37983cc1f2e530296fef1142b1b074c0eb50521de863159edc3bd7d, 0x95d0ed6735b0fe101e3b7ee0586f060355513c443ddf49071ad90dc1d05e4d9, 0xb912abd1261b825f9e4b3fba00f8250befabfceeb00ceb5d0062b71e99efe2b, 0x2fb34c0ec0486f139c4d6c674da593e2a92dd88b4556ac05151754050bf7870e, 0xd3eba1daa20eb618ce265bb1da966997f4c131b3ff2ddafc0c71fc035a12f51, 0x2364018273755eaac29eaae7e021dc0ee1e87dc603656b32fd3c671b7076c84c, 0x1f05f9d5508343ae4597d0f01502a1660a8e5975a4ccf5b8915712c4e4a782c4, 0x129498a8fb3540f610123f3187faec3fbd0f49e978dab3781e5fb0b117dff678, 0x219e082f6b2eebcf1de778082e847881b9327f906f9b8e27d33e9ff0c10d8482, 0x15b6568d2a70fdae1cc8b0ad01d746ff2fecba144f504261995b8c2f116780eb, 0x16da3ade68d775f641465dfa1468999906f61926e73d3e08da7509b4a78888d, 0x1e0899f2fb6d2385316656b5e8f64867b83dd2800633538a195f6860a750022, 0xd5c49a0cfc9aeafaad6415787b8cfa7bfe62c569b7d69552f4c138b12db2710, 0x58e978c6c092939294d1e723aa97c2e6000a5ca187653b0dc4858ceac8d1d56, 0x188a71a52f914ec4bff04b742907b84cf6e1c57e855aa0097595f86caa7cb23b],
    [0x2b6fd7bc3a3b595c206c43daac752b765a12255c37ab51ae183933737a8b8099, 0x2f3a7566a10cf8d3ea9a794c4adff2f557808fc43b07e76fa4c61431a2063453, 0x9a8e3349ecfd2e871b454f2b2e931d41dff9a96fccaa7ed0cb60361edd4ac48, 0x6a81b30ef222ba0b2fbf14165d46c175989d325caedaf588014d126e7585a96, 0x27c859acb50045e87ed4b70aa9a561acf5fbbc8d0a5215fbf0c5d49063f122be, 0xe784382f4defe97fb1b1053651feaa5002b9d1c2cb522a0ccf949d59ee596e1, 0x179e84bd06bd608d1d8cec72c4d182c13bc7d650ff510cf2b1f4e584eb24872e, 0xf23d189f57b74ae31ab04b76d0cc3f67063ae1ff17a9648de59cc281f54fd1c, 0x1f0d550989ea2cea26108bde473296824340fd2531a2b2c20ac14327b009d62, 0x14a346d622c46513a5da377f73edb803a705ee18f9e447dfed88d5ada5ede42a, 0xa71d5e77eb081c8570d2601466bfbea27f143f1b2c726a343034f015c81ece7, 0x11fbd1c03b7aa3a9f5c607da1c4164f928055cf6e2a1272506df242230e9945e, 0xb5dcbff27d668509bba8add0632d65ee5ddca9bac146648c6caf2bd09d9e46e, 0xca07ef6ebaa5ffd1e6f748cac7192d6470b170355a8517eb697724cc1c3289c, 0xe0dc71090198288bfffa79d2237c162ed9dfb5354c532f2d6369ed73df6374b, 0x191093f164dd4120c06ab66dbaecad8a5284a96ab607afe1b0ad10048ac86920, 0x111d04c083f51a6fdf87412a537f6601076d61f435094ea16946efbfa4893e97, 0x133c5913f25ff5eaa860d0318f6a4b4349fd22f2d53530e5c785b70988a3a88, 0x8875f47d6f518c8c2df51a786bf2207aade284067228f440e7d0307520a56cf, 0xba9f44a107a81cb23fba66f2bc34152728f5f5ca68406649a7efe47c9473f21, 0x542832ab23b6c7a4b547a1066037152a2442e998c5381ba97698413153ba6f1, 0xba1f764367360952942ccb6edf051c8f937906a816641e0d1e9e2ed26906fa8, 0x2e0611fa4ca3985d7bfaf512f21a4081141f4ed0dc4b022834d3cb6cfd8b7ffc, 0xe6f23c0ef6f159dec68341a87830fb864b6c08cb954a14a2500876697897fb7, 0x1a7a2a4a08d87e75f720302bead7ca21c8f7c2ed2debaced9b8b1b2da461cbc, 0x1d8005df48c8565987dbb442b482cae5bfc10ee486ecc5b670ce861345979d1d, 0x28122254823f8926acb7e98f557e796282e5e1271618858e76d49d0886da16f3, 0x2414d4aefc7b4857df681328e68a582d23b2dcffd579a8e6aeed6c61050e05cd, 0x2f710c72d6da19c7d87cbffd55665b472b0265d13e2326a9a33b96e95d3746b6, 0x2e285441d0bed90bb41d6480836850e4d76da8211b04a236dbc7c3c30320c00e, 0x2964901a2b42e9aea1a6593662aeb9e12077a287434bda4ec2012e36a19dc95c]]

/-- starky/src/poseidon_bn128_constants.rs L8441-9594, one round per line -/
def c16 : List (List Nat) := [
    [0x11e27da7b7ef964948a332974d07cceea778bc33aedbcd09de222fa22ad0b101, 0x1f60381b83b44a8fe65a0f4142faaafc5fbf55f79133c5740c53f036a3065b65, 0xfc1e1ac8ad3524ebdbfa45dcc51576548234d0292adfe1cd70a706a1b6dadd8, 0xa40798ead3a12b78bcd8f10bb15cb0c426bbd2282a81dcdc070084ce78b8d76, 0x2dc09d3357051155987ea95594436b6cbf393b0135f51e2f675ea5f462f4a9c5, 0x104b9241d534264532eda181de1a154dd175ee150f349033e46ddc54181da088, 0x127a6208d98f6cd387b802fa44cab2037b3b91f0622f17084f1b8d8ac9d12698, 0x2d075ceebab54341dc02fb1f50d938ce1dfdcde659955a930ec18f8625f86d4d, 0x44fd5c2101a20be2ad923bebe15a477f40c6039a3dd0d7443fe72758042010c, 0x2b302c8511fbd3702b815564c5399acb8a8f2a8eb77f96c7f0849628e09f9bc8, 0x7cbe339db90599455d1eded1e8a870bd302c92a79b1d0f4ee87222cce99e22b, 0x1326749312c6e8bd4ef24c97c809f78ae548394c94c3df2f28ffa8105debe211, 0x54021406b8d1f8c7080e7c245304e4b7a797cd236dad92d929b223f269780e0, 0x5c0e033b589f8ddb23a9d559eaeecf98691a8d018f1279bf406d08f2787cc42, 0x2508a8cdd450f969b61c749d566c9459a16ead4330e35d5415b12eca38584bb1, 0x264dccc02e574ca7e736da25072bd8fbe9909621fd4f4169b2bae8d368ff12d2],
    [0x2a938c2540d63615763ec3ba10c1a26001b9f4bf1418d1092a6b02dda5195db3, 0x254f370b85f58a7e4ab27a6203f3a161c1b070faa3185baf2852a75a865a400c, 0x4801896f1268e5abf83712c7414c8953d6223e51c44cb2dcab0b29c14952ac8, 0x1f7188e4d4f7549437f48fdab22e874e71d0a1f18c30106e3dd2721f99da561f, 0x2b9273701ae02d7b231ce443af1d80bf21d65aea616353336059f755edeb68a0, 0x1597224cb8e905ced829620aacdcfac76e509a0f7bc186fb7060196db93742c6, 0x1d8c5a65288346907cfd57a752372196841e6323e96b39da7fd17a82c5e12716, 0x1b75dce950731f508251b86a7e1a5139920d2bec18798d439f581570c1dc6630, 0x2773a01869bf9ad359d5ad8209b337119ff8deddfac6e4ed2c8fd0158ee8f2ab, 0x1a5d47883f24462610cbe7ad0e9b1b8ae5930bd3b9d4c1ee01984f6226515b7c, 0x19827732059461e2073cd90a09ad54149b1ca5909b96281a47b2d9c398506cfd, 0x297c8bf54b03a6f7ff272465fb881c918551bbe984751f3e9f2b30ea37b1a4f6, 0x1f3da36b1ff5283b078b69f5f3a7d4bab15a3087c5ae8a6dc307eba7722e40e, 0x167ced6e39dd3bd6d655eddd2abe6c68ff247d86f9a6a6bcbd41c98d37b4f132, 0x85d19b0e16f0ac29f32da541445e8a8a6db9a7bf45e741f9f113e7526b8208f, 0x4f365f710e9acd5c1653cc6fd8e93cae2a0d363f1697f3ef829f7435525ea4d],
    [0x128d4f03d03d7097d3a22cdaef6b11f329caf0facbc1a67ba91ff493be9ca715, 0x280210dd41268b133c9fae770b799affd3e66805c6167415aca36eaa02db1021, 0x204ee7c7d4ea06f7ca65faad631e703e0e3dbb59c45b51dcee73b0ca64d45cc2, 0x3042aff09c1765b4fd7365a6dca0f1172666fdc0e549822b03f7388eac33d786, 0x23b78077e751602be7779045861cce3ad318670bb82f33c2939f66d41554c7fc, 0xf351e14bd3a41ad7703cf9a906bad791a627996b935121e6cdc3bf71292cec7, 0xe67b0135f71d48596749f9fa8585c3789441022d45b5b4611a507bd401d0ee4, 0x6e84634966d462bbd68c14ce6ee1662769e43314e0eb85e3d5909f518da9df3, 0x1761112f15f357cf96422bb46796f57c2c7d6da40169b8f5794841e8561fc02b, 0x24387ac57313799c7756999bfac495b8fe377a7385526c8acafe14e5afe039c7, 0x1f3c817cbf94302a06e3526fea7b3218a287a31299f0dd162b66d358cdcf2370, 0xb13cf25c272dae339f1a6f30d43d40f74bc0b938ed73bf16a95ecc3c4996fc9, 0x2c731e62db4cc41c56cd465c4a5e8d5719cb50ae7737044fe4ea859665997f02, 0x961bfea8f9f2a708f3adfc127fdb17ebeb4a5632a8264f17a494c0f0601156b, 0x1eefb99fe9dac9a91963f112dd357ed51f599b9254e5be2c75fd01a58ef7139a, 0x2ff9863fa2a6cae3de116b1d6aa56a8afbd93c70417b8a0593855a1ff574123],
    [0x29655fc030f0a0f6dd2b00caba527938fd0fdf41de89b42eaa16ee598fd031f1, 0x2d9fe744f2beadb989869fc205e9487697f56721beb1ca230b59b82eab27b050, 0x4b4c3f4f1c21d6f389848280e6e006c0552451cedbf5ab96defbf0c2cb9ef92, 0x13a8f3f3d0e87d53b9e959662a069638fbdf077024564bc2a5676f0247e8428e, 0x1875c2e8f43d9660e1a556388fd81741eda7e486cf6243c2fe1752f919859b7f, 0xdb7a917f7efc1d2167724af4ea32b1f6a6cc23c1db5abfad9020dbaf5ba5371, 0x1c56db7a81fc78b94b267dce45a4dba48a4288b99eabd50b1adcf132dd4a7c3, 0x1c9cb5a5d0274d9dc31ca07743d1d7b4d416801d964039851f05678e4be82853, 0x2f786dbf83bdbec66ab656694d5348988b8252b4f5a3f4a452a075f60dfe92a, 0x18b9789a7a68183ad384ecf038429f75814593c0fea1fd25f1001c3bec4488c4, 0x28eb1c34f770ab912b55482a946bdaaa29df2b4c947c29ceb7c8a19e38881d61, 0x26e9c9daab62a9f1d6a4c694bb0c6fec274787a8322343c03f95dfe65ee78e81, 0x111977858879145675ba7f1d70f301294feddb0a802cfa944a75907a4c2ed15, 0x164f34b7c356b9fda1a7d8415fabb683bac61ee70c23573fa72a9d756ba52cf3, 0x163219ca5322b3774e75b1e6f75657e0bbeb76a9e323b7c788a7dd6638b2b3a5, 0x441594f59c65d1a8576b8fbbab4058dc39002a1bc4357084194ce632b9611b2],
    [0x4cb005b4d43931c9c4abc50b639a8e6e20b3ca5afb60b06140cb24b7e4a691e, 0x25eb50203caac17c399c83c674cfceb4e73f227228647f9d220e95d3434a04d2, 0xa605f7fe9e36bb7504523525169c6689cd6d2fd076d7dc11277ee1069316776, 0xab2fe209b9dfc7c9007248cb7ca36b4c14d991ab3b8d04a163eb0e836a46c58, 0xe1459cb5c0add6f90f949965603320b313454e6747af5f399566f5d23461326, 0x45ae1dc4a86d1ec80dc442edce9682a616d26e76013675abb04cca45fce07aa, 0x1834f47c13698cbb916059cbcc88975fe15dd0e9c3319865e08147e4d397a970, 0x2039a1c7335a7e4c7a694b5c5b4e1b44f620960d88933ed5237422ed53189f5c, 0x2a10316f1e66acf32e2adcdc292a350a00d8d5e87ec5dbb66949e3f03350bb3f, 0x1360b91415459da5840edf14826aea05281f973dc18133cee5cbe2761176824a, 0x1505e255267d336a081db6f08a897bf2ba40dacd4ec1d61a990cfaa40f6a5f6b, 0x350e3020ea30d1e779d9813a0b650977adb1842691e8a364c12b8e458f77d33, 0xeebbd4c2b0c9b32b82d96d64b0d221a8dbd06413b607ba69f4b9d42cc12cafb, 0x15b2d4b361df49e3444a2404f7003ee043147cac3d1428711f1226b374d87f8c, 0x29c8338c5cfe98df7fd49f9316b4950814dde9d66535ef624e892c35d380b18e, 0x1d7a2627f55aece0cc81b775580ccde95fd10f112f8ea71a7f8dce7e9ac798e6],
    [0xcd634c27ab406058abda156af456572de2f5492005587aee69c7e5d345d75ed, 0x1303fd48e2656565e7a16ca8e8523131493035a9721d354fc44d7bc59b727adc, 0x52f5a4386ea22f5ff06ffea6179e58617bc908a3dc6b1e7462819c9c9e906ab, 0x77e3bc5ed1c34ba3702fc0a42c45ba5c714a6b0c10ba2b4d8c2a7aa75959293, 0x8d88160882fc8afca6044904e7a984f85c99efcfe147bacb0b7f1046f953d65, 0x1ce3b22dff95f834c7e5b6326029c6bcb4d5ae4b19ef69c40419d1aad796a189, 0xd4fd994dbcc15262df5f3c0c9adfec2683e3effbf506e5309dbd8c2b988ab8e, 0x2ba6be5cd79aff7462511ef5a38a4f8c78c74fd049e6b8657cd044e82abd94b3, 0x9767a2d9dfa39e67c95400400da96a192da6fe5c0f02cdf1b9c39dc8e96864a, 0x10521c723f47dc5fefc35bfe0ce7e33d2e045b2a018e1093662ec84f104c05e, 0x144f09b80346ccfbc0865fa64d220d6dbb7b3e8bbf0363e62fd8ccb457bde1ed, 0x1fc0b9932f74b4db56d09315cc6a8e86205276ca3e3b124963dae83db5ed6baa, 0x776d2d972a004c04a8be7b5f2fcebb02e1a3b1b787036e3514bb8f972c8361e, 0x221d6e560e54eb27665128f37e1c312528be49af3aeecc9d7c56755f076758d6, 0x164189cdfd9833b71c1f8372e999ba27bbd20de62f965ad406d8aee67b88e1fc, 0x1e3e736ecf9745b4abf71a4d863d8b6d03523eaf82d9274526393e103b08a3cb],
    [0x1ff3d30b3286b988f501ec920b1622d2a0ba2cfa9dfc589c53f639d379c10051, 0xa50d9824fcc95a9d22bc08a592b1a6d396cd361940abc3f873a725230083a7e, 0x2db50a1e16be63bb63d42de51689d990d2e4721b93a07edfba28f208965740ed, 0x1282594ff20212e8a581a228fb4405f2ee7d34445566fc9dea011d89b202bb92, 0xade27c077951cd335ff789b7b4d63ff5d0bceaecc46dccefe0680c0ec6ef09b, 0x27374adf1b38ac62d078fa4e713692be324ca24f2ee43e24eb62adce2f3e67e3, 0x2eff75fa36e8716c9b6ac0acb78da92970cf7aca6a0ec3b37d86e97538242e11, 0x1a28225582a1edd464784b11ec7eff190fae33a61a783b845327642e82fae68e, 0xe1113e81de1bcf204e51a8cc3f200047f3d8d85704c44f5f5ac6ee862c9f439, 0x210575d20f3c2816b807074e72a672a50738ed0c4fa09b6f966223903a479f5c, 0x21e897f749c84ac2faffa9e264ac61b983f03bf9f337bdba4dc48c5971a14351, 0x1a5687dcbbac62972aed85c50e70cbeb50193d831c0790ee7bbcde7d9738a66a, 0x4105499d5cfeaf115fe0a40d742844e806b107296b306c4d556d2f244e49577, 0x1af9497a7280e1414956e80f4f072e2f26b50a06876967cdd57aece720c6be48, 0x2a0e2d3eec6259b7ce7e0eb1667e8ed0c16cdbfa2247b8bc7e308ee32e2c6031, 0x2d7c986d3d3d3be8c70105e48492160ef85389f1e31dbc8814b0cd3e84ac5ed1],
    [0x251d1231e763979238b7df4a8c0f5019271de5e4389e84c09e5a596d4e1e22bb, 0x263b8dc03ac7d253f5cb7b8bd922a290675babed6364ae12cfa1fab8c56c37ec, 0x7c59c31f979dba930b94c897ce7016c9ddfc527a696786b7e5e1c1938a2c28f, 0x9f47f021fa65de6b54e751dd5a4bf917bd7574e071c7bb31bf1a4e63af2150, 0x1c160043dcff2330ce441d49f2804832969f2731383e524c8e7a9813f741ddee, 0xc5b6896687f066b9cb23f21b32c269092cd6c711dbe66bfde09858735cb837c, 0x23acbd7f928bbe5b72a7ec442e6684c8f0d50cf823f02804c7850933b9b70cf0, 0xe8ae8a1d1141dc07829413847ca857105e5189a65df9ac40ead4cafc21d7ddf, 0x2eca0989f9ab916d07ab296a0224fda36a0bc7a5abd571f3368054da7795e302, 0x2c76ceb7d040b4e58fe06b7b0fe83ea88b7b4cf376296771ec15d12237cd8f24, 0xc53afd1b381167d73d14ab7db8ea41b9335cec4194b105aab7e0060ee1e3044, 0xc36629562a7dc67e58cc15bfdce2392b3a1673602e970f174cd6c6b14555322, 0x52d66b614253ade8f74000275db8525f88cb7a71b14df9d8aa4ecf26f4c9bd1, 0xde6ba1409046058d8320fd0ebf9fc5275f837ee5dec27963db414509f608f9c, 0x109ae0524afc2b1187e88c2fa3a16f6388568b7f8bdbc4b399fc00a257bc1b4a, 0xb13e5f2c901b454ca49bec29ffcb5da3e13fe237ce86ededc17da40b9045053],
    [0xc9a986af2ad58483b553e95c68bbb3b45829ef6e4e7a4ab85f1728209ec059b, 0x93a4e1fc46b86a210890e741a14ffe41249eb0b0008264ea6dc319a0735cca, 0x1bea7e52a3aca2937549923dfb7e35fcdf8f5c81227637b3015ed1ba712657a, 0x11e88dc0b5900bd29542fbc23832e749bc9aab6347f0bf97cd3a36c6308fd596, 0x138741f5ecbf395997f21f212e76366491f0f58ec195200f1033855ceba4302d, 0x2447012a946927a4240b4713db8d27e130e419df4fbb4d68a1e0f1b95dd366d1, 0x276193a782f6de5b903945371e5341b9e5dcace04b9768e67be9830a2f674d9, 0xdf9bd68c4fc32c8c064f6c47d517b13888677c985d3ef1f1c49fb880ded7bca, 0x29091c18613963c6cba4f4c0def50fce1cab647a8901957ee2a55305c2b0f8c1, 0xb78f8ecc6577966fed47ee607e25f21b41fd67a5416de3641283f2fe825c959, 0x2e8f059c9b78f62411b017f87e900fd70c8036be1769c5344eea4159c62b6b3a, 0x3e34c2876a83413029cb7018f657b52ac287ba351f2521738ad7d309d1b6732, 0x13a1f660a87557cecf01b505c1a47fcdd6b52c5f05a1ec4262db308ce86f6b2c, 0x10e9a5996f8e3390b6b786102cad914520a8e93e7ed551b48f3245687f14d35, 0xbdbee9846a8d67cd9d54f0433279044d85076041b07c3e224b38d208ff48c4d, 0x2381dfdd9bc337d5d6fb861e16ca28d117d586d16d5eeeb7419a661c782c1f8a],
    [0xb856bd8fdd6ebb7f0f1ded0ef19204691e1c3781f8a9c4f58511f1fa484fcc6, 0x16ec15959be8357513caa8a3fef0b2fc10b1696b81519b0a2cfc18c913178b70, 0x1943d70c0ec13c9142659121156a773f4146d548cdfd42e40a215b1659486e31, 0x29e5268ac796d26efbc2cb4f98e2c2a01effacb1501b8582ccaf1e311af2edb2, 0xfd72d28e75be53d626937f75af22f744ea1b7dcffff94c866f3da8a8978e4fe, 0x19ce9f98a369869ec45bfecb1f112a5f7062fcd6c75dafce902ac70ccc0ce370, 0x8a4d149a8a27a2170bc9ce670438eea64d211d3a97c702c1b01dbd3bd5e91ff, 0x19150be38fa5e5fe4de7ebf98d59fc9af1abaa13f5a068cb716002f3a6983910, 0x23c45261101440def1c0c23ee7aaf5d8b15ee7bf31ff7374ab808374d8daf697, 0x204a9542c690fe338feab653e9a46aacebaf2df53e4e905e896414cb5a0cb126, 0x128efd4c6254cd03c21b21913ce52665facd0e9c46f465c51a458124723adf10, 0x305becd1cba07fb742c9528e4b9276d871b1815afaaf6218cb0e758aae5ece7f, 0xbb14b69696ffb4a46fb91301af32682fee9a391a5372ad19f3a4e320bfac6a0, 0x2f981d8eec9950e39c6fed8079fe44a2f256e7e686a60cb754bf183fc3aede0a, 0x2e38c6f6a7489a54ed982c483a2a7951eb3d0b28e48ddf8b57d2969f78369337, 0x1bd7086eb7150c0dce1beba39a67cbade72b8b72e1c1bb6f0ddb51c13ee583cd],
    [0x1c8b437f2be3e61671e6b62fb698e8af1872031196a43ffe76d1527b2315b461, 0x2b91c7a78289a7c43e1635e8eecd50ba4c9669431f10243a65ccae6031566fc1, 0xbdf989e7dddd8d9451c4561ca77ba707b738f9cdbff5d15c110ee7471370f83, 0xad1a3217e86645a6cff1a4d86ca1f19afe85a45e74912d616a4d2b430bbd479, 0x256ff8d3f524e4ea685780448f2f8c55b5925342f08f944ac78d4acead07aa08, 0x209d7ab297f5a31258207d3ceda7b2e121683d20ae561c6d460c11ebfb1b6b01, 0x9afce8ac2c2cf3aff6002441b98ea52fc86d3ec411216e3d669b55ce5b8bf52, 0x29f82b1ec02e68c25099f0104815897e33ed9c26dcff3b2c89e6a3471222c934, 0x3cdf7f8fb015f6861322f7adc221ada280021197bdb71f800ceef89ed021dd2, 0x27eb263dbf7ceac824d85f2a75380469227033dd02153365636df044d8cb0b61, 0x1628cf084280bc149a9e3ccbfc5bd08722101ae4a043d33b2f98ae76a9d55984, 0x2b168bfb1e6c4ced6a44fdd5618617dcb8e9c4dad7b04c4a8955209f1b61ab93, 0x57de07094dca307236a6a8ccb3f1720778549057aeb7a7daf8a463ba18c85ff, 0xfb079650d5ee3f78603c60e8b545313be5e7f7d6c1a6103fd79f100ac8ca101, 0x18d976ed9d44fb7437320b91d3295c8e336e7b402659149b2cabaeb272fb06bd, 0x1edfbbef180142c47c4c7f3ad1e2cc81bd020abfccb432ee327caa22e93ff45f],
    [0x2510fbda0c1b8256290a2ad3b4519c815f0397bb8c85505af672aeb7da1f925a, 0x14783ce9bd49860f364d0e46defa666d36138dc406255b9200904fc060cf0424, 0x100e00477369c0c6778fe65369744816331bfe377db33e66f63ace31e3b56857, 0x1aea93b51726a8d70439ddfb7e2f8774bde996b72f9cb00cc3d7f2ee2e0c45c3, 0xb14c0df6b2222d977213161401229763a551b889694dfd30e80df7e6f76cb49, 0xa643ba72531a192b1ef9c8274ba8eab73fb1a64c3951b672729c60eecac354d, 0xc36a12c83a445a6979b13a16b87a12bcc635ced8c8421ef9a8cb2839f396b02, 0x25cb792acf147080d3a3c2e87f729c5ebec1c43898e222fd0e50a951897d5d39, 0x1e1064f65448355486dbfa2c2c83579fef6431deac35046fb277b5885b09bf99, 0x26440ee4fc4c477d379980c1834a3b2f3b261d7ed7b913e2950676ed20f87854, 0x300acf3e9a901b9c681b43a6ea7b482cbfc4495dd5125247d4c9b2ab843aafc0, 0xd27833da8adcc215d9a530696c52693b004de152c6471945ca7a1701c3849cb, 0x1c4e8f6024bb796333f853462a295e0cc16a6098572ef58d159a528cf886aae6, 0xdb38e1071218ef0ee5d77ac780dceaadf1cf79dc9f24d2f3c9d58412b1a5939, 0xf8a423d040aef0eddd6efc469f4dd9ddd7fe591a4aee3ae3906da7a77f8bc22, 0x9da570d55e2f64c94e3b2e7a2e255f059dd362f796a69142966756fad8590c1],
    [0xd7cd5c265cfb5b01a59e4448c67c7addbc2c09b25f078b23c520d78af40057e, 0x2c9c47bc4c332aac15ac68bdb464ae193a745c1351c7d1230b261fa40b95df69, 0x1ab135f3c81fc395a7b94e0b9115359101ec75e76adfa14529759393a1789c8a, 0x30521d4082f58b8f3a12b7c8e41d1fd968284acf12143d85907ec782d3dfaf9c, 0x1b90102210279a42b7f8f26c7bd068dd82b76cd3fa2f330145698a11f5ed996d, 0x2e9ac434179029826cdbc624b3208030d4f0b265e4a8e1c70b89513103398096, 0x2784c3d71d125586185496e3fc7c369996e700ad9783b23f41fb483cdf8eee37, 0x25305428921f6e34da2ab05c3b762268ed1b1bc3f06acdd1dd5e32691e62ba8, 0x1d3006e6c5725e17b5828b5b5a23716f9a6d0a4c867fed2cc2543dc0ac99daa9, 0x168767323e5097bb2fe6682bf6ac8bb5b8f9af071ff2602564739988a3a6f0bc, 0xa5d80b200e7ee00500f5268dc319e00b797d0ad358989a15d8af551421e1bd7, 0x25dbb5423ee2a7d7861f9982f522b0c3aae6dcfd0e90508cb6550f724d7b8282, 0x25e1b972aa7576ff000acf7ee101175d1d1ef18264415d4fc9f4c5c3362ab026, 0x27a9c670e696ec5287b8b606a5c231ae0fe3cdb764e2ef99ad255231b98500ff, 0x260d6606a1db4854bb358fa415ce13ce114316d871a7a2b90d112ca2eb7bdf05, 0x2397a374f84a29a5ad3798bbce567eb631730c745a7d389e654208eececb28f9],
    [0x11ee1c616304dccf020f88f6a48fa4072126e64e2796ffba89dd93b3a91f1f2e, 0x55ae011520b4ec5b5a77d3b5f377a252ee98781a8c2944d2bf0ae1867ef9215, 0x17007f74a2fe2b85581af879d136d587cbe18e9a9c3ba1ac01c50cfa2fb8ed4b, 0x214ac964b34b210e03297fecfc88f4d06a85fcf0f15e380f948b15fa1304ec1a, 0x1c2146ea153de11fa480b444285fdd1cda53cc2728a796c375c47c2e2d574042, 0xca0af024d983aea8ff6340dee9ec828dd798762c18f06bda92259b3c158076b, 0x12f82ce9da76870a65735548988e6e0af180c6d4b5d98c5ae1ab86c055ca6e8, 0x255f614a333b1375e92526e39d3763fa78f13e535f7eca2a2a7b97ca0d44cf6c, 0xd0354ad322f5e1dffa7aaeec44429ffc89e4df6081c049b7ed3d3de082e7b92, 0x39f496e8bf76be9faff69cf331a848e9280eda0326d5a191311b5dafc27eba0, 0x1b0b0e8dd862523da0903ccbd518edc5a129517fa698941fdb0925ff03cf5794, 0x221b67c9b923277387b91fd41c7654d37ceb937ee692fbec3afe6eaacf2eb6b0, 0x125249ba3c9ac4c59c1dcdaa6de29ab9ad1480f8b3f020e468608f65bec51157, 0x264e9390b7b2787c4ae35d9e35360d7807e3414b4077b533b85381811d1e730, 0x1a8dfa17839af5cdac40ac89c5ff2347e70c17706e32688cf7b18e09d19b752d, 0x2ddb274e22f13d1e9c186eb710c2b3cf7bb0378ce46226c1bca058f802e1da5],
    [0x1ed91d70a1e0e229d8566bbcaaf63b0aaa3236dc72dc772ffb5264c340f945ce, 0x258d9714748ca3bad62b1fc9bedccae02f8861640906580d683f21131c5205ba, 0x28094fb0c9ce3fa37073de7a1261bf0f3e70f6338fd598edaef57849297af20b, 0x1b268245960a242d8d60f4830928fd10b2bd9b27d8a731dfdf69475603e4779, 0x1ccdc2c48249496818618873ace0bbf4ab3a3f2f6497f939be73330ad18bdd6a, 0x10d7b6fd7c71bab6887f51ec5639a447682d7fd6ba710e8fb14f81ed72c71f6b, 0x14a136a1e4827d707dacc928f8bd5234cc327c8a3e4ba6000c6db5ee3b125757, 0x2991208842feb5c9b11c6180db57f479c3289c9bbf2b6d5e639b14d77cc25858, 0x864276f06cf50500d51cc2d6eedca092f1efd1e35717c91b5181c66eab3485e, 0x1da1115c035901d42d512b03bc2962d2f3de504caec08f18437c90363a5cd18, 0xce4c61522cf118b66edd2dddf683b407fdd1d00213f2debf9963b5a8a297613, 0x22822be14736c770dd111018ad3a4818979da22eb522bb3ee4b3ebf4f94c0138, 0x2488c2ef3cecdf980e826af298af3b81ced49000d09ef6cceee194c13f3a44f, 0x22b3bd43bd130c0e2e989fd0633e352805ea72c21441ddb14fa2a4d7ff5b5ebd, 0xffea11d900b5c13cd8e4632e92d28e55f4b02b9ae182eb262d9fc054c592acf, 0x14acdc065935230efe80adbb43ba56e4815cc53e1ebbfd39004294d9e376721e],
    [0x15fc1e7cb819924b6faea51fc1adec10cd1e3adac0d0a32460a0d4a95a03c6a1, 0x547d1912834376f0035790ee7f36ab73c9c8f41e1c4fbcd7739b4c767622c51, 0x135f9f4c16f97545b9cdb5ceba5acb9a4e52ae255e2a69e22b31145737898099, 0x8ce4af40d7de598c564f0c38c6620eddc9fed826c4060aa6c28f0edb3345e83, 0x21d6a6d971259296ed9b72872104b340cedb9119c4774b5b08ab4bad29c161e7, 0x2abc622ac35f50241f3652aa962d4b045c8ce1b4d3a77c51a5cae9995c6eeeb4, 0x2545b28d54fdcebe42f8a4562de1061eb216272889536260d5f32decdbc4c82d, 0x2854260e63dc45d22afd22d8c9fd8c22e1da68f4173a4028bb885bf7fbb4ade2, 0x95d54e568987ae7c379dce46d678537a26d61558a370609f491cfe778e8fb9c, 0x2ac03c440c8ae0f753a4f633e704bb41f8c751cc463b91976dc63157057cf8d2, 0xce597700fa4ef07ccefd26ea346c30618eb42bf9a4b7d791a957736798970be, 0x2c13a4027f4153b3680a29b7268e1eaf78ddeef9f8d1ac0866595cd9503b836, 0x21a643839be351a4f38fbbb173b5b0eb5ecac4f78b77f6830da680ef5aba11c2, 0x53b07c71cd864b2113abd0705fdf242cf3ca016b2ce545cd1877ab44ba35cca, 0x1889c70502e3edfb3f20c8b32fbedaad51fc6ad1caa14755c7edde52e1d4ba39, 0x16866b664aa3f628ce9e1a79887af71ff1bf20d4df6e707d51e05fec7b8edf61],
    [0xab47c201ad315c7220412e1c304b812546d4a3d84d0ff71c7a57018e7dc7834, 0x577bfc93b1ab50ec622257ceedb3d2f4a5486002f7581c9ff3cd22f3a5ddb65, 0x7900aa352bf959e718e5284a4485f241a74a0bb7f730166c297e448732d6ccb, 0x2635df956b7df3f7de298ce9e18d310907e65c1c96502c693d1be9554bab45f9, 0x2e7115f1d6bb75fd5adfc872613922aa172fad9a29483b4872e5fd21c8374306, 0x28e330b6e413acf334dbeaf1969d566977dca676b4618ac27a530b6c859e5728, 0x27e821c205286813e130ad991acbe2c71de552ceb2cc34ee727666f936b0e82e, 0x8222684d80154930f962ddf78b2c56568a59e5d9da21ae8f063adacc9c2c38b, 0xffb7cc3c05ed4a3084dbd743112c05f254fcf9b593abdb82e25dfc5b4db8fda, 0xd6e11d9b51ef8fa12b034fd87068fdc22f0a4a3f793dc6c9662eb9eb915d279, 0x2c5d6dde18d28b08d919f3981e5f27a99f2c10d9af52677d244ccf6480c6960c, 0x10582dfc5f5399c4c952550128efee21169a4727ed9e1c140b9a22db6ecbc0f9, 0x1c58fda68ba74bd534d519006cae71804c2e6074aba61d95f7d8ac84a3def0bf, 0x271044c8d54e1a643dc46ddb909ff4078e9534e8d23a8c2a1916c9c5c2b1d8cc, 0x186c5e24015fb0b6a140d7f5ecec132b14b85966768ce1b39c20365cd3f5d335, 0x1ef5281243bd23e1a1d3f0eaa8653e2a642556af81664859c816c5f69b1365ad],
    [0xe9af53215e2364935a0272589b5c3b0c80af154cfa6cf64969885d37cfa68b3, 0xc0a5c9bf118a07540485a024f1cf7c7cf0688827f6c1d6d93f6315c62a02337, 0x2752ea3cdf410169a2b9f7d940b9301f855cb888ff55dca8d5fa0f14ccfb4c6, 0x1f484d4e14af3b11cd257eb79fc52785fdcd8ff152dc56dc9f822475289e3d66, 0x18a42e21ac35ebf3034a6b7e836af6ba99686bc07b1ee828fd18ce264f98af14, 0x17bc4fcfe167ed740800167e4d386431ef1bdf24c6128a964c027aaf87922fa8, 0x2fc3b7b410acae015c637749d9fe90d89402b6b50c9d844775316c204bb4a3bc, 0x23050b3666768fa91186ced8876f0c35998af3ee48ffb141b841a792151e8e18, 0x91bb332b35d6e464789951159003f6882fc864a87bf52899711e84d7a696e7b, 0x2ee7bf6ceadb5749612d3f3237b181d839b32c66b51c3e0e518d6196e3fb1ad9, 0xe5037b387cddecb84346cb5c04ba1c9a7600253c75f28d14c938916803ca018, 0x1556d870d39bb506dbb69cdf14cc083080b8d81b1450048090cadd910ec7397e, 0x21994dd012c107a165f93ad7e28bcab73468645266ce123640cfaa8330db37eb, 0x2da94256d843094dd9bdbc75b6c88634cdaa76e6d2bb2c7a4b9c23260e28144e, 0xbe0a92edc48db09808d50a03956b3e847dda5481fae1dfd077d7821d9b537b1, 0x1d332c7d075cc815dd316307189d93e14f0bb9e201638579cef3fa74568b662e],
    [0x15a8d58dd7b443b1e047e330b99eb9007b48e5c1a48a65f04c2ba40e136ba98c, 0x15f0ba262ebc5d722d3cfe67bb7d2fc20375faf5cee78716a321ea37907c7942, 0x2cfb417b5ebbb0015efa9458687cd92cac12b9d78c640336eae91934fb36f1ea, 0xd331b322888532737741c8cb532728decddd7e7c3c5459d830a8ff4395b9dca, 0x188a4855919f14b790002d9bbacc7fc011980e3f5197e53c509b9b04d7023d5e, 0x8cee96a66c1ed7e3f978607c188fb906123d343f4bbf02d00920a66d243ea9f, 0x20b61c43e264decca5db37abfb717521e78ecf25d029bf4ba611426f1a82d558, 0x1b70bea273a40aaa74ced8369d5611aad3452804196ee87a3870450c22c1cd02, 0x24c234bd6c73e17254efab015050a01b7ac6dc82a3354d6e136a94f75a1a7796, 0x2a21a5594707eef1b1070ca39d553ec74f8fce88f64f5f494e3ca2b807a77047, 0x9cdcfd503958b901b3c6dbc1681386b7fd0e338313e3bde4ee4cc6907175f35, 0x37213fd6b9adf8b983606125320f73ec38b1e33deff6a0e719ea82fb5d15563, 0x2be5b55d83cc6fb32ec758e83ec576f521dcdb1da1374cc2ae0224725d6d5d85, 0x1f9b9850a392f6da10fd0088fd06054e43d5e204bae3ab38509dbfa188589300, 0x968a47a748db23b73e1a1039b2ab2533ba91a12ed80e30afe4754c03ca1caa3, 0x1a624785eae483bd8ef9d81afed0c8612bfe450a124e267dd83957abf6a3dd15],
    [0x25ac240c7126a642eeb1298bc19876d969d9cb5ed0952cd446eb548962bf1586, 0x27151bced14b6f53383bf4553bc9282c17dbbb8cb47c1e847ea89be43ec167f5, 0x1ece2bec2de7891272f8f2f11fca0c00caae162e3fdb06e0548a1fd905fdf49, 0x27e856df227cff7d93cf1d0c05a10d1849345e99d6956a6659ea11d7d7374c43, 0x1ba8591af1c58a45df09034774a836e315884127d62ba02b4e99157b62b8c467, 0x2f11fa9402c5853bd308181c6596dce77c95a431928d16b85340980da12e532f, 0x19dccdf36783961a18c8e432618fabdd0892cc17cbf38ebfce63a2bf846232ed, 0x1350eca5a8cbc2c53b6a9df1a39ac7d72f0183bff9fbfd01757f08768dd52d6d, 0x230585af7582b6a4dc662070eb37eb1c3578564f80a86702d5a046fe7b251272, 0x52a71b5daed70d11e7bb9ab1a6130cfbe019383dc14f99fe2b53108ef831183, 0x7851ddc73a2c6f97b8a08a05bd1de3dc88e04910bea0d837164f2c574c3d337, 0x69995287feef5bba996cbc5a831ba001095e26b3e6b5e35f9765fefdf460e8f, 0xa69204150bdc7bc73297aa4bf156b07fa581ba2def6924e2868c7dae84c74ab, 0x20fd9fbd1536a33deacdf27678b70436cb81705e267cdc3bcd6926ad26285114, 0x2eb1a2eaf15db5d578a921d8e77da62f9e62282bbb029f0cb241b6021364eb40, 0x51f55bc0974ccb75e69b79fd695fd54e210ad37034836b401f2f233979d5de5],
    [0xea1386d77c0f896d00ada2bf96303b17f1b4318a7dd5d959f3c8ab1c25dc3b9, 0x11e2fce0eb7e64e488e0a639a5f1dd20f1db91a1cdbc79f47111e0e0148b4c2f, 0x22633874fb5ae4774d1f02a955a7475f8e929ab6749a17cbcb0e12663eb9de8b, 0x1ee2613b8ed5faea8c3bb5f38f8e7427528e52b36a5cd114c8d8465bedd6213f, 0x1b3ef2535d759add05abf42ddde283129274a71318834b561b07e0b9895acb23, 0x24a084eac600612e07a30c5f1651b9843fbefe25e65077f1bbd4ed75e478bc35, 0x49c2e0e7e177a16668e8d6a2831d20bf52c915586b52be3a535c386e2e23fb0, 0x769d2b56d0d48053a2dbad1ddd11f7262f80f04bc7a8f61dd2c4a93615b609c, 0x1aa20a25e4526401305fb2432c897ce83c4e4daf9d4b6fc5609df0dd8d0c8279, 0x20214d534469f0969a8f57b36f6d6bb2125e2ea61b2126143cfc66f7377632ae, 0x2c25b9f5db0feefc72ea94da35fc305c712e1162b921c9594b8c9b3b9095345, 0x11d06d5cd8414889b209f08264e1f638b56befd0a7ad4d1cb91a87986426f3a2, 0x1118c6633adbbfa1f08b73dc28148ef5008128e94946e47df78e52b53a81813, 0x10cbd0a971243c100cfc3447d5987790b60420664da96477b29ed58159d3c0bb, 0x2d7defa56218b1d02e64b31e0d84fb39d4068e7fef2f8e47c173401d5a01be7c, 0x35bfa1a3f16472ad0964a6603d44cb70a930f4538ab235d5cb1d90e75a8a935],
    [0xa172329742ade46e7f37612e637f8a0262620ccd838892f3fcbce0f6340fff1, 0x2c58c487ea60769242d19dd8230a0e10a9b600a055416858160cab8996bd747d, 0x10753b36168ef4814cbce8a92176fe0d0429294a7bbf562599e90138972345d7, 0x5cab98dfb3270bc9f27c6151315ddb0af0b292642297fd763487949675ab3c3, 0x244babd314036a353068b387e78f064b6c3c21a1e4379c64034852528b8cc286, 0x189d6ea1975420c15108f928975eea4f635afe80fb1543ff6518c5dd989b4ef4, 0x2834b06e2f31e1c2e013b589c306629d588c9677ea3b4729da29e5b931727e11, 0x2ea65573cad7061d208bee93d6f72e79dfb7a9b0c58d1c3c43b295b7edbc050b, 0x2a8afaf324dca28c3319c642c939fee380fbb0992bd00c0d507bb244e79f3b64, 0x2700ca9644562122c6ec1339a9ebd06170fd8350ecd893f4c4b54ca714e8cca5, 0x88d20ba63d5235d169351e5ae5382a65d0a0e4542466625c496484e527caffd, 0x1e3b2b692746db2e3221d31c2c9d2af6cbae59cdea2df8c9d61d09cab543651c, 0x320140e2c3634e2bbc6eabd67e3150593409e17c8a8ba14d6ba10b48f57be7b, 0x25fcceae7afc449cf6fa958d7d01bb57c0cad966b89de9db049e4d99aa35c63c, 0x2d08ac7c3d1ef44252da3c40aaa7dc955760672fbbdabcac988f85dd7f61659e, 0x7723b7f34c31a1d58c5d67e8f0082a117f77b403f42383783ded75501288e21],
    [0x8f93f11a62858823b57ebe7bb4f2c7fdf0a99ad9ae526bc7565f7fcbed531dc, 0x2505c08966f418cbb7cbf186072cda3478ba030cc08a31d4dc8353f14f5fe9ce, 0x22730c77baceee5fa6c5607ecbebac0fbcca0a5faa48ab37d4f49e603f33c1e0, 0x2866da8f65cef794177ed99ca0e5e28c45e33f059a6fd8db8bbdd83f37b93ba7, 0x2cbbd169f4a32d679b818634b4018a00a213aab1df758cc0e5ed696914d2794b, 0x152d67da16d24a00a82991886c6e1841bb58f19c064618531f66feee723badfc, 0x64ebd9f00d3aa92502f6ddf8fee96e7a247af07493edff59a6473cf2b877b5b, 0x17bf7430be0ed0a5924ec6889b870e3a5ae1d005432e965597264457be3a920a, 0x2d8cd6c4dabfab46a079273c4b789b7921b68909a69dedfb64974cd1228f26a, 0x616e7fc01785aef16700dd740860e1445464ec05242217c1d7795fcfafed0be, 0x18d309277b33ca481301e0ca3d42a88033ea83fe6b9abe2c2e7d93061a31f3c9, 0x7524811ca357fc32cf3c5582cad662b040dcc15f0afa3e04550687031984655, 0x1ec065e0ec95640ef74fd337db8c6e0fd7a1414162d1db45bbe523b373941339, 0x2471756386b3496c2180e68c6ac6bd0842f8cf2024d6e519a37112e9c2b0115d, 0x15b16796e573ee84ab8676dac041a3d2b088bce5b17ef437b3dcc5965302bc70, 0x218e6f091731868afd5aca4beaf96fcfac98acaaa66d5738014f0139c02ffa42],
    [0x109fba9e59cf55203fe971dcf32608a57e45aad64a7c8dca57db4811dc17c808, 0x125a6c051a7816c5166bacb3647bf54f12ec2945ca6a51bc9df19051cef9b19e, 0x1b2e6621d9458cd5dcdc30e3eff2ffd34677b2dd8af74f4d742049e157d5ee1a, 0xee6a1864ab85f0cc60a19372b13b8d1671821a681cddf68dfd82a0e9acc72ca, 0x2c5ea8b8d22cf4ce55d4a3811ea4ace1daf2127a92c77bb3bca51e636c5dd5a3, 0x4769ebd949f424f925e09d2f1163a6602f26785f701a0f6e46eef91a79b2d81, 0x14ca5631f7309cdd27c353606e8ebbd48b911a239d86b45c5589bd5a9d5664f9, 0x17085e091ccb55cb01d45c2feba1c8c18ca380cf17615edd10d3fdb91040ecc5, 0x2b58062e06097f47843198458a974bc7ba88aaf01bbbfab7235cd990c3ec82ab, 0x5f19742b6b9cbf14b622e55b5bf45bc72639533c18c98b2dd811c4dd677ee49, 0x2af4cba34b3365d68f5b0775bdcecc6ec1f42972af48d64820eff166e68c4589, 0x304ef965cfc0cc4cdea00e9a2b8487dd791652baf6d9810a5efdae392c334ea2, 0xc6b70050e17d95eaae67e03b820be7bcf05e0e99c40c7ede3a4d69434c2ce4f, 0x152051567b1ed7d6f4d2864eaf1d3b052ec28037ce709adfcfec0dce364fae76, 0x196a7e50cb517e21769d1fdbeaa92abbc040c76404d7144554a4a88b27bd5a56, 0x1dba4d6d2eba84339bb2a7a32f9cc9787264acf687504ae4c69a8b1a296b9a0a],
    [0x114fb35839ddb57c3a833d40316eeb28e32221d34ff86ab96507ad755c4d375b, 0x152086d1247da80503965412bca5b020f0918e05fae4f40293c5c1356b015832, 0x248f8659574c27b349b97c3403dd5f08fcaafc9f606a59693b89d743ae952fef, 0x212124ced78bb0cd0b708d1f0dda3a8e4f5b42cb3246e7a64ecef935e5fbce2d, 0x9d68a717d8417864da716b3dc29a6aa6e2dfc0b661cc9526b66026a7c9e8b52, 0x1009d9033011387d7b59d758418ca3c0742dd6af7eca2e5e6889ac3651b32a01, 0x1dced90604d29cc66f5810108713c09579fafab7b3175b12f7540f1a03de6851, 0x12d425da9511657071f3700e73d3a357c1db3368aff5148d40d3b315c3cf4d50, 0x27bdc068f23f8f9287c8be55469809925dfe5226108913794b4782b07ff59b8, 0x7d909196d6cbd2091e7b66d1550e3772b360afa4f9646af879002bd20e674bb, 0x2c5408234e473efa7269604e73d12733713a47b552726332dfc58877bafb84f4, 0x991a9a7548e3c5c4f09473aac60815c6e04cbc7138bfc02d43346f46a5bcd21, 0xe6c6e47926d2386b0db74b20f6778c507bf92c3fe5ebc26327ef1bc5a9bd57e, 0x1db7d7f599538333bfdc1b9376b38e8cdba27e8c49bd819e08d28e132fff211, 0x14e0d2bbb5969c1e0f86805100c284d8f6f6c1c101e8e7239a38e3c7a006267c, 0x26ba784e04d92ef59d57a171138b2f2bbbf99cebb2d5bac21cd86c8af5106755],
    [0x7de069ebcd67dd5880d098549ad3e1cbbe74f219b8c53f8bd49166a9725f72c, 0x3028949b0dd33e015aa6b460691d837d8fb9b9d5e70877bd83df0300b4a0d843, 0xb5f2ccb84db3c03ee4842f663479d9b0a8cb08d3f1d7ed41069fe30120038f3, 0xf56a30dc396d6c1b178f692530945d187d69c0828141922f2923dfa4d93f821, 0x16a873c3f3cd80fd6a45e7826eca59151c03e4ea8c1777b20b4fbb42d7118f98, 0x227479dd4a5e86e44de806dfff98d05ee2c5148f5b42a5acd07747ac71c7b474, 0x247f177204c1391a4bb0241cf0d084ed79f81fb4049498c003ba1b225514994d, 0x1a7a0d3e02ddfd68639b98edcca6409b511a4c508aac4a3ee26decf3ab74118e, 0x6109074715f90196189de280af6d0c820c8e3862abd69a5d050932f442235f5, 0x112ef9d464e2ed0c3f34862cd955d29628c3116fe54520e76309b77ca91bc2fe, 0x52afd3488a875bc44e73c54eae6ac05cad2d7e19b480f50c2858b8ec5a4dbac, 0x7fea8911b7c2841f4f7bea4f3b7be7cb5710a624297be767b313447fb2a1f9d, 0x253b88bbf4610d15934d7e98f4a1303662f9cf547bb61fa5f1035b11837312e7, 0x10ef8f2a1e54a3e08d4b642a5b584207885166843709469691d3383502834a88, 0x2de738c01f72522b6982c758e01540c6d792040f3ea15285c7864e3bf92c8e35, 0x1869a05c2435f4ede2ca33fad840b07857efde65f8509325e06a06f89b3093f5],
    [0x44a3c589cff1b0095a3bba218c63c451998d5436243ba1e93f726dae82593eb, 0xedf15cc47ab50a92e54014b5643168988e253adae6f0551e239d265d10f1fcd, 0x1dde71a388e1a9cb075afd6b6a13354701e041fc3415b5d6b613541d4103f409, 0x13101734082cb23f9bd2657ecbc31debdebc886dcb5a15bbd8b120c8a945f82b, 0x25a3a7c128ac6ffddffec4d7a17cd3044ad0ab308b974260f083c39ff72937d5, 0xc5a938393016ffa071e3b9f2fe3c58ca3083967a294e62ed8be565724661b4b, 0x1b63a0bee07072dfb3a33c63fd00d2da4e682adadc666db1205326008cba6e17, 0x26f99a34fc19ea7dffe9c6ab96719b2cef9d38d41a209ebe74b51b2f8b0f60c8, 0x1f1884b1cf3fe36cc0e0aae88ac6686375ce66ad770087b66b2d1c401e4983bf, 0xd7f0e2206d6a092c502ca25b440455da98e69d7fd5e4e205c5177a8a4df812a, 0x184da09fd45fdba360861f125fb5390f5a476252fe71889582cd7b73da98050a, 0x1840781562955cc1a9035f8b1ba651c833b0719fe283333c249c8b263bb01573, 0x2d077d027f39896d9d8b1a619ea6063290da1477d06d6a244b48023b6f3cdc8, 0x2cba8f305b009310a36116769a2a17ff2230b4915e156c43c2b5d9c977813660, 0x1e1c46b068f4807d6832a968be9f79bcaa990b6493844ad724f8a8b37bb7921a, 0x21ad357404bb8cd9db5355e5cc479dc1aa1e48fc6c76f62f5d1ae768a0e1a419],
    [0xe19ce8b72c6453c73a3538e919f48d4eee11f6609b60cf430e14b74ceac5fe, 0xf89d945566a286b7bc63b937036d40fe58fff3b13a6fd1ea7676eb66194d06c, 0x15e6a57cbb53220803c4e91e066b483a318bab0be2119a8643ed1cecba61137d, 0x1c45c8841fd5d4e675a46c9911545c14e9e468ef83e1e7c6675e91703f0e2327, 0x10ea93f02575126c231458b20f4b77480a0f10f53cf4c5b6f1dbbbbfe8d88a01, 0x1bbb7784b1f4971b8b74b714d17266e3a45008805ac742477142767ad0c5ff1, 0x138941fb4f666acf374fcf0190a41cc86f9429386ad7ca204fdc2ca224c3405a, 0x2c8991fb3b6295cd67162631ec3491ef54fba71727c22957740552c825943423, 0xde66b24c1d4e2e56781bc629c1b3989d78dfad628716a843a32c5db418c7501, 0xe8b37c16fb6281255cb27790ac523f5ff5c15be286b1e82d973b4e0104bb2a5, 0xfb41067dfd9ee6e840b88280597d436a0cbd61502e06898cf8b5fed9289c85e, 0x119c19df693f80a7a7b0e64479a9a77ef4b8eb70d6bee07fbc33ef7acf857db, 0x2826c0eb3ae0b75c96cfc181797f6133d8434b812058bd1887e71aacbf095795, 0x1d138c8733414f701ebcd319a6858178037aab082b804e2143322a87b6477c76, 0x22e32c8a1a9e200d7e31d69e4277c3e679494b1d970e0c79217587e4955d7c07, 0x2d52b65582b83b5d13f288d67ace22c5c51f8a4f075b8e6d7660a660ad5cf6e7],
    [0x2e2e7048c0a0db8910e0827eadd124a35947cb26064a22e793b4d4ab6ab9021c, 0x234f9d96cf483333c13f5224a40dd495370dacb7b6799e3f9361e2ab893041c2, 0xbb3e00222cd3d72f5499a2749dd7e36c8e2d55e255fe81d758a107070ba481c, 0x199ae52b7547a3da5f54bd2b9ca9dc0f21d11594eb52a07907759b82eee76612, 0x1a3d8048dad09581c18d1ab2e10666d3eccd0769689d612199c26550f3a181b, 0x1666ba94ac2cb3a58c5cc86eec751353a14391b0e06fbe263851396decc0fd1b, 0x15c3034cd79cae75c00b7976817c5969598916ed56344727b811872af4042e8d, 0x86ac6932de61a9ce418b612502851e06d5d70f4dc3b1e1ed8ea2c6df75b8789, 0xf43a70c864e7a81e0576bb27764656141ab43b19925a1b4d3a1768bc722b72d, 0x1db3a2b7c6b538ad07068d97508df5ffb34a09ea1f98ed30399af2983fa145f4, 0x1b15391ca85237ee8ea48570d759416f1826aab34ea87d3a3cc3547d17e7dfd9, 0x263aaa9f9e83c255e67f9a09901feed268df56151e79df345426341e0f38f33, 0x2da84ec38f7707d5d71faeeaede793d990f04e8cdd016cbbf3bd65c129138213, 0x13ae9ded4812d1f4d28d379642ba7b79bb2d3eb81dcd223e8910c55e8f77be9e, 0x25b181c72550002c2b1304937efdc34a0d45e709511929cea060359fb523bf6a, 0x2d141f87778ebaf647f2da27abbe0504d46442838f3ae21aae9074583f6b64ba],
    [0x5cfb5698f68cf5130c14bfd4c87741a0b65e2c197f594831ca414ff53ef5505, 0xfba377e6949b3908154085c8457a2980cc5ea3472ec30e0996cc8dd9da31d9e, 0x2ea5bc22fd3e4ee8585ac883e574501215972b203e21d3cac33b4852d9b507b5, 0xdb2fe84aa7d137472e72b0ffbc7e76a76f9224fac1d1b3da6ee35a5c724f8db, 0x11c804a419c47dc73db1ab2682979afdb042c12ce349a00dfeda1c72f0a4db23, 0x1423df99c89efe43c3e80af699fefabb861fe0d8974624dfc1927d2776daf241, 0x2e07c1f81bba9f8e1bd8915787ca74c04607e83c308f4da253140de0e3cb4ee0, 0x1b945ccb17bc27e10a23926ca5537b49b28b63312b3278cd16db144ab27fa3ca, 0xae9821243e03b7ea9373b032275d32dd4cbabc93781f36d532b7cc9db7a575d, 0x18f2e62f9e91c3e399358234fa6a0c907c3f3541fc0ce8ef1b5ad135d41c4c02, 0x17d7aee292dba3de1943cf8334254f9754b17ad7a5a2c57230eef7e06c4049fd, 0xff75f8ff73a55d486beefd9f5d8bf6f6f9d31b10a0903b24f4a3bf2118f9836, 0x2f8219f3c7c148dcb2f38c697bffd3100e34b0ec8dcf6d7436de37e9dfc65a4e, 0x16ec1ee6a74f79ddd9d142216659d99b9123f7d789019ecb5cf3a043f7d820e6, 0xfe5612d8e5fe5ff4e224078cbf3907f25078d2604dbf20a6aeaf18b0216b57e, 0x80219777df47cea0bc385242c5263eae06b2a7eaaca605b7ddd32fe0b0cfc8d],
    [0x8e90c05a9091040815ec08eb142106a1b2c94eeed5132c637cf9c0c40403e77, 0x279d2ce8346731fdee7a49903b7e6ef1362c59970e31aaf01aac51dec7f9f026, 0x117e0047acd22b61fbf81e99cc13e2b9f1d8db8fb38378592d44372779bdf165, 0x2bc7053dc85295a51d0f8d051189da22f32f222487ec9ec39d5a17652d9411f, 0x790684b4d26b9a83225cf72e60c026432ca5378678eb8c744ddbb6e645fc010, 0x8cea9f02523e9dcb87709812e1f78683f373a33895774491c1d6072e3ab079d, 0x1a28f5548ebe2c210f3610ce30bff1cd5f0233fe045f0da2d2a7061f63ad35f3, 0x1551491aa0e035787242f5bf43519ad561b6601029c56fc863c63474cbc6713d, 0x2705e73556fd298b38cfe6b3d042e4e5f4b457e90e7e8b16a3c9b54b49c644f6, 0x19edb84862a4a113e372e01c3835b7167bd58d6edcb038078de507dc89472728, 0x938b1c265302b7e4148906fe0e90f9ade375510950d475224a0915dbd2a3429, 0x435d661e18d8bb28bba1a4648b73af64441623162e5b636ba1dfb7a7e887c08, 0x2ce71ce2431662911ea33f99ddd42227b1477573b261f9d38957f9c86286b2cc, 0x17c75da1521bd3f44b2ed39799b747fb4fd28038a87a50a6efd9bf39060f1df4, 0x2fa18e89595e69993eaa57f71aba15a8bb83e9a86c5daf770794567ff4ff187a, 0xa97b5f7307b9b6b4614dbdd9ca06eed80fa8ec636008628740f04673cccd983],
    [0x2fb02323a8db7ba7e3bea78652a3dd50fd90705cb65f2f99115ce510d1ee90da, 0x10984915fbcbcb2c7d051c06a00200823c6431435ff387788b87834b46a645f, 0x25faefb54ae7e8ac9b3516ed44536847045f98350fe8020edb24fd028cb95e74, 0x163e9a85805166386406aec43091656df8a354104960ac7097c85d2107dcff77, 0x2e01e39fdd209edd00393dbc792737828f81d0a25706436c45868a40c23fe53d, 0x1ee6ca0156eebed43a7f02726338c9259484634883e64cb6c34ff4b459dcfa61, 0x25effb4b84c2c0906ebb6571af7a151325c6ad696ac0ab5a7e7a34366a923f44, 0x90185086d0cfbdf941af09f6e85e6c9199da41c0b294c049e2143e2d1bf94c4, 0x196921a374020f2f7cf6bf76b7fd8dbaae06ceded49ff948268d3728d0baccbd, 0x2e30a88a9c1a48deb66bb1fe9232d73aecd2d81976822b2ed437aa9c11080577, 0x18fc95efb840dd52f4de54cd023b0b552d57f549acdc4f86c1635685225343cd, 0xbd2326b0caaea6d5141b3be470e865dae99d86dbe6bd7861a22ef6e2d95c08b, 0x4de1aa3fb9807b22fe3c503dcb0a58325340ea0b5a50702e62767018655a8c3, 0x279d21657b39b694181d5081827940f6e6e1271a084c55f42dfc737a187eb989, 0x2594a94215dcc6c73d64510bac3b30414abce18cdbfeb509afe6d70d3dc97a8b, 0x95142e3ce6e5fbdba9885833c614bbf459895b6cea10edfbadddb276ddd2920],
    [0x4f7c712281ecc56dbf8bbf95fc1af4690f419b84130342647be3ad1b6773261, 0x150c295bb04a6280a5cfaf70de3e998f8a42448b7a8ee56d1fcea8c515fce483, 0x40b073aea01b55948462b3c96965e070681ba42d92705beaba7ea9ce5983783, 0x285854aae042c3ea616da7b02a6b2ef30975aaa2a90aeb8713f189c4caa36c9e, 0xab00bbee202a51e42ec8fb9b5cb61f9165ceb652b6956c1205e8dd53bea3b04, 0x1152e1913091cde5f38a6bdf0a4eb0ebb501954b721f3859a0aa262cde13f80, 0x2df4a938e9488825979442d85dda528501171bd09b780d43d1b2e2532e8a4d15, 0x1d10433e676c08dc3ad49d71ac027dc4b2bc6f21a2fb3d37d7e9e95819279a77, 0x87e2ac12cd1267a049093f730c2a461aff6a429c231e5ffedb62cc52676df26, 0xf3769737a44340e6fc9fedbb6b760856826f7c3a6ca8b993fb004118718ac38, 0x29f6d54a21cc0209800ee613b44585252e7c35d3c0a4f00cf18a8220f36cf76f, 0x106dfd6a05f7c55004c6d0792728985e392d63c6d22e183b76c13cd4ee465e, 0x3024b6653dfd68a1ab85ed24f30bfb88690c50b9960daed59b460331f8e36e3e, 0x2f179ae3fa16736110c2911a504837d71c7cf5d27a4c83dc447a7ea54e9a89ff, 0x57740fb88ed21c6f4ad03ad49ab3386680d3d0fb5decc4dfe65e2c187b397bd, 0x157f8573cc1f9773b3852c965bb00bc1189bc83355c7d831f1c881006d3d2286],
    [0x21dae9de84c896fb3e060fe467c7dd0b7471e76e961a3b30d37644d20e8f449c, 0x2d76eba37f90108bb9dced3f9da1acad5a29d2a354edd54230afa9b76e4703c8, 0x2041ea40d491d2f1062862372715383db89750828052255b1e071f99ba360196, 0x25b939e2c40c6e075a42cb8968bbf928e3d6a8af8da4cc79c9bfc72d6821c673, 0x2ca8f0a159782d2ab2ff4ecd6edfb287ef6e5a1f20d50cf7a75a8b07605ce461, 0x8e18252ecd58de85a74fcf2a5dfd866d780e8b3f592153b7e7c04707d2f1ffb, 0xe742fa26b8408adabaa17ca7dca2bfc14f40e3aba46a2d6e85d3e3ba0c5767e, 0x28743cad3d872842ad23dae6978295d26179d81275e52dc30a7af80a3b3fda7f, 0x2b78a47772df0f8005e508cc47a3c2a37059fde340d3886c2eafe79aeafbe868, 0x16994b815229f66f90e88f89e047b4ecd3f91a57dd9ee5e9a56294c2f350af7b, 0xe0f16cd75041288520edb1897af5ab11b85a545f4d642ffb157f5772129430f, 0x1b01e8e91d773dbd4ac756122f8e79aa9f017da3e15d48656d07e98f9a73ef04, 0xd1f2525b6adf5013e9d76170afe6f51176a4497c1588c8be575c04e567d332d, 0xad15029458859dcffe10f316fdcc134527eab1f97c0a6b0994e2d16e3f45210, 0x2eef79034f8cc2ee04f0f188115c01e22b41d429feb2a66bc239361eea4af45c, 0x25e42a21e65e99f63f05b36cfc485e97e72de3aa38a8573d343f95ce50c62dad],
    [0x6c62c056404aa31061978613c9ba2a052ef8531eedd3263bcc34c4f166f7c8e, 0x17a698b583a769145e307795122804023f82be37618acdc120d41eedee9d4cfd, 0xe1cbcc11d65e21409282179563ab3e273859363b0bee9cff0681ce5a11f520c, 0x220b8ec07c64919136db6bffcbacd9bcbc2a560bfe98b02ca9d2a1c1620dd0ad, 0x1f7195b3bf189a997c2d4d7f8d107d91c2ad5352b63d111cf142505c2ea35645, 0x946e22a5fe1252cea749730aa63636b7f99680f6299a80249c399c38b566709, 0x24785875bdec9ee2dc76560daf9dc2b016472189b7b2a7d7dd99e86329313b5d, 0x24d6da0aff8453f029531e9a90cab696c4329fd05d5bc33ce3e949d2d35105ba, 0x195e3e21079ca38093bddbb11591cdbadaccecee91d44a9c797380fd2b701512, 0x1bff6b43a453e16b2b130323317ccf68c0116cc4e69908fc4feaadebc010209e, 0x73f9d5f52694d81ef62884fba9a31432e8c590087630266a86b89f3c0e9c78a, 0x2be3fe4dab84c18cce436f93d492a73d3335c21a6fb6f3c325c70f27ab0717e9, 0x280f758350e2ce22acc0220828c374113c0a04547216dec766b2669ed6874db5, 0x6a4b8aaa363261c2ba63fc31e73c4704152908250ebad77bd7902e381d5f251, 0x6118135c6b1997f96d30a6196877ee0a103713b91004027410a76dc5bdfdd5e, 0x1a89b2b10aba25ad34445917055b958f121305f7b31489f50eef474494c31c07],
    [0x2e34c3a24b90fa5afcb3b92b40591c3803921db4bb1475fd94984127afe1f4c0, 0x29f4cd64b7c9daa88c1e0cbe36c0b53840b9241af6be3fa3528cbd8495d89b76, 0x113034f899c9af84654ee734cf5907134128528f8ca2fc627261ade006dc5da4, 0xdd5e41e4d002d17fd303a182c7ce4da1c12c29e5245a94e678960f79a03c221, 0x9495239a4fed063a3c2928a42413f02cf9ae08868146f80054e6d5ff531cb67, 0x15486ff36b7325528afe532981984b6c06a63a0b6e25b1fb271f63b8ca6e8d82, 0x2d8aae1d082a60db6b3b1aa0b244929ce37c13927e8d61fb0e918f01a14e4835, 0x94ebb5501dae50b3d868311700fb837a5c69e9bd0900903601616f693545e0, 0x1fdaffacadac41b6154b16c9aa2c8859c42fd8da9083d2ac07cccb26e690c7e2, 0xb7584cee1c78e903017e3a2e83e815830db9118a5b4779b594d764aa5b241c9, 0x1412e854da8a4c9e0a11d27ff0c4609bd728f2e0d566a56cc2936f370c40c875, 0x3d34dbc2e6f77a1d12aedfa5e11de27cc991c49edfb396ee74e269ef5da2981, 0x2aedd5795046dbc6c913783882d4a45463950d108a7e6910532ba1a1f4d317c3, 0xa5dce1ec5c7d1991d275f91ed2fea3793edc4afa7d3b171d6ca2d5ec880e283, 0x158e7fc9d1596cf04bac80a49f4a93445b37178a9e5a76be24d6c708cd38959e, 0x8d73061d983610d3093e05e80f0494cec6e6a9752f85e7f604b4e65e6fa595e],
    [0x2eb16d92356a9ce2c7372015b5f16ab18974df29cf53f17e1f641d5360d7f209, 0x2e9bfb1c072ffa1f1448bcf3cb189e3c8d0454857a93f2db4c1f08f66506d6d4, 0x4da3ae9ccf23c44250ee9f32095b2d3758c3223aab85cd4e21791287baa4d08, 0x164495749ccd7eae205ca14f4882b6d5a9f84d70a2eb1265e7e3619322726e5d, 0x1c81b3933e302e2a23052a1ede80c8edc7a0830fc90d4f967c13e8fa199dba98, 0xde77902a2da45cf6727a6e8790b4b387d26bbe3d3a10f8f1af7d71be82acebb, 0xfbc8f1f39fa56f501d218cc4283d9f4f7c5758bf121ae97978a0546b275a224, 0x1b158898ddeaf57075ac5a033d069543ffd9226ec1fc9f5fe8cd17428e9f9c25, 0x10a9ba7d8fc36249b71ce38282c550047c0723d4324859b8f33c07233157f7d0, 0x1e62b7c53f510e60c1ccb7826515c00d62eb21aee00b0a12bbed33f3f0a41013, 0x21e2a30973e601469bd38f69e6bfe5fc6b1f2c546a298dbe4b759eec183997e8, 0x1f4256c012bdb73cc6324b6059b196f6607c81eebe0cefce37fbae343a0db862, 0x283815406e80c945ab6a80b4b7903592e3325feffff20d60df1eecc01c310936, 0xcb4ce0de05ffede6708a7bb1424540d7811962447dea07bbd6b3e24ffcff3f9, 0x23f9dadf82c522df3d0b41e31a7f6ba53230df9046b8a338d3b37127cbad9683, 0x211306e19fb65ae10286d8b629d4cc7bf2145ab76ce513d4afcb5d058a5cd059],
    [0x26f18bb09eefa70257d9406c53b1703ed3202ee7ee291ff66b080757c8bcabc1, 0x2d69b46423fe79aa1ca07dc9a2406f2424577e3bfafff58ea504c104ec4f7dc7, 0x7465ba33026ed23dccf76d5215c11ffc8c750a30b5d9d39cb2ad3196d2c7e32, 0xe4146dee78ceba688773810e5327946ae20f047ac4fab2cc45a390b4d46d64b, 0x1624e960b1dc56e5876ea8b2e2115cdb5f60a6889863457fffaeeac02066dd85, 0x1fd0e3ae2786ca41e655bf8e0247a719ebfdf38df0ef7f012ee5a5f9358d7ac4, 0x2052c36e6b89e1840e6d174c96649a3d2e7b50f2558cbf862a05c36b177696a1, 0x12c7be80bf7ff89d69d62f5c25d1cb829f598187578d2fd1158a47f3dc9b187d, 0x1e71226367cf0e67f9ee1e5bb9bcec098a0224003bc724f044ada63f0dc88482, 0x1b1aefde27d4009da9ca9dd14d8d9c546a7c84e6747a8b1fe2a561d62d4732f9, 0x28fb6fbe80d161b9d19d64c68bfd2467db0399459e4e008699bba3b0901f5b4f, 0x27034c9a18b55f5259805f96d8a1d9b7716fb1c87571f71f137b02314914ce19, 0x2e6ade49ee96d2b99cec94c7ab90989cafd911d9d74f6b969130dc9f6102c8ae, 0x1efaca3d5ae87a5f68d4f3114902e480a9416d69332914e0c3ccfaa25e819665, 0x1dbfa12bb1e7b0cf39195ab98b2f4fe7b0b523c43f61778b2ad38e17b660b8e0, 0x1d21adc595bb3462aa395e9dacc67153a5ac4e2a81c8ba83fe337e64d9981dca],
    [0x183a031f65283a2c57aa61b93f71f8ea2aa7ea9881b0a4c8a7eb62a99c62a4e0, 0x5505d703f7fffd323dc5679872d9bbfde81a58ce5a2c4fa004a1fb57005b3f6, 0x2fa94b93636e509a5fbbd374f111a54974eae4dfa857bc927d463fd02c665b2d, 0x2f1824efee6b90c7288dbcc4174d2eeb29168ad468c9f3433d183d38fdbb60d8, 0x2f8b0043c7ab7df1252a365a6536b5ee4586d79bf4edd4ce4d4ea1236a77d294, 0x2a066fa811754a4c8df61a3eeee92a7a80420f92541d0dcb06eada3127f4b346, 0x2dd483975bf2124fa85dca41749188c4f74da8127ecefbe78dd972b7e9d9e144, 0x3875224d3d0b40a164746fa30f7835ed6dcbce9d23dc4a3c41e65e0a70f7a8c, 0x29848fee626508de066e7046d93ce678c736cbfe64839b0fe774772c6514c1c6, 0x28a7d8aeabfc1efaa515c8550248e34412a27e7fa6cbd78d20b0067c12567a3b, 0x19507b15686e20fe2b1f98c9a1e495b36ffc24dc149ad29f233961e6415f92b7, 0xa61b968f505e0704be2f676b267ea44908d929ff8639bdc4144945b0075cb95, 0x10975a7f7060b302abc4d5cd2e8d2b5d330d42b31bd5c8a478d7a76859059f5a, 0x23d1ef3b42d0c153d621634f43b24232bf75c90f73c5bc30b85fbe18b4c89a2c, 0x15b66bd3ea7986c7d2964117894f3c43fe02b8256d2c9c185dcb7f8c63b7aa74, 0x9e46a8cefa89c5ca6a5b961fbd945f07255af54c53f732d32619442b8fdf8e4],
    [0xe72db48726c3049121cbfbd1c083459c0a633cd69538cb633b879e4af6c6bd9, 0x16f05309db91b39d38acfc1debd39a91cc444330c3ed445812142016a64d7846, 0x6fffdeeb381cbf39795f83c9d69c8b3accb2d87fd6ce4270f5a6606dd0cdfc5, 0x1a252b1f347d8d894af61bb2f75c65cf5fca1a2211de1f905cf39fa6d384e77d, 0x231561bb687a5aa8aaf7e1c595bf155ad2d93e0922dab327fb9c1f27877210ed, 0xf8d4030eac93ec6da79f6304cda6b04be32f036e80b42addaa351e7007913d, 0x2f49ddf565cb5324e9d3dd48bb57022ccb7b479be123e003de3f2cca6cdc80d2, 0x1dfee8987696c32de30440637725865531f9d7c3d76fee9811656a435bf0684e, 0x58217bdeb3065546892cceae218f7fdf3a43c2383ceef12387fc29d4dc74380, 0x5f842392a9a07d4c7d70f1ca1f72b9e3b5cf5633e199ebf54ba2423560d4f55, 0x188b0807b79105dcbd5c36ecc676c2fee603aea072b7712f2ebb69b9d1752e4b, 0x1103f6ea09cae621ec6f695e07929a36037c52efcbb493f10af13cdb0055548e, 0x1a40f8ba3192f0c929248b4aed619c81a22f8a0bf03745d15372be437b0fc08c, 0x8823b7625f84a5f5c9a8891cbf3dc7a3477da215200ba420e51821645f9d2f, 0x52a494af3ecdef5031d87994f264905d25fc6c6267b6f7de4435bc6161f3f32, 0xfc8cd19ee31da018d0c6c59856e6ba369a5429231113dff4c8e53d50f1577be],
    [0xbece88708ff447f261035600d99b11389aa0725b446c9e8d54a02e8ff2de3c0, 0x2bc2fc2f7c93245f1f5ed0ab6c4cdfb771544f8dfeca02250d9ca1bf6dc2ef92, 0x22b16f8325f2a2c69907af42680101e4f86de80d901bb6970310dfa1bf805fd6, 0x2782823d5188cf5d414c280cfd8dec816ae7ff36c0fdacd870ae6449f25a6cb6, 0x12da3c90acc4189b45b06a1f741598dfb2d9c24f459120debece5c5fe23db5bf, 0x2d81a5f9fa4173f58f754643481d08089726bac7bb7078f4111b55106b5adf0b, 0x286dbc990140046e1e2637885d4d2904875f0afa51219ab2b758fc32cb600c6f, 0x20e7a3674a066766d04226362e73219b54ca6a4258260375e8397f8fc115197d, 0x2289f3227f4ceebae0c1dc514de4c642f15314eae937b39a3c3c12476913fcdf, 0x213251e30a761990f27fa1970426f9d44a093dd04524016706a1180753aa4616, 0x91655612a93f5be3cd31db248c7b627a2df2aafa1ef69f7f27659c13f3019ee, 0x1af60faf34b05755f1941195b02e6463bb42df76c12b10f14f8b162506b8d5e9, 0x21b41d0effd2b0440c0d3b70123b7731903bfb46db3c7a23acff016eaf107fd8, 0x16a0876c96d45b59dde82c8f1e1022c5cad31638c4e38cece5b7a56c408d84b4, 0x185329f9e4aa85d49d42a62ab4f641d62c5fdede17015a7d79f3164b690f6407, 0x123f208db0c4ef54956335d16ae7152534d2d8ba793d601f15524969639ea3e1],
    [0x1aa5654278de22380da76be7885381c1784c80ef4f4bb032acd13b09739c263a, 0x955b8a1677a5b6310ad8e0492e82d1044a14c78ca87d1e30e0d7f3316ea6ce8, 0xc7fefd4edd4ba7d92756b5173928904d18f9b6fe995a575f0e6a6e88f7c0e58, 0x116d188997eec6a1e2af2aec8a5db1ebc5cfa588fbe5490f08ded1503ecafb06, 0x258d2eed2c2de759f0b394b6a3ccd2d96e28b10018f3e7f45393ac8ffe947ea6, 0x229de8c2965aeac1aa7edb78fbfb5d7fb12e7fd7ffe6b9b3afb5e888349a6c44, 0xb1fb0feafe98d6cf6372170d4c595adda71702c0e9d41c6ca1a03d7518f83ab, 0x285a05be9b2dfd8af2d0f28f2e32f5cce6b153d880d8acf6906780ca636c4cbb, 0x1d8240e9902394edee2b76099db03d74dff9185434f3a4e4fe8575969ce4f295, 0x2160be8233ce1b0b331989349ec4bd9b12486448510831e6414678b312d57f93, 0x2929b839d44bd2b3fc5bf2cc815ee7910db996cd5b5dff426c8f18a5adab52fe, 0x7d0d43c3f633701e5f0dead5516e94b91f97725e46982d199de03345920ec08, 0xb99c27daff90cc053b37132622fddc5fd52bcebac1270b1cce378a7f02393ef, 0x2e952dfcc924c08102cca7e9565eedfece78965083b853ac1f4128c7f3d78691, 0x2190b77f963391066d6d26f3d74620ec35e501376b5299cd3f7e9c23b55cca5f, 0x5be919c52d2f1dc0d0b0d161f7ba7195510208aaebb5dceb0815f2a91168652],
    [0xb4e4b3ca8aa834622cbfffb76e6f30f9df997dcbf93df22a7becc8ff9a0672f, 0x1620522a88c3b531c45d51e5363f94f9333582e5f6ee1c3cb76408d116144fd4, 0xf442ea26883f8e188715f5841a690cb2b38e479d8ad7074e893ef19e3c7390a, 0x1a855bfbe80a7886ad81ddf0e7bedd80c1e0e4d1bb03130e03035d53b59ba710, 0x6a93868612233e3d6098de0b8126649036cc14b1ce3c7b19149a17caa20b66d, 0x671424962e923da926612e9c0661665c4a67c524267c45a83dee528130d4c44, 0xb119799f6ee67e2775cd4a71a8c5d455b82426e00ae6cecea32b5f4483b6d45, 0x26d468d55dc31cd5ea1416dca0f7ea5190642b77cafa7741f1233213796c165b, 0x276fcfe17ef821818010494be0aed24abc1a41eaca531c7f5d2f7129eae80325, 0x238d40c836db7215bea1455cc92b6d73f5100568d71a6d1e81abefc18c21e93b, 0x64c4fd1c50ef587dfc7dcaccd4ab7ad5c7cdb0230cc8e0e34d76ce399fb49b9, 0x3718669f16fe30adc38474a75406af29431ecb57f3db1ba7b66997b07b2a425, 0x19f104f90bbc03762d621a274a325c49f5073fc50c47db885e9456662421098f, 0x2486c93effa24890bea4ef9ae6cb9b8f65fd7591bd84d535b760229c0ce27ba7, 0x29ef7d3ea32d9632269fb022937c78a91d7bcaa063a818c5924b7b92d01ecbf5, 0x26d91e7cce1d8deeabc8d7c549cbb1beff0c152cb8819e8684cf20504a0252f7],
    [0x248d08993b5ebb254ec885af2a38d3e415c4ad154eb53616b9b09c3934ad167, 0x20ae46ea2b701d379bca7431dcd231d5a0538a7df6d25dfde9ccd7dd02518db0, 0xa484d6f4b86578d49193e5c0248680b9614950d8e391f527df0f478ec51db0c, 0x6717f5b869d2656c2b35c01e28c56972b04bf97eca77613e5b8ca92bcf84f3e, 0x3783c713038e54892dd2a76fccf0119a329d633ac533e811e511817c4c4a350, 0xf13bbfec1c7fa9b9412355719d79deb7376afde0da0e70e2cb31f752e4f9d34, 0x251adccce5317c9893770f1694a37887cfeb26f1faacf9bfff6caec93a6182a0, 0xf825a06fc69017ca9e572c732e7aa8595be6f6caaa1fdc983b9af1284f63dbf, 0xa3cf2fb30ad2c7358975d96ffb895de8fdcd61f74ebb24d3f1cd6d251eba933, 0x251b2e061b12c56019ec04c54d7446c13bbd7df46d1fd9123d6f91b9bf77a42, 0x2951702dfa126f50ba6d0463be4ca34e12ec8de2818075fb043ca471bcc2d379, 0x182c9f08809a2953e6465ccd361b57ca28a529bb951a355643b7089eab715698, 0xdea1f640e09dcd69fb450088cdb061df4630db6292f1d6085c11d5ae6b6f850, 0x157410ebe0e8a0c81ec70253bc16022ddabcce7070c509e78aa1bb6f49e17c6d, 0x117b09b34738397c6163ef647d60969d6f797cfe1f4b4a55b59490aa6ff558ab, 0x15737e5a5b31340f4aec578a73d86e4da61cbd4d1a54bb5fb9fac3678a762fe7],
    [0x196b0672513f279f5db200d1264c03c1ec5f0be000255a3d256edc3eb713f115, 0xbbdce038ba792300cdb18e689d2e0678a095e69e10a3a56bb6f2b18c076f698, 0x8e4fb5e144e2d867c55ccb2cc02c666060be0ebc3f6faa98b40974a53dcdac6, 0x254cc53ae8aedc8323b546a40516f9ad27a2ac1afef9dae8bda7d56a2d6baa68, 0x1a2c40f1984dd2338de7281020ad784dfd936ca376a8bf3491ca61cb00287204, 0xb02a14f5ed5fbe30f98b6bbee9ba25f3794994280c633b7dc03a3a9bf532100, 0x15228b44db9915e56aef3fd0e965f2bd0581663dcdc77e5b6a9869480744160e, 0x24ef8fa23231f34c98b1e19c0e2b2d2532ea1048f0a45c3ec605cca741766317, 0x25cd05a9267e21e2d0b57f22fc07ca332738a6e94fde2ec72f766b7bdd4566ac, 0xceea6b6d86dde8d6313f7d6e5199ed23a6636984c8bae0113adad98acf71272, 0x2263c0701b49306df1d77f6f1a14726d2b6ef465bde4b950492ea402f9014657, 0x2fb656f4df02841248f98a4630369337e443d1816e16a3c1f084c38f005ee10e, 0xe6f9efeb418fa0b4016757e12e6414760bcd4598e641d894aa245c6f3a96619, 0x2496c73995124ae0044151bb698f5765f8272f388d7b512ea9436e2cdbb8314, 0xdf3c49bc65b7087becb1940994f1cdcebb16f4f21121a3f662679e361bd695f, 0x2343f6b80186e6caea2ad4df26c37628aaff7131761a180f7ae28b9fbb4b312],
    [0x276b8652e6133ec164810dafbaa40ce8fc3a30f78266d8e7c61b2fb0be8546e7, 0x2bf09a235c89febe7e56f002df7b004214bf00da1194018467909ead95ea85fd, 0x1ef9064c20f83e8c7581b609ac572bdcf4b6e1fb368cabc0dbff08ad95b73e73, 0x210b418e297eee3da4e80b3c937e1906f5b0f55dac023e27646bc1dcb8cf8e83, 0x2ca9e6ee5998c2ad06753624075de0771a7d019e89a6d6f76aff5993665beebd, 0x174ae2a5db32dca4d56226575f1e5c4fb0ffea7ee7764b1f51ddc7f5256c86a0, 0x1862319cee8de3ee4d638995f693f324546a5235d22952cdef52040d8bbd9025, 0x1221906c99798cdeb66c50f140b8b579e032128cce09179bb263390ecaf9cd49, 0x84dd25a4d141a723b29c69cde8e0bbb53d031926fb0d14d09137e3f8a122f1f, 0x29341ad04e73a6e69d3ac654d4450a386ed2c7947b01769ed324d6e331381411, 0x1aab0dc965161f77eef8d0fb4e72e46bfdf6e3d718eac4e5cea176339993dc08, 0x1852c126862b742ffe3e568fe27ace0b675fd5df36155a66099985c700d26984, 0x26eabee5c1a5c1b0fbe224177ac7a16e8f0d7b48c4efb62eed96a931202f0c4, 0x268b607a75498aa86a1eb65db5fa72a54b41c3e8ed9ca5a707d76113bcdaa492, 0x10a5051f064fedc0bfc0ec7b6be56addf94d1077ddbf456a180f3a9bd5029beb, 0x2c27938ce4e1e0f98d5e53359bceca5a9c22066cb3dd0f765471dd85ff641214],
    [0x60390a2034599638ed0dbc2903cecdf490f1c20d605f62b7f95bafbd367a3ff, 0x2109e7dc4aaf6cb2a13ff62bc3cbd0ebcd3ebdf022638f5e480d010beffec7cb, 0x106959e10ce6819bdaf48cd5c19432d35ac8a167282b44cb0a6703eebe3ed2c, 0x276acf8bce26b9321591bc588392605b50df7f766be90c8317a19ee93c8dcb40, 0x2625cb1be09ff63c5e0340798d10b774c04321d22340e5ee8d2cc4aea3dc924b, 0x175223b56bbc74a46feb991a4fc55f02fad1ac9bafc75c76ca3db3a69ddcff22, 0x22cd6e17bd1426b13e742213606f1558d5619bae25fec69be0df6c31ea6b9970, 0x33307917f2f058ae6295611e36036aabdb91a0fb9f3a4bad3e6afdf283b1836, 0xc74e27d536a6274a8ab91df7afb9d4ebf944c68157c4135a81993632ba4114b, 0x11b2212a08cb877ccb3b4a5639ce7825ef74875fb213f0761369ca5d87a9a809, 0x2c8c8d42080e2e9615d4c8dc0f20c3c3005dceb1697d9623ebceeb638ba6eef8, 0xd61124d06cd75baa08d463b9a3a3a1cd1fa3bf6ca508399111e206dc19f7be5, 0x18a8cce9e7aa6df3d5eb35406b0cd46b87e4b08f8fdc991e91fb5924a07340c0, 0x1453226c75742b840fb71f151e3e5346648b9a07fc10aac31485d7c0f071a80, 0xeb05f52067935d0b5517addb97ad9134f66b921c80fbe68548e0c08cfb8e60d, 0x17883a0fafa37d03fbe3da640fdcdf02fea822bcf612d7e82e0217d38db4020a],
    [0x7516cbb3f67dbbc050bd2ec21b18bb9d0ea9971770595a85c4863633b0e19c7, 0x1f86ef9471443b26a59da67e1c2a223e457baeeaff2ae9f0090c550c30bfe2d3, 0xb84ec6355cbfb43ab69709d4fed906685f02613d9b48612f38cde33c69e9f03, 0x1ac016b40d30d26723c5bdb4e9d2fc71a1b9ef8065cd08ccef66ca98ce789730, 0x10b2fa89de4545606176a004568cea6c3381be9612e83815467cc4bfaeb585f1, 0xbf5674a5ea1ce6fd4cb75ce7f26710e510639b34354e53ca2e6631b404d5e8, 0x2fe1439993bd33783ba21c5ec1f28dab97147a3e8664866dd04668e04c0137b8, 0x2f403be7d38ca7336768a3a9c7f656692853628f4378a74a52df4896fdcc4034, 0xe1c171baa0ba3e825d242d1d70454b833c3e23fe89e7e223d48decd8817db94, 0x172fc861c822a0459d27e0783fc603409f835913f73b71d51ff31a62f6e4fb87, 0x1bb9e2454a33c3c08cbe31dd75b33d9d6642cd9b0a978c0251f5b91f0823523c, 0x29293f8422d4f96e3dc694f4d99846ccd6cd5b4a78662625efc72034308d4c3a, 0x29b378f2446a9a31f37d475c830690532994edb64baa43794e13f1d9c6949d13, 0x18a82c74bad8aac7b761794760e090acf55a8f95556f2aacfc20fd98c19616e, 0x2c1fc04ded87e37d9f1c639ced48dd8c9e46618cf49218637db54755921b1644, 0x29ea0e1e015e5caeb3ff1ce6d2772502e7778bcfa3dc0377cad7d5efe674b2be],
    [0x2a1753c6a4c7c43716ce3371f140a65903d228d5939dea928ec37968610f3349, 0x2d94aa3bb5498d0d77ef1efc5950519b1029350d4746394aa68e8526c09e1df, 0x8f269084ee637620a11780eabd8e8f96c2b04b8db6027ee88a7be850485dbf0, 0x3abf553fb5a4b9d5093d3b5f898a111a4261c2419f3e055060dfb45d82e7db2, 0x1b9d84d189c5a22bc9be2926623361fc6be7c714d079536427fc7a70bfbcbbb0, 0x23afc200414f23e7496b4046294db690a60bcf5cb72c41a61ec7351365c885c1, 0x26a5ce6ea63bfd9e6e1a37318938d4dda0dcd5fe9d6c2acf1abdd27ce1453799, 0x227fc0412f71fbe4902252237859f0b8a694990316918ad670c3454ef255f9ce, 0xc6b448a7deae48afbfcf34cb758d847568f75d7249dea4da09a90f96c672bec, 0x218c92e39e62dfc119c4cb2ded9512dc217a9907a9a8b0edb96a275169f8e9d9, 0x106bf92a017c308f0f726df3d0515aa6feec1c18020c380333cf76c25016bba5, 0x1f283fea17244f043b7c35ea1e71931649cf7000692546ac543a65b18ca3adaa, 0x1fc5f58e5a06e1c70ebf3fd2a2c8dffe7bdf2c2c179b817fc1f41d1a26ee7dae, 0x22d0d77f0ae4cd9396cfcd8a27a246303cec70fedd54beef6dd86c91938fd560, 0x1ce511212d8688537a5e039957276e9935b3e8d5bd47045c6d5835108eec5f0d, 0x1c83ca5df6ac477ae74236c49f9309ddf52a4290f9c7c1d3092c113012d1c3f6],
    [0x2e72da0e1d1d1cacc95f8a913d87a10688af0ad11294b350cee6d128a97442ee, 0x455ee8e7552be76b8e7c2597d97871d6102b49eb2cf1ddb6f681b7e05b0d0fc, 0x107863daf4cac318dd06ab14f132159794902e3b8da171b8848d3eda04e6c449, 0x132abaf80e33ac48982da9d5d2fe91191f17f1910fbdc06731717b6bc63a9d8, 0x134e4567b290ed94c47b163fa304ac8d14f00f9e26375f6299a846770f4aac21, 0xe6c1008a6d6cf304a1dd9e6194a360c1e9aa6d765a2e5328a1be2b5235164fb, 0x2f8dbc0f86cd3308a3d598a9343d638a3c2f56e9736e91f0f77d508bfd3828a2, 0x1eeda9a9c6d8a03c3cd9efd1bea7e46840d6c70d7fa82e085bae67347e5da7d1, 0x1e2bdca3589d22bc09315622837feb89557205a87714cd8011fb26dba1ae0fc4, 0x1feb959112175ba6f2abd9d6051f3aff32a9c4da459fc5f3baa166b7e01204a5, 0x1b6a4bf2fb32031b9837654b1fba8aca04b6472a91d05f96320bb5bdd3add66f, 0xbc2076260db797f04ef2fa60c6cf5d014d897d3202be009fc5d8ea60dc18cbc, 0x39a5ff324caa9dcd65b8c44bdd1d423b6c02e4050ad8ae931ade6dbb2273cc5, 0x1e50c1f7a5bd8a96614ea267e0c22039cb4708670638b16e4c4e6b4ba088ff35, 0x24315140db1e03d34a9e890d85fb3786861adf648212141be6f031edd51b8c0a, 0x12cb6f35a18d9485c72a073c4f9037dd664d98d011e892bfa06df8bea2bb5dd],
    [0x149a528e7303119ce066de9da4177803d774e3f1b2c6dabe9edffb3951481615, 0x990738ffecc6f8dc0e6b5269bd1dde74c6f6afd47779a119d8c963d5b65d33, 0x15b319e4f51ac8931ede6542ff983cb2ed3bf30772e681bade4cbd64659fc741, 0x1553343f95b1ff226a6d8532af3e489d305a08e8d5c532787d351a5c30b426f0, 0x124d40c154d4454d10e254fce373986e8a2ca1b43dd221b55a8fb8d19c5a2314, 0x8632672fa4236aca43f4dfea0508cb6d3895dbfef58c5f80f65ea0f48c17a03, 0x18ed4202e081efeb7107021aecb706f76f7466e5e36101fd92674c690bda36a9, 0x22b62d63e4daa7c6674dc97f43d7ec63fa9cfe047ead601eba36fd375d840091, 0x1f76ba188448c2dc50cfe2ab65caa6462866c5e31bca72d12cd7dc1be7ec16d5, 0x259b4968f9e4c3288590bb521b2bef5f3bb1b30a728acd45627eba45d73260dd, 0x1a1af2418b1ecd4ebad24c5a54adccd009072a2b7edbac04a0803870fcdf21d1, 0x13c488efb576d98b2f58c265a0d76d450c74c0105d225a6b111808cfcf13e8f7, 0x2e0278933d94b8434c52a364e5aa39d4c02e268295819bb0a4c999b15fe36beb, 0x26fc6a0f560e5781202e95e5866e679ea3aa4a76cd8bd4fe67550bb4e6c1db59, 0x2d7ce0354e6a457ed5d3621afb91732d02e5c99248786be8ba0c51da68fe9488, 0x2de1db6dab7e00b81838596cce66e8bb0aa26989a69386ce5061560f2693cfd7],
    [0x2e306809073d4a00babe836e6fe48eea8e4fa13b9932c928641fabad4944f587, 0x21b9bc5ba7bde0787a20a8aa9ef9a17d56ae2afc1d7bd7a2ada77506d16b66f7, 0x37e12238029fbbd0ef48a32577480a4d9f663ae39a0e3b6c6ad0f8c3914c711, 0x62340efa1a3061910fec854ff5fa9037ddd749d9ffbd5a6280e9498bb7b9e9c, 0x28e2ec6752d07e64574e4e92409b417686f725127f1564d1646c4ff44beb9dec, 0x1081db39ef41961aac8cfdafb8c4785a847ca3348a9b6eaf5a95e0ff4f3c4541, 0xac03c48add6876ea8b8475ce16d306f80aea6229d08b3c986662fbbb7a22370, 0x9941366c57343c57df860782d53fe8adc2a75da2d0f174364a055aa7ea07d8e, 0xdc938da60ab9182c7121c8aa04c1d955c1f729b7ea6bbd8c37ba58b74bb4dce, 0x7426bd12d4769e174840d4a3a64b40541e85ed86dd21ff5d71be7d7eba930eb, 0x2ca34511539337cf05471caa3ac6604ef0705b3d2e4874db17877f6a3a2d666b, 0x23db1c118022fca90dfc9a2abf1186aac09c22372b5a6814835458d33c1833a9, 0x282b59962607ed3c33a9f9a36899a24920768e679c43b319c781acc020c68558, 0x1cec719a4e8fdb8383d544623cfb2ecf5c087ade03a12cc202060ddf23baa05e, 0x279d1490e81ceeb73bcce66e0a6dd98443b711ab1317a31ea2c17718c534ea41, 0x168da84ebb303fa935e70e85321b10b67607392561e6ffba3364f888d2a715a5],
    [0x164c7be1367b220daa33b5f8f637e9200c43c9223fd71c41fb9830287caf3502, 0x1c09e997ba2bd1625852c50e1d6abebb6ec6c61b20d1cc91b015084942162bcf, 0x2ec385a2ef59f594167112b1491d5877520634bb30d00dc682d089ee458336c5, 0xcfa9efe4507963806d38e2464287368238b2f90e13ae6e520ec5f1e5da1ae83, 0x22f8fee0b3132a953bb0f4d4acc621b5a534403d922f9bf5a22e512cc0c103b9, 0x14473dd3650a7bf140743b43c5832193823e2506c60db669d71c63fc7cbb42be, 0x16f91395a42f68a912148920e5b9c30b536e84f15ca7b509e115e33a08df45c6, 0xd9f494ee675c250cbdff49cbd786036d899117513b160c0271c8ba6faf30da4, 0xbf36d4c6fff4101d84dd07cf6d0a9c9e5ab346d5f14c9185af3db3e13d697fa, 0x23452880a7cb59d393e5980266f1e752c686b57a87f041f75ef1318932577905, 0x305f2a14df1590baa4d62da4c168423625e3e721f20c0c21a0fb45ceca2f57f6, 0x1947f0175a8a9f3be490f60388486781533ac0bff5b8730a08b435f8a3407acd, 0x2de417a960b566abcf86d9abf49ad41144c3b6110deb4f47ea362257345e748b, 0x13b887c77592f15dae0d20fa25330e19201d5572df244b98dc2b03bc0683bea3, 0x97b35dd0b26e46805e16fd0490ce0560916e49ef1ebca21dabb4abf2c445370, 0x237a037ad96a360aed5937d3cce38ed91e58917b143f17233bc2d75456dd4151],
    [0x18cdc0365a8dfabcfb0494270af4822c29a6d9124e8c190a9c0b4826774adb46, 0x163428bf966085965901613a1cded9f28d62a74d001e6684bc3f6a47a8b3bf6b, 0x1dae0d15fa1822a5e59b940d81b3af27a5bd3f7dd508167ea6065b6d49c332df, 0x2add9c74cf22d1e4927fac6754b5cbcc172d4adc75ac1fec05ff8fca0d977dd, 0x1edb562e5b4376324a0b647b90690fe3364078dc212de0ad36f5fb26d14f67df, 0x301dda97e290a7a01ec100e59b59d78fe4021973af1d9e7d101231ed8fe9a1f7, 0x170a115e7fb0e76a4edb05ac080dd24ddb5c27c0c94b3b36ef5e6ec54eb98da1, 0x2976381557759f24da99faee2d6c5059bee939a66fb321b9fb2a609e4d47e9f4, 0x858c7c6f9fec77cc7b6c2a5df2dd6312140713f97cc7c8503b4d7c6c81effa6, 0x12557c612c0f7718ec112701d8057a1dc301ccc30b2c8475a46bcad3514d39a6, 0x1ab063ffdffa216a5bce2900f37d819f2d75e6f00c67ce024ba3f832de64dcb6, 0x28493d04672068c6a6e94f79cb1af1d4152b823546363589499c0a141bd2a580, 0x23ef9e5d4688380ddf2c16c0d08a831237ee58775797c67d95c6e0d8d8af345, 0x1093325100722f8836caf30bee53c0ef14eb18410bf915570b327ffd9464a5c1, 0x1705479cf3bdbbaf78d4f103d38eb47413c9335478003810893f35259dde8d55, 0x896c2b79cfdda5eb7f6f9ede3ab477ceee2b38b068174f15a3b37bb8b348e6],
    [0x149f13bc3e4e2b0515b378a2747dfba90f7d5c7731e59e9f36bde3f04eb50cb2, 0x2e14222448be50c068ecfebf70944b593540c7295ca0e47f2bb7f63199b8712e, 0x1e22c0396024ba3f6db181ac92b229a5187187033b138fb27a1cf7f6d87050d3, 0x2c5a1e453406fcda5d58614353f0a29842fb54af88ec4b73f7778563e05e07c6, 0x2d08dae6f1fb7e0250a660e71b1cd31853c227b188d87559216af1c465d8abee, 0x215533a77776226664118a8081d87e212a1250766139ea38c769f93ca2b4d7b3, 0x1cbbbb26f991a721c7bdf835ec9d1ee0c074092fcdbf0079e4df3ac287292edd, 0x8f57bdc3c7c95681f005500427ad5399259f69104c22206aec2f99122924e8e, 0x1b45938c7b84f0176f33520321500d1297cf97aa6699664fdb8ccd75ed39912e, 0x2aeb209044868ca84487b7916e6b4033ee6cbef726e269d0e916ac2cfd3fbade, 0x27635bd2ae7e0cacaff0b836596607a792403dba10ac3706c9e11977403a3eb2, 0x22e593b7a67935027938149bf16fce07fe9e726055fc0cdd07e7eaa17fe57301, 0x1795962bb5100236a183de49169d6b83a427edebd23711b89694da83cbd087c7, 0x77fc8d7cd9adbc283c25321bf37598cdf28827ed35707cf4887fce4707c437, 0xae5b494d166f6a32442d1d0bd59b65ecb7ad8f6571b77486a45ecd827dd1280, 0x2924229b6d648184fe63719ada7041e69272cdfe895455d77f01634a8b892c87],
    [0x51e840903ddabdbf22103674933685142981c0852a6ca6af0c8d15b068716d5, 0xfc508b7e620bb6c47a85971bfcbe28df62619c5309685d0a0a6adf3c8bf2f84, 0x19f7621bbd659b27d189bb32010b95fc2bd877392e2b56afb558ac5fc0f0f22c, 0x303e98ee35bfcad292680a7956e0b932f7c572c0a131adec5006d8f298b721bb, 0x1a78253e57f825b0cbc742d87923b27c51f4a531d1235a8a901d997e31b2ea07, 0x15e220939ba64b3a3ab29debf3b0884a4c4385a74d845e20e3449e7fa2f39320, 0x160486b6e621dfa0e90123a4e43fd69221ec1b0ec73d196476b504bccd290b94, 0x2beeb42404db8ab5e279624bacdb614b21b5ae386f2c2a34a798feca76311006, 0x24b407500416ffb0459b1db9740670bdb8be8adbb4fd5af8fe9c4b5ec021f0e1, 0x7f5fdae988285c49bcffff23fc1123baeb103bffc97df6839a0c3506b7c042b, 0x2ce9b5a08decce4b853e67d28af6eb4c755c7bee8190d7806af042759a399503, 0x1daadc911c3ec3b8e5f42cb123017f1fbf16e4aa2e32de94b018128845bfd022, 0x1ff80b169617b7ee5aaefbee67aa64bd64dd14ed8edae148f99a16e3f2205651, 0x2aff68cd38d188b8ab85c008f300c50882498b5068d3cd3b82b5ae023bfc6ee9, 0x114d0b3f54f14de45cc4db5a1feb1c4750ea0247d8f24e8f6f472d92eb7086df, 0x12b607578c2d349b69e0f756850dcc21258f85ae8d8caa8a3a021cf8d02abb9c],
    [0x14c692ebcd07fcef55092bbe950589f47dfec7ec4f3a42944b0442690795a054, 0x2229dbdfb92ae7eb8344eb56d746d07067637d75ffa439edb3d75a8b08199f20, 0x16f4648ac47c197fc572f58351e4b00773ad9a2bcad04ac0f873a556b6ecf6be, 0x12d90d55c8d3ec184dd04f5c6aeb639bea70a7e3d013fcb17437eba662122ff6, 0x4e2c49756b8b5ac26af9d939411caf87f15626ec4436deebc7dc0749045216f, 0x21917d723a33db266b07f81948955c45dd507857e9e5981831d35c56dbd0bb36, 0xd13b46aa1b41168f81b4d236512268c23e7bfc4108948b5e9f3a5f5ee0c2661, 0x17bd731275d602d17ca1b8ec47cb12df1a4bcbb9e3b02a26f86a08b2eef1fb70, 0x240ee601a6823ec698a4bc774e6dafc2f3d1cec2c5c89f5bd13629bdc692745, 0x2663ff9d0eaa6e910593d11022d3c77b877a3bed8d007f6fc207a8ad75bf252c, 0x2c45b53fa72d7a0d7a244ab3ab0b41fc40e9cc38cbbe294e8c84a72c7c3fbe7, 0x10bb8a7531ab05d22872880f96834d23a31937623df3fd2953885abddd1222b7, 0x2222950c8a1ccc1c2122a353d1482744d42e61254dd653bd25ae69d2ba79b031, 0x2c3d3eb720537d2dde7bfb8ef6265d26c9d6d918e37f2e97030fbd6b04457db4, 0x539a696e15198169314296de56dc874312e19e5b3518ef5d50a72cf98a30895, 0x25e2a5fe1f155a2eeeaf50d01664f96f7d6772b108ac5c4cbfa5ef5a1fcd5ad1],
    [0x2f5d3e87df6904abd454efca9cc30f154164220c9e3fef27e1812e0870b90fc5, 0xdee20e4731c0e7542e4e543e8be6c2ede71d6eaa821596e4fc9e68e89dc300e, 0x61442c13b9d1fb339615cd8afc0bc9e11be741cbfcbd2b3a92194034e9d2e54, 0x23a56185e12d6230a0ebaf7cd4a01cd18410d3d2ca991f79af5716fe22993123, 0x3344b7b9adb15a3b7c3d64fe1eec35342202ee3c4a36db2d49e81e5174235bc, 0x284b751ed61d484ba2b5940a1a1ee1ec536d392b113d06db4995b08ab661e675, 0x1701ad26a42de77f4d58a4c8191f9d4730309c5f4bcd0c6dc3a0aab396340820, 0x27cadda519a8370108d7aa6e9102f6b29e8fa2386cc0296593f2f63449ff3d4b, 0x2626d61cb110bb03b32712d59f0e3b1b2f5b9059eb994807b267e4ad261ed696, 0x1cf3330897c54f25f15f5e8b8da57bed0865f3fa841ec48441a9f0457915138e, 0x1b5bcce9d699e55a490d3d86e8c92c83a7256a7feb9fd8af6c84d68e148f64e, 0x2a175105d15ba3fecf5bcb2746b3c81fc8ca468d1d4aa999fbbaa8d8112026ef, 0x20a2382295eca0a61c888cef81115ae0637d7ec792d30eca6a0f298a77f9b26b, 0x51549bb9adbce26e4b218b29ca79e221cb691c9ab5b2786239ef8126bad2e51, 0x81ca5349e64d60bca080bfc534c8b30b18bea4309cf02f44c71185fe688e079, 0x285a400d61a5cbd6ca7baa7c3c9aca5503b17fd702e00420bce7332382c0b82d],
    [0x4e1bf8c955bc3c8708262e3ff148bea268adb662ac2459479e6af2e73440b21, 0xbbe19ac4f5c67e9eec32c9e6b7dd7bc8059c91f501b2f26a92b30bc268b0b4b, 0x2724ac58e1ea4df19e6644b8e7b7665d9248d34ffbbf4c4ca8934c608d2e8f6a, 0x446788d95426afea830d1a6ca8d2d085bfb4330cb2514dffd60a9ab70fff709, 0xe1ecf26c286c86abd910c2b37ac40bfc0e65cb2914269a6a6aaec5cdff5758f, 0x29a267dc9f3d12d601a849148a2449103f25713083b1611c386d7d0c05ea4ba3, 0x1dc34a60e783b5daf42125586ea2a5b49dc2cbeb9d2b90ba881c34ceb99d2d3b, 0x2b9fce58534bf4a486c3220f0ff9026f578ca9c435d8321024d10eec82be4e5b, 0x2fd9c97f01054fe61ca5e07e3681c1dd9a9d1f8ba630dd24ca5a344c3d666d19, 0x4e6a7146c2ac015037f0a82c1bc746bfb469cec9fee37f1b708239f433e647, 0xf5beba2020afde73013b7efe0c1384762db8612dae058d0f849c7383c07943c, 0x1c5e1e6ef1be1aaf4b6e0d32d590dc5b249e1b1bbcf7d05d3e60c63e0a18667e, 0x95675c6e1e8f6daa8dd42060883a7e9795f1bf881095e98497d33fd5c8cfa79, 0x60093cc9e1f54f7bba74af718e19a10f033198c22d21f3ee80271258099dccc, 0x2c44a35ca8e24a9f5093ce1cb92c8d0a49c5337cc3601c44e4f12e044ace0dc1, 0x3e89623477c5f1365bba16ecb1a8a5a70e3d5c83d50f30715a4074343e68f68],
    [0x1925fd586e678334d1618a7563499f6b4d001cbf3afb202328435f2d49cf734a, 0x1a187d62deb639b820168e8b725a76c96e556a6e90304a1aca7f1971057719bb, 0x17238dde447d9bc6cab663957ff54c74b47d53bad425dc3bc11482ad4484aa0e, 0x2d7a0593a56bd337e7eae8a984181a77465891cb699d069efbbce87113570291, 0x278387c4eeee6ace12f06531a312b777895ecb43495bf90a740b5ff258a733af, 0x181ae209709983bd903f41b57eeea056849f4a86d3d79e12892a45250e01f478, 0x2867934ebe66c335663b038c9622b41cb6bf88402c049e91801d416d73441a68, 0x1651870d1a0d7d05a218d811e464fc4767e798061515e43be016c6672b4db55, 0xf17095f8a2b21edd50126d275134f29cfb911a7846d5cf2da795be0c1a70024, 0xf29ea40097b34f39d01cd889e6319731da77302171713e2990e838edcb51ce8, 0x34503418f27ccfbdc0ee2529112d5768087367386315b530a2d9a052b608901, 0x2da658aeea1db7b2066cc982a3a4a62fc22eea96a956b8c8d4f6b9f169bf34f6, 0x99891e8f2205b9edb734fb0bc6c8e14d4cf2eb7850a5496ffb44dacfbee6877, 0x22b28527a9e27d65b7d9d425f4b2f4d57bcdc390089d3ab210cf46373565b251, 0x24ac41c21e032f1205f48938a1ba892716ae8d4c7230864b86f3b75576d249fa, 0xefde17c56189b5dc8dd3fc9d4796eefc7dd52347c0dd3ad06538c2cbccd8601],
    [0x1f321a1be55e4b41c5d5a9985d450f6c23a2db580cde1fd17df1ea16f393998, 0x1284635e8aa17e34bab161fc58a3e85ec269123593797a44622f6bc5b14a028a, 0x18403a5edf30cb8680f7eb86264aa0efc6422ea6f34efe55f9783bb6bccaaf5c, 0x29ad7c5e7c5ee93c961d4b670c2998047174bbfa7edcfe28b2b4d19f3c95d995, 0x2685b8dec7109c008c4eb559aef8b289648738087770d65a8a4f61d933309ce1, 0x6d1a1bca7522d697a93b448ac11d95972e2737c9f6da9789408ef4a701c03e0, 0x159f8629446b261b17f2bba98679cd215ff18a8e22a0addadcaa084ca728be2c, 0x2100c1605b40e1644c527571d1f2a268d17a89c1b0274fde3c1856768e134361, 0x14cd583763c5aaa5965a6cd810d3aa708ea1b01e865ad84926b6dd8a0c297f3a, 0x2f9afdf2575f844497ccf724cdc060155b29e2f452c95006bfe54d4402068272, 0xb6ce3f06fc23b61e6949086a27891cb2132730d5d976c4d036c7e5aa960ecd2, 0x2096a4ace19cc7c0d94c97584f8bd1e1aa0f38a05ba444b158c0a4f33def65fa, 0x1742909d20f9f17efb5c6ce8b23f6b85f7db0e01111ad80e910da7387926bec3, 0x133c486c3be9d399176c89777872f6f65cc4bfa41a00b11a2b07db79541a4d9d, 0x60b5bc9b94f45495d6e3fad5ef7c20c1d304c3d0b5dbfe930c8ae22233fc358, 0x16c0f928676951faebb1a97f70dd86bb2439c4fadeb26028d69f33107949dcac],
    [0x457f42dbda7cb38de3369bad13b68321762477158c3d9b2edc65731d2b0c43e, 0x5bc53f4bf388b5f477d5bf8c5de1e7f38ef0f94c775d737dfbcfe40a7fcca47, 0x20d057e30e2563d7dbc5d2641226c6f6000bcb549e7dcdb9b7df819ffd10bcdb, 0x16f0574e7c13b41c5ececc36f9590719c31f29435a736c33ad9ac1afb9287583, 0x1b9629d5678b18eca5f9c5244adbc287bf1b1a89468e549d1765835db5fdce7e, 0x27d80f156488fd903d07d2c64460dd644d47db5973d0c736d914e3fa60fdbb1e, 0x21197bb3fd8b66d8735019cdd7911cfceaba63b49dcd07910e48c993fe79d950, 0x28f5f49728da96532a66a2d377eb299de91cc1d78701d44a0a5a5cc67ddebf9e, 0x165bbce0d62d6841124276f53cb28883ac5e7ecc12d12514e2feb2e19b7913f5, 0x14937807a2d9d72d2234699c5f3b12f1b72e282b216fae910db56f68cada4bf7, 0x7142fc4901f0e214ec4c74f1685c35b0485516b7b827d75ea1b801e78f0445d, 0x2714d6a77ac0ac766c4da2cf468c59fcc7be39c93129b9d927c2abd6843bba53, 0x1d3110379d97c5ca70da7b048a8bc859587af977b5fbb83eaf0f951b1db2cc69, 0x122f9b480060c35e6b1b0bb0212291b0adbe2719c660eab107abd5e632e2b96e, 0x2815f76f3eeca94b8f2c42982cf182c937af5efbc802621c4ad9087603e5b5b, 0x228acef677466bbce8160bd59c938c5d3400c24a10d1a3cf145519ce1397904b],
    [0x2f6f0800c73e0b58c4e31639c1d98e57aa1d7b38f24198ddab4d3bdad8b1b1d2, 0x12dcb00b96e9729e3e440eeab56d23b49592c8d306826ee18efc8f7fb11fcd3d, 0x14c934fddb9e93c1b539ff3c72692317d0c365fd7a727f2b0d40e0442ee6cd82, 0x1f5b48fbb10cea0ef59ad9b12483ed7be5c601513b0ccce1cda3a80c45a80c62, 0x768ab8aa5cd040e5ee5de5261110d22bbbd30c0b5d9ca3d2b075ab0b0de8f38, 0x2b84fe02c304f24fadc1edc0691f5bffb0501f7be8a381d099a67a9b7a870347, 0x1827d1191b15dcf51a200bd968f5ca9cd1f96c3fd79edd645406ca0cad18251c, 0x16950a06b92b5485ef759d0a43945c48231b0ffde5b2281ef87eca0180bfadd, 0x211297da4d70cf7d43f3ccd70a88c15224cf043f6faea68a74d6fe282a831607, 0xa181217d1315fc3fecf5e801814b4060a742f8186893db95f39ff21721e4d85, 0x286058ed6304f12c9d7b6053e6d2279d34a0c187f029810854c809486d834444, 0x2cd0a562132678f5f840cda24da4d3060639841f53c603b1a7ad459f81ddf9a9, 0x21ce26e8e7c83045d9e79428cd905ad489dfbe75cac1fe58540867c86ef30135, 0x14addc67a9e923ff890ed279b6a29656b1145ee2a213e3c067578c17758c517, 0xafab4df7911d1154f9b5b9f9d44d08c2ce948d0e92a06e3a466c1293618db80, 0x756ddc46866ba28ae20299eac58c3d58d07c0c68f84fed9cbe306a0b9a00228],
    [0x15ea177d8bc1f254c3d290e72d8ebe6f9e5f672ec4fa5bb53bfeafbd30c41227, 0x12d41992accc7258671e1ea6167ebb3dc99fe6275c38f12fb7fcc994e3263025, 0x570a07021e7f0c979ae47d42f9e3e371249eb2a583b7060822d834e689cf8ee, 0x21b6e9c4d6dc7798292e4900ac89f5ba6dddc3d27bbb50c45f7ef63f63e6d70a, 0xbd7383dae8fd3f1af1696a4973bac5a34a01c54adc73f1aeffd5f31f01fc1f3, 0x11a866fd59e5ba1d90c39c5a4a415ec8303611f3450d52f0487aa7acc82dee9d, 0x2e330e0fb2955d8473ad9e1ba6233fdaf44fdd2fa188d4a4aed15c82979b33d0, 0x2ec61414765244f6b467c5f24e442c939c04c3811b99def64d52b1a4f17d9dab, 0x137a770838d8523704e776827dc372e55a90f20ba2dd51320c0ac783b023967b, 0x1d6ae5237bba6b6e32a89f30200200af5dcaf294019868e4e152b332765e0c86, 0x1f9037f9189a53ad5773c913e88ae7910fd020299ac394ee2e4d703b62fa69de, 0x2c6012259c33281c77d02c61bf2b4b3db3b33146557747746c9db1eabbb7cf7d, 0x1217df830ec5644575209a75abdc35fa606b271775f46edb7b7742b573d289eb, 0x1d39b721d48d3be9d3d5155c58c545485e71d003f19a9fc0c663fff57f8fcbd3, 0x144ef6b529a19c55c07e41d2859d3df72b0f756026d79f32eeb1dae57227c237, 0x2d266907d986d7e07303e2eb45b6620d01644cb8c381ea3d1738d7674728efd4],
    [0x1b31b63b9c97363652e64ce04b844efc6a63b122f164fd3d2f87d49d4fb0fe66, 0x1a8c452a31afdc62a25380d738c6cf4e5841c5620dab19410228094537ecf537, 0xd9d810fc7da5931c7a4907976b7b77fb68ce7fa860435910ca346aaa8b2aca6, 0x15e7308841e82cb44ad00ba4aef9a4241004f8adf496819032375a10fecdc8a5, 0x2e17f718ae9f7897e72b481f0c779a84c41bfacedb13e09530a7d16fe355f765, 0x127e7ffc6ff8ba194c9422ed54f61b63e58c7ae6729280d1b6e1e881d4d02fa3, 0xc730999ebdac150b6d5e7fa69d47f090863fab10d1949911a00156d328593f2, 0x111418254b9d16ef8d649c5a2fc4136ac5762191ef61f1ef46d35ef199f92a27, 0xd0e3232f7be8a95699b9bd11508fe495e026daabb9efc935ee7c4b754bc846, 0x25130e977ec4f6beb4ae4dbf64f196f48d60f80bf80c8d5f228118383790c927, 0xcbd22ca70300072163ec1b61ac95a45e959f6a6843d1f7a8fef6b5b290db4ca, 0xc4e5c71b46e2663bc89392eb5775c7769c080551d2228d8103e545548b5812c, 0x763b55731d105220bdbbed3e0f3d8dc921b4aba2d5bf2d5995317a39d43a3d1, 0x2e578b9c3527502c2cf248f9d25e724b252b1fea5d30b96840b142b066acf145, 0x2d7262bd89e73f64f7850e56ab934537f62cafaf511614bc8869875e33a69381, 0x233e5ef397661c73433fac490b72a375f31c6f6774dd69330033873c59a8db85],
    [0x2047881d542bbf974b9e9e9201453c82b5744730ee78d2fc226bf73dc724bfb8, 0x1392e09d8e3d6943778f5023ac577ed58573640dfa8cfb2261dee56f020cae02, 0x113ce5641e8c08401edbf8e40a58f7f198486c943d988b571265da3b80098b29, 0x6fe34aee96332c0dbaa756704f0acca6fd488b7a1a424bc50759ad66df3ecf6, 0x210eeda90df0688f37ee7f4db012fa7051daafd3d4e62a8a75aad73ca0c45808, 0x28f55311ca526e39e26e38e2065861f3cec1e628de46f4356441c8ecdb716178, 0xfb3a80a4b528a8955142e642194ac4a64f5b345c86e0ccf70250016052d9532, 0x1f678a57a75775bbb3ca95f5dec0761bb71ab147df107fa75f43aaf930aea3a5, 0x73ee51a98aea4e9ce5ddef9961b599770e580dee5cb29161bf81c0aa74ba6c3, 0x1236c1a9259acec50a04f193506918990da1bcc9f23bafc774803adea417e9b6, 0x169ab9a5835557f518a17756db5575e9a8273112f54b1f63479d261aad5d780a, 0x223dc979f2833569c24130f59936a05daaa49b610c7af1df373c81ad41876f07, 0x2a7e07c42b264f8847508f7767fad20b7e85338a7cc7b8db9cf0615a614b2a7c, 0x2d374c9ec1482f4d7b0cf45b5f6ae5b09f9b4c5e0d3e428646822ffc583320b2, 0x17722a6c97af3611c31e2e9c8a7c1be2cf1b1e67920cc61925228bb6b1719fcc, 0x1bec21bd2b79bf0aab824d2c73439bf306979950789c762d3f246ef172665c6c],
    [0x1e4f5c4c15166b2b0d0f2e1243ce5e4d7df0e4086f1b6c13c24760c23b3d2b94, 0x1b266d6a03fe6a667e5bbbaed2407aca042fc65ff587a37459242e347da908ab, 0xf82ebb4a3a2d9c061231d072974da7867464d45a092c369337d6f7f38f19d4f, 0x35f0f510df053ad98d957cd63f2c511acb8d63f8ee734d9b9cd9d3cda717c55, 0x239e2246410f90abaadc256d0ad649458d8a2f3a98b680bdc8648328706e59d0, 0x230a64e0e39531bab69e8378bec5ecd45dd04f7b91a264d4b852b17050a2fe7d, 0x201d93592e63dd8ed97eda0c1ef8f54ae33556e80ba51ec6c7d4ef5376da2669, 0x1bfe78c50d0b855aa69885e63537eecb984c18e2c9ffdf6f76a0d38cd8aa24a0, 0x3029708c7f3b5bafc5c0ddcd865d174e1b9ec7126ad730c124274c5627b8bfbe, 0x15a0692e27780cc154dcfb7bcca7d8c69d613ed71ac739e88ccad5311d419393, 0x158580885b4521fab1f59255bc74ac46dcbc6f67e4c5bbe3c0407f6e79f99663, 0x22e542709e136b18fda8d1c59e5df8a9efcf226296ce6b99f0c5a4c6d8c5bf53, 0x984d184c20909b189b56d89e1fe31074b711b106813e31a430f9234845fc8, 0x260bb2c2f561af7b4bba3c23af14460e63fef91913779d6ab8780093af2e76c8, 0x26e2ea372b49821ae56bbe19786ebf21c4326c188c47b70f47b2d120765cae, 0xb6c4d9d36fac30339d96876a3040224baf38b59f96fd0aa02aea30ae1a2f4d5],
    [0x2cf5fc3d75ef42b5b3743bfabc21490bab9a8bd9d38286f8d6ec65b3c13753f3, 0x846aa6aa21f18c74000f044143fa266ff1e7be7bdf600be16ce4fdc40ff1e62, 0x2f8d0ec8cf06bdb3e4c638733894d5d0a95204d648fbceada053acd9d3ba40, 0x1ce8ff9b74b79c4cea0bcdd58063f744db9630f3bf5963f1cbdd959f61126f87, 0x17d79111e385452e615c442c6ef083333a8a9e08628bbe1e84f4dee795dc1cd, 0x27d064dfb09c51348c9692abe74e7db7d899b06d63af1036ab74953c08b3c55c, 0x146874a68df33461692546b88bc079d85961ea462f0c4817e5121d74e2bf2f53, 0x52b6352c27d080dcf5d1e50b8770c1bf6cfde559b24e7dfdd17d373e9a94852, 0x1e7438946d79cd191bef0f79ab4f9604669367572252eb82cb0f3b19d4691159, 0x4709da1736faef43d616d59fe1010c92e91e1410e5dd9ac376efc7386702426, 0x28381d4a02a8a55fb06bb696c5e7ec20b36362f885b753b1ddc517db813f62fc, 0x160ecf90b4e27a49d3f40b2cbe9f0a6ad7fba8256b9a52fb4cbfff1507a47113, 0x30e521d91a1e1f8836f39b27733745fdf96d0867bbfd6ccaabcc94735a4704b, 0x2b66af33183aa4e53cfb665216f86b458fd3e909d9a3b03758bad9e44657c43a, 0x1e8516b0a2276dcba92d8b88d6fd8f9b04d61ab367a21058ca5bc8a752aabb53, 0x2b2172b73311ff4eebdf6b89af516d2ae0b8ab75b8adf8044eb7e20d511826b8],
    [0x64c2e0636845a3b22912c8baa94c39e14e7df6bb6d52cb8914521bab14371e6, 0x1bd4f8967e443e8efe5a18601bfed7d2bd47b34c60dff0ac964d6a4eb059b417, 0x4efc234a1736354be10620eadb0fafbf030092e0f16f539eda958274d543430, 0x2f42fc1f05d90dbce413777f74a353c57e8e6632d30e28aaebde88b878df46db, 0xa3fdc6b2d46b0047731f5994f193b35fd23e6d4d4906d0622be96f29d9b5369, 0xa9a381a6f2be5b71450314f356fcceeff031aa46a27c92ceced2cebb547d960, 0x2bf2a0d3ac00be9e5bc060a39053d85f4515d3ecc6ee6d9925c557eb3ffa487a, 0x149cea4acc9d345af9baa0b0aa9dbb3a275341487b4809a972d4ca49fd02cfa0, 0x2ead343a42b0ea570e1b35af19c93b0c25f50f1503cf4a637dbb9bcb58a0bf21, 0x1c12759c6c33c9cbf6ad891adb1cc2ef432de342518651f8b1577394d7527edf, 0x1619230feafc8101f6bc79b2c7204eb8a8b083a38c0d4bae74b31fcd353d879b, 0x2bdc4bb87fececa61ace09b0abe8b6dd75cfaf7ba591f02eeb5635808ecdb46e, 0x1d833c7135d27610e6972fdf005780ae41f0f98e36b6251978b6bf95d7df6a3d, 0x1ff7a459526e796396fcca196dd04f81ba3401fec67b6b6d83422e987782009d, 0x2440fbb4876cf36a771ae13594f31b06f3ba1748ccb06f3a16a97f94d8d66b28, 0x10e5d84b11ab864879fed067da2804f75c9a75273911cded8bb551cff3ebb3e6],
    [0x2e56c1830fe663703064d0f77480bc78b4f1d17939629fea2e9e39284f3f6262, 0xa099027ca6f5c10087a2f4b38caddb366b98cc4dd0ea74f08819e75029f46f5, 0x1a97468d8d9b841a57dec26dd4f17af8602de695fc539d284ee78ff852949904, 0x394a6458349a524f4995c77b6b7f9ce6455a2162f1374383187a751a908358d, 0x1216cf8f079a098852635296432f576a48c6dcdefaac70bd63c0f86d79de9591, 0x21c53a9ee1d8f71099fd185abe9772623343b8ba65e3f969ab665cc58c0a6003, 0xd00e1ec990ebd5225c709906332ec218459d452a34560c000a4141fe92a1275, 0x79036df6b30a36b4f6a52cc876b33ec8cc13beed3e49d996bc31130e9942fd9, 0x7316c90d57097c21407e647c1290a42d5766d43a8f324733420cabdacc16580, 0x2caa85f3b8132001bb0fcf4114d84dba8d6ac61c96a21f3195d74803857085b3, 0x1a5b32a122696df0430fce233abfe21fcd11dd0731f969f95f2e9243fdd98df5, 0x1d46a76334170cf0b58ba0cdd75b31f83b3ad2bc79f7c8c930a5eacb0ba02e1a, 0xd99bf048437a3cc71ea6998f890a532ab3a12024e230e8536d8a8bef084e956, 0x1afc2f4c8ba126e304c61726fec22341f447302a246b922e339cd87bf2def560, 0x1c9f11e8631cd4664da9bcf45bdec1d92ba81407e71321c727b14c4c53ff491c, 0x199268e3ac14b60c2a29efe18ea87ec108721eb881f6a49e9d6ba1a1dd94d3e0],
    [0x22c335d47bf6718031e83de42d47ab805bdce03e3eacb2ee8a5dd88caf5d5657, 0x1160bf99f0f4ec07b8ef2d15be5a3a8d1cfa192e406bbef5ed8dd5fb75db41b9, 0x2254cd32fd4087b71387dac3554cfc9de00194f7472fa41de674d8ca01cbf08c, 0x1919751c378a82506fe30958a36bd6e75ec673bf25d693d98033602e73d647e5, 0x27916b3e4a0c89922381ac94cdf88b3a4e82a539fcf5c899a5120a63cb4f768e, 0x268d3ff9e18dc9c373616a6a5a1b81c93ec208dc043414557310c749b77985c8, 0x21286d51d350476f7b3a2ae3ec046c13d5c911173de41ac1dc9e59bbba669f2c, 0x20fbf8d6843bac844b6cb6324f7054344125db54d5600a06fc9b720f2229941d, 0x1a2fb57443a3a3d7030aab81b256c8b9a84da724036a003d435ebcaccc774f44, 0x21b13b9a4cb8e9712bbce32f178f59074a35a8cf0771061ca0764b6b190fa139, 0x2c7a11815a420038f71fd201baa6412ac292a63dd9f7d3090ba15573bba3c5d6, 0x18c9638094626db7e58bffd717b1287c8ace706823253bf6f91ca06a37f7fb35, 0x136fb4abc4e094fb4b5bff23de0d41bb4764481de793f828bf3d9f9df1aa1cc7, 0x3ec0f79bf7730bda188a011089b92d26afaa5bad67724d8e1932572c65796a8, 0x629f306d8b1a0682c7794c32da95adaea0be483fe4f631c2b9dc250541257d0, 0x1f0854ee6861491721684270879df687a12c28a0a7935c0bac0972ea398410d6],
    [0x58928f7c7b8503a2585ac439ae4eda9310d87f95042402ffafe98ef48ea713c, 0x2fe5a4fac888cf8dfa9acfcee249f788e86c043441cd3623fb972ee519ace172, 0x29e954045cccab9612ff8402ad222c21dd5cd3b34d4156541d5024dc885b8d98, 0x251a3962ba0f3e9f8de881d104643c9c39272092312a2a771f11791e63957b20, 0xeb04f89599cba100ee5bbc4704ec638d102c6701083c6afee8d26cdc64b101d, 0x2d2057ebb4878c47313300f8a161c6d6b3008c263e738ed1b77f6e2d2368b082, 0xf537c7681eaad752061f5946a10f248f8afe02efaa724d97e763cc8c0971556, 0x1e40b9aa000d70d6ee680f23d34ba07ea043561b79e8b6c306fa7878232f1cfb, 0x1aa38f4a119fa9c3e3ff99d0ae54aa6cb1180c41d7585ef4e033678fac84b2f7, 0x5661c023cc8ffadc425af8edbc5a45a5daf64967bab03b91c6f2383a61949a9, 0x23c4d9d809b0d3afc1c27cb6b1dec663e9625fd44f1f1389cd1b29e2db150e0, 0x9fac0eb9231850de7965393a8bfd15ddcbbf26596278dc789b3e40703db42b6, 0x40b84ab00737103ed5ac312f5d44e27d4749cd191051bf8a6231bb4780e354d, 0x2e2eb4b8354572c267ce846c9eb223e3819628b26456d7244899e57d70dff93b, 0x198728ec996ad0953cf87bfeb8810be5c588ac10b738ccad7b1f8bad50c97e35, 0x2f8a8ee41d90aac2a91c1cc70772ed6f98340052516b3a54bd8df388870c5b24]]

/-- starky/src/poseidon_bn128_constants.rs L12397-12686 -/
def m16 : List (List Nat) := [
    [0x2b6fd7bc3a3b595c206c43daac752b765a12255c37ab51ae183933737a8b8099, 0x69b1779dec3eaded3f07d0c3e6cecd6cffe78d747faedad9c90665aa2d92cb3, 0x1fa4effc83498d19aaa598b7771f88a0554dddda89d32dcf8a6f4cf776d13b99, 0x1676f5c07417ab54c37ec8ae1a8314bdeeb09964769881592043dffcb26bf41, 0x1f4e7bbc8d42779e58aa07bf54ff324b814fe687b4c8eb81b9b7e74448ee27ff, 0xf6b18c98fc89fbfa99a04c8c96ae5db35c296479f484b680df905d4cbd1dfa9, 0xe6cd10883e1e11c6c191d36329f30eb0045af06c2d86d0c439f5c1f4fef54b, 0x425a9641fb01558bc7170a2ffc24eb6a514198b296a1629cc284d983bca8757, 0x397a7d7434b0aa941348de45aec442cd5cad2c398884950e8233c58dd50335, 0x1d66f208fc04411a1385c22e203dc08f0bac2f7cd9dfaccdec20d3b93252ad04, 0xec1ed3ae3beac4ddd1fdb17b9c7c648e7ec81885a07a5bcbd967e6a3676f356, 0xb3e601e36a5d82e0214362c8419474dc1cc2c0ed8126534d69a3f790b27c603, 0x163cb4e3a5ec92e57b25b095a3aaa8cfdc4ce59267718cc6090a07e14af10b0d, 0x2dca90f3e5a15b29895f48d7a1290d7a33646b89620dd0a8ccde3aa3a51d41cb, 0x2c78ee5ea16d38f0beb9dc0733c4bb1893cb33ff671b737a1122d64f729cff22, 0x2af324ec4f9e7786dcf00439c75a294bff753e3292bbf62e66471fa730f19c79],
    [0x111d04c083f51a6fdf87412a537f6601076d61f435094ea16946efbfa4893e97, 0x187aae261ef3ee21b37023518a071675c6d00bde82bd7f5441448abb632a764b, 0xda28ede7f63f75596a2568b2dd7a584576e5b282f284795b1a7aa21663822b1, 0x2043bfe52d2964e4a3b2da5e30107716cc764f9b1c8ba463f215ab1f7f03498b, 0x27b48a636a39b51a938aea3eb552091559fbfbe71e096d518c40d908dd2570ee, 0x17fe75a3d11b4b9d2acf7856d6dea3bbac62ade0c501347b16864f3c73ebb7f9, 0x2326c3dca7aab6b1852654fb13fff42a152ca9632124216cc7cc6f6d37522a59, 0x80c442909227f4a9da92e33237f9a82cb0c6f7d0c4155bdea5c6517b046eb9e, 0x2b1c00ea00893f9f91331bc907397db865c37d3bc6c4b39b81cd931696fd7837, 0x92f03c7e98e61c2a85943ffaf9c04dbb0145fc2055e4d5be90bb68b90109746, 0x2a0f77bb3624fc4826c9a2a66be4ec75dbc21642a16fcc4182d2d65c0fd8d7ff, 0x1083b742d35332a8b79b80e7dc04a72f7e86692e529b6a1ec5687334b607da7c, 0x53e95f9455bc6499d447b6cedd0b6aad9cbced97ccf10060f3c9ef51e28e76d, 0x5904dae3470d40ce12749b27d646e620e8519e2b17cfa016caeb89d9e34ee6e, 0x2e563b9dc5a3d4d5a93f476b466e371019c77fd6eea506126a4f79274f2f6b9b, 0x14560083d980d172dd40c9426cff41467acea41d7f48ff11ac5fcc087ba2d5b8],
    [0x133c5913f25ff5eaa860d0318f6a4b4349fd22f2d53530e5c785b70988a3a88, 0x169538094d4f752529471e3fddc9ef994cfad4f96dcc7d636f0fd509b8eb9c31, 0x199835da95f6eb22c591ebe514c7f283f674fcfa1eb787dfee5781a64f082439, 0xdbd8662511dd7000991b39da129f9d03b565a0cd2f218d6eabbb49a25f105e5, 0xdd0c118f15ae07e5db55077dfa46e08109954d99e18d72cd2caf613920e390b, 0x7c921bf45e354848a60b0e5f292bb03c2469498b9c1e4d322f4afd1867408c9, 0x1f694d1acbaab0ea5bc026a1864d568be555b89c0f49b6134e9b895ae141da86, 0x1604de6a2db122bdd5d839540a1005ed402425bac3b85e3a72224d337402bdec, 0x25970ce31b7b10cef221267bb1be1656ec29146df06fdb5b4f6fe6607523aa08, 0x14956f80a65b01f9ee97e2eb070e9df2711cb8bcb538dd98e532636cc60782e8, 0x1d799ae83ef6552f30edc47b9e82adc0503dc4b74da40ba0bbd2cc9eb1b0a53, 0x12417c001be86197013b2b4871c4e9b0dceb83991919a9cafacfe54666f590af, 0x2171fd11f94485466a819e24d0acef08b0c87d78b46d93bb9462b443fa40cdc5, 0x22e9bf2aa02fe65e3cc74fb3d83d4e3351869bd30528c378958af462efd645ff, 0x72ea2f5cdc8a3789fbcea414a91e7b27bbfb3151df510d080ff4ef7cc73f0d9, 0x260f751c7823abae61b8f3748c84791c0bd84acf7eb6854870250178e9a52cf5],
    [0x8875f47d6f518c8c2df51a786bf2207aade284067228f440e7d0307520a56cf, 0xa68830f19c0a729b2f89be27373d397ae1157bf507e7799d4220166ea0982d7, 0x2af560600b3e25abcc7f78a4d6e2cd3fd99bcba075ab82b55e9841bef7b9210d, 0x11b33a9f1818ed7f581cac020051de26fe28dc0bd8cb1a4457d5a8447bdbd6fc, 0x45c617f604c1ac9fb8d76e8d380322e5a3b69fa7b7c2ae2c8ec5966d6a4c788, 0xe6197fe502328d0ef7f9b930355312b347204b877e7f85d9b569dc34f064c1a, 0xcdfe099e7a154278dfb6c0388b9daa1e8ff323a20be6a6aa7a8438333f879cb, 0x15ded859d501c2733feaddde22ff36fa8ae85803aec7a204f42b1f6553bcc655, 0x2d4026bfa7b37a19a300abaf2e1d5c32dbcd42240ed860f681f61dd6d6214cef, 0xbccb669cb016d498464944f7192ecff6716e6cb5f895d2715bcbbb65b1288c0, 0x5de1099c65f08a990ac0f1f45ec2fb872c771e10275dccfa4fce1146639d0d5, 0x2c465d9b5eb852d79338b427b3184d941f34046172a82cce44e2b8e5c4379478, 0x23918075c8fa0929befc2b171f99ebe9ddd6683594ef9a83f84d4acfd9592d59, 0x15d7fba62bac57be5d97452a3c06d9fa757f144df166479ee7306967480a287d, 0x2b6f16f812ba903901355955cc4ddb99f24f1c6e26430947e51811a68311bbf, 0xf6673b7fb4be8cdea74aaa7802c9c73ff0d53a98e94a2bc60685d890a24fdeb],
    [0xba9f44a107a81cb23fba66f2bc34152728f5f5ca68406649a7efe47c9473f21, 0x18ae39086eebb98d1fc5f05fa0f87ddcb149b0afe38d1bbb85a65697895e63f, 0x101544d131454f20b549b24a65ec84f1b3221fd9b43461ddc6d156833b34c52a, 0x26f2f58d63ca6ef59bb95206ce3ed3124885ec21762bbb1db1d6a7771ec6650, 0x25b974fc5129d82ae4c6246e35f802e03440ead09995865313c8ca91c820c2d1, 0x2d409bf78bd6f6a4eca7397d065023f0bb6732207925d3ce4beef9f621da2ba2, 0x17f732cc1354b1fb476e70568d2dcb0b6683d30b02415dfd385504736aa86de6, 0x40db0defe6ba4797b74a43125cf34d86a2b33e7a22e2710b0fb7a5568893aac, 0x29e89034942414a1ff6833d6e22742d4106e0f5f37d1f2ab80e5444e5a52c9c7, 0x121d2ba5bd8f232ecf44aacf1044cd6ab6f93f1e537d7d1541754fd49f51b225, 0xf0913eb4ee7d3c02d8ce73d1cec2b6cbb176a92129b34a294adf066243ff6bd, 0xa0fe66c0d4de00cc7761008732a0097fb14d6465f9d1df835e0423fb207d979, 0x898ed1ec1a43687ff6aba32de5f819434528a0752b3928331899b0646b2f061, 0x11e0b2343ef371d2d6d22805974f2539b6e510d761e0da170d0da90095a13262, 0x1d59d5c10b0c9dd347899377da35b7e677c7d39ef1b49166b974a7f2bc99c946, 0x1a15b7e2de27125f2e6a74f4ec7cd2455f1bbfaeb1155f1af819bdb5fe54241d],
    [0x542832ab23b6c7a4b547a1066037152a2442e998c5381ba97698413153ba6f1, 0x4c5ebc771344cc0612765710bfcb1c2e6097abc3d346f049495f7d7b7f06cb1, 0x1a51740cda5e45ea4d4bd7bf5ce5466a66a11afb5bc93cf10d5309e07d410e4e, 0x2eb6ed568377b696ad3cb237064ec68e390c24886e1f122d21d7cf3290dc6d08, 0x181589b140c9109e492fc3ec7d8ca8e3c25a7ce58df06f13ef43561d58c5926e, 0x205a6d5aab2d224b668c70fcb41582ee9ebe1ff099292b4bc50af8b292c0ea42, 0x28239a882dc7b2f3ff7b9aa8de9e3d81af736d4ee6ed991d5c6b4fa540148f43, 0x1ab15f2fde6f535e77e615c8c2602193d45860cc015849df578f9fef9a5bb283, 0x32b6266f24017fde1b281d0fe206dff30b539d5c5ba13b5312e488d8d6f194b, 0x4e358f259a33244f4058a056110a26816bbec3c76ab6a5f7be93c9e0c92f3eb, 0x25a9ac2d1ef84abd98927b52c24f38796ea60e63858ec5b50196d7e169c93b84, 0x2f521f24bc02286ae2bf8484fbbc39843886755f52bfec7d3dd5df78d340721d, 0x1dc3f7a659530a13accad181b6e265474108d8b1469266552dfbc38cb679d06d, 0x2ba39845393fcc776fd383e535d567621c7f64005a83a6f7f48222bc902092a8, 0x4730fe04e0108c9a5145a5c48e60c5457e4708522157bfe0f82af5c664d6ea2, 0x75a09e41e74de8a2ac7fef27591e76a77c851e1a51185f31e99b5e08f01cc74],
    [0xba1f764367360952942ccb6edf051c8f937906a816641e0d1e9e2ed26906fa8, 0x29faa7dadc8b7e9588d4a601e77bd80aadf272a1bfec3c443ca3ccac81d9e1e1, 0x1324558b8a5d4ba61b17790128be9f2440c0085dd5d6065b88f0a3b2537bdadd, 0x18faaf1c91e002f7dbbd12f408bd5c5b92f38e02ce3635824821e0347faf53ec, 0xee1288b29855e2e38dd26292b39e260529841344538d6499996a32e7cc523f3, 0x2380ab051d0ac580a7d116f4a9337eb31090a4c7ecbd4e638e7717b7a52bf106, 0x158926b9e94b10fcb321b293bb8a8647627a5bd31315808d397c1c94f650f2cd, 0x264fadcc791aa18e76751a895242c30cdbbd1197a90a456dc278e10bf0bff5e5, 0x2ea014b61ed575392239bd9411c0a6c4202b7334cf2e0dd8c3040528e4a3dfda, 0x2da2603a26d4fdec35318204ba5060663e15a0b1e4d9395258d5e6eecaea8fb1, 0x20a0e3f4e1249c4c6af100dfdf63f8bdc69ec7885bcd0d2c2e98d98f9bb9d104, 0x2f1d3eed36018f9679711e030bdbae51224b5efb8b1eb1cdca8ab886212f0fb, 0xe388bb105242406e372080e997a31392cf4ffbd9c694163fc366eae770e435d, 0x25143649c13e08d4b00bf34d2aa1a8e450f89788e27766896217047155c5bf1e, 0x12ec24239ba1b0fc9f952550a223a52d209d8d22b8b21ac24881a2719276be0e, 0x79c04944d50b4777dd0bebe953600645ceca9d65fba020f97365146bef9c6ce],
    [0x2e0611fa4ca3985d7bfaf512f21a4081141f4ed0dc4b022834d3cb6cfd8b7ffc, 0x2acf3493012bbd818724e7ceda2431e97c8933bfaeb5d7463b512e6e8e8f7fcc, 0x13473024ba419fc2a7743e7df8fc8375aab150d3753a54250a808d66f2d06b91, 0x29437af1b14f637a1f0e39955f2604bf20439fcb2a090e346aa65a9ebe69788e, 0x206e4d445315b764280cc643b9479f49946ea86d7304b6a2c692ac34d7c98d34, 0x1382c3c24bf2489fe9efd80a163e650111f5d9885e58a9ed729dca1f9a74e59f, 0x17cd11864fd2c73d0867d37264b4ca14df935a82f2a6f432c4998135fa5f4aa0, 0x2de279fcf77a270823a91a6cd1aafb58e9e3ab32fdff0b3b05c98d554db6fad3, 0x12ced5254e260a9db7abe0cbea26396680f6e57dc07732a755d409ef751200b9, 0xef5f9ee6ba1ae1d1264cf1a36e0fe4b8043ab0bddf9b9c3200fb687a8ea5c83, 0x6b7e18d01b47ff8e4ef08078e8128a06693be657489492ac4195a854722bdfd, 0x23aa7ccc3751b740eec9f35a29986bc958a4dbc7c4b12eab2be8376706deb20e, 0x2273c370eb5810c03903605d7cc94d5a92af6aaaa7b844f35189e77406a7e86b, 0x2a7310e75fafe902e20287a91abe388aae8420b1ea4660dd7c159c26b9632cd1, 0x20098399725ee15d93ffd3e481e4a7b95c8c5083f9d69bff1714eea7c7d82d49, 0x2ca2bac7c1aa0c64e684123f0ffe22173923052b6a01f3c29be80137fd8972c],
    [0xe6f23c0ef6f159dec68341a87830fb864b6c08cb954a14a2500876697897fb7, 0x23b34612e7d052f6b312ca0e0cf70034ad232d9bf63c88821085383b6f6ec4a3, 0x13f15bc6453df6f9383446550534dc57aedb10139e3053e83bafdd99356175f0, 0xedf86bf1b1599fe27c66f3494862d75df7764070a8263cf88778f7287938d8e, 0x1641648c26b5a2dc297daaa6d4ddb6a2f258ba738f9094e7c5cda6efa8c993b1, 0x280c4522ad0ffd92c391e94c70f87120b8341890c3329af050625f2be52f3a41, 0x1d772098b6154921db8e7506e6f0372ca44f20af3386e13bcf71ff5dc0d61b1b, 0x53ed8ad550d8992f4b9814920183dd839bf355eaca8cc7b07020a22614a808a, 0x1d4f9ba4fd8ce4ef193b9f870f44956079538d63bce344f9016ac5ed63a99a5e, 0xd53d61c8a5214e0c4715274ad67a5d6a2cfb9fc3c1e791d41de22c8ba8468a4, 0x12cf87253913d45d287e975f2b4f5b909d16a87d89c889057f666f6ba61389b0, 0x2b088cd30a10899babc325bba32aa343d329f9a8782469c4d25f0f237ff607fd, 0x19972ffdde7898ec8be4fb28e4b19efaa43c7ee20c88e29096ebe872e1c19475, 0x1fa6944703fe0012a16ee6042529ff02bc804313ef8c6d8b0f910a75e6f47739, 0x18237af733bc44418ac84e623f483a6be28b8f21d033fbf099d645ba20f1fc26, 0x13d9035a0dc798b04dcef0f08edd241524fdca0e95ba9cac05d207bd317e19cf],
    [0x1a7a2a4a08d87e75f720302bead7ca21c8f7c2ed2debaced9b8b1b2da461cbc, 0x11680cc6e80b0e430a4cd3607017fa8331d86c4d03a96dfc18767c97cbe0a197, 0x1314b54f8786096244532c9f054b379636e2b58bfdceb3d48dfb2210b529b4e5, 0x1336b208e00d8ebac83246a96ebdde351063fa3f635887e753a0ce3e29c7eedd, 0x1887be87f7a352410482ef3bdcf7ef17976e087eb8990c76d7e971c44c048239, 0x1f405a9483311e1497568f1bdcd6d58cd6bc813982a0e71561b620003b888204, 0x209576be72db7b0c9fe2b8329125e7dff0489a8e900a5f14c1e6e48604134264, 0x279702b135d144ede943195269c00bf620f058bf0186ce9fff3cb38b22245a, 0x2c9c3135cf64b89eb5b714d7b2ebcd81fc7edae637cc6116591df208b6b2583, 0x252e78b4838ad5007f518bb9c6a4ce501871f71128eee3f0c9784cd64b183fbf, 0x29a7d554e9ffbee639867842fd0e7d41ea9b1bc9621b654fcb398f71c95b668e, 0x305a0c2c2c4d35998e9913829f5602504363f21bd720347350b604193e79bc3f, 0x61d78e1953d1943e2d968335b73e15fecef89075e96c943d39702b214ddc5fa, 0x261f975babd7692822473b8e39f948b9cf98730a9785de393179d4bb99dacdc8, 0x1e3d6cef37f9bdac23d1b381a6c58d0ecf06a6ebf58dfa7a995a443ed7df68e9, 0x1d6657d791831169c56b6e9a201f8b7b240246a2d0f854430489b983454032d4],
    [0x1d8005df48c8565987dbb442b482cae5bfc10ee486ecc5b670ce861345979d1d, 0x1fa772ebde6f3732444623d67fe991116298f8f30a2d1010c8ae6132a3d6907f, 0x56a8ecd232a674c63d7b603ef8cd06321c560df2fd3f6c2649af576467fd798, 0x2646341eb44b4800d56084cb48500fac48fc533891f557e96784cc6004d8928b, 0x231f2c98bda8d48bb4a6d9c98bbbc16027235a22a1ed4f88bc8d3a6e582209f2, 0x1cafcfb62926fbc04857b0bd7d7392b8d8add16b5cbefb54b4d5312826e89942, 0xb7ab1ef17ff6235f7737f044161902f03d594cf4a0cc67b4ffb4711ade1eb0f, 0x179a82b77f2ccb94b38eb582ac4abbb16df429ecc22471be73cc7766f96d9948, 0x18b63685f6fed2aa1904856378442151dd1fa01c7ce6121d23e1e9ee20b42558, 0xa27a8d1af6a0460ae1724f32f21a06b036668d0a863be50fcc47fec5763ce93, 0x186756775058d09c639cdabbacd01bf3c2744152156fbf7e8f3e999fb610ed38, 0x8bd9ddd192d797a19dd1da049beb39fa6596598a27031ea1c2b28966d96180c, 0x194184a825de9e9b63ed7a7bd071253ef5903e1e75a50536db93c26311a72017, 0x2e08b28bdcc417d9643b3008085a27f4a9876792d3915c8b9da3567a6dd6ce82, 0x28e55b0bed59191216d5dbe1dd05b22c009b079de877fd54aaf5401d2c867e02, 0x1c89d8f975f0304282ad8f7bd41c12c3b18ac6b80e4065fccda423bbb3ffa786],
    [0x28122254823f8926acb7e98f557e796282e5e1271618858e76d49d0886da16f3, 0x2e63f1740332f57e8317f2592ebd8db0812714d6604132d525e33e19b3c98494, 0x98b740976c2a1031e75132e050bf3838b739d061582543c1c7f95c152ee262, 0x6f53c79fed9e09848e112a0742d8ae84a04bd9ba5aa2765b1e5edfb1602140f, 0x1fcea89286dc1db61fe1111606af396e98cb53dab5199750aa5e5d11561fb145, 0xa12e162620e71beeb203be56594416b083e7e94eec23e0f44a5ffe9e159508b, 0x1b1bbf4e9f706051716a0e28990caf17573086a5d818c038836696808b12d8e5, 0x89efed00e9d993f5fc1d5af2f2b5d47a9b70e6d5a603fbaaa8f65102123efd7, 0x2b202e1d2626c6793d68aacf9c3a8fffb27cdf5a0b83ff8f3504f9ab26a43d15, 0x3048a265d0eeb40e5a531633ac22bb825f75cee9036e66a061be3d4d248c862, 0x2532dd7487fcae0dc3a7ac50b80ec330c6fb6d4cf885f1135988bf6dfc010a6f, 0x12cee8e3d1cac1ca84517ab3def487c460aec058348ff220c801b78979af9e61, 0x21c0d1874decaf90613183ea827b91c1b2951839f71f329cb9c9b0753ffaefee, 0x17e9ed191c5641d768b0e55ec0d4a85f6e5419d32f5668d397d5b6cb805387f, 0xc6c9ec31c9e3be0744919fc555c77c0c125927bd16de2807712b35ca26dd045, 0x20829ef3df9c183f8965e49c8f315c2995a6446a76053543eb750145f1a77400],
    [0x2414d4aefc7b4857df681328e68a582d23b2dcffd579a8e6aeed6c61050e05cd, 0x1202e349d1d7b805846e90834efc911eb6b10c2a09eaeaa29ed288bd779b14f1, 0x24b96dbebfab6d23fa32c2c8e7758cb240bacd8143323c53cdb48dc8b65f8e4, 0x2a3c9f55afacee735a1b515526426384ad044291f7691974d9c05c634b43947e, 0xf7bfcfab17db34c144cee44636bdeadfab44a6bf4fc8ef384ec89a4ae9ed209, 0x17203c4d2e1a428a17be2c27d1c4c5960dfc6aa36f22bdde8be56a0cd44e71ab, 0x22a8ee74367413eccf7aa03fdd420c6bb6255a6dd82081d6b14eda9a9752329b, 0x21e25f0a7f8edc38de25ba605a86cc08e08ccb03e77c5e0b9edabe74768b60c0, 0x6a78dfde1458ee341a089c15f953a2193527dffb43f552cdad595da7c6fecc6, 0x3fd94e51bbda6843d31a282530d54240aa496165d644d5d7737b1e5a7d60d52, 0x2efe529db1de3c01d6fe7fb8a71f1eaab6af1641fb1f7aad4f2b88cd13c9fe5, 0xcab504b22a3573d09509f85d3fbd94e94417acb25392342bacd684006c37185, 0x1cb33ad2ba7dd0c2063443432a847bccce775a8daf868e0c474905a4fa36d70e, 0xaaf37d1f53dd0556e347ec705962379077cd543198e1c27593f4454521261f7, 0x2a607facd3936fdd0e84e9bc3e4b4bac86e8102c2b5ad15cae550d28b3654e73, 0x14a2bd5a56f87009db981546533202f3af812d2ef4d6b037f2830853b9f9039c],
    [0x2f710c72d6da19c7d87cbffd55665b472b0265d13e2326a9a33b96e95d3746b6, 0x168fdc32d4aa8dc9034ad4a4fafee89f0ed5c980d3db424d38f8ce5cd04c237c, 0x15bbd5619f0d59790804f2b9b37e069fc909a2796d1f77d0c62609deda2d0278, 0x1e16e9ca2502d696023bce3427244ad6553ce86bbc4c349a34ba61067c6b6d6a, 0x1dd0a5502743aaa9f583bd0ad35de13ad8d5fc98f1961f2612ad4c28fd9f9fa, 0xed2cfae7b36f470a7d1f6940f914e8ecd322bfd6b50f9ad9f6a2226e7a95db4, 0x2c785f9d8834f5cf5d08f106d5f9918340fd414abe24f0a9ff2b8e0492b44d83, 0xd8dbc3fc854c0665c30c48846d7bb0eb18d3d78a4f70fef07f242e45b865eaa, 0x22f62e45e50084696ac2512a25db9925244cf0214b6b543d3a9f83b8e8e58ffa, 0x2f26bc13ae48520a439c9f546abb35a1222a307e38fafc3e7ffc843f6c77d7ad, 0xaf825f7ca24b4a285f544762d9defdc99f2b85c1b89fc5ff2079d3d50e6d4ea, 0x160590968429f480f55611c6448912fdf423d37bf483c36acccc1ac9a29d2a53, 0x2bb32cf60f8d469edb1b6c56493d4c9338b4051ae2514d4b6082ef18b1d5228a, 0x2a4a72e9dfe5bf25f6fde750a1847e5b44298ba58fb504be57a595e7fccdc404, 0xc509a4bf48ad76e90410bea34a8919741608bbbb6b5503c93e732036f079d12, 0x199733da4aeed8d6cd148461617e8e46de22d3720431fc1605619b12a7fd4e2a],
    [0x2e285441d0bed90bb41d6480836850e4d76da8211b04a236dbc7c3c30320c00e, 0xb9ae9f5ee6ad70a651b4b66e34f521b130d18c49464d86fe5d4b1820489028f, 0x4760054bd5d07132548bed7657f17c61c038ebcdfdd4025c7b802e08948e108, 0x2a4c6d3259779c396ef8173ae5fe87bd611dbe25d1c048ada96306db1e3a40d, 0x1959db01f5c8bb0cf483490373e75b0451b87b43e59181be0b6016674f3f5efb, 0x1849cd0910d72eacc32d891b71faf500bcb93e1cef2504af443b94f8b1ce7212, 0x4b5dc2057b88170a718a102e0ca9177afc757ee26773a0290c6bab159ca4fb9, 0x17bdf338072884b522ce3c50ef4711091b9daf48a43374bdc0a830c37e5dcdc8, 0x2d9379e69b178208b8496b8a0a0a90d578b21f090c53042be4767e3c10d3b40e, 0x14057d02e5ebcf33c166e18fe904defa9e342a19e88d42336377f1c5e67ec30, 0x17818dd0254b291d0d8f4f1a458c6a21d8841153661812bbe986b1403cf270df, 0x1c95c2917353c53b4cdb7f750a0fe86ce10f8d5bdb018032d3f793797d7c0a35, 0x2495b3c1bfec60741808149333fc43f04d79dec56582c292829ffdfb3c1a3c4, 0x2adec8549dffde7238b2bda6e7732990a911700c8d35288baa39e67015953231, 0x178074303b90d8985e376584b8b8dfb7f952f8f4cf84d815f90baaa3b644c4c6, 0x1f5fc060028ba07d11fc9477f4faffe79a81040ea9a04c568267644895e6737f],
    [0x2964901a2b42e9aea1a6593662aeb9e12077a287434bda4ec2012e36a19dc95c, 0x6c2194af72fac58ca13a2a5e3223104ef49a540fd2eaea0d67a920d8567040a, 0xa5494c9bcfa06aa72c36fd22d98fe72dc14dc0e4e74e03d1755f38ac34050ad, 0x265ca211180b012c378e0198f0b5f7758c155e3675fadf92ca79156bd56fe339, 0x21f659fedaf6c2617f17d637cd6f54a27782f4e8431f87af5c8591932ce7dab7, 0x1e463ae3f4c3bd047aa1049f4f091a2f1d5d3550e3d5801fcff68f9a5e6828f4, 0x27412191fa2b2e5327a11d290e4b439a4124f48145c61ff4ece8448a4373eadf, 0xb3a769c8b371562260395ee4f348f88bb056a2f0ec0f98e4e633bf7d943615f, 0x1adb4c87433d866e8fe5ae26d01477e3962879c20c8c3a170c0727167c06d0b8, 0x1fc26ed027db7b9e7241c2c760176662f634ba05a9ca7a850e184ae588cbe215, 0x10175fb6f81b16436af30682f36fbab396eddb7829a50e946c75f27e260987c7, 0x23d300373bb8ebf7dbcf314a3c0b1fdecd5cae23f7e7bb915bcdb6a6782b57fb, 0xf0417fa6237167e741525261306c17664dc3efa9247aa0d4bcfff38e89dedee, 0x1e8fd20a8030fdd94e2c4353d8f82b4b212bf887bc59615814890b0f92a47d90, 0x18572826385dfc6eeca4d3c71d110b04abae013c5450d9e4947a3d019bb41b6f, 0x208b7c8c1ff8422d4a1bd13a02a94681ce217d925f40d2875f73def14de7a220]]

/-- the inverse of the matrix (not in the code) -/
def mInv16 : List (List Nat) := [
    [0x276a3c4a91e0bcf58c30bab5df129693f6b5ddb48b02a98e763049519127a276, 0x116f225bad8b5c8e75af97d8fc777d69c2ada6451315c91ec2a45f2ef2d0d0d2, 0x2b22bbb774abc45ab05d3b1d0d807f7c5688aa326fdf19cde6e2f33cda645297, 0x13a02334a2ad83d0cc051be6e19cf22eec94f7934732e6d2b06163a72da6639, 0xd091f12d61424678ac600a01b68fe25e4853171834c9135d1bc8683699a8a42, 0x1293e1e7a8a8ecc9090de9dcff9585191352d313c48b222c4bf49e2078199fe0, 0x2569d7435d27bf46e03123a4d7d9837cfaee98c4f68db5b69fd2d135d9b5dcf2, 0x8b057678e2ea00d1fef333a47301ea2f48529a1d507bf701a7a57540d6cb38c, 0x21593452af811dd9c9f34c8b9f2e6db6ff5d681049b2e486c1f894a5973e8d75, 0xb026a68c5e0b7d55bd6a7f6ae4d02204992082dbad21f6d300b7c8807f4f6ad, 0x2f1ed0b8f38e6beb82cb10152de949366c4d97ce1abf62007ae261bac8e2e86b, 0x587c177ef78e206a7ee05d109180f3a71c812cf87d82d5130ebe63fdf604713, 0x275a685cfd4cc42cdff7487ec19365b2ef759039132f90e16733ee05025269f9, 0x1a8beac684e66281490ae5e696b1958da3a88ffd23d09d6d7bba389501848a8f, 0x2b26c6599d2914f3e3e86755169bb1c951ea43274ca9ce1d59ba29041f97166f, 0x2e948f97e269aa01f38bb5f45aa1f7a3dc6e9b871b74c73c0c26e32af0e9bbae],
    [0x15ff7111d9f26302dab5cd210826e0d5e3f64c45593255f9b54ed796c3d728d4, 0xbc3e0b93482f27f0a37a1059d1e49c8a543f22e86dab8b05d87c0677c061a74, 0x1916dba95d56e94a631925c9cf2142fe731b5b6252b28b7677eb23ee7b0a9604, 0x2beec191157c2e48c8dbe0fa06013a3917811ed25f1763c696550517d0816fcb, 0x24e873debcd2a22cc75e6cdd33e908238e384135f5617df3b70af8cad2719e5a, 0x21db1d4556d8949b562df276924b2c72800a3b056061ac6b2d2b2d58fafdbb68, 0x1db311b1d509c08fc1a2ccab296410493030e7c1c4bc41d3acacd077f7ce068f, 0x144e3a65386778926e782fbebf5d913acb53466da5eb3e34613f72f158aabf9d, 0x298b4d966bd89d0a506c295e182334d505727ba2a043ec7909badd357f1e7a83, 0xb10db67b618db169d06663daafdfd9586ff2999a1579d205e58b9b2fb70e025, 0x115886f7bc31259295bad594228109508b5d297fc7048ba02d6ca7ba8bac046c, 0x42562a7cbdec9891f7dac01b9173cff0e44abb69d77620fd37dd4c8bafb795c, 0x2f979b6482272494048bfb612a329bef77eb1803e08c61f52b36529817f10af6, 0xc2fedb7ee83ea1d2a7a2ee02986dba14d0f7b472c7e92146c6756b9e66f4ae0, 0x142eeeaa8a6ff2d943a30b1cbcc79c4508364cb3098607247fc5193199387d35, 0x287898ebcd62192a38b02d1a2a04e95bb1778777fc846a365927c80161e0ad7c],
    [0x23a3dec86a0e58e6eb56fd21065bc5838bc2582dd625272689e3732ce00fd543, 0x1309e832794440223b805ba170639758268621a8e99af16f2c980a233145659a, 0x24f4f1e6b8f6f10f3da870191798bb727b2882a8a7b0db6be21133dde2cd15d7, 0x1733009799763853de0dd003d3ebdc1fdda062198687f8e92125383c213b6527, 0x9d3d0713f4cbeb95c6185a59f2c74fa771963e89f1236a6b545af07ae31445b, 0x2d5708f679f52dc7715a0fb7315f7ae2ffd3772af60c6b91e0ec0adb98aafcaa, 0x2e71943efead3bf60b742051d5cb40d6d8b67a325132d346ab53e3115caa99e2, 0x22473cb725c20d44133e0edcdb1f3b85d9c253c5d73bd1ce4a8cd5a96fdd6f78, 0x175eada2f0b2cbb07c7048eeca2f53b9aa1dd181c33abebd17549dc0e60a3292, 0xecb29289e8adac389f9d85f3290b76a8c2cb746a66d610f574b1b6bb12d7c45, 0x1c037832b61e682723539681948cb81b3e56cdf37d9cf669bb5ad898a9877eca, 0x94d5dfab0192cad82b4d9cb243bdc8735379bc2d0416b08ea108c39c0550b8f, 0x13e556cdac0f14ddf3f97426b62931a294f9affe1198fbc2e2141f943fbd2641, 0xe234f386bc720a758db061cf5ee2224186803a4f6850f6c7ab4e90346d7e8d8, 0x1706b72066845bfbedc6f4b3389e1d678ed64f3485c06528df16aada084ccbe4, 0x2ac3129b9672fafc9944416e49568380716028871d5dd29601075638c3e86190],
    [0x20f3653a5e8e41a120e12209bf008efdd1f0450d817f1d99c4d5bf7282906d7, 0x20328d4c559ac2330a5c4da13c9928b740c8da37453ed8a496d0e17d302e86cb, 0x135ba1bed2b076bb00618f149645b19f5895cfda61ba71fe181899529771a2eb, 0x383c83a08105a9ca2bb4e00bc4721e874e64aa0c2048b6f78cde791d6fb7505, 0x15e1ab068a797ab84655f85d92b84327c8fc45d24726e5f42e4c3b9da74507ca, 0x5325548cecc632ef17b38f4a75f089fa2fac0979df42aa88f0d64187cc75aad, 0x11c1c9d57a28fb4f26515edddecd38c826e5a543e112559c9fc574872cf53195, 0x3044b9a5603c7bf9816234f0c0f86fa9c15a5ff5edf5f11a2b1855fff5c11843, 0xad0c553c7cc4fddbdf67f7d12ef579573030e4b16e2f242dd5d151e7b63e415, 0x158457ec7d1837405354d74f66affa4ac88c30c92418ac0f886df2c7815f9298, 0xd9b1964d82ae8d92f8eefce87c1e375aa9a0d553d4b298053e021db0540af31, 0x2e98ee09b09627aad239922e09595cdc65e3171618ae8422145cf2087ac2bf22, 0x145826a242ebaefd631ef8040bce1f8d3bca6270811462eb0272e85568e577dd, 0x17a57812a07a986a8a493f28db5d1bb9fe113b5062fa6dc2fdde3ab876a69663, 0x1892ce6c96bce64bb702ab97a983d1eace1d85c87631bad594036e0579dea81f, 0x263fb93d37becf91f170bd62cfd296f6aa9e461fd5610a39abdb9921dd09da9e],
    [0x2263d5ddfec11180ac74e5db628d5b94479bccabfef382c48013f1bf9a701a30, 0x918c8bf1adde3dd7a348951cad057782848b358ce315c8381e41148f3e21354, 0x1781241de2c66d5c35b59d8acb38bfdaf374f67eaf3de51c7b86579ca7c572ee, 0x1b461cc6d9a2828af62594548389ae0ce1a73d4826d9bdbd14af09003c34aae3, 0x29701de034eed25e327225ab0a3215155928e2b81bcdb9b4015b59abfb170a42, 0x2fbc766f69315d17ecf5e2131315b882149510213eeab536a9a5683c34403043, 0x992fbcf0645cff8a7c48a39651f9130f4711ba0259cf95073d11fdf5bda743a, 0x13ed73c7bb1df01e93df9670215158d3cc7adbda0837036e17b17ecd450af494, 0x193d3a72c26db304419bdcbd579e540c5cd0ecfd13e659bf4ba259ee050c86a, 0x10c6d4d108b21364f3ad573bb75e03677a1b1b07f95327450e73c27ee8b61efd, 0x20ff722ad79af145b64d95a3242237bb7e616ce643f1ec930af9ed440f61c2f9, 0x8ff4b0279f55dcfe1e5de6568ec036e88632309465eb50ea7f9ebd883a2883a, 0x1fb172fc9b10989a0bf10a75bd2c0fca4fd4c1ec4182a654a0452bf3e82bb6d8, 0x2d458a706969ffcd6939afe2533d396d2192b4c03e21e3ca6d7699577d20b60f, 0xcd0444f531f86cfb1f3088e49e86b5c9c52f04eab03576cf57d446241d86e71, 0x1d394d257d7efccbf11913519e02665e05fb0438b95c8ae1c69c47867c80ce11],
    [0x11bf30b3c94d420824eb85e6e704d9d7e5ff3402d888ca895172ad5559a2743a, 0x14afe906d6e8fbd44c63cd18657c693397fbabe177acdc31271de44c72a1c281, 0x1cf728c04b55ec09918acfdef02e5fe71513014f29527a047b651b8ab7e8bd8a, 0x2321b1cba29ebabcb6113cb1d19970eeeed8bbe33fac177934d91b64165ae57a, 0x27e77701fc117ccc169f4a4c2b3860c133a699b2ab5f22bbe9a38fcdb5a9c81b, 0x257f473cf8df99581f24ef044fc962347ea74e48c6a1e795331ba9a958b7b607, 0x17231d1a5800be98d6cc8c271ced49452ac22df4b288b2b8785e2c697551d5c4, 0x288d776d19bcccbc647d72e646d6063bbeeabeea9bd31396dd8bb01c6486d9e0, 0x230a40d49a7ada4e383a914e0e3ecd932e7fe479a44f6d04b1c6e4035af794bb, 0x285dcdc7f5ac3af82e94ec69e0533057143e4375454d264516be89bf2492ae81, 0x2cf648b3a2c3d314b8c8e4f6ae56d1716d8e00bc225410839ebb0240e22a87b9, 0xb028e8c471b65c30d6d32f64381579ced795254a3b579ca56a8a137860b2f81, 0xfc2e31641083b85dfcdaa76ea75e8645857fde1f72193addbbe6c7ddda74bfe, 0x18da72a069afd82255ce1de11b96c2dc29e66e49dc23293525ca2ea5a618067c, 0x272b660e088675054d4670c487dfcf3b1130940d9095eb5e2b90dbf6cd05f1b4, 0x1d6976538fb34e8d52b03b4847cfcc87f45e80d03fa66ad6ca6aca373475f493],
    [0x22f2194c4864546241e30d8d63992dcf45c0efe5e9d516a77f7a7ac5db1b0d45, 0x6d590663340fad718e1bb135c939e6bbb47d0871a72116970659feeb88778c5, 0x17a81fe87f28374a46d7f878aa2b4f7af906a223bafcdf16e8f903a06cac7768, 0x17569b8ff1b53a55ffbe40859450251ed5fdaf01c15c156730fc68f8851c56da, 0xcd1ee8941135ab14b839dc7a2061912f1ba5b41fabc0c39f4d37db55c352107, 0x19c6ced044b69ad15e44068eb69c763861fdaba97440a488f96822ed98595b32, 0x29c4c8d8eeeb2b264f7aab9033b0de71c7cfa56fdc311a328cb62218fc1e553, 0x15a76a95df01b9d33c037de0a4e37025376aa73929d66589e0ea119d8525b0aa, 0x1e5b79288eb72889ce345234892fec4ca6b3540b4c3b03677e8c1c054b839c3b, 0xfc056cf071a5c6d2380710dc3b3bfc1f426100fd9c035b406284ebabc333527, 0xc6f610b951d18aacecfc8f440473d2bc106e7df7f054bcbb7ab63dec541e6c0, 0x58e3355b38bca75555b0684daa3140614e4ac174884df95e3f269c205c02712, 0x2011bc982504e79ca7509c8601a23f55f32203ea5d90dfa4180e6d763046fbf0, 0x2613c5a36525cfa5a0e2011dc35e4666df25471e597b7cc0886f4b863331845b, 0x383f19ed782143f6590370022beae5b71bb62101b62f5adf88af901e3652a2f, 0x1758bb83c966d97caa55e82867e54b2b74ffcbec16e7d110b4366547fd5a512d],
    [0x14bf10bbe43d5ebe57400ec84e85a814d38446712075b6e38ae81fe2b9130ac7, 0x2220761b03d99df15ab3014360009c8a6de830d5d8a950d859c4456facd5bb36, 0x1a1601bff6e856b99c4761204b62215a736e39e3befb3ffe1c9fb84e70057134, 0x2ef14eabeae6e3357c74cff9b80567045baf9e1366be0b7e909110f8285f976, 0x28dce4ea625dab66c3707a7164afe11c944f84cb63a4653da9701e944c1e7279, 0x1cb414564c2748159082e844e9022aa63096b2d777f4aec4b72aa59338f040be, 0x105a57d0112eae8e0081bdaba3ddfd8cc46a5599be67d3169d3913ab1b0718d, 0x12a4d040691bb315707679fcde2c797ca28b45d369c17f2c829ec55c4e8ddf83, 0x169ae993c16eb09356831448ffe30d3a5f1fae39bf294da52c7bd78555157e32, 0x2ddb0595adf02c273a2bae5dbcbb2a08beb40677ba5c66e958eea22260c1db46, 0xcd920c4f592b3ca746f845bacd7acb3a3bd03c0457607ac69e87f6026fb21c6, 0x2fe8c60762d656a8cde5fceea83f615f2931c5f13cadba8c701bf9462338a74d, 0x217a2eca857e7d456f1f10134ad529b5250048f582640f4437730c7cd424bf96, 0x3d3a2df2bde8e32ab75d85723a746576ad1e45ebad9bac91900c84f2ee70c99, 0xe10eb8a0137a3a3a30f86babf809c0e5bcbc4b21dd1c585876ad3273ac6334a, 0x138d34e2bfcae8490f3d2bd6892c29c4b5c3b74e216a32078ddcdbc322bbd0a4],
    [0xb56fa14288b557031ab5e0c912f45a722ea7e7b62ac878f8f02ab1912aa6990, 0x11465398755d174ab94375f472868a2943e433ddbd6a9ba9d08b1a9aa76f054d, 0x2c3576b9c4eef71ed658580620a9c42fc3f3964d11bb39559e1ece02f4e0c7d3, 0x1ec505762ec89b137ad368868391578c84031f2daa966b4a81c38a24b5f36e29, 0x11b733d3185b0e09a204ba61bb32946a1bd04ddbe6a75f543f232a5bd93a4642, 0x4bea8f50b162aa99e784530c36ecd437159ed0d93c31e1d00914034b70c294f, 0xfc4a035c779598b5f01114197a12b3d82337a23c8f7573a5ebf0daf5cff108b, 0x216b98338516283d10424d3be1722274d2ac09dab5510b28fa9f153d2ef7e90b, 0x91bea4fe41f7dc97d828035b81d99f67b6a5f759bace586f42a1d95a8a6a39c, 0x249469650cc4aa92c5b05495af73fea8784ff491a6bfc97870f0895442a350cb, 0xa723f0b9a7700376d2f7d26bf424f3d8a7518883f2a028b6000ec5ca41a4e0c, 0x2cb6d4148e0b1e997a7720255ce36b5042e9b6c0373ac862e4c9eb2fc4b75cbc, 0x150d845cd2fe645e25b9acd0fee98199e212ece4de138a2e86390e930d7632c, 0x229cade35b0e6de360acca9a6f13a2fdabeed9e9380c99fc5f8ba8aefcf18656, 0x1cf7edff3aa523d8e38aadb974a98fb0e6b55a8744ffa3f97817393cabdd5019, 0x2586cf08ca362ea2b37b359078c793622309f19a084c6768c15ba0f15166c975],
    [0xac426b209bd3cb29f31c4d3ae7e4720dedb6810b650daee4bb9ac8a87726b85, 0x2fa2539f131782f367754c61de13126afd4bf51fcb88f997f132f9f0be98a954, 0x18b4e23c2d90634d522f958cd61123d0d691c981b10a73ebf7cb8eb4e330f83b, 0x2aeff5063dedfb79b453097966cdad72ee81a6bb7f167f2913e07d6e9c7d110, 0x2c880528e0538a32d0e81401998297366dc363d3bd1db347f7f83490c2e9b3e7, 0x2d762dead3546cd8a277040e3801146e55b718f3b3e4c5471de07748b4e42339, 0x13fa1376dcfd487c8aa703a17158fb8f31363ac520bb56e03a279d346627e7f4, 0x1e86d89e5071ae9a6bd78a0ec8a022be2e5afc54097b135f492c5332b57c65f6, 0x22775a4023a58e197d84f2bc020aa075bfea97280a458b03b7e306ea5aef12a6, 0x18d47a40b297ef1c917749ff38f14b6a2b656c40a2538b80dbff92cbbcd62d16, 0x1a20320255545100a42f82e461c0de2bd5b09dd178a36adeadb268a456f891c5, 0x14a569c38a81f524379f055d0513a069e7bbcfcea58f00623f57c852716c63d6, 0x20217a48285cefff1f9f280da98c7c8bf539d08071eff3ae674f96109d6f4adb, 0x7a9cef3d55eb07a2112d6740d8b83bbfb5ff4604df32d33f06c4937f3dc5e95, 0x108ae2fb240226e50055c4f4d26b3e911fddef8310da3802da75158a9a596636, 0x289d50fa3c8d2440760fdf004f4beb65e0c50295512a4d2b927f71ebf36cddc6],
    [0x18c447f8cd5b8ebbfcfad3da5036ba7b2c8ebdf2f929470fbe38d050f04c25d7, 0x16eb3f87955e4d7894f052294357c7cf33ff39fe03e2f3fe5c72a6ef43690b0d, 0xac06db931b70bfaf42a5a486f2dcd07d20e2cb58681035ea4c46a6657ca1876, 0x23cb13a4428bfea9e526476db290f312d2d97922d10b9c046f7b733d38d878a4, 0x9cacda4e110d57370e7e7df59b4da6c23dc1234a3fdde7dd93ddecffb8f787a, 0x120c3038fe6ac27b255ddd944348411f2d9a11a6335c886e2a25cbffdef9efd1, 0x2f858d27e11fe6314fb3227b8ff9aafdb12112c9711a508e725cafba3b1bc8e5, 0x1ca90f2e02df65cbb82cd3e4681009119d91a8c25f10df3d295408f1f76227c, 0x84ff4c60580d297ef5eb3adbb5b1a448e7e76bb0714dbed584442a29540c508, 0x2b8da871e76c2ab0ccebd5ef2131f81c026065ce7120b4a1297e0597bf962d1c, 0x2eef8834ef80e5919d74327372db470f6305885d4a2722763d5baae96cf78fe2, 0x2c493df126209cede58330bbd7abc108a63440cc9952fb0ed002123aab03c74, 0x2b9a5e219fa5e879b4fcd17e59e8165aa8b77db5692a9eaa9be832828e32a6fb, 0xa3167aa0c3b67d24299e85db768d3efa9b7ec94b5fc4d00a41c5fa584d87aa1, 0xa3930180bd314954f8575b089529aa2417cf35f4a13ec6bb423d04490c0e81c, 0xd17758018888df4f609e6106842e742c8b85299ecd901c96f691828fbeec3af],
    [0x2bc1f9b5bc9a9185b0f1a7abd06d25610b5f6476f338a3010e119813680cc1d8, 0x1fcbccb22d95c167726f5731aec8bdbf36d38814d28a0607deb9239f48f92dd9, 0x305bd2d548ed5198d5a2e0ec4b60f01f97ba884e807b22c51a40bedf0c6228b4, 0x3633b69c0a4ec467ca48898de9c5c8ff5ac91d78aefa33f396f91fc8ffb8864, 0xc0eed71b72192bc6d2297ba97494b3b3ae69acc6215e4b595fb90b43fbc83cb, 0x13bd0185f2a6720df0b0a2457d7f855be68289c28db6b394a009b20bddd41a8a, 0xef79e84b25636924f03edda323f2a8d62b33e4b040257029f2212f99538eae1, 0xab51570c4b0666e91441fdcc12be12aef04eabe6ea32c872232beaf06d58466, 0x6d7cef92ef2a3162b83570f48af4e819569957b0b8ab76139e5b55b599e9ffc, 0x1d6bd58cbde97b4b40789197f8737d224a711d1b739611686441a949bf20bc0b, 0x27fd1786b7da45a5ea538ed723e5ead1135840ee62c6b2a3d68a3913a38a6c5, 0x1e08332f6cf91995c74e97f5a1e76a3b7be38d97985c5657fd6b614ab144c3be, 0x122716262dfb4f7abc5792ceb74839b06bf5ae0baca8c39a758af2de0a938c16, 0x1db8e1004451882390a94952d2004d925cfdc625bbc6b953458ad34f388430cd, 0x1ef05a1a0dff126f9bf4b4e3a7781bf72e248bf179b061789474f6327f19c18f, 0xb02e932f957a48e309d018894fa86785dea51649929dbd5b173af35f0b7c9e5],
    [0x68898d3dabf9e79f3f72f87aaca9e273a18a8af969f951f176e2bb8c17d9cdc, 0x2c561f74d713dcb2441d484dd7886c2387cffadfc327f90499047ee39d20a368, 0x17752592f74bae49a63e614c64f9c4bca3c7e205a4f4ec72921686be3ee9ce2e, 0x2315e7005667a061e63d198a527f854587c64df967bf1feccaacd0e1ba0254da, 0xb81cce4b55a0554188bb2428d4c9cff18de60c3f56a957774ba18d50793eaf9, 0x16d304372b2a540555ec634d981babf2617ee94f80cb3046914d89d5fed52f82, 0x178731c4ec46dfd9a46e5fbe8463d69d77bb50a8e256844447218a2e2af6cfd3, 0x2a8b47f5de93720980eb7047735355c55e351ff9d1d3060c218eaf6240f78489, 0x2f6639a75f05853b2a910c834596f8eea853850b7e13c73b50419d0b3d7eea06, 0x167e1f79b596386d1391c6aa8e67ae979fae87956bceb95566f4366e5e2b8a09, 0x1c089532c879f51408869a43a9c9433abdf2af1c52ca6626f26e33bb41533ec4, 0x68a3ae2e048bdc5d1b1cb6083b24445d4f6cb8f379cf39eacaa938cfe9397f5, 0x1e794df6f61ed159850a86ec9918528700242091cd5678d11db541a9b0eaba5a, 0x185a22974594bc224d72b17c5bbf6c2b7645cfc0834e7d506e14b31ae759a82d, 0x25d3538f4a732f89a8ddcf4f04ddffcf71c6985879bf7887b48b4984d2d3a1d8, 0x1ff6ad722bb1b4c059b20a2c7105cd0ec78ab577bd5cdefbc4af9eef97422c42],
    [0x2aa79ada9da901e4d2378e5e2a3fe2e97fdd45222a88475b2afaadf81d8b099, 0x1918676a41e6d451e40ad6cf462baf46c8e619286cb9b2f1535220df12bc6c1e, 0x1f756a4027c2123f6c1444ecaacd3e1985e32a3b416eff3b9951682e529fd610, 0x1ec858d7e1c6adb5559f311240b65e4fa08606ef838930aabb15a427c071da68, 0xc7c497c8872e9dbb9e6505971688ff2974fc133e2e7af63cded036fb1ce63c6, 0x1b37eb694b65bcaee42bcd5be720c9ecb56181a5b3f173b04b948194d6ff014e, 0x267a7c94025fcfc8406d3cc338262420610e70618b78474e20d89ce86336e0ba, 0x96aef4a88883b150acca73f738cf65f21da30e5fa7fe7cbbc61cc7e5aefb24a, 0x17b405cddb8eb7a5ac8062b87302de2f68d9ef1b32597df633dc1014f042a724, 0x1620016a87d3e05092af7a7c6ec974f7835193ea82f1cabd6cd6414ab0f2f824, 0x301dc12de9d2883a8c53a0bdf74af4c0313784e89ba9a25d3a7fc33de574e4d3, 0x1632c755bc6f04b3eb409dfce39d384c8deb9daa15b82d65d556fa040cfe4e3e, 0x487e5dafa05e18892069809765951baddee314a4167f9e81cbba8c48abe7926, 0x95dc43131aca12797d7dcb15e82024a12d080ac0b8389727d31f5da74480a6, 0xc43f2e78cc4d482ace9963abb0028683796f33a81b121d5801302b98aab0473, 0x45f7d4b716810ee6cc5c6771f83c683ca3c85c569a683fcb32a255c3b795315],
    [0x1a9fe77674abce770ea5b2fe542f63a9ecdf23df144cafcbf0ab66659365692, 0x21a9258c4aaab318dd72a3e6949552a63cd963d5587d89fcd9cc374849104e5b, 0x24c72edaff512bf3dc0c82428b7a9f73f2b6060f2ff283b379640981e0302c42, 0x220de60c2fffd82398aaa3efbb084fca8c814d6ade2434f3d49fb2001af3fab3, 0x2e12982c1ffb969f0ef7650029567de23d36add402b2b467cdbe19d18dd2f8ac, 0xcb1a115098822596505dedabb1e5c489e565aee4b031ab7f076dc484356429e, 0xc5247e42b1ed24ae53f3fde5e4afef5e79348cd4d902e21af599443de2b6377, 0x27c36101aa23a3cc4f9b4cd835a1e2967529424eb1cd776a791915d9bca049fa, 0x19633a34ad79cba90aa999ef2ff4a6d97cbe76c201b5be3abeb2a33a03a79d1d, 0x1c107f0a6e0ac7565479ecf54d91af29f1ad7e8f90d3ed8be994abc2cbf9fb26, 0x3511c0b5f1dfb532f48ef2b32324ba98ec4c9958ac2087c16c5e3188d4f17d5, 0x906ad70264adcb9b7058bb2ff35cdb7cb3b26a0e136834a383f070e0f007eee, 0x2f78cd6f5a781aad14a8079c2b02346b1a36ce1a526d671158dad94a16c03dbd, 0x2929575db96a332566647d12cf98d7b7889372ce1f7cae09deabc1f3dff11388, 0x6ca65bc0814187565fe227d9adab9c1c82553409bb9fedefb048e180f59fbe6, 0x177c93f5e2645e30d8d298101daf69eceecce632a46c235efc470fe245f7a1d3],
    [0x4c79a18df9dae9c9d39357e06c2aacc63d928e888307e30e8fe8bcc71a17647, 0x1cd8c8813638b883981f1e894bbc6ad548265ce3bdb8184cbee5b6de14ff8624, 0x2289f24f7e8ebb6e4a1947be6ed6b2614979f38a2d8edf56f9d68b34cba362da, 0x2d4a6ccd197619bb6873b03a4ca36b0aca8a65cf44ff091303e185b70641a8ee, 0x2fec52f6b2b28005204ae84074cab66d60ece4766b85d08d55b3878b3b075fa9, 0xbb1d510ecfa990e88d1f5056d878840f3b5d7ec939e8b7aaa9301fef2213e86, 0x2d414a2c6dd185a54754e1acd8a81e185a162cfd50328d489533029f3677c742, 0x262d140351179f4971b698e2ba990f64b9312f8b75e7aa08cc5bcfce7a93f0e3, 0x247e31d9e7e93428712f0da90f70603f945b95465ea7b793a7c2597d1aca7baa, 0x122ccc55c833e29f55107d9d216f47d5e2d8a9e555800119ca866d55e4578da8, 0x261f10948e6a90c2c6028ee0198911f226e705bf4b640184037987c612e1a1f4, 0x164fb57e8b00d2acea74d0e4523c569bb3a63ff816cbe80e12613a100e3d35ab, 0x12f5cd698e79c75576254b4fed3292a135c6ddd1a51e018ab3fe911cda21e935, 0x2bea27cc0a958f81b516177d24cd9897611c879898f964e67a48c5528f406d59, 0x2722ecbc4c32f01e69704f8f10c4382c5aba4b1f9ce94d24d6c1a31e8a3997a4, 0x2167894cedb67b20a358c8d8d2fcf5fea5ac87e01ac54da0ae84f07a4483fcf]]

/-- the tables have the sizes that the code reads and load without a panic -/
theorem sized16 : (opt16.sized 15 4 64 && opt16.below bnMod && c16.length == 72 && c16.all (·.all (· < bnMod)) && m16.all (·.all (· < bnMod))) = true := by decide +kernel

theorem ok16 : opt16.check bnMod 15 4 64 c16 m16 = true := by decide +kernel

theorem inv16 : invOk bnMod mInv16 15 opt16.m = true := by decide +kernel

end Verif.Poseidon.Bn128
