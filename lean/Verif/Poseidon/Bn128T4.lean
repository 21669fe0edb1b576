import Verif.Poseidon.Check
import Verif.Poseidon.Primes

/-!
# Poseidon over BN254, 3 inputs (t = 4): the tables, copied verbatim, and their checks
-/
namespace Verif.Poseidon.Bn128

set_option maxRecDepth 1000000

/-- starky/src/poseidon_bn128_constants_opt.rs: C L166-255, M L2278-2303, P L4400-4425, S L6952-7345 -/
def opt4 : Table where
  cF := [
    [0x19b849f69450b06848da1d39bd5e4a4302bb86744edc26238b0878e269ed23e5, 0x265ddfe127dd51bd7239347b758f0a1320eb2cc7450acc1dad47f80c8dcf34d6, 0x199750ec472f1809e0f66a545e1e51624108ac845015c2aa3dfc36bab497d8aa, 0x157ff3fe65ac7208110f06a5f74302b14d743ea25067f0ffd032f787c7f1cdf8],
    [0x1b0f68f0726a0514a4d05b377b58aabc45945842e70183784a4ab5a32337b8f8, 0x1228d2565787140430569d69342d374d85509dea4245db479fdef1a425e27526, 0x17a8784ecdcdd6e550875c36a89610f7b8c1d245d52f53ff96eeb91283585e0b, 0x9870a8b450722a2b2d5ee7ae865aaf0aa00adcfc31520a32e0ceaa250aaebaf],
    [0x1e1d6aaa902574e3e4055c6b6f03a49b2bbdb7847f940ebc78c0a6d3f9372a64, 0x2816c4fa6b085487e1eec1eefd92ee9fef40f30190ac61009103d03266550db2, 0x17359fd88be36ba867000e83f76ffb46660634efbad15dcf4d4d502d427ff51c, 0xe3004cb44ba455a3f16fefbd0c026404cbac203c0f236baad879610b8661022],
    [0xa55f276af1ceb6ebc6c6820f334b26f11ca4af98c833bc1b496193d6b04a7ca, 0x1ee4b0458adcd4c4861a27adc1404a5981d320b6b8e20e51d31b9b877e8346d, 0x14315e2753e7fb94f70199f8645d78f87c194a4054e69872b3841da1b4f482f1, 0x2b7b63ecffd55d95c660f435ad9e2e25f266cb57e17ebd1b6b0d75e88a6a56d6],
    [0xbb56fa3e9fd48ab46d4e7295bbe1204b652ebe958221860f56e38db80d83c0, 0x50653bf5dd59edd6d15fa6071f5005057218b33a8f92a58b9c2656081249f82, 0x2c575423e24b522655c5a976c65d069287900c8d5825514098c5b13c86f1fcdc, 0x2ff3a2ccdee91e09a32f74232b704cdd99f72c1f78557a2ce568b07e218071d7]]
  cP := [0x1144734901a81c1543b8bc6fc9d365f50469eb89949491d3693dbe9c6238d90c, 0x1eff9a954e24bcd4af20b6ab74d89e1cd38bc694a9e75ea6da217a98db80cd22, 0x14707de7496c5638f97fe9bd7d485c20ead6bfdbfc0599791e49fad0301cd6df, 0x13d0de341ba819f90fe3ef1f7ce0a54d8538acdd9b3ef840a91d48ee536042b8, 0x26520ab1d20055daded712d59b07088458c18afbd0da58aee9f151a903372ba1, 0x68cb4827ac485fc6e7537a3c0a06d08a4c2790f5c65d9866d75296999f7495f, 0x7d6baaa2e587c21b03dfa0eb71136e2982cb389b438c8bc282748d0e674e89e, 0x15b92d36db02cb16b831eeab2e6ed75d126ffbc274cc3362370851526de13d27, 0x277b9ce89133de7b7918ad5fcfab7323ef5b9c1916b588cd7e5a0d814cbc3395, 0x2ae847b66b3c5d73b70b733040aa86c51f737092d65c3492d529000fa1802b24, 0x2fa3e8ae1fef974cded6aba6dc25cf567e16e0af29e675706643f21bf8efd651, 0xb1d4b9508cec4d19aa53f4efe46c57952dbd368fcbcd454a8b1087bc18a2088, 0x2d381014d01578b888b3273270babdc393ac392e7958be0478947fafa569bb0, 0x2e79a827c85406242523a94431007021bc865a45cabcba4368c41d4486fefec8, 0x207c99b7d594a5c61d7e60cc2365c4c0c804cd434098af6244f0a00c259b347, 0x119c124086ea58ebb83f14f262c693424360e97e6fb42ae8596badbe9edb2dca, 0x104ff38cca0f00173ccd0b68bddba09fc543f074f753bd8e413f8334f887a251, 0x2f5b5377bd156f89845811eb262436638dc038b8cb10e147a87df4c0e2384253, 0xf70e8e02d1d23968930a8e0db69b1c20204f3e3b4cecd101f81476d0b5ea996, 0x1ac4653a51071ae722f90a03f006d8575814db782b7f19f607dae4d56ad586b3, 0x12b12600e3bfd8e7bdfae5ef9c4f3805fa41e74acabf7de817823017a8b23db9, 0x11b9d19908919dacb7e0f8d0ba77286d417529a18a1d89c405ed1c30289fdd28, 0x2c350d245f4f75864744f88dbff8fe335b00f4fb688895c1363a7484ace820d3, 0x16a7f76fd2b2147db6ef94c22c78bff782de17ef73e52da7df82603f422b461f, 0x1d18d8024be1e96ec25626af06a139f6093545aa504033dac7e285d1cc3db3de, 0xc8cab1ad5998072945b9b88228f53c295466819fb94d8f6a9ed449be8f7c18c, 0x1a68d133d703cd406ca30041913ce3423c73b13384187ab1530109b756ad4f7a, 0x24a58b9e86ce823ff4c45342941417ff23d03c80fcdef9498ca0d860855e01a9, 0xe6315c93fbb89d38021148b6c35320fb793c41c6a4386d6aed6acfe2f952c57, 0x2c3806d99a69ce63299e876f5f218c7295d87224795d7568d558696e34c692f8, 0x59c893a771e94774d49a356494568dd376856ab89705dff25db8273860fa04e, 0x1166d9819c4faae8982243d0deb1f8977027d5cc56bf52ce260bec5e27e8b0f5, 0x12806fab3fcb09fc2b79406c3c203c4965fc7259112af2104312e1537327e0a3, 0x172015e0e33736058f60aa33e82d3dd73dc3ead89f98ded0dba35dcc1d8bda2c, 0x77ba18800d852d0a34f70ae8cfd68a080296bf9d47a1b40de7e6fd6392a0d30, 0x2094ecd768bfa8f0df0d78d0d946e1aff4a2d38e029e41479d6e3c0fe79fa8b9, 0xccebd302afe84c20ff774d3c1f650ca7cd0bca08baa1e261da9c7441a823f89, 0x5b9303053bb40c73671f5d55b4052e0d5549871f1b5283f01485a6b568cd05, 0x2527289084ab492275b4cd67d38311a2b816eaa68ee6bdb2389eeefd6ba4c721, 0x2222f9738290d8d5f2a3eacdad95f12cd4e7417ed2661b012f6448c7503877f2, 0x226c8208f26d69e6b7e02fe26557e6bd160fcbe27ee741fd1e581161c1789354, 0x216b208c0261f3c91faf609e15f7a9d4853e40d9204496b2441115d73c2941c5, 0xe0d660e046a259f3bad6829729b6ae3151fbcd75de33b122fe134ca3d5a4dd6, 0x240f039d2026b3266f39ba5c4ec48ac6ace88aadaef991498cd52daaa0ffbba8, 0x28c8cccf7b40a2c3cfd2eee0ec4d160a876a4dfeb408ffe333e92fa5e1ee4d79, 0xd7f81b4b46d4f247c4243f045a852cc957d2b2923d28eb2fa77b5a9844efd69, 0x2be432f87b2c5094a82c788457651dd8cdb0200ac3b42860cbf54475996b772f, 0x13ea39f2d63d9adae187af14dd07b533d45a63435e0ea4e5e555d35e70d4016b, 0x29e3b1afe1973be9cd1cf4b047325abfaa65cf2b98ff3aed47870461977ec921, 0x8db7d684e6b841b5e9692498f95a1f950a1cf1eb638bb4e48f3bc1a3c571197, 0xf4f1041a976aa05196da1c042124e3277ea1a28fb6eeeab4bec1243bd31618b, 0x5a9d0526d6f18c86b255f00e86ec34e7f8a26c251b51c21fe4c12bdc4c0ff1d, 0x284b0304dd6ce669bcf650c5ab85c89d4410d472aa6eb00df1b8d17e52f2f3ff, 0x2363e9b01a0163598962ff86907002f95902e725049294ca7ab10cc7aa3f06ba, 0x2c2db12647c4c0461dd3290a75c5f2fd8d7f115b3e040cb05dd7e3ad260d842, 0x2e3c42f671431f9560f3d0863ac445052422d5b993e9fda6b81486b14ffe3a74]
  cL := [
    [0x1d38441f228c0ce22ff2882560f5d7ee3b4c0caa101371cb7782ffd97af5fff1, 0x268141b0e49c59eab1d573ead4e2e1f379364dd133f2cec574c25ade2c794287, 0x2209cb2e187df1522810d3f28868da6cf52af9a65dbd7b806049f472d966374a, 0xa5eb2510e6f804d1830d7974ac1677d082034e5388bfaee91a319eca7c1ffab],
    [0x1cb2864c38800736f8f3ad98669d3ad7a9d5ee52138e96b8a7015e1089e36ae0, 0x2af8ed05bfc8f8ada547ee9bc6c7c6c5e8c15c6c0d380a3f9aa277273321b54e, 0xf85d1593b35be03f79b222885555a252bf1f0a3911d784132c49b1a96ac0f3c, 0x29095192ec53e0b859eba456295d95bc4567d351a6dad391b8b89707855008c5],
    [0x1a92efde1f5fa56aeb02b4c4b8f51ac80831f898c7843407113fbb6011177854, 0x2a05e8deeea15e4377c080aa70fd6a86dc73f3fdfa6b55f5610614c184b0b02e, 0x12119f3b019cc3fc46ecc80893e86f510b1dd4030b2ce28c9dadcd1e71ad4891, 0x42b6ffe687bc23a2bf6b73317286a543c60ed122fc225aae742c3a1c2dd3a1d]]
  m := [
    [0x236d13393ef85cc48a351dd786dd7a1de5e39942296127fd87947223ae5108ad, 0x2a75a171563b807db525be259699ab28fe9bc7fb1f70943ff049bc970e841a0c, 0x2070679e798782ef592a52ca9cef820d497ad2eecbaa7e42f366b3e521c4ed42, 0x2f545e578202c9732488540e41f783b68ff0613fd79375f8ba8b3d30958e7677],
    [0x277686494f7644bbc4a9b194e10724eb967f1dc58718e59e3cedc821b2a7ae19, 0x83abff5e10051f078e2827d092e1ae808b4dd3e15ccc3706f38ce4157b6770e, 0x2e18c8570d20bf5df800739a53da75d906ece318cd224ab6b3a2be979e2d7eab, 0x23810bf82877fc19bff7eefeae3faf4bb8104c32ba4cd701596a15623d01476e],
    [0x23db68784e3f0cc0b85618826a9b3505129c16479973b0a84a4529e66b09c62, 0x1a5ad71bbbecd8a97dc49cfdbae303ad24d5c4741eab8b7568a9ff8253a1eb6f, 0xfa86f0f27e4d3dd7f3367ce86f684f1f2e4386d3e5b9f38fa283c6aa723b608, 0x14fcd5eb0be6d5beeafc4944034cf321c068ef930f10be2207ed58d2a34cdd6],
    [0x1d359d245f286c12d50d663bae733f978af08cdbd63017c57b3a75646ff382c1, 0xd745fd00dd167fb86772133640f02ce945004a7bc2c59e8790f725c5d84f0af, 0x3f3e6fab791f16628168e4b14dbaeb657035ee3da6b2ca83f0c2491e0b403eb, 0xc15fc3a1d5733dd835eae0823e377f8ba4a8b627627cc2bb661c25d20fb52a]]
  p := [
    [0x236d13393ef85cc48a351dd786dd7a1de5e39942296127fd87947223ae5108ad, 0x2b257df708d2f3d6785ff39129c7f268c13aef87ee92e9096bd6bd8d2989a74, 0x224a7cc70daf93a67ba74c0f2d80c5b0aea7ec1bb1f4e17ea21ff147c58b0a1b, 0x18ce43c42faa57788e66b11b59c98363b6970c4fbe9206a0986ac7a4438b96c9],
    [0x277686494f7644bbc4a9b194e10724eb967f1dc58718e59e3cedc821b2a7ae19, 0x27907df41fa277d8c74c3725e5b8be54f4b35d3d0b6e57b26ead3cde3d431897, 0x1b7e85dfcfe013c45746d870fb2114991d43131fadbf80494c01d5b105d44a5e, 0x2c1597f81dc951f0b27440567676ac64ea1b184e65eb25292cc4da61d8bf9824],
    [0x23db68784e3f0cc0b85618826a9b3505129c16479973b0a84a4529e66b09c62, 0x2460a032cf84ecd1f57096c9d21f5d48d1b21abc6d70277d7a75946997aed17, 0xc7a2ae4396db1838e5cb1ee490a768c1777efac919031924ab242d19be92806, 0x8c2147f957a152ffc37eec7b1cb029c07ecfabcc84489502a6e052aa6f94288],
    [0x1d359d245f286c12d50d663bae733f978af08cdbd63017c57b3a75646ff382c1, 0x2456b3c4841aabbcc4bcb4950dae4a0f8e60cf0511decb8b67afdabeca0dc590, 0x1a2e45b92aba8f36f92110d68941ce37d39fe27d02b794d53f7b961b7ed377c5, 0x182d95b63ec720b3af3a3bc6d0a6012d4885ba5754f32aa1f1d92ba130fe5745]]
  s := [
    [0x236d13393ef85cc48a351dd786dd7a1de5e39942296127fd87947223ae5108ad, 0x2ca7b911ea4f6a11da0bd5e72ab3cc621c5908b59ff3d76c609ea9c2fba8fa41, 0x2de5f3a5bbe5b20d77ba6a6f8ffe2db01ff5000901b9ce0140df133385fd9506, 0xa150cdbffe3c60c7a52cefa903bbee4d3846d24339f926c3655cdf9f81f67fb, 0x2026ad7e03636deef47934dd0d5dd29d87056d172e993bf5e96d6a3bb32d2e9c, 0x232507a3d48ca163c5e1b6f5bf391141524733d9cef80d404fdf78393c90151d, 0x1b16b96e6aec89d326a5a6c18336ec3c56e7189f8c1fe74c5c46074b865a1d83],
    [0x236d13393ef85cc48a351dd786dd7a1de5e39942296127fd87947223ae5108ad, 0xfdf5d15426498ac82411ff8a7a3884894f02c5242eab1dd7fdfca1cfdabd35b, 0x97cfa1218fe00b4edf8ce61cd20b4f8875ea5c8282d90f6f7153c9463bfbd95, 0xfd1ebd67968d1e49926c3952aaf96d3558aa856acbfe48e5a9fdb4285ad9bda, 0x27d5dc47f678316695d548d3b4fd1b00244a11d4cb753edd917d849cfa02fb8c, 0x2602ddd7ea3a280860321a70aa806562a57bebfa5a0f5d2770f3a169b88ae244, 0x2fafd30b7fac7a6699776892b07366b40fa387bc4141e009ee42070337088a89],
    [0x236d13393ef85cc48a351dd786dd7a1de5e39942296127fd87947223ae5108ad, 0x1b2ac2c9f97eb32560cee0b8e8320f52866b17042d2c7c13178dbd963936517, 0xc6db19118e83768bce24e1556ab9d383adb0f4f2b63c3f540d5b5e4deebb1f4, 0xf94cafc14403845ea574997bf75caba6b2016ee5a10de57ae35923c9c6a2261, 0x9145c337938ac3f71b78022c80fcdce4c1742f47dd2190c31c3cc5a41980f5d, 0xa0ca462d8ae218e235b6f24f4c17747886524aded7e4f3a59631497a4f98863, 0x1851288ccce2bdece3a7f68ff33b00cb961e6292f2af29c775cdf6ce3fe0777b],
    [0x236d13393ef85cc48a351dd786dd7a1de5e39942296127fd87947223ae5108ad, 0x9ad33992db79124edac791c80e82876cf3a60a043edfcd7bfb5a93ee3feab08, 0xb320d1000c50439a989886c4c11e711bd26667e61c50afba9d347cbd4b312f3, 0x26123488a4f037ba7b2a51391f25f91642ae52bae1435dfe32c5f47ce63f68a5, 0xd7a4403c3407d64ff5f63275add86c161183b2f1e88dab842607a8f3fcaa270, 0x2cad68fb4be69ca135d9b37e2d3084557efa6423a9662f1fb24150b310c71727, 0x2e122deb202b0e2c6a25e15226c09b9564cc57a8fc0d3645be77c36f8f27d4fd],
    [0x236d13393ef85cc48a351dd786dd7a1de5e39942296127fd87947223ae5108ad, 0x23e090845b17c18cc12ff83ce7deb2e58cff2f37771c39cd0b68ba14f4cd65ac, 0x8b041b40e47ef1883a30a5e631cb1e0596543f5c240701002be9d495d59a775, 0x19d0ad6176cd87e6109b92dff1b863104182e2c85bbaac5330b2b7a4b56f9a6e, 0x11296e1ff67a98dff758d023ea74c5fabe372a797f86a621bac4bbcdf31878bd, 0x1b0943c04cc4c3885335624a4df555ff89e439a40e6691d5db44732aea1b36ab, 0xc2cb45703a55a050e57ca3e51bf386b2cba4d5dadeb1749f8a6e047c5e9ac1d],
    [0x236d13393ef85cc48a351dd786dd7a1de5e39942296127fd87947223ae5108ad, 0x20c061a0f70692748ab2f61b7e52e5ddd5e704e51de165eb19312700eef604a9, 0x2aeb2df6a12c099b42c03dac1557681f03947ecd76426d6cb8a749dfb9f964f0, 0x111fa84f899677752592a75d53083c3188d97a72d8aa1be3835b681bc6813270, 0x1aad37ed6a2102cb892b98a7783fb019752cc8c0327190be544ad76165251f90, 0x1be6d262a580b10956cd6163ef221f3d9b0dc3e5cbc7ab04b3f8f2a0ffe86be9, 0x19fb44907e93686f59b9f17c0266c8139f8f4d8a5d212503bec1c6ef72409fca],
    [0x236d13393ef85cc48a351dd786dd7a1de5e39942296127fd87947223ae5108ad, 0xccbd07f12f007d8f30c6150e395dacffde4eae8fa51bf6bea1d6a7c421a586d, 0x9a3428b0108143dc9c78633aa3bb37807bcd9603406be211bb286e42b58cb52, 0x2a7ab6ca90a4e66f52e863c4b0f515148798ac8f92661b2b816902e915d8227c, 0x179239cb6d96131ef12f09a58f9535b66b23c4367bcfab687e9a7c3c880a040f, 0x7f9eff8cd62907b5d607140bd0b0944d175f17abe2b2eed814b6463ad29b8ce, 0x2f44cd6674099eae8cee5c6f84e9b25cfd7c801e0b457278e83fe4b511458c8e],
    [0x236d13393ef85cc48a351dd786dd7a1de5e39942296127fd87947223ae5108ad, 0x241d4acb53e51cee878b7d23223fd33311ff0aae81f4faa07816546eb732d8d9, 0x13016b694f63245a8a9b2f09a84bef7c0711bb8838b3ad49e0b7838f6f644560, 0x240a3ff47c2e7332534647a5a2fe278aff069cc479fa000d7c31a78ce2929bd1, 0x1a510b683ed295b19be81ace3dfbf7cf1061b07a18579325f7cd001d38146c30, 0x20c4eceba419b0575a95e295d84e71bd1a928d5ccca5d79a809059de3342c9cf, 0xbaf9899a51723a56cda43c1aecd6c096a499b57ae1893e16a28908bc5dcff6a],
    [0x236d13393ef85cc48a351dd786dd7a1de5e39942296127fd87947223ae5108ad, 0x162315c3b31a4d5b766510f46974ff89071424364fd69c9bfba1b6e0bece8eac, 0x2f6a4f9489ad4e1439c806d757799fd6ee58ca5d0560d15a8f658c6eb86f47d6, 0xf67999a01cf660e19180113f770041cc147a335e19f545e3f31a61bb6b4efa9, 0x9146d7f035d379789456542d3d727b593a6fc67252a631ec407053635478fa0, 0x2e44a6eb2efede0a5768d8491e4c86bfcd63b0ee2f383b74d62af311cf91de5a, 0x160631bd9c54749181816c9aca5fe004260ee7a56fd35fb56977ef04911d5e71],
    [0x236d13393ef85cc48a351dd786dd7a1de5e39942296127fd87947223ae5108ad, 0x26f7f151e37cde405da94d5b7e897e9768862af285902b590b636e12bb43c7af, 0xeeffd18325f8754d15db8adf98d290ac816cab0e4315306b2418068e78dd02f, 0x284277b5d2b0fd66df351ff703419da6b1aea5ee405bba09bd4a369e6eaea49a, 0x13584c5168cf2fc77f884d111e05fa8512e7cffec60dd3a105503196d682ca12, 0x1ebd55190bbbaae0e9dd1af991eaf3ae13af0e71fa686312224c886c97e9e2f9, 0x13a449ace196028aea035af0cd9d5b763d29f8d292443a762d8be06b1e136dfb],
    [0x236d13393ef85cc48a351dd786dd7a1de5e39942296127fd87947223ae5108ad, 0x21fa424cf90bf0b715656aeb3d02acc326cb56880bcd91602efacf66164bd07b, 0x24694b5ba9200603bca8f52d73d0f3fea26c0ee1939d2cec8a9bc5f961cd68c7, 0x1a6d98f744fca59c910dfb19ad89d7c25f2c719332edbbafb6cc85c190e4e170, 0xab904b12244246c2dd95c69a28ab91d2c34e641f697b5361bd91d1625c937dc, 0xfd87c8923668cce921af698cda67103c048864129954800460374ded5b86770, 0x2098ce0512ca13bea1141e48f14bc691b410cf81de7f597d062465e1431c4c2a],
    [0x236d13393ef85cc48a351dd786dd7a1de5e39942296127fd87947223ae5108ad, 0x4d94ebda7313ce25cd0dfcd1dde7992439daae630c054d7cfd6d690a85c27e9, 0xaf2fa274dd5b1e16568fc4613e76c9ab4fa99d09d10105e98bd9b92b82ea455, 0x19153b7441c48cd270b491762e96e470858714e9650aac65169577d2fc755af4, 0x2a5c69d030248d78f70674af65d92a908a7c27c34f32f9fd2417450e0585254b, 0x436d86f139382ffb61085560e2592290518eced5230894b4a8bcdebe06a88fb, 0x23b40e7f1bd0b7fae8cf2ea0608ace9299b903ac8d9994f7448bc2e46090af99],
    [0x236d13393ef85cc48a351dd786dd7a1de5e39942296127fd87947223ae5108ad, 0x21427832371fd1ce0efebe904a3ffae941142d4f35ce77e064e256ab5937653a, 0x1b527a15f36d4f03015a6ff483cfb5c18f8b331a7caf79237998fb914dd46149, 0x13d847e25b71d35789c6cde81ad9ad9c1afa6ace79ecf363920dc233e5646338, 0x238b13365a6b8fcd6580ff9f4bf267b01366a41d7c326c826be7dfec751bd480, 0x2fdc1ab225df187a8fdece2e14114cb71f01ed887085eed22731ded19882966b, 0x2fc9fa00830e2671b36e8eeec5c369a6b3fc27bd96905b5fc220fcf0458d1c3e],
    [0x236d13393ef85cc48a351dd786dd7a1de5e39942296127fd87947223ae5108ad, 0x101b70dd04be642aa07377610e3ee7d630bdb12e3b26295806b92e9f482151cb, 0x1227872231f192f1c81440c79fdebe597ce8ad03894cb07ac9b3423e4db90d10, 0x1d01d734b7090603174951fe6d338fb3cccc00c0accf2ac8d45859f45166305c, 0xe593e9c0177976f4caa991e54fc7eeae897fb723a9fad08a811b296f3e7b10e, 0x2fe9b7637f54d7060ff768205f9e161a4cb3bd9dcf14a8bbcb37743b6fc60c16, 0x26ac179b67db2c393739a450573022142905e5faa7e8efdd1c717eb603a6d9c2],
    [0x236d13393ef85cc48a351dd786dd7a1de5e39942296127fd87947223ae5108ad, 0x2e26f19972ff8bedefb7803e3284690f4fc7828cb0bcf3b5d5697b82714a171a, 0x7f4790a30254f654fb0a465c42217421998843693e2c2320e58cdf31a77ceea, 0x16adbd595b9959b8b903db7df15187e66b7f6fd433fd2ed3ca0dab8d45f8d031, 0x1341399558f697e9e3b49e50ad3889a7a6ac1b7a169ffe1575a3172a4f33c75a, 0x2c8e714ec99e38714e1d01b984f863c0d8e05b8c3b7ff6fbca20caacfbf3bf4, 0xaeb4122ca96285c5eb5b52fe2c26355db417406c567aa6c35dec7fc58ba6176],
    [0x236d13393ef85cc48a351dd786dd7a1de5e39942296127fd87947223ae5108ad, 0x24f5e61cac001b78c4664cdc75cd8d75bde602e45c6dac698f3b28ded5a75604, 0x158dab8b85f4412fdaefdee4d4f1fecb22f433672964d2ee7730b03663361f1d, 0x210a7fd894e483be032c8e6876957968f2152a9f1eded11c3cd26539ab12a213, 0x27dd83e178817fe22e022c22e620afb88e02fb15346322b8f70bb26485b813ed, 0x28b60c3bcdd4693b01f111dab969ee5dfa4a8840defdbf2bbf38604ce4e23e70, 0x5c56f683ea2d1d507676f03c411a29c9925215ca5d8e7f28a3da73cd7b513de],
    [0x236d13393ef85cc48a351dd786dd7a1de5e39942296127fd87947223ae5108ad, 0x1ef913d33b18f5ca1d000c2209646780c4580869163f287c4fbe537e270c308b, 0x2f77767437b926272dcdeecd45416aaa588551a79bfeb15fc3c76d938d12afcb, 0x2da62c50f92d8dcc0f6fdd909051708b0c8f21f966ad57ba303370f00209ed21, 0x118c1924b687d5268424af23862f95eb629e1c699a7c27de27c581c495ef159f, 0x1c20f20b601f89d66abc8e1854d3f29489de9a559584b9df842fb988980133c4, 0x19078ba50370eef76a00f6c89217183bba9da58fe15d8a07c565caa019147772],
    [0x236d13393ef85cc48a351dd786dd7a1de5e39942296127fd87947223ae5108ad, 0x90d697c32be00d8b71f734d1f9023cdd11a587b51581e763bac5b3c766c5043, 0x28309a912afc86848b67f7d85be9603f34ddceac4385e702f3662b3c2bdcf9e5, 0xb100f36ac254ea63a6b92996445318f7053603e181261d07051400f302dc3bc, 0x1931597f6dfad68193199a2166736c0c7e874189ca4d4d2555ef9d964b06c93e, 0xb26976995fcdb354ec5c6c50e1b29139fc3c0a64709cbfc2fa992effa833800, 0x2dd919c2edc302e56e0ece7b8537905feaa8c6dfa6c6130f94d68f7380bca019],
    [0x236d13393ef85cc48a351dd786dd7a1de5e39942296127fd87947223ae5108ad, 0x278b0231cff85bdeee497f6274fda5e07cefaac1ab05ce89f863db3fce5eeb29, 0x9ee1dcae79dc90e4cf0d0fb5e6bdee96fa6b751adde822d30e3a80b1a5bb506, 0x1769f50fb961ba50df8b9e03a12fc37bc965265fce93f9762b274328fd04afbd, 0x20a99da43235a2bb30b0ef58d708d07740510f517b2eedb678a94aaa4edbdeee, 0x11b7181ec0f9a1485d84cd91c342f70e1924c7a85f48a33e7bf8b5dba2b8b7a9, 0x23453eb1a5e44e28b31107f29dc6a7bf4818a7ce156d2c7e81dff75cc02e937a],
    [0x236d13393ef85cc48a351dd786dd7a1de5e39942296127fd87947223ae5108ad, 0x2abc91241e3275e2028d68130f5533d6c8e3d1ec2942632fa4b91a49fc762880, 0x21653a887bf627cba0b5a35ebb3329f4602afd8440ada0050c31b249d962f86e, 0x2ffee525440cb92eafc518b16135ca00df2ccd813bf1f9bc458252d7ee478def, 0x104bce734fb0322de9a91058ffb340e35c212a8af5c5b6ce1817344d82137d5, 0x12db34f34145195e64455a298fe597ce8b757426784cc53975ed5a439b91c12a, 0x13a9a61ca0008c1b911748f5593bbeaf633308428e4e85378214be04aef88b1c],
    [0x236d13393ef85cc48a351dd786dd7a1de5e39942296127fd87947223ae5108ad, 0x14ade7cef88a7726d51eb001357d8bfce8d1d8ec79472f6f2531d94792d4707a, 0x24baee921a2b827fe96835346b85a3e94ab75b4eb9fcab4235cb9c54d0a077a6, 0x4dfb441b179922b9e2ca9458de6d3aa0c653beca2fa7317a5d1fc4138e8782b, 0x2efdb84c3c6faceb0f58fefdefc09e447ea2302291d3ab11101d487f3c679ee4, 0x24d861650389f03a0da9d720f25df6e7ab3796ab597ed63d38055431655bbba5, 0x1f8b2609f6999f6b15577697e90e891fc7b691c30c2695278042c2d152aac2ae],
    [0x236d13393ef85cc48a351dd786dd7a1de5e39942296127fd87947223ae5108ad, 0x242fed5519f01070752e2e3779757e5df21033baaab86a9fbdb1a54d11cd4db6, 0x6dff8e392f51302fd8864de5068b943a2b04fb0b239c38b679faf689d69e1a9, 0x1ce5db5cd27794bbda0f7215bd9404f46502d2b601f74fcf2cb1a5b7fd440fbc, 0x16aea838ec8bc6e8b8f48309cd6e783cb4a337b92728f66f701f0d5efb32a80a, 0x1fd21a8ff13f0ef12be5a125bfbd5e952ef1e46b4f3747f3fbd8198209d4ea95, 0x125158b21d677618076854954d977c35a6313a1f37564e36bf6d072d2500df6],
    [0x236d13393ef85cc48a351dd786dd7a1de5e39942296127fd87947223ae5108ad, 0x2bb8e29cb323e3e2879d93d36e9312bb3c38a922cc6bcc1689f72793f5d4a18e, 0xd0e2ecbd08e247ae7aff1bce2bc54ad1603fc2cf0ef32822701feeebf4e826a, 0x2e7df0f7b842490b3f39d0d87bbb35a90cf23f3cfeef3c8a4fe4716a47699470, 0x1d9dd609a2944aa782ecb1a08acb5c0bb857c7489920644f6839c93c10b37837, 0x11ad269471d4b36fb23aa243904a0290608c32759020f082cda8b4d538752109, 0x2d2f546cbe60a9822e205c3f3fd187bf89f6def774c3f988de86e4eb91595bea],
    [0x236d13393ef85cc48a351dd786dd7a1de5e39942296127fd87947223ae5108ad, 0x28113fd3a8d3b95ebcf29f2ddb54c6d9ea034a51e3bd1198e4c1f4f1dcf068d0, 0x114ed46d49b389b14c202ba1c069ed4d836c131dcec2472f4bb78f803b90025b, 0x14a217bf8737fb3570e38b75cbc97b316ba21db8a3f316aca5a26ed35c0d1424, 0x16c9e7a58ddf141978209561d930058233b8adbb9e3aec9702ff674c22b009d0, 0x1388b78b9ec0242e402906d75be419cf92e3dbc2a5152df9797318e004632793, 0x2a459318d3f7156d87e3c666a8f7626cfed0d30fca28ef7927513b1f7a294b07],
    [0x236d13393ef85cc48a351dd786dd7a1de5e39942296127fd87947223ae5108ad, 0x1f3df3ca1c4b854792a69d107bb7e6e7be2f479be397de83c94cb310e8e821cb, 0x2869447a669cafc20f1f9017028e3098b38a82fdf3cee59d9de2c888004b41e9, 0x25eccbdcaf0a67d5ef15c7baaef8bd2a4eaa1a6d5d70385ed777c10db4796ff7, 0x24c26970e999f27e6351f1be0a3211c0a177cdb778ead13baea9b7b4be3534a5, 0x731afc922ad48a9f0ce9d635e26ba013a7d4ae8d52d4fb75f0f02409d83433b, 0x217044abaa3c9ab6c51927ad1061d0c1cedc63a90b01b7b5f1c10974e66f879d],
    [0x236d13393ef85cc48a351dd786dd7a1de5e39942296127fd87947223ae5108ad, 0x26cfa9ff210943f6b07c08691c2eddb1bb1d2167a417912ece724706b5c20b0e, 0xa5509b4fa5bc8be630a2ca7c40980904713b196e36a7e9f839c4474037e049c, 0x1c4dc788b6131f9dd132c2edffc7a46ec50b000383faff5419392f0d291c3475, 0x150bdab59767a62d994ce37edf2c3cd5311abd0bfe541fb30968e19ee2601053, 0x25393627a593730f4cf25a068932d447c1581f251f9a7b7d86cf9e392aca0d31, 0x10598af7a84cfdb4c458ca7625dd8b18509491e7109db65bd8a0f80d8778a6ae],
    [0x236d13393ef85cc48a351dd786dd7a1de5e39942296127fd87947223ae5108ad, 0x1fd5ba5922d7109795d5dba77bfb57ba6aef1bb6aef0baec38d0f916d35ec9d0, 0x439026e268ca0fa85b1f6ded27c854552eed2629ddb59e6a679d4efaea6f218, 0x1d5d47eb657ce510b9f9a17e9a49d6f0040f7f360399dab7f053faba3f06286e, 0x5cf07dcd831c1c51062ea271b402941996f46dd9df0fbb227305a550f42697, 0x24ef1615afe18b0ff998bf9e1fc69fedf38db66b2257f4bac76adc04ce92e029, 0xce1da26cb97828162425a7236c23e8f4b7778bda9d7d514b1b8fc9328087c2c],
    [0x236d13393ef85cc48a351dd786dd7a1de5e39942296127fd87947223ae5108ad, 0x1355e415b0db4001ca01503bc20232a49e67f0e816dc90ff18a4280437e9e9b8, 0x11fc9669cbe3bf176da65f312e409d635dbee3fbf8f3d1d6b056b48473cb451, 0x1d6c1910236789557b4c42df0191d2a46cddd2838ec6a74b7c308f023e71d4c5, 0x1626f4d2cc7f2d46d7c9c97030c1b420d6c2d55033f7becea7d377541b19f57f, 0x210c4bb43d712b400d4bae4bf8dde436786fc88bfcb82570b3e235ddc2982115, 0x213fd23b04ea9e58ea915c1fdb460f3a0ac4b0041afe80f6ca1ba9e1a0e13825],
    [0x236d13393ef85cc48a351dd786dd7a1de5e39942296127fd87947223ae5108ad, 0x2ea430efe8ee1f2c72ac009258a1ad98b87725c00f72d27a31c445046bb9a80e, 0x2d694e23e1b3f6b632b646584e76fb7b0d35aeda598fa5069d73c75136bd0272, 0x2ed754f34a22fe04fbb3635776e0894d21cdbf4cc6e03b8bf33787883c1a0db0, 0xf23e64e2b59d750be3bd037f4df62f7fbf16899400e69554b893f4afeaa41ae, 0x1cd301878d6d778480ef82b2a3cb9bcc36362d198e44c204e490cc524a2bb2b0, 0x276d797b67c8b3d935a71d2f8342bf7cbbd68de537e32c466f95a01a5a207f04],
    [0x236d13393ef85cc48a351dd786dd7a1de5e39942296127fd87947223ae5108ad, 0x16e8ab5ced34e81dfe00c24c7fbd0f4188351be2b1b26b6d63a1e02b84aea6b, 0x1caf3b10ac5814656ec2d5852b5439f810c8dc0a4fd6ebe82d9f33134f60c7a7, 0x225f97bdaeb6a565372c547e9d6c354c1f78fa1998cc3d92c28212ec7edb634e, 0x2d828acba9e58e0f3adf239a3689449515a1ba244c13b0186c827d600b7a7358, 0x1f9da4066a62e0cf290cb839bf62c9a49cf79b0ea1affe03696062ab8cb9d39b, 0x240706e2b81b5b65343b41e59330666d2b405258c4b9b177495776c2b1b6816c],
    [0x236d13393ef85cc48a351dd786dd7a1de5e39942296127fd87947223ae5108ad, 0x2d0f43029750f58be22d66c5b2963ac6b15b18c6e9d009b717044859fef9618d, 0x14237392b60352f6c8aa0f5c08024beb882ab82dbd3e790cda3898886aa3e9bb, 0xc8f3b03657beee6e1f94c98662b6339cfb7db5cb431fb9813587ee3f194d260, 0x18700b515de19b3256513482566afcbf490e55633dc0ba574c2fb4efad1ef118, 0x1c3b0a6645d002a9d1e18721a96d1e8b00217bdbea74ff1340dca47e6a326e26, 0x2979c4d21f80db612fa98aa90bbd65e2cecc1ea431849612005a904c08bfd014],
    [0x236d13393ef85cc48a351dd786dd7a1de5e39942296127fd87947223ae5108ad, 0x24509dfe357470309be062b07c05dd3df57d7cca62caa26001991820ce3af97f, 0x2bedda6eaf8901b78a0e53e25dacd92c60673046c86deb333ce4798bcf9357e2, 0x1f1d984e06825a3da53ac4066d4910067f6e0ff13ef83152cce3977ccb273404, 0x1f592946ac103f244d168802c352a7e2dc52bd2e53d3ef2f4a7571af810609e, 0x1a975c6688744220ac1e3d5295126f8ee0db7ca6283a176585e8dd5bce060ff9, 0x1a78319fb62d99297737e9dfdccd57fe6ffe0329195b8ff713a2d6d33596a6f6],
    [0x236d13393ef85cc48a351dd786dd7a1de5e39942296127fd87947223ae5108ad, 0x2fb4c2f41520052bd4498be87f445b3c62e86ca7d872dae8fa99c67b5977d11, 0x3162b367e9f34180f2228d505e54dbb7f2f23a3a8fee14f3084aea490fbf3fa, 0xda5cb94995f668763e7c6ecf96dc6bc13943abf3e49c55a702d37f36f79114e, 0x2575cdf1a61befe9fb7b83e880e8cc23d82600f35598ea2f81ad1bec1bd701b9, 0x1f83d6c20646a7e089a8fd0ad274021af2fb24e315f400dcb3d26a99ab5a35ae, 0x2c774cf487f79664580219c9d698781249e47b432767b0cbaf5169a5079fdb42],
    [0x236d13393ef85cc48a351dd786dd7a1de5e39942296127fd87947223ae5108ad, 0x203c1b59256ff5c004e70c2c5125ed51cc53e99390a8de9018e647e1be8d9888, 0x27abfb2e0894c5b4279b39b9319fa54ccbabd1efc509b31d906a1b5f764963c1, 0x2fea2fd0f35fffa4f84894b6525b3fec299c821a4766a78c829c2e7e69efbf0b, 0x2451d54dc48cb608f2e96698b96fd545816fef09dcaea75c9928179373a66fba, 0x17c5d4cbf713d33eb7c1f915dd2b0e439bebc5510cb409594adb43f94b7a0e9a, 0x279fbf4382e4b2bc46c1a8f719063ddb4226bb09c10cd68008b37c7f32d469c],
    [0x236d13393ef85cc48a351dd786dd7a1de5e39942296127fd87947223ae5108ad, 0xeb7c1194600e6ced3d8dc88c8689704d4188dfe89970dd790bb9cb600652321, 0xa0e776c12cd108cc589b14e8493dc743d85046b1c4ca97715ec501fcb166ba3, 0x1a8a8487cb8a60bce5774f64f62d0bcee791dc32d3a6f872f7dc626e4a732948, 0x16f103fdba708db2bce8b58c467a05bb8878939c82852921e94e5e955aa09ca0, 0x27a57324ff8193272833550d82f749d1389b493f98c8d3473f1a98900376325b, 0x26e4040378441fe8a60d1a5319aab70076c82cc203530d82e758844070c04860],
    [0x236d13393ef85cc48a351dd786dd7a1de5e39942296127fd87947223ae5108ad, 0x71846aa99eae694fa17d73eae87534f09c4539fa5c3b79ea6bc56d888dfa9c1, 0xcf75a0326b8ca3e2ad571834bc835c083555587a928fef417730656217faa2e, 0x1b80702e894d74821bfef8a2dae36f71d4802940f63a14fe64b3081340c4f11b, 0x2cc49fb1ce9198b927ab098ec9f454d205342ab49677037f9ff7f08e3f07ce71, 0x1a6e74bef4b0a5b3566facbf770a14bad98d8b6feab3e45995a328135888e924, 0x2ef1e0f0bbff91312b2c9b4710ca04f4e978061ba53657e9bc1893bdb2e7c7c9],
    [0x236d13393ef85cc48a351dd786dd7a1de5e39942296127fd87947223ae5108ad, 0xbb77a79511909681081da11a13c7abf3107373ba413ecba4d47ee5a0c288fac, 0x23d8b2e6869d7d05101d387c1b8cde6b85b7fe860e7eed2944c50d099053bfa5, 0x3023a8bf03a803eda3830c500d1c0e061fa85c4c15b72459475e3de290616ae9, 0x2b27c41a943be0d396ed3630098ff7018767161fc1a24d25f47969f1a44e20eb, 0x2a73bceed9ee2a7261290c8590e2ff679582a3a6c5988254ddf6f108f1103e13, 0x2579c47b76db59c6206ef023b59884fae08ef6a697acf7e55b6f132fd7733bc2],
    [0x236d13393ef85cc48a351dd786dd7a1de5e39942296127fd87947223ae5108ad, 0x2a5993c9c2a80be0f4b0a6f9c432e2c0604cf59d5bf5bf24609572d7d0acb900, 0x10faea103aa36e7d5c7bf760b355e0fd381a393feca3c04450d7faf0f6a22804, 0x2e98e92bc9904ca92c3e6d68fdd79e8bef6123ad5174f01d5dc04a240d8f47f1, 0x119937bb5d5d9029f290239eb94fe86069f2db6bcedcda8a1028e0b7a434428, 0x7c67a48f20850fc8ec8c735b73e07af2a08f52e7bc90084e9609e97f070cf2, 0x2da7855de0bdab6e993fdc9ece5fadf00c5d39d58f6599a56438aa2663cc35ee],
    [0x236d13393ef85cc48a351dd786dd7a1de5e39942296127fd87947223ae5108ad, 0x1a69a3840762376c3a2aec1bd8a434f2a5e410a7e92d23dbbb20a0991aadc46b, 0x57e27ad9218a311c3627a25345c879508fb856d68b9c0aca90276b1dfa4bf15, 0x14307851c6b079c4f3b26689dc5f62b8ac2b69ccf33f3802e9ada26718881832, 0x26c71cfb532662f6e681dd310fe112703b78f8ce1e3c39183d5d4889ce304271, 0x294cb0c139a1a5a345bc094d8a53f21d90e82cf47bb87e3d5e5bbd761e6d82aa, 0x84133bb35d1cee7f10a2f61953a4c77e09c4661a5565646654ddb7fec0be900],
    [0x236d13393ef85cc48a351dd786dd7a1de5e39942296127fd87947223ae5108ad, 0x1807d1d910cf5420087bc575b795cf7b77b590b7d14d3e3d2298b302c875bc1a, 0x1df001fd3c1262358bfa1198116229dc12e112bcd91b4f3962c8136c02c57e9a, 0x2b424b88ddb0ae2ff74d14a89099f8942df4e737c63f61f695ecea4842f9ff07, 0x189b086bfbbb9da30885f11ff9cb213c0a353710153cadd96203c7f97203791a, 0x1bd472ab81eb7d6c92809c07a387b1dad43a3083fe658bc88d1c3ac1672e2ec9, 0x2bcb32de32d02f4b8f8b1d100459f537cb0e4e1f14cfe5724424107a9929bf8f],
    [0x236d13393ef85cc48a351dd786dd7a1de5e39942296127fd87947223ae5108ad, 0xcfc7baed4497a2252d54cdeaf8ce6f23773209abb5f341ca2ab616f0516195e, 0x1cbfb6629ded2640c886dd504a2ec58f96b441839b79e54feab04260eb90b128, 0xb3e19811df2edf55549ac304fb205cdae326abff1e7febd20f350af8752f2b, 0x17e85c4c6fe808534124bb66995e5c663eb5a195ac1a26d8a096db675ca0dfcf, 0x31cdebefacdf2b2dc708ff87cee0315f36e97308369e304e8d2654c342622dd, 0x17c33efac12fd569e1ff7c0a0165c4cb8d23c279d442e7bbd073cadbe4f665b2],
    [0x236d13393ef85cc48a351dd786dd7a1de5e39942296127fd87947223ae5108ad, 0x866a0d2140ed3854d5822fba68985764126345cdafbf547ebd33c39aecb895c, 0x2bbd1e9f3114413c347ee4037d08f914d4cb655617c0cfaab77bb09ced39950, 0x1ad0d5f7480a78dd4e048c459479d5622ed65f87880f675cbd2c4d97e7bc7847, 0x1b88066e99b993f70306cde87ea47cab3efa6d698c9d3b1ba355b2c9f3453b74, 0x25fa0cd0dea157ff4ed741b0dc76e0095a51fc30c799500e80d0b821aad7b9f1, 0x208e0d0378f2c7d87a6ce8abcbd4bdd979a4d9dc80268cb96d84ad440fd0f99a],
    [0x236d13393ef85cc48a351dd786dd7a1de5e39942296127fd87947223ae5108ad, 0xbcb27a9e590ba76102f8bfa6f1c64726558f57a0027e6ddbc46d564eb8b09da, 0xce91923c51960849a75b3f8fd1bfe1d9754dc7cd48144f964a0c91a4e08dd61, 0x1fac92c295c763fe6b1e3c0f3604f0c7d618def2133ee2f869d2a1e774b4245d, 0x87968a25cdbb96cd471e88fc2cccbf3e5b8bd1037b4ee5332adac070a82a109, 0xcc8d9f53ff98eedd6fdd5c5def364a45d12ace1ff5e3626f760773b5de0e624, 0x2b95310fe6307070e985d61390a351ca5e1c4a9f5e2c539602136fcd080f4e6a],
    [0x236d13393ef85cc48a351dd786dd7a1de5e39942296127fd87947223ae5108ad, 0x28c0a6ccd9587d41eb73206239493c9150e52258eefa598382cf609d4559b2e8, 0x165c6c313faa07be77275b235bcccbf30af0740ca973d6acce2cafa9462491d9, 0xcdeb047d8e50b00253e926dff5f95b4279be0377669908d6759612cb73259e6, 0x10140d5f85f2f329572c2c9b7535776b7695d62d6362ef27285485abbf9db018, 0x9501340c196da04db07c8b1c3bc1461c228e926c9ee26f5e26364dd894b1468, 0xf607855b7f42530fc19f6431d53035a74eb03f7251d71567982458698c93ac0],
    [0x236d13393ef85cc48a351dd786dd7a1de5e39942296127fd87947223ae5108ad, 0x255be79d8de4168c44cf8a26522391ec6b67e30f2474bf2cc7c792dd25a47046, 0x1ecb792391cc746710b586800234267adcd4d9841c4e8f1e76dfc5dd15eaec90, 0x292470307f3a20d0205a19091cb044a8f9e58d0156f0364b21f3b6025b65d016, 0xc3d7b0383d1377489843e884a06ba72245f0498e71043af2acda8353a47ecee, 0xc610cb1971aaa4ae5f87fb14ed536198648cdc876c7c6e2f531d7d5d1ad625c, 0x1c237dcaf124be157c5897960fe7f22af44d441d2d4590028a07bb249711d7e2],
    [0x236d13393ef85cc48a351dd786dd7a1de5e39942296127fd87947223ae5108ad, 0x2a5e583e4003e7e747a1d39ad6027a9f347c7de946a3cfd00750a9a102c05e3b, 0x16ccec4b4960d2331a960804ecdb0442ecb1bcddb9bab42b306c4736510675e9, 0x2d0db3092b03a54bdb861c291c1a1f522112f9e457e3a51d731851dd59b1365f, 0x16f1469935ef074ab1ae192294dd62af3e14ae22f1e294032222c5ae19e2adbd, 0x67c4106d011aaf52f2539ba2f8d1fe65ce9ae081858ad629b9ebe8148cc0878, 0x12c6eaadcc69ac3b7344b8296ea4a251facc1c96356c84e8131b662f3d5f34a3],
    [0x236d13393ef85cc48a351dd786dd7a1de5e39942296127fd87947223ae5108ad, 0x2ad9831069e1f113495cdaaaf18733aa4a4eae1e850d58c06665a1c787ed6049, 0x1a6d2b5f928d9f0a9c4022b9520d707e5eca0ac9cee84927a71737a036628f6c, 0x1d92d368ae1f42256bfe712909a03c69a46bcd207c17461986a6de00e0952945, 0x10ad1d35f6f8f499e64daef032a28251b50c622a28429d2b2107ab377784faaf, 0x150225afc95fcb450fa9b2b7723479ecf7c3143eda0eaa257df4f1a798cf6375, 0x13c542f46f245c790955fd30c8cfe7125534ebcf6df7b1d9bedbe7205eddb980],
    [0x236d13393ef85cc48a351dd786dd7a1de5e39942296127fd87947223ae5108ad, 0x2fea3116266bd3005b05649b48c70089e572a077ed0f8f9730b63cbb9134a368, 0x1bc4f0df44852b392b2a36846030f42fcd462c40b04d0c90e71129e621842af6, 0x83b244ee2ab819a95d0c4bcdb9d915dabb6832b4dff9bde7ce0515827d19cfb, 0x1fe91590b6942e9c496a9c696c067b3086fd707b01290a7711d4f398908c8917, 0x2e97a6382c9007fb2b6ac74186070eda269b10506e8e4a74ba82274d154268c0, 0x19d731e981d3dd374362f4b4f05c5ee9600b5396567615c3ee94e0a80c8cc4ac],
    [0x236d13393ef85cc48a351dd786dd7a1de5e39942296127fd87947223ae5108ad, 0x1299ec83503dcd0c6aaece92e6c2cf7871b61e43318dc82a183a5039044fd000, 0x27059db058fd253b71b341d077246299734497dc31f2159918c64a78188b85e1, 0xf8c2dee7cdc8dc90eb57f025076157a181973f6347318feeb0c99afeae085d0, 0x1053d862218c7ad87cda3105ac23bcb12c92e883006c3d44fa3f9166e827cfd6, 0x1442ee0343b9bc2ae95f8c4f59cb32bb461a4c7b40a12e89b68b6990a4b71933, 0x2ef147fa908e6186fc2ed54fadf20555ef2a1e9b3babcb6863879adf84a3472b],
    [0x236d13393ef85cc48a351dd786dd7a1de5e39942296127fd87947223ae5108ad, 0x297d7f9fc303a0f583f992f7347f68b50b5bbd791acb93e2d8bc8efdc4c1ab53, 0x2b4e8b40ce6c64abc1c906a956e5aaf5ebbdb7c98110e171adac573b81b16195, 0x316fe041d68e38cbaa5d728d225ed818f00b2aa9ffb1ad3d9ec24bcdfccdcbc, 0x168c57b725731fe3159d73e0d94c0ebf35171e3cf88e1267c2b556a5456ae6c1, 0x90666d655622b3757b5ae5283432b4aeaece83148a36eb57821d241b3efbd3e, 0x2c91164e87fcb1bd07143870286eca8a29df3678768bae50817569f48bd7bdf],
    [0x236d13393ef85cc48a351dd786dd7a1de5e39942296127fd87947223ae5108ad, 0x110f901d246c2e951c579bbe91467a2950e69ecf241d8b68c4a4c98f05284b26, 0x484e7feefee9a459b2861009d6007e8b15721afb4a35f3e5c9a6f1f70334091, 0x11300deae6b73e9e5129595f0996c10ce002506c2c207bf672676a130aba8364, 0xec4bcec59f43f5b5653a3cb0440d71118ce31bb60c75b9c6766b6a5e0524968, 0xefa65a66b38b03467fe38d8669207d9fbb9f38faaf70d13a67c6bf71e1e71e6, 0x27806883684a018d11ee2ecabb971dd9f690cc5a22ffe36ce61f17c6ea5fb4a8],
    [0x236d13393ef85cc48a351dd786dd7a1de5e39942296127fd87947223ae5108ad, 0xf4b7f229e28a7a9e7bf019b18ce7a36280fff22f7a99e60bd84d1baa891cd12, 0x20b53ef54ebd25d7c222d418e017b7cc5e00a9ae5221191a1ff561b1ee3177b8, 0x14efc55a08da5f53635520e21890e2e5eaf0cc1fa1fddcacf1302dc65ee059c2, 0x1b701800b22e5765059fc4525bb4aacfac8dedf2ed37253160baa818678ef374, 0x118648d759ffd92fb5bcb86acfdfc4bceddadd6fb1679c317cbbcf686651c67f, 0x2601544a6e67f78415a0c2a6e8f4665f5910909c58bb2eb03f7854519af15f0],
    [0x236d13393ef85cc48a351dd786dd7a1de5e39942296127fd87947223ae5108ad, 0x1bfdb6da2db944b4b79fc0ef825d6ca2acd350cbb87ff12187db30a1798d0dcf, 0x969ce62c18f96eb6c6e3d0c5a7bc7b2b1de0cb7ae0474b47d16445f2d067cbb, 0x13d54abe37dccf2eede120eeaabc5105b997f3647874179cfebc1c9b022b8215, 0x27b42d0a347af048017cd6e2a577e959c0b6b6b8c2ae405cd9b05b793a2643b3, 0x2737758ec335fcb4498d54d210c11bce1d2cf1b97b7ebb835c4bd17b1cf8d54f, 0x1f9696df0bb5e293dc20d0579dba1866adef8f6e6d3846f42380861f5b54ca46],
    [0x236d13393ef85cc48a351dd786dd7a1de5e39942296127fd87947223ae5108ad, 0x2fa9dd289eab48f0424a48c9a2b4f51d2de3ae6cf2d5e23a10b0366938541d65, 0xfc755141d556a5eebf1efccbcbbf72ead5eecb5ad93e9814b715c4d388d7709, 0x26127072286989c57c665090b20dc85c5fa983ae80c412fb2d8ad02194843981, 0x229663addd9b99e225513a7d0ed1b43c0b02de97a57466355e670add9ad636b3, 0x3011613dbd895a56a9dc81ca4f61a03f4e77c18834c6c20a51be01d4ef9062d2, 0x5598cd7707b28488e2a0d669ac14e8464804e51537d7d3baa45a7c80e489c5b],
    [0x236d13393ef85cc48a351dd786dd7a1de5e39942296127fd87947223ae5108ad, 0x16dc1f58a2e54f8f78d4a2bc67c5dd242744ff2db0ea9533a9fb3de2afa831e5, 0x2a274cc1ef7dd9e160541523dd6b2c159fcb0f40191b63a8d0a877777b8dd060, 0x1e8f3078f2fd0b0409460ab369a100d5a82cd93b3dd947644aa6bb8fc2f4f863, 0x2ee81ae8b9bc0eb7d4417e09a83dd467ca8dcb6e8f0c8758b9cba555123dac67, 0x367cb4b603a227e6b02ba57173fe7391e93db6078be2d56ef2e9164b6fd2721, 0x184637a267f328df1bd119191fe0d1158eab799713ea537f01bebfa4fbb640f3],
    [0x236d13393ef85cc48a351dd786dd7a1de5e39942296127fd87947223ae5108ad, 0x27649a3a1db5ba83511b2f9fb3785dbdf083f1f5d4bed38b76fd379545d9ca08, 0x8f84f219781937a7bd7ed5aecdffbcad92a1d31262fe51761c94a0f19973283, 0x14f65d95f7359b8f9f3527527ba9722197df3e698f773cf3027c00bc4160f989, 0x2a75a171563b807db525be259699ab28fe9bc7fb1f70943ff049bc970e841a0c, 0x2070679e798782ef592a52ca9cef820d497ad2eecbaa7e42f366b3e521c4ed42, 0x2f545e578202c9732488540e41f783b68ff0613fd79375f8ba8b3d30958e7677]]

/-- starky/src/poseidon_bn128_constants.rs L330-587, one round per line -/
def c4 : List (List Nat) := [
    [0x19b849f69450b06848da1d39bd5e4a4302bb86744edc26238b0878e269ed23e5, 0x265ddfe127dd51bd7239347b758f0a1320eb2cc7450acc1dad47f80c8dcf34d6, 0x199750ec472f1809e0f66a545e1e51624108ac845015c2aa3dfc36bab497d8aa, 0x157ff3fe65ac7208110f06a5f74302b14d743ea25067f0ffd032f787c7f1cdf8],
    [0x2e49c43c4569dd9c5fd35ac45fca33f10b15c590692f8beefe18f4896ac94902, 0xe35fb89981890520d4aef2b6d6506c3cb2f0b6973c24fa82731345ffa2d1f1e, 0x251ad47cb15c4f1105f109ae5e944f1ba9d9e7806d667ffec6fe723002e0b996, 0x13da07dc64d428369873e97160234641f8beb56fdd05e5f3563fa39d9c22df4e],
    [0xc009b84e650e6d23dc00c7dccef7483a553939689d350cd46e7b89055fd4738, 0x11f16b1c63a854f01992e3956f42d8b04eb650c6d535eb0203dec74befdca06, 0xed69e5e383a688f209d9a561daa79612f3f78d0467ad45485df07093f367549, 0x4dba94a7b0ce9e221acad41472b6bbe3aec507f5eb3d33f463672264c9f789b],
    [0xa3f2637d840f3a16eb094271c9d237b6036757d4bb50bf7ce732ff1d4fa28e8, 0x259a666f129eea198f8a1c502fdb38fa39b1f075569564b6e54a485d1182323f, 0x28bf7459c9b2f4c6d8e7d06a4ee3a47f7745d4271038e5157a32fdf7ede0d6a1, 0xa1ca941f057037526ea200f489be8d4c37c85bbcce6a2aeec91bd6941432447],
    [0xc6f8f958be0e93053d7fd4fc54512855535ed1539f051dcb43a26fd926361cf, 0x123106a93cd17578d426e8128ac9d90aa9e8a00708e296e084dd57e69caaf811, 0x26e1ba52ad9285d97dd3ab52f8e840085e8fa83ff1e8f1877b074867cd2dee75, 0x1cb55cad7bd133de18a64c5c47b9c97cbe4d8b7bf9e095864471537e6a4ae2c5],
    [0x1dcd73e46acd8f8e0e2c7ce04bde7f6d2a53043d5060a41c7143f08e6e9055d0, 0x11003e32f6d9c66f5852f05474a4def0cda294a0eb4e9b9b12b9bb4512e5574, 0x2b1e809ac1d10ab29ad5f20d03a57dfebadfe5903f58bafed7c508dd2287ae8c, 0x2539de1785b735999fb4dac35ee17ed0ef995d05ab2fc5faeaa69ae87bcec0a5],
    [0xc246c5a2ef8ee0126497f222b3e0a0ef4e1c3d41c86d46e43982cb11d77951d, 0x192089c4974f68e95408148f7c0632edbb09e6a6ad1a1c2f3f0305f5d03b527b, 0x1eae0ad8ab68b2f06a0ee36eeb0d0c058529097d91096b756d8fdc2fb5a60d85, 0x179190e5d0e22179e46f8282872abc88db6e2fdc0dee99e69768bd98c5d06bfb],
    [0x29bb9e2c9076732576e9a81c7ac4b83214528f7db00f31bf6cafe794a9b3cd1c, 0x225d394e42207599403efd0c2464a90d52652645882aac35b10e590e6e691e08, 0x64760623c25c8cf753d238055b444532be13557451c087de09efd454b23fd59, 0x10ba3a0e01df92e87f301c4b716d8a394d67f4bf42a75c10922910a78f6b5b87],
    [0xe070bf53f8451b24f9c6e96b0c2a801cb511bc0c242eb9d361b77693f21471c, 0x1b94cd61b051b04dd39755ff93821a73ccd6cb11d2491d8aa7f921014de252fb, 0x1d7cb39bafb8c744e148787a2e70230f9d4e917d5713bb050487b5aa7d74070b, 0x2ec93189bd1ab4f69117d0fe980c80ff8785c2961829f701bb74ac1f303b17db],
    [0x2db366bfdd36d277a692bb825b86275beac404a19ae07a9082ea46bd83517926, 0x62100eb485db06269655cf186a68532985275428450359adc99cec6960711b8, 0x761d33c66614aaa570e7f1e8244ca1120243f92fa59e4f900c567bf41f5a59b, 0x20fc411a114d13992c2705aa034e3f315d78608a0f7de4ccf7a72e494855ad0d],
    [0x25b5c004a4bdfcb5add9ec4e9ab219ba102c67e8b3effb5fc3a30f317250bc5a, 0x23b1822d278ed632a494e58f6df6f5ed038b186d8474155ad87e7dff62b37f4b, 0x22734b4c5c3f9493606c4ba9012499bf0f14d13bfcfcccaa16102a29cc2f69e0, 0x26c0c8fe09eb30b7e27a74dc33492347e5bdff409aa3610254413d3fad795ce5],
    [0x70dd0ccb6bd7bbae88eac03fa1fbb26196be3083a809829bbd626df348ccad9, 0x12b6595bdb329b6fb043ba78bb28c3bec2c0a6de46d8c5ad6067c4ebfd4250da, 0x248d97d7f76283d63bec30e7a5876c11c06fca9b275c671c5e33d95bb7e8d729, 0x1a306d439d463b0816fc6fd64cc939318b45eb759ddde4aa106d15d9bd9baaaa],
    [0x28a8f8372e3c38daced7c00421cb4621f4f1b54ddc27821b0d62d3d6ec7c56cf, 0x94975717f9a8a8bb35152f24d43294071ce320c829f388bc852183e1e2ce7e, 0x4d5ee4c3aa78f7d80fde60d716480d3593f74d4f653ae83f4103246db2e8d65, 0x2a6cf5e9aa03d4336349ad6fb8ed2269c7bef54b8822cc76d08495c12efde187],
    [0x2304d31eaab960ba9274da43e19ddeb7f792180808fd6e43baae48d7efcba3f3, 0x3fd9ac865a4b2a6d5e7009785817249bff08a7e0726fcb4e1c11d39d199f0b0, 0xb7258ded52bbda2248404d55ee5044798afc3a209193073f7954d4d63b0b64, 0x159f81ada0771799ec38fca2d4bf65ebb13d3a74f3298db36272c5ca65e92d9a],
    [0x1ef90e67437fbc8550237a75bc28e3bb9000130ea25f0c5471e144cf4264431f, 0x1e65f838515e5ff0196b49aa41a2d2568df739bc176b08ec95a79ed82932e30d, 0x2b1b045def3a166cec6ce768d079ba74b18c844e570e1f826575c1068c94c33f, 0x832e5753ceb0ff6402543b1109229c165dc2d73bef715e3f1c6e07c168bb173],
    [0x2f614e9cedfb3dc6b762ae0a37d41bab1b841c2e8b6451bc5a8e3c390b6ad16, 0xe2427d38bd46a60dd640b8e362cad967370ebb777bedff40f6a0be27e7ed705, 0x493630b7c670b6deb7c84d414e7ce79049f0ec098c3c7c50768bbe29214a53a, 0x22ead100e8e482674decdab17066c5a26bb1515355d5461a3dc06cc85327cea9],
    [0x25b3e56e655b42cdaae2626ed2554d48583f1ae35626d04de5084e0b6d2a6f16, 0x1e32752ada8836ef5837a6cde8ff13dbb599c336349e4c584b4fdc0a0cf6f9d0, 0x2fa2a871c15a387cc50f68f6f3c3455b23c00995f05078f672a9864074d412e5, 0x2f569b8a9a4424c9278e1db7311e889f54ccbf10661bab7fcd18e7c7a7d83505],
    [0x44cb455110a8fdd531ade530234c518a7df93f7332ffd2144165374b246b43d, 0x227808de93906d5d420246157f2e42b191fe8c90adfe118178ddc723a5319025, 0x2fcca2934e046bc623adead873579865d03781ae090ad4a8579d2e7a6800355, 0xef915f0ac120b876abccceb344a1d36bad3f3c5ab91a8ddcbec2e060d8befac],
    [0x1797130f4b7a3e1777eb757bc6f287f6ab0fb85f6be63b09f3b16ef2b1405d38, 0xa76225dc04170ae3306c85abab59e608c7f497c20156d4d36c668555decc6e5, 0x1fffb9ec1992d66ba1e77a7b93209af6f8fa76d48acb664796174b5326a31a5c, 0x25721c4fc15a3f2853b57c338fa538d85f8fbba6c6b9c6090611889b797b9c5f],
    [0xc817fd42d5f7a41215e3d07ba197216adb4c3790705da95eb63b982bfcaf75a, 0x13abe3f5239915d39f7e13c2c24970b6df8cf86ce00a22002bc15866e52b5a96, 0x2106feea546224ea12ef7f39987a46c85c1bc3dc29bdbd7a92cd60acb4d391ce, 0x21ca859468a746b6aaa79474a37dab49f1ca5a28c748bc7157e1b3345bb0f959],
    [0x5ccd6255c1e6f0c5cf1f0df934194c62911d14d0321662a8f1a48999e34185b, 0xf0e34a64b70a626e464d846674c4c8816c4fb267fe44fe6ea28678cb09490a4, 0x558531a4e25470c6157794ca36d0e9647dbfcfe350d64838f5b1a8a2de0d4bf, 0x9d3dca9173ed2faceea125157683d18924cadad3f655a60b72f5864961f1455],
    [0x328cbd54e8c0913493f866ed03d218bf23f92d68aaec48617d4c722e5bd4335, 0x2bf07216e2aff0a223a487b1a7094e07e79e7bcc9798c648ee3347dd5329d34b, 0x1daf345a58006b736499c583cb76c316d6f78ed6a6dffc82111e11a63fe412df, 0x176563472456aaa746b694c60e1823611ef39039b2edc7ff391e6f2293d2c404],
    [0x2ef1e0fad9f08e87a3bb5e47d7e33538ca964d2b7d1083d4fb0225035bd3f8db, 0x226c9b1af95babcf17b2b1f57c7310179c1803dec5ae8f0a1779ed36c817ae2a, 0x14bce3549cc3db7428126b4c3a15ae0ff8148c89f13fb35d35734eb5d4ad0def, 0x2debff156e276bb5742c3373f2635b48b8e923d301f372f8e550cfd4034212c7],
    [0x2d4083cf5a87f5b6fc2395b22e356b6441afe1b6b29c47add7d0432d1d4760c7, 0xc225b7bcd04bf9c34b911262fdc9c1b91bf79a10c0184d89c317c53d7161c29, 0x3152169d4f3d06ec33a79bfac91a02c99aa0200db66d5aa7b835265f9c9c8f3, 0xb61811a9210be78b05974587486d58bddc8f51bfdfebbb87afe8b7aa7d3199c],
    [0x203e000cad298daaf7eba6a5c5921878b8ae48acf7048f16046d637a533b6f78, 0x1a44bf0937c722d1376672b69f6c9655ba7ee386fda1112c0757143d1bfa9146, 0x376b4fae08cb03d3500afec1a1f56acb8e0fde75a2106d7002f59c5611d4daa, 0x780af2ca1cad6465a2171250fdfc32d6fc241d3214177f3d553ef363182185],
    [0x10774d9ab80c25bdeb808bedfd72a8d9b75dbe18d5221c87e9d857079bdc31d5, 0x10dc6e9c006ea38b04b1e03b4bd9490c0d03f98929ca1d7fb56821fd19d3b6e8, 0x544b8338791518b2c7645a50392798b21f75bb60e3596170067d00141cac16, 0x222c01175718386f2e2e82eb122789e352e105a3b8fa852613bc534433ee428c],
    [0x2840d045e9bc22b259cfb8811b1e0f45b77f7bdb7f7e2b46151a1430f608e3c5, 0x62752f86eebe11a009c937e468c335b04554574c2990196508e01fa5860186b, 0x6041bdac48205ac87adb87c20a478a71c9950c12a80bc0a55a8e83eaaf04746, 0x4a533f236c422d1ff900a368949b0022c7a2ae092f308d82b1dcbbf51f5000d],
    [0x13e31d7a67232fd811d6a955b3d4f25dfe066d1e7dc33df04bde50a2b2d05b2a, 0x11c2683ae91eb4dfbc13d6357e8599a9279d1648ff2c95d2f79905bb13920f1, 0xb0d219346b8574525b1a270e0b4cba5d56c928e3e2c2bd0a1ecaed015aaf6ae, 0x14abdec8db9c6dc970291ee638690209b65080781ef9fd13d84c7a726b5f1364],
    [0x1a0b70b4b26fdc28fcd32aa3d266478801eb12202ef47ced988d0376610be106, 0x278543721f96d1307b6943f9804e7fe56401deb2ef99c4d12704882e7278b607, 0x16eb59494a9776cf57866214dbd1473f3f0738a325638d8ba36535e011d58259, 0x2567a658a81ffb444f240088fa5524c69a9e53eeab6b7f8c41c3479dcf8c644a],
    [0x29aa1d7c151e9ad0a7ab39f1abd9cf77ab78e0215a5715a6b882ade840bb13d8, 0x15c091233e60efe0d4bbfce2b36415006a4f017f9a85388ce206b91f99f2c984, 0x16bd7d22ff858e5e0882c2c999558d77e7673ad5f1915f9feb679a8115f014cf, 0x2db50480a07be0eb2c2e13ed6ef4074c0182d9b668b8e08ffe6769250042025],
    [0x5e4a220e6a3bc9f7b6806ec9d6cdba186330ef2bf7adb4c13ba866343b73119, 0x1dda05ebc30170bc98cbf2a5ee3b50e8b5f70bc424d39fa4104d37f1cbcf7a42, 0x184bef721888187f645b6fee3667f3c91da214414d89ba5cd301f22b0de8990, 0x1498a307e68900065f5e8276f62aef1c37414b84494e1577ad1a6d64341b78ec],
    [0x25f40f82b31dacc4f4939800b9d2c3eacef737b8fab1f864fe33548ad46bd49d, 0x9d317cc670251943f6f5862a30d2ea9e83056ce4907bfbbcb1ff31ce5bb9650, 0x2f77d77786d979b23ba4ce4a4c1b3bd0a41132cd467a86ab29b913b6cf3149d0, 0xf53dafd535a9f4473dc266b6fccc6841bbd336963f254c152f89e785f729bbf],
    [0x25c1fd72e223045265c3a099e17526fa0e6976e1c00baf16de96de85deef2fa2, 0x2a902c8980c17faae368d385d52d16be41af95c84eaea3cf893e65d6ce4a8f62, 0x1ce1580a3452ecf302878c8976b82be96676dd114d1dc8d25527405762f83529, 0x24a6073f91addc33a49a1fa306df008801c5ec569609034d2fc50f7f0f4d0056],
    [0x25e52dbd6124530d9fc27fe306d71d4583e07ca554b5d1577f256c68b0be2b74, 0x23dffae3c423fa7a93468dbccfb029855974be4d0a7b29946796e5b6cd70f15d, 0x6342da370cc0d8c49b77594f6b027c480615d50be36243a99591bc9924ed6f5, 0x2754114281286546b75f09f115fc751b4778303d0405c1b4cc7df0d8e9f63925],
    [0x15c19e8534c5c1a8862c2bc1d119eddeabf214153833d7bdb59ee197f8187cf5, 0x265fe062766d08fab4c78d0d9ef3cabe366f3be0a821061679b4b3d2d77d5f3e, 0x13ccf689d67a3ec9f22cb7cd0ac3a327d377ac5cd0146f048debfd098d3ec7be, 0x17662f7456789739f81cd3974827a887d92a5e05bdf3fe6b9fbccca4524aaebd],
    [0x21b29c76329b31c8ef18631e515f7f2f82ca6a5cca70cee4e809fd624be7ad5d, 0x18137478382aadba441eb97fe27901989c06738165215319939eb17b01fa975c, 0x2bc07ea2bfad68e8dc724f5fef2b37c2d34f761935ffd3b739ceec4668f37e88, 0x2ddb2e376f54d64a563840480df993feb4173203c2bd94ad0e602077aef9a03e],
    [0x277eb50f2baa706106b41cb24c602609e8a20f8d72f613708adb25373596c3f7, 0xd4de47e1aba34269d0c620904f01a56b33fc4b450c0db50bb7f87734c9a1fe5, 0xb8442bfe9e4a1b4428673b6bd3eea6f9f445697058f134aae908d0279a29f0c, 0x11fe5b18fbbea1a86e06930cb89f7d4a26e186a65945e96574247fddb720f8f5],
    [0x224026f6dfaf71e24d25d8f6d9f90021df5b774dcad4d883170e4ad89c33a0d6, 0xb2ca6a999fe6887e0704dad58d03465a96bc9e37d1091f61bc9f9c62bbeb824, 0x221b63d66f0b45f9d40c54053a28a06b1d0a4ce41d364797a1a7e0c96529f421, 0x30185c48b7b2f1d53d4120801b047d087493bce64d4d24aedce2f4836bb84ad4],
    [0x23f5d372a3f0e3cba989e223056227d3533356f0faa48f27f8267318632a61f0, 0x2716683b32c755fd1bf8235ea162b1f388e1e0090d06162e8e6dfbe4328f3e3b, 0x977545836866fa204ca1d853ec0909e3d140770c80ac67dc930c69748d5d4bc, 0x1444e8f592bdbfd8025d91ab4982dd425f51682d31472b05e81c43c0f9434b31],
    [0x26e04b65e9ca8270beb74a1c5cb8fee8be3ffbfe583f7012a00f874e7718fbe3, 0x22a5c2fa860d11fe34ee47a5cd9f869800f48f4febe29ad6df69816fb1a914d2, 0x174b54d9907d8f5c6afd672a738f42737ec338f3a0964c629f7474dd44c5c8d7, 0x1db1db8aa45283f31168fa66694cf2808d2189b87c8c8143d56c871907b39b87],
    [0x1530bf0f46527e889030b8c7b7dfde126f65faf8cce0ab66387341d813d1bfd1, 0xb73f613993229f59f01c1cec8760e9936ead9edc8f2814889330a2f2bade457, 0x29c25a22fe2164604552aaea377f448d587ab977fc8227787bd2dc0f36bcf41e, 0x2b30d53ed1759bfb8503da66c92cf4077abe82795dc272b377df57d77c875526],
    [0x12f6d703b5702aab7b7b7e69359d53a2756c08c85ede7227cf5f0a2916787cd2, 0x2520e18300afda3f61a40a0b8837293a55ad01071028d4841ffa9ac706364113, 0x1ec9daea860971ecdda8ed4f346fa967ac9bc59278277393c68f09fa03b8b95f, 0xa99b3e178db2e2e432f5cd5bef8fe4483bf5cbf70ed407c08aae24b830ad725],
    [0x7cda9e63db6e39f086b89b601c2bbe407ee0abac3c817a1317abad7c5778492, 0x8c9c65a4f955e8952d571b191bb0adb49bd8290963203b35d48aab38f8fc3a3, 0x2737f8ce1d5a67b349590ddbfbd709ed9af54a2a3f2719d33801c9c17bdd9c9e, 0x1049a6c65ff019f0d28770072798e8b7909432bd0c129813a9f179ba627f7d6a],
    [0x18b4fe968732c462c0ea5a9beb27cecbde8868944fdf64ee60a5122361daeddb, 0x2ff2b6fd22df49d2440b2eaeeefa8c02a6f478cfcf11f1b2a4f7473483885d19, 0x2ec5f2f1928fe932e56c789b8f6bbcb3e8be4057cbd8dbd18a1b352f5cef42ff, 0x265a5eccd8b92975e33ad9f75bf3426d424a4c6a7794ee3f08c1d100378e545e],
    [0x2405eaa4c0bde1129d6242bb5ada0e68778e656cfcb366bf20517da1dfd4279c, 0x94c97d8c194c42e88018004cbbf2bc5fdb51955d8b2d66b76dd98a2dbf60417, 0x2c30d5f33bb32c5c22b9979a605bf64d508b705221e6a686330c9625c2afe0b8, 0x1a75666f6241f6825d01cc6dcb1622d4886ea583e87299e6aa2fc716fdb6cf5],
    [0xa3290e8398113ea4d12ac091e87be7c6d359ab9a66979fcf47bf2e87d382fcb, 0x154ade9ca36e268dfeb38461425bb0d8c31219d8fa0dfc75ecd21bf69aa0cc74, 0x27aa8d3e25380c0b1b172d79c6f22eee99231ef5dc69d8dc13a4b5095d028772, 0x2cf4051e6cab48301a8b2e3bca6099d756bbdf485afa1f549d395bbcbd806461],
    [0x301e70f729f3c94b1d3f517ddff9f2015131feab8afa5eebb0843d7f84b23e71, 0x298beb64f812d25d8b4d9620347ab02332dc4cef113ae60d17a8d7a4c91f83bc, 0x1b362e72a5f847f84d03fd291c3c471ed1c14a15b221680acf11a3f02e46aa95, 0xdc8a2146110c0b375432902999223d5aa1ef6e78e1e5ebcbc1d9ba41dc1c737],
    [0xa48663b34ce5e1c05dc93092cb69778cb21729a72ddc03a08afa1eb922ff279, 0xa87391fb1cd8cdf6096b64a82f9e95f0fe46f143b702d74545bb314881098ee, 0x1b5b2946f7c28975f0512ff8e6ca362f8826edd7ea9c29f382ba8a2a0892fd5d, 0x1001cf512ac241d47ebe2239219bc6a173a8bbcb8a5b987b4eac1f533315b6b],
    [0x2fd977c70f645db4f704fa7d7693da727ac093d3fb5f5febc72beb17d8358a32, 0x23c0039a3fab4ad3c2d7cc688164f39e761d5355c05444d99be763a97793a9c4, 0x19d43ee0c6081c052c9c0df6161eaac1aec356cf435888e79f27f22ff03fa25d, 0x2d9b10c2f2e7ac1afddccffd94a563028bf29b646d020830919f9d5ca1cefe59],
    [0x2457ca6c2f2aa30ec47e4aff5a66f5ce2799283e166fc81cdae2f2b9f83e4267, 0xabc392fe85eda855820592445094022811ee8676ed6f0c3044dfb54a7c10b35, 0x19d2cc5ca549d1d40cebcd37f3ea54f31161ac3993acf3101d2c2bc30eac1eb0, 0xf97ae3033ffa01608aafb26ae13cd393ee0e4ec041ba644a3d3ab546e98c9c8],
    [0x16dbc78fd28b7fb8260e404cf1d427a7fa15537ea4e168e88a166496e88cfeca, 0x240faf28f11499b916f085f73bc4f22eef8344e576f8ad3d1827820366d5e07b, 0xa1bb075aa37ff0cfe6c8531e55e1770eaba808c8fdb6dbf46f8cab58d9ef1af, 0x2e47e15ea4a47ff1a6a853aaf3a644ca38d5b085ac1042fdc4a705a7ce089f4d],
    [0x166e5bf073378348860ca4a9c09d39e1673ab059935f4df35fb14528375772b6, 0x18b42d7ffdd2ea4faf235902f057a2740cacccd027233001ed10f96538f0916f, 0x89cb1b032238f5e4914788e3e3c7ead4fc368020b3ed38221deab1051c37702, 0x242acd3eb3a2f72baf7c7076dd165adf89f9339c7b971921d9e70863451dd8d1],
    [0x174fbb104a4ee302bf47f2bd82fce896eac9a068283f326474af860457245c3b, 0x17340e71d96f466d61f3058ce092c67d2891fb2bb318613f780c275fe1116c6b, 0x1e8e40ac853b7d42f00f2e383982d024f098b9f8fd455953a2fd380c4df7f6b2, 0x529898dc0649907e1d4d5e284b8d1075198c55cad66e8a9bf40f92938e2e961],
    [0x2162754db0baa030bf7de5bb797364dce8c77aa017ee1d7bf65f21c4d4e5df8f, 0x12c7553698c4bf6f3ceb250ae00c58c2a9f9291efbde4c8421bef44741752ec6, 0x292643e3ba2026affcb8c5279313bd51a733c93353e9d9c79cb723136526508e, 0xccf13e0cb6f9d81d52951bea990bd5b6c07c5d98e66ff71db6e74d5b87d158],
    [0x185d1e20e23b0917dd654128cf2f3aaab6723873cb30fc22b0f86c15ab645b4b, 0x14c61c836d55d3df742bdf11c60efa186778e3de0f024c0f13fe53f8d8764e1f, 0xf356841b3f556fce5dbe4680457691c2919e2af53008184d03ee1195d72449e, 0x1b8fd9ff39714e075df124f887bf40b383143374fd2080ba0c0a6b6e8fa5b3e8],
    [0xe86a8c2009c140ca3f873924e2aaa14fc3c8ae04e9df0b3e9103418796f6024, 0x2e6c5e898f5547770e5462ad932fcdd2373fc43820ca2b16b0861421e79155c8, 0x5d797f1ab3647237c14f9d1df032bc9ff9fe1a0ecd377972ce5fd5a0c014604, 0x29a3110463a5aae76c3d152875981d0c1daf2dcd65519ef5ca8929851da8c008],
    [0x2974da7bc074322273c3a4b91c05354cdc71640a8bbd1f864b732f8163883314, 0x1ed0fb06699ba249b2a30621c05eb12ca29cb91aa082c8bfcce9c522889b47dc, 0x1c793ef0dcc51123654ff26d8d863feeae29e8c572eca912d80c8ae36e40fe9b, 0x1e6aac1c6d3dd3157956257d3d234ef18c91e82589a78169fbb4a8770977dc2f],
    [0x1a20ada7576234eee6273dd6fa98b25ed037748080a47d948fcda33256fb6bf5, 0x191033d6d85ceaa6fc7a9a23a6fd9996642d772045ece51335d49306728af96c, 0x6e5979da7e7ef53a825aa6fddc3abfc76f200b3740b8b232ef481f5d06297b, 0xb0d7e69c651910bbef3e68d417e9fa0fbd57f596c8f29831eff8c0174cdb06d],
    [0x25caf5b0c1b93bc516435ec084e2ecd44ac46dbbb033c5112c4b20a25c9cdf9d, 0x12c1ea892cc31e0d9af8b796d9645872f7f77442d62fd4c8085b2f150f72472a, 0x16af29695157aba9b8bbe3afeb245feee5a929d9f928b9b81de6dadc78c32aae, 0x136df457c80588dd687fb2f3be18691705b87ec5a4cfdc168d31084256b67dc],
    [0x1639a28c5b4c81166aea984fba6e71479e07b1efbc74434db95a285060e7b089, 0x3d62fbf82fd1d4313f8e650f587ec06816c28b700bdc50f7e232bd9b5ca9b76, 0x11aeeb527dc8ce44b4d14aaddca3cfe2f77a1e40fc6da97c249830de1edfde54, 0x13f9b9a41274129479c5e6138c6c8ee36a670e6bc68c7a49642b645807bfc824],
    [0xe4772fa3d75179dc8484cd26c7c1f635ddeeed7a939440c506cae8b7ebcd15b, 0x1b39a00cbc81e427de4bdec58febe8d8b5971752067a612b39fc46a68c5d4db4, 0x2bedb66e1ad5a1d571e16e2953f48731f66463c2eb54a245444d1c0a3a25707e, 0x2cf0a09a55ca93af8abd068f06a7287fb08b193b608582a27379ce35da915dec],
    [0x2d1bd78fa90e77aa88830cabfef2f8d27d1a512050ba7db0753c8fb863efb387, 0x65610c6f4f92491f423d3071eb83539f7c0d49c1387062e630d7fd283dc3394, 0x2d933ff19217a5545013b12873452bebcc5f9969033f15ec642fb464bd607368, 0x1aa9d3fe4c644910f76b92b3e13b30d500dae5354e79508c3c49c8aa99e0258b],
    [0x27ef04869e482b1c748638c59111c6b27095fa773e1aca078cea1f1c8450bdd, 0x2b7d524c5172cbbb15db4e00668a8c449f67a2605d9ec03802e3fa136ad0b8fb, 0xc7c382443c6aa787c8718d86747c7f74693ae25b1e55df13f7c3c1dd735db0f, 0xb4567186bc3f7c62a7b56acf4f76207a1f43c2d30d0fe4a627dcdd9bd79078],
    [0x1e41fc29b825454fe6d61737fe08b47fb07fe739e4c1e61d0337490883db4fd5, 0x12507cd556b7bbcc72ee6dafc616584421e1af872d8c0e89002ae8d3ba0653b6, 0x13d437083553006bcef312e5e6f52a5d97eb36617ef36fe4d77d3e97f71cb5db, 0x163ec73251f85443687222487dda9a65467d90b22f0b38664686077c6a4486d5]]

/-- starky/src/poseidon_bn128_constants.rs L10919-10944 -/
def m4 : List (List Nat) := [
    [0x236d13393ef85cc48a351dd786dd7a1de5e39942296127fd87947223ae5108ad, 0x277686494f7644bbc4a9b194e10724eb967f1dc58718e59e3cedc821b2a7ae19, 0x23db68784e3f0cc0b85618826a9b3505129c16479973b0a84a4529e66b09c62, 0x1d359d245f286c12d50d663bae733f978af08cdbd63017c57b3a75646ff382c1],
    [0x2a75a171563b807db525be259699ab28fe9bc7fb1f70943ff049bc970e841a0c, 0x83abff5e10051f078e2827d092e1ae808b4dd3e15ccc3706f38ce4157b6770e, 0x1a5ad71bbbecd8a97dc49cfdbae303ad24d5c4741eab8b7568a9ff8253a1eb6f, 0xd745fd00dd167fb86772133640f02ce945004a7bc2c59e8790f725c5d84f0af],
    [0x2070679e798782ef592a52ca9cef820d497ad2eecbaa7e42f366b3e521c4ed42, 0x2e18c8570d20bf5df800739a53da75d906ece318cd224ab6b3a2be979e2d7eab, 0xfa86f0f27e4d3dd7f3367ce86f684f1f2e4386d3e5b9f38fa283c6aa723b608, 0x3f3e6fab791f16628168e4b14dbaeb657035ee3da6b2ca83f0c2491e0b403eb],
    [0x2f545e578202c9732488540e41f783b68ff0613fd79375f8ba8b3d30958e7677, 0x23810bf82877fc19bff7eefeae3faf4bb8104c32ba4cd701596a15623d01476e, 0x14fcd5eb0be6d5beeafc4944034cf321c068ef930f10be2207ed58d2a34cdd6, 0xc15fc3a1d5733dd835eae0823e377f8ba4a8b627627cc2bb661c25d20fb52a]]

/-- the inverse of the matrix (not in the code) -/
def mInv4 : List (List Nat) := [
    [0x18d91d0d7a8b708e836f11b4d4f2fc7582350203eae83e66a743595c437ca57f, 0x1657bd426aeb9d943d6346d3876041fa79fc47ebefd88ba5a2946c130cf75ffd, 0x11eab8ed68fed3160a3b15bb36d986c336968f45eef686e3d4e4808e368f2a0f, 0x1df3cbba02819c9610a58167b2db89f51d383efecf9515f9adc210900d5bbbd1],
    [0x25fba7d7cb464e3c858cafdb953ef5be3b30cfed43c0ad897c4eb6ab91cf8e98, 0x2b1a73caac6065ac64ffb2b2c481eb8e87b75876c27d7872497f2f0f67e3a30a, 0x2dcda18329a1e3344d0a324129e120b4aba985039aef0cacbd095edcf4e7d6ea, 0xffe0b42852536230413acc0096a1236edf4842c024109caaa2280fd9ff4d969],
    [0x23d2afa8c5a488344c415c232783dfaaa69124f1aa761bba93464c52496466, 0x2e6c3a54beaaecc7c10e3827dcdb86cb423cd04dd77da02eacbfd3791ebdb8bc, 0x1a050ae0f990133b69389eefa2dd2536da560ec7ba6ae0c3abb3fbb5caa8d0e2, 0x20b575245a0b56b3669b9ac41eecf3a8cc6f1eccc66a34792bf10db6f22b481b],
    [0x28c26755d619fc35e6ab55dfcae3c17fa88058bd3e57d9aa0d5ad1b3ff662bac, 0x19c048ebaf985bcd307575851ff435041e21e822cf0760dcba0d00d0688b3aee, 0x15741cc0f2296dbd3fff8a7bd0355cb66859ade43f31cc0d3670bc8cfffafac4, 0x18fe93d75b8fb85c5811c5acc0aa318521611783dc2092ccf02696a05c480b73]]

/-- the tables have the sizes that the code reads and load without a panic -/
theorem sized4 : (opt4.sized 3 4 56 && opt4.below bnMod && c4.length == 64 && c4.all (·.all (· < bnMod)) && m4.all (·.all (· < bnMod))) = true := by decide +kernel

theorem ok4 : opt4.check bnMod 3 4 56 c4 m4 = true := by decide +kernel

theorem inv4 : invOk bnMod mInv4 3 opt4.m = true := by decide +kernel

end Verif.Poseidon.Bn128
