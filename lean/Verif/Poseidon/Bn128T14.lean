import Verif.Poseidon.Check
import Verif.Poseidon.Primes
import Verif.Poseidon.BlsT14 -- only so that the large tables are not checked at the same time (memory)

/-!
# Poseidon over BN254, 13 inputs (t = 14): the tables, copied verbatim, and their checks
-/
namespace Verif.Poseidon.Bn128

set_option maxRecDepth 1000000

/-- starky/src/poseidon_bn128_constants_opt.rs: C L1483-1666, M L3273-3498, P L5395-5620, S L16945-18836 -/
def opt14 : Table where
  cF := [
    [0x304c29aeb6f1873847879576d30f1f6e8a3ce41082c15c7632df920d6db5164d, 0x2b7380d8b25bca649b3f8bbd0a86ae417109069be27066f46fdd1c7c87d4c40c, 0x4c77200e5494b1cb8a3d334f69ae5bafa7e8775ba1924e563efe591eff302f7, 0x6c0b8966df93080c3ac1576486e61ab0d027637aac41bb35e482bfa10e34fc5, 0x24c73f425903904f40dbff590225f251ce1980a5a5ce2d07ae436e1d090778d7, 0x23df6f6f4448273c745ce53d5d7abb5d26c46724a58d68844d3c3ee45e9b924b, 0x1dc1b1ac389280188e937566071b84bf8189b955d0579b6de5ea8a5136bc2ee9, 0x27f71c5ca774ce20028b8140f144472043917cd4919cff64d848a745bd569180, 0x22b2ee53b302ba2e836b98783e15eb6de9d15a72cc7caa374e61b51dd0d2e2c7, 0x254d85065f87271e86d7b411d6acc280f9ed257c098c9fdb04a2ca4df7c7d766, 0x28620793f378bfe881e098bd2ec62beb46899f37a54abd053cfb0b3bb8d5e754, 0x2c19f26d0836635b04f38fa30ee5c648fa0ea1b202eb0846821acd3c699cf061, 0xf9ed87e9a1ba7ee7c28bfd7ac38ff3ba10849fb04d3322898ba9fe0104fb445, 0xd1deff42263b7cae8a123a1641b7258015476161ab881e1dc20e165b3f04579],
    [0x1ad882b228b5f22b9f6a02e10ba09049c9281b32ad71818502b66ac77ee3ac6, 0x1822ba8c558e0e6bd0efd1ab4b45129879e43b7a6acf07579b1e6343c531a248, 0x192c005d746c0d045f5530f10f38a29b50cb6c86039410e634d25a809203f492, 0x2e9e6de4e745193d2eb8b89b5b573eddf8a6506746afb98a2db858134acd808d, 0x13373a062c71d0754ee8b1872dd2861bd4c2545e807dddc654d68af43ae87f0, 0x130c94f39a9a07d71dac7df61fb56cb975c9092ac2ab73b113b341e8198eab08, 0x1934eeb7210877c3c2e07d9ace7b72ab4d659bb1431f8e8ae79a1a5e8daff5ee, 0x22547365b9069f419ae8b9370816f030a387cf0ce6b88fdc54fce91c485dcdf1, 0x108b2099b7264eec50ebab5ccd3558a359e34fca1cfb69df4e3f8c9da9faaa73, 0x22b946f1886cee07fb01b7f8e3bc585ea8f9a7fcdb2aaec5faa878f378eb200e, 0x229337b2b316c279097644d8fa861e5e5c07377cbe3ba168b55613542874681, 0xe9283cb85fa800120344cab9a7f792e975f5c25d64f5cb6a521b62665af7451, 0x112956bf9c763ec101af9a335159df07d1b0bd90bc84be291aff9a85f30f5163, 0x26f27df4fdaf33f3d12d5948690653ad1ee625cb00aef92b73527d37365c4726],
    [0x2ed4c4b73e2547622bb78403cd983c6f1d33b25534127e98a7472897a84e4b3a, 0x9f0108ead7dd31504de2b846076a8019827086a0c4dd6570c1b7423ca05b0cd, 0x1172c6ec16cc502fbc633f8a4c308b14551d2c4822b5918179946e6545e9de5f, 0x26488ee5f0d4f8b5766c5b8cbf414970b750e7488aa316976dff5ab72f349f1a, 0x392aecd00da38bf4e39fb198ef96e70bb8774b8152970dd2e1629b51ff10ae5, 0x2f6d971cd5f9931144acd9b9e98bad6e1e78d60cbd966fb18e6f630a76dfa6b6, 0x5a795d1230d3c781b9717735bf45464f36c41df07376364986d0fd12c8317cc, 0x1e238a362ffe560b31e3b050539e6c8fe0da221fba18b12ad661945e22e5f5b9, 0x35fbe3e0d9d9276c990a3b1719e27550545a077f6215eacb2479af1b3686364, 0x7ed14110e9abeb3520e14682efad791ad5c2feb51d558ed013675289b1c6bdc, 0x11dad822671724ee6a786e210e9536e0ada0796d4aa0fced69c1d411e11e0c06, 0x110b32907aac869005443ad66a33ce28508c925f505e44a34b53f70a3aa45385, 0x55a8f4be4acd26e362a4dbadf39c198b43ea025ec429df6b2011177dd8e6cfa, 0x1bce99ccd0f37478be3ecc5b67ec7c0a84b03f7231630dffa5e16ce6f90d6bae],
    [0x1d61595a714a5f1b32a5255dd5522d633a0ebf7fdf82a9cfb22271cc962c801f, 0xde4fba8ef10768324aa1e91e606f2a3c3f3f6a29dc8d31bf7a670d31695bf02, 0xeeaf11740f270654239779cb83a05182d0c98f3d4bb8a7a118ce4c0de477e3d, 0x25c397489e65820a955d6284c002427a1784233faa7089c6677f103d2fafdb7c, 0xeb3a160356c8929495bd9f58d3a8657f69f3eecab1517123e724a946dc50c4, 0x19122ffd9b6430a6f6c81cac0bfc8b488e1a28758e9407fdef8f77aa1fe4c0ee, 0x770ca4c67aa40a1659365097ddb70eeed6d6230739265f76786cbea0899e823, 0x20cf3df7dbbf47bb220ccaf0ecd8f3d54e0575628a7291a72cf8db5e42e1498b, 0x21fe2c9c9625d66a931fa931bf7fbea6c2808ffd7d07fd3bde15775957c62768, 0x2ad158bb675ff14b1dcddc993d9d60a5b4e9f3648afbdb5bebb2cd9a98ccb881, 0xf89c7c34499d981c6cc376c6fbeafc88b7ddf87515dfec65da9bbcdcd68eaef, 0xd6f33ac650e35d3d642aa3fd35912fdfe5014b86cd11e8a8321794b9a9c2992, 0x9cdcd7858f273636fc033c778e5f588b9fe6315476254f17aa602c20065caac, 0x2bc68e029d800355300648a36fd8a24157750a0d6fb2f2303906451f3b3d9820],
    [0x163f8a2427805d02620c54bc1d32186ee3d07dac41d9289e9aa3dd2cad337601, 0x2b72cb042e079dee8d56b1762d0052790105395fa0299e79cc72f4c27bfa20f4, 0x1aa578a5ee2c66ab8299fe99133089e90676c4a2e6d56cb9da0679fff6cbdcfd, 0x262d1529ab1e7f58925030e6caf0e79a14c436e5926e33cd79d321388b966dfa, 0x1aa6b71c17be336b1b1cf2384d6d3ee0a7ece1ad2003ca727f636bd4b70617a5, 0x286a8a2c71f53994524a189eb5bf41eed57904d91f44eee40976778362547af3, 0x37ade52ed2960d80bc2d92b815a5315883cd42d26709ae64a822ff92ff373e4, 0xd641f097ab6260b2dc240a85b7799541f6e73a3a25649ce98b4b64a6c499dcd, 0x1176510cc674b0f0caab00f4e9be1f8c6efbac7b7315ff6d4169184b8ef009bb, 0x29b6783918f37a8015d122ab39713848ca84008abaa716882b0492c6ccd15642, 0x28a8be58f110dd8c2b90428fb4feb59b67eff815e928fb7d75747d35cbc40ebd, 0x183f2632e3ca6ec2377e8358c3205d23f9211b759f62fcabc5fb2314d0728a9a, 0x6aeb9e100b47eacc2dacdeca2ea990f7066a79e2c7c83f2490bdab3eb43620a, 0x212949467cdd807e8f3576d403fef09e9bb63ca3754897541c6cd77de4ceedae]]
  cP := [0x1858f747bddf594d663ca49fd2aab93402ff9d186cb230a025d53b8d4c626e70, 0x19a293adeb09485ccc03800b821707060dc27e8663e355e908e368e2e8bc0150, 0x1d4241ed038279263a184eb3aab7f2e14326b7faf040a48628ce8a38c7b0abf8, 0x1692838188071f73ff82734223e5999c726b055dd19bb5a68e513d57055d8bbf, 0x81d819dda57265e88fb9eb5f7454ae7dcde39a14b00f45cdb19406e8bf24efb, 0x1fa7ad5a2bc799dfa38a9c581b0d17990d1f53a145e26e7b10a0901a9dfbe8aa, 0x140107d97554b55ec285011aa53f372689e16d68abd763cdffabf8718bcc77d7, 0x1aa6e52c05aa7d40dce61bc38b038a69bb36490d2014dacf4fa46e71be012ad6, 0x233c7ba71f9e0ca09ec20277fe09a96399a1474e4dca5158e97536892de72b56, 0x223709deb8827076f29c20778d24a2006fab590092c7bb34f212c331b4b1b932, 0x14187c4e94d059b6565591e16dfe2cea40731d582c1487e3efbe1cf305a9b459, 0x12d57f9c3775b0509f5c95f1cc2e17f1264a5121afa6355611de2a71ee23d803, 0x23ba06ba8305823e5e62cac1ed25888b6234f13294c93e1d36d5f2f73c8b613e, 0x9018322b8f274623a4ef0562223a166c0fca597d4527ae8fbcdf297c8f6d1c7, 0x1a8d0fc5616edc0238e5287d9fb6869468a83ac168452c5cf3f9a4063452f22, 0x2b1a8db9aa3b060be428900b352808a1821e9c9f34f8c8e75b172def7f0b3d07, 0x14e78cb6524a7125d7718d49dd76525f58cf2739ab9cbb0d408dcf2e12f604d0, 0x1208b734f978bdae45714bfb76d3fa83c558d0976e9c9a1fa93a1fa69f7bead, 0x26cb6b7c1d65f9e5b5235c3f31f9d7ff1d817e4b5b945fac94a99b3cffac3d5a, 0x11344656431a0d87de96e6806fc0abb9e1514cdf175d617b70008b1cdfa7fb17, 0x28180778e94d900df231aa7e551f6d7207f3344f5b4164d19ad4627e53aade25, 0x1497cc0587aa9a662cb2e9bb2ae6bf3e75a0716db37ff072d6c5cce6ffa65277, 0x1155b889f1798c1b597cdf4ea98b7a22e2291aa2f49d4628179115ad19817a1f, 0x136bcfc49ef4ecf9c613bfeface129644a00a283c8e9567c0b0149ed7d7e0268, 0x2c94ea318df6e3131d85a4681682551ce652db2f76ff670212c5375994d2da9b, 0x11a008577edb87e5285159e1655d70b5f6ad4abbf3f8f19d66ee1a7172623cce, 0x14262b879f58b553126cc175743b09b5deacf5aed297fe3e4124417ed2016a99, 0x338d86b8e84fe8bd613d57a3a713ac1e971d52a586e94106b49d7d390c92658, 0x1ad169875101e162c49ec27ec32be37ae3d379f347930fbb656d718b87c14c36, 0x1e33654824c915e16fad4a166ee216d1b3a36428d90443dc9131f818df850f6e, 0x23d15701d8f5da053866a07f4788c49476c5518c8a812295dee3aa1074db6d9d, 0x2d2fba372de705aa005c21db4d71bba12c9d47dd0161bcd45409c883423948ec, 0x168371dfb98b380fa2d2630c612f8613042e6df90658c2350b270eece90d67d, 0x412112ecd0cac61c445ce46a8518b56e0f2baf839488591ead4aaced85fa01f, 0x23ad0edb1f4fe974eef543fc17fcd7dc1a0f05e2ce5ac18e374c87bc09f75c78, 0xed6be3eeb0b9147d7c509a9dab4ba2d57c7b9d4b2780fb0515525fea4278eb8, 0x690d08198823c10f51a7ea3cb473a6d98ed0cff6a17069b50971a68567a7b11, 0xbf5caee488cee887f67db3206cd5da24ecd1baa6badb44bc761757e2137ce3a, 0x3dc319068295544dd33221944b9e285f7219f85e8855975c48f69f77edf0a17, 0x164c0f9fd358e2a011e55931b51e5654352bb6fdc6cb2dfa4d8a75722f2621cc, 0x7e8978e88b1c0789e9397e09c9eb10e368fce8724ca948f6f2ac92cf230e6ea, 0x22c5462508c480867b3cd96e18dc3c42ffd90e1586ca41fa67158838cdf1593, 0x922b97a92d6a11fb18178d05f054345b43db4f5c6b91c73e28f6ce3a22dec5, 0x17626303d1bda8e47dd6d0da342e4327eae6c4200525217a20f6226cb54bd44e, 0x16ed2d702c6f848039b31ff87fb1daaf88b23f6b00acd7f6409a7cdef83b5ae3, 0x1d9552a42def1750b55d27edb09ce26409f8f89050fb74cc53072f788feca6c9, 0x93f2eac6c08b0a43d4df37c1b20d1965c77103de2e6dd88862f77b322a32dd3, 0x63648259abf1b9feb8c0b03db31f559e47f0e11de2b371b299043914d0ebda0, 0xa8db8ae7570818bd9ce7c02dce89712cfc04f800d55f1562eb1ed27da9deaef, 0x2addd8a7fa94a011e12910a98b2b8ae5387701242ee2281df132f9e9dd3fc7c6, 0x82532cbc9a72e056668946fab08eac4817547cf26ef3eb8f159e76f9023dea7, 0x2abcba0aaec141d7742c0f0785daa2726200b6ae69d464e849afd70465c9b557, 0x113ac02d59778ac96902e3fdd0562c504b418cf8a8e349da7d61450a2fc6d685, 0x193a7f639d4ce4d62dc7567ee718853f5c5284ba09de428fdf02846ee22331aa, 0x76d49b5c0dc78dd9c8e7ccc9b5a35df69dce86805aa47fe3f8cf062e47e95cf, 0x23051faea37aac8e12ae94b87a02411747b14de73751aa1a3f6a07fee98695e4, 0x2c3a84859c46bedc24120441bb6dfb113c09dc8070b2e0cd139ed49c9647b737, 0x165df45e8460cb7b423a9468d2935c14c93c33c700c654e32c2e6743de59deb, 0x243c1dcf2e801df1b53ab72ad31fc24cccb07b2518594c4e5f3024da67121454, 0x2d4f07748851869bc581212b431c20cb3e268cb7f6aef272deaef66e929bd859, 0x1445dd9248e8bfa4e6698e7f51553ef1a152d37d88949e15b9c50c3e8074aca7, 0x3f3128f5fceea223432d31ceae2f8b11b38a15ca9c3fce21cb8756e8e09642, 0xe574b6201e927e5f369a966151ddfc5c06fad66e64d5e09702ef172b5ade467, 0x784b51a7ae1076c1737eae2fc4c3bdbc2187b28f714e56cdde0cd322292aa4c, 0x289012d3d1fb3419e3fa81294f3a64c15685ffaa658927c09c1833ce59ce5ff7, 0x2bcf3e35ab8919e05d55166908beca23a711c712284c45695c6558e0e3da22f3, 0x3df5cdc10feafd361d978330cb95515bc2e587e7dbb89da4ecac57461b75b6d, 0x19dc65b4afbaa8127015b3f68d35b557c8fac9938dee95ae35ea12da61b7dcd0, 0x1fa279d539fc9bf724da2e7622bc326f9535d00adc596916791d77d03bf016c8, 0x237dd96ce03469858cabff18944f05521971d1ad373ed6e041987754dbfcec17]
  cL := [
    [0x31261638cc3762eb025a716ad3bcf1d6447a080f3ccc60f8117315254f568d4, 0x24fb403026e10160607af2e0a214aa725637f19af7ed44130a9400365bf61a7, 0xa773f9bbec6c35b5d7a95005477796366c4f36ca634e94b283233afff57521a, 0x2ff29b7dd04750f926b880f54acc39f2e828852f40698afac2661b3053278580, 0x1555a820b4069893e6625d113049c46bc5b4394d627c2668adccd3ac0c6492e8, 0x2a5d25cf71c81e5b129e7d37a5e2728dad5d99d3109d23a18c4627b4afcf8fd0, 0xd749c5dedcefb1910ec9450ab388da7aeb25adc78cd029a75bcec29559e8d51, 0x2134979a55dad645ef838322058e7bc8ede30969481ff2bbe496d8ccd6aa8ca5, 0x1a5d28f1ec79a8a70d8cfb783cff4c2b96e4ce5beb97665a0f6a52e73a70bb6b, 0x2248fef1cc977b18bf5051a571374c36cad0b338bae217bcd9cff038fcd7bc57, 0x1a3105c3234d4afbc112d7a9f38d22206c0a1e77112d6ac26c6d6aa63ef50088, 0x6ff45e6cf264bdcb9e8b3b4f13a44d1c197ad77ee53d02fabd0c0a78ddf6ae4, 0x7ea34caf7f9c9734f489953d428cad95bf98cd32d5c18e5b51e01d1444b8f91, 0xbb9bd4ea562fa887d4e6723a798e7641a08dbb42cd72852b8002a86c57f1f92],
    [0xbe1e28fd888e42fad37e72eaf884f6c6c5d037afc0957bc9ebb4893e4ca121d, 0x1de8955b5f752e29e7e7d92d6345da11bcf32937a8c2abc93c497d1affaed055, 0x140faed032e51900fe203d8d32fa61d9842d6b7283864ceb9a4d1857d6a9cb5e, 0x653a45ace7457b472ead1b3438668c57d36faf59e2a19134756356ce5cbe131, 0x6d23369e024dfc31a1e36cd9114fb7892316dc57da6613ecc41ca0849a1a7e5, 0x106a234f7e4c5d097cf00f256609b029de983d04044a66023d477897b91adb19, 0xd5907c353b674540c20db872cd6e0de8bd66f9b3d691396aa06678b5a9b8bd4, 0x1c8cc4858cdcd5f36aebcebb9cf185feba809a92308ff5f63b66c2b1f52dd14e, 0x18709a5ed55ee4f8614ff04e503872021e88f83d488d8a0567597b60e8cdb3f7, 0x20573eb7a426d39fdcd5f46fa19973e6be531160e75ae9401b99ddd7e2ac25c5, 0x1b68b1cebbf59b96e23aec11f075769b54ac1e7de44ff13708fab5a9bfe17719, 0x1e74628fd280b451eae0d00add965f95bf19fba43425c3c0589207782f702b7d, 0x1adf6672bbada9f83494ca2bab97f2e90f630525f9c68338ba4b34ccc484b478, 0x6ba3daddf68d283a85f65a0ac15913461a7ac09a320e394d09aa5ae97a50db4],
    [0x23613483e811cacaf27820d0a9ca552ad22ab29d4f1d579f10bfebd39f14ee66, 0x5ba1370283ba319cf17f631a9291fce5e0e682ec1d01bd6df2843528e363db7, 0x130a1c1a83e91a21cb376e0df81b196d8c229ec60df85a30bce4ca8f466fc589, 0x2ad745158e0bd5aed17084d5fe12d671b0829a83392e6dd0a90a1c0292eca0, 0x1a4703eca8fec84cd8234d5fc467737761e6d2d6bb6d502a40e25f94044e0aef, 0x17eeda53608b4be7d2c9b6664dd8fc672bd48641e29f6402bf55443c667bab4a, 0x1af9e7886090fcbbe73d9b70b729ee9f8a384c4862626ea685673b4837ae2627, 0x2c300d04412f79e15c95dfd44889ef4a7df828c6b32776db3797c674fccb5fda, 0xf617c15c41c424a39aa8a1601c5ca44207b3c6e44b003bc13179fa7afb8232a, 0x280e6721e233a91f7f26004f753a82aa3403fbd9ff420411c058ef275fb54295, 0x391c3b4c6aad3203ef3e9d7d217d4b77ff1fdd8c63a9fecbe5e702d51c53f23, 0x203f9c14aedd6319d3ec84ed7517d5fc4703aa085f45f590e86504213b17fb6b, 0x10842bd57c470e718b75553ddf18278b60594ad3bd7fe120bc46cb0fb450d424, 0x30250c77a64030f322e0fce46eb9783655a93645784b5219c09eb0ccf3fe88a8]]
  m := [
    [0xe30a774c353a2cbf244d3d014d1a0e5ff0bac5e242673ae33f1bb2030feff68, 0x12826e5b9be1c9b85f7c98aaca9ce28a870687d3628d60def0ab3072b57b09b8, 0x22fea1297a4a5f08904d555c2e15d016102a4ed29c32b4bb10809ef14af42c77, 0x24cc6751894087b831598b5bc7f9db3cbb48ce294d9208e1aa436cb5fa2e80e1, 0x2cc3d0503a0e1da952b081ba5dc5b117e646bed572a645266c6ec3ce0a1474b9, 0x11eedbe5a5969f33446503494b469a2b83f88d3aa477e5d6d7963a8333a61315, 0x189ae9e9b162ab1a19d599cedcef428bd1325c78740aaad6715b710bfac4c1e6, 0x1aad11449d6e2c6e1adcf9e89114c336c0145528f356ac049f52fd8cb084370a, 0xd7e1eae2cfec406402d34c259e5966f6e2eb261d4f08e29088325a6bb669a63, 0x796a23ad6ed2ac995104a0d3e6c75e977ce29aba1d25e62a9a8a20364ea1be0, 0x299b8e8621d7d8c8d3d6286cb126b34ee53b2dc9a3697b8380c6e47f5711345c, 0x20f11ee81d2ac9a9ed1cac61d9cfdf10bf1b49cdfbb6d232872a1df1427c1839, 0xa403e979943b8d2f947f6eda6d41170881341bb5e4fbbb3b4fe3dd7dccdd777, 0x4646253380f4bf642972ae81977779454aa0833fda36b1822cb9c09719e3dd1],
    [0x12186bb22000ad84b6bf29179ade2d4e7e94ff07e51627e09580571061fa8ce8, 0x237e39980f9007bbf8699dbece054fea1f19766be6101885d421fa3ea46b5348, 0x1808cbe7ddf2a3684d8a164fe2d150df62206f6be33d577dc5798f193aeed7a1, 0x33cccef05b0bcf7b77aa5560a0f949c90be5cc2c57122f9885d24a117c63f98, 0x2854c82b4b5f5df6dd3872e3f371372de0d12e16e9108766920b5458105e76bd, 0x9b63c75dfcab572d280b057fbc3640d35dd5f16244863ab8a31e0956da8802, 0x28fd36f1c761ea7bce29e6f00067fa40b32e6b318f506b6c94bb847bf72b5b52, 0x2b56c2e44f703a3b143da03c25749367f752b16817257e6d123b10bc85543432, 0x184e5824689e4f81438567df435f39e1d35a819041d7eaf3af908429beb2bc2f, 0x1004c5ecbab6b7d12f6bb4caeab33dd56c1f829ee28f47c29fbfbb147e884654, 0xa973a665693ed09434edb2cb0a971ad277a82b3385788552349ae09e8bd0c85, 0x125478c8973bc395b648c822091f8df469504a71ca4fdf1dab59a708d0fe4719, 0x2b0696d45980020a2a421073440e3a4fd39edc5288e6900a5958e0cd81e0eee6, 0x264625c74f2a3bbbdc19481b7866757e639c124b4eb560da531fcef99773903],
    [0x2399faa648aedf9024c6ac3ceafea248216e24a9e56caf5acd29ce2546a9f6b2, 0x540f5492497595e13080f02f6b1e653e2e51895160ffd5ca14d26aed93b8672, 0x1c1ccb44ff8ab6da854e9271f4bef26d2ac26cd7441f1b69d16eee0d7a7b481b, 0xe8efc85cfebde295ce589de60aec0db43c81f4be7da44eb26fa4b71f7cb7ee9, 0xb1d810fcc721551e2a596e9009367fc6a924857ab29b703207b08c95ecd001d, 0x9fcacc3998065124de01bf7c0c8ba26ac4241f1f7deca1eefe5ef3d5015e3ad, 0x5d2f0a3c223122ac01214250320b52ff5a3d242118e19778b2c8cd1a976c611, 0xc7513f762b64022a151d62302099dffd51791d9afd3dcf96cbfcf6035a2c27c, 0x18fde6451062016edeaa32e40a8fc30751e17e9bac192f8ca891c11f39ebff81, 0x77559473737549dfb2016dfa72558bb2c1c816d7318763a5e4fd516b04914e8, 0x2de9ee6529e5abc7aee93b794c4eefdd517c4fe12fa56bce06a3708d86336bbe, 0x12b591b7af35ffd997b3a613687e449225625dd5d101cef2d6f2af02d9dbd6d7, 0x2f9f88fe9be36457e8a546455aa00a0f5100a7f32580b78f26a77bd0b7612181, 0x9714e717daa3ceb3e9794d24abcd172831cba18066c4c048b0995e9e6df1dec],
    [0x3add29fe398ed2d44f233125ecd1509e3cede77e6be08b94af4fec87eb3e48e, 0x12bbfbb110ec2971007ddac5f8e36f655465d05f2462996b2114efacac70afb5, 0x1b8d209d66b2c1acbaba435e304ae20662d336d10330beb3355cf801f194733f, 0xa9d7ee7ee91677affd3ca4fc674625be897df79f82ec438e80f1e000c8b1f70, 0xb6eb2254edfae1d7503c3518e64cf19f3443d6cd03b71cfbf1be5936da4e046, 0x1a9ab3fc2059b0cff7e3cc431f7db45f59d8f7f724cd10a03f31a36638f8b52, 0x23fba23ab4bc24d4880ba5a6ffd6eb5050dfb8d0f56476d3a30290eda372ac4, 0xb26700fd4e950c25ad78fedb63fcb0d9ba73ecab858c071664866a9096f14d5, 0x4a572b86105dba5253d7ed1e76d35a126e6718551b976b208f593f08158dea9, 0x1bcbe67ed5fb7522adeafd1d9a150f8d57ada218db346915c86e6c00c00e38b8, 0x2ea6b7a7265c503fcb284c2bb19512dae71ef357125c3ac755c6bc6cc37bdb66, 0x30544eda9c322c6c872671d667fc5fcf09cfb8d34e8e5812b6e738e7ab40d8ef, 0x206733e327a64b78d3c48b6f7580d0887c1778343b67768859e2532d7d1c46a7, 0x14dac9059c9e78d96c7ef807ba342b946870679782231d2af0f6e4ab76cbd101],
    [0x121af61f4dc5bb24890abeb9251e5cea94770ab062dc0c28bb8995dd8f183635, 0x2f2ec51c48f8b73c51b264a70d2ba0b46bdb43f933de0faea8a7da2a97cb41f3, 0x11738ced3933c4b27de13911db71ccd58b7b31344ed9153dbddddb91fbdbceab, 0x9175b1fafacdc0e62b5f95e6ca67c3ffc96a26e37cfc734795b92f1e46124d4, 0x210a4a80e6eaa799f7ce05752bbda4d4ff0520742c943e1efeeb12a91229a5af, 0x19bafd0d7942b839f36ad3d70d9c87b55674b9bdee02a7dc30e4f99ebcc1d94f, 0x26b8eab0dd0d95b7a8439e0ff7d3438a73a27b5993d81fcece729a824a3521b1, 0x173985fe17f3b0fb85de6104c02b46c3d79eee9dc28b567f02ab1a1c0ddec576, 0x1d948e8774b180fa5e1a3932439dfe8c5f32a437657d21277e42614b4c9a3dc3, 0x1b61a03e218362204fd20b67536e5e6ca7b96dbb53d53ed1602302988614876f, 0x1380beac7b062c6b89914a976a8d0b9d3276a13c82c23fa21f4fa4403e3267cd, 0x2110c105efb481b679ceb2f112d6ea704442763ae2ac65edf8f15cfd169c560d, 0xc272d10af2ef78a98dff7486c49d7505edd88c922e5672a3abb15cc49f4134, 0x129dd677c1f8aa2d36d2a7d5340645dfac34a64ae456f91b97de9f8e91313615],
    [0x2ca8ffee2d58f2945297b00cd0b511da167080d53949b3f1fceaca9616b6143d, 0x26e36544d0b5952dde4007d11818465bde91c4dce65abc015e7556ba58b95ffa, 0x1e97ce013afaa6e9c993e9cfdc9aaec91b06787819830985a72e9f7c6e516ab7, 0x3016b074c814225e2d5c1091a8303eee4be476b1458ad54c16b4e1691f6b4724, 0x1c1b2cf11f0d3a3a121be7d0ddfb24dc71f54b9bef943aee32963966922a8399, 0xc474824afd2a880c6a85a7b7a5a434ac422c7a63aaf8ddc7c4d9325edef40e, 0x19775ec781fd4089859f6b7f127c91eb83eeb7ec9eade14677b0a6b10b9e6e24, 0x20a9a6284cfc4381795e3b06837e9596815fd5b6f162bde02f97db687c8479fd, 0x20441aa5f4d5638e64d7ad9982b1bfcfde158f6a3cd6af62941e05cc8e533151, 0x2d3d269ee324e7c43c11aa84cd15bad65444ef8369df15749a8a6b2c8121e2b9, 0x1a5718f4a92dd8d179b932b0820f65c7bb93eabce398f997324f98ac76323b92, 0x8fd4397aa8b3a84dd1ba4e2d0eb7c6d1c5eda1f764814b5ffe204c8ec735606, 0x1a327ff2c46f5969fcacb463506e102d682502381fc3f999b9ffbd4520ba4695, 0x10879ceabc3ad045d76f6cd5b26b56dc47b512d6509458f9ffde8da79e6649cd],
    [0x2c99ef5e064147da9782b914a294b6c14d21ea7eec1f72e8761671069d82a134, 0x226bf94b86b177cfe7f03103d59e3f9ce2393821954708e7c723f8104a68c664, 0x66ab8beadae7bebd26a33adbd6bb392d6825da37a679e8af9ae8bc4813c3168, 0xc099861545e013a687cdd49a3a296a8d2c2e99691c2535da712d351d5e63c10, 0x1574c9e5caaa8a6a7fb4894d2c45d1901d1c42b3214fe9a72fd3cc668e399f76, 0x3a65a91d35b6e877908d5c419e7850f645f62b1c913765a214bb0f7a2915b49, 0xc073eaddb5d3f79e5bf83bac00f37700bd64502d8bf7d5a099fb3eff7d3b03f, 0x217aa400b2b625bc36432a545e533124f99c1cb98eb85df747319e85d530470a, 0x178a58ff122d168cd4ff11a47280a4b8e5cdb313411b6f6e9a947c7fb577a51f, 0xea45d22479ef5773e58b0fe740868fc1e8b50bff76049d5b6ed5e723711867b, 0x1c7cbf2448de7114eed701b041809034e07b946a0340b777268529d582c225aa, 0x2487df9d5e066b76ffcb2f0ca190abf5fc1e5872c4b6a36a46870e9159201010, 0x2c0cbbe46422917152ca1906462bcb5a13ef536322a8715237da09b8c594cac5, 0xf7c3f3cc96ceda039e43c86c1b680c77d6f49f50e94de23e4db42f8e9caf7d3],
    [0xd7d07cd3798f44d832a6571c21706758693e5e93684ce2d1a5e8a53e0cc6709, 0x25e311b37cee693545e2c2efc2043bc073552115b3a065cef13d36547b6b9dc5, 0x21b37be521835c32b673a31d71aed1bc7f3ea96fe1d4c23f14623a0a851a3cd8, 0xb71a06bb75b0a10bfd28a3788bf54a8a144b3287df9c591a2643c4100fe388f, 0x26ed5fff06ef9e1942bd3d0d3ba6848e47ec045cd26f93049d80cbfa6bcc73b0, 0x137908baac2e35e13f86834abfe98d1b54b7c25d6c85fc6c05ec7cded9175517, 0x143991e8386d62334ca0d87832a0845b48416ef5158c18e7b9db8cd6aee223aa, 0x148dc9335f621fff9c8d2fa72a9cf5b6febabe1f5ce77689c1a29e393185fba3, 0x256e145378d2604db8c509dda4552452b6c4a891fac5da199c7560768d948836, 0x2280250e212be2a48d293796a88ac62b05411012f46a66f87a0220a3dff3f79d, 0x9c89e06cad5430153dd52cc66ae4f521bf4145df048681beb2e06a385050117, 0xaad68c20fade1e3e2bf70fcef4b550ba00d6399e20d83402fe09b52ddcdf527, 0x25f4103521e36d55e418162ef8ebfec6d45695520ef47b8548ba38b52a27fbf5, 0x10bd7824fc1b883b3da0072d2c6194c4a1e5957156594e908adbf6e6b1912b9b],
    [0x29195117106623ffffb0af525c838686d0d97259fc73a5194609ac7b7b171313, 0xf2336e0eee4685741ca23828c34c24f073491f0e72c139610524a56f71aa405, 0x1e86ec086805bc7712b7510def651249ba1d491076241d99d00c692880f39a75, 0x14937879c4c7127644c765b6362f8b98cfd32f8572d7aad9cc329bed5b507a69, 0x59de873c59806f55114bc3f8309f9b64cfcba7434aae220447ea0e9c4a66da2, 0x1662f26cf04f5b969cdd6b93e890ef2b5b1124f51822888dc2167bbecf7c31e7, 0x5fb897d71edd8d8eb1f3b5c823a5882a06d964056afd532e6c88893a25f2615, 0xecfacaad0c147e0b3c7e049771e6d4072b02ee4d171c0e53224214d17ade351, 0x25f64d42a750971afcb8023070f6ec97bb2362b196a5aae2af6a70f2e7b357af, 0x20be703f86d7c0b9dad98ff8bb9fc92fe8ac0a84c6897a75d851146f74840b71, 0x296f3a9c104222692a44ad24f0f6fd8190027e0755567e9a7009ec71ef440ea0, 0x6301679b6cdb17aa6c212ce342ecf681ab7cd96bf0bfb93350368004d97c353, 0x7940eb04b61ec5341c1702f03993faed167db6fa2cea92290cd821b15fe4c2, 0x90da12e1595551d2500f90310b7701df97676404113c33e475b2e7749adb613],
    [0x1b62d4b17de67375b58f248a88dbf707cc9d1491bce0095644ca0219a01e40a, 0xd9bb7dab4a189a3b6990a5526c82b0ae50ba7dd558f951bb9fd343cbb4b0e19, 0x75d1aa6cd2b8d181c9e0f42275c9884ae6fa09186fe227e5c4673e56e3acd28, 0x28f9e0058ebcf1591bc007cb02ac3acde0851427db20c7358dbef9fa9c57c2ba, 0x17e39ccba3432a135c0075d720c649562ee4d31b6da2e9c90bd72a039765e73, 0xcd0a4c27de11aeb6460e32fa2bcb289cb83321723155304929eb0ca4eea03c9, 0x2745a059d0962f1bf0dde1e1b97e0bbf4c4143d10fd3fdeb8d2b295ee4d7a9dd, 0x1365a904c7f6721002dbce17077a89a92bb8038bd27af53333f447c4cf035a80, 0x2f812121e2eaccc7d51bf266398d5ba8f601a2aa6d335eb69f7864642177667, 0x21f8d854091ddb601dab1b01fb30c3d4f77cc3167fa3332c3b32377a07e6aac8, 0x18393505ea6230669a8030f6e76130a14c1070a901ba5b640b88ae80d7d30b5, 0x1e151fedfea11659c189a31ba27f2ccf6956084188eb2c4c99b827f645f1db61, 0x2ae1ec9e09577c82c97b4b09142ace51aaad1df7dc352cd4e5813d8cee9c98db, 0x24ceb0766de25fc22789286a09287be740310c41747320bdf2eb5c956e040356],
    [0x2e1681bc7c22d24c433f81dd3a326fd0242bfc7e2bdeb6307e4d2aca32adda1d, 0x2a4a6cc884cfd08af4b0dbe89b6d8e0e58113207aded8cbab2d075053efe998c, 0x142a83206747200fdb02773e766f504c65af82b200c0e7fd942f92be23d586be, 0xdf653524fff92dde8ec1c9a51c1bec30bf36a4f01e9b3b62eb13f8ffdf7b8bf, 0x2ae7f1414f1443735318163e1bfb1e1bcf5c271f37f6abf1aa86766b2e59e049, 0x2030b7bc2a70905d031674efb420336fabb0769ac0125c35dfe2ff372c1aa4eb, 0x12a710de6d17f91af890102226853bb64209f1b41331a1d17305bf5b7b52172d, 0x1fba713b98742311dfb3fa356ff83eef234ce8bf2b0d4a52de7af4d2519f2f12, 0xc8f8722892a2f06c5ab454e407bd557e9c2ea77ef807ee0e3d89c6785b0d33, 0xdbd093dc16e73832bde62d05cbb06f8271fa47229470462d8c18cf8a124f9eb, 0x1dca3060a6bbc4c324f7efba22274fd8d1f2560a4eeba8c8b0d38997e0d9c46b, 0x291bd9401de20916b9002a0066114b3bfae4d3c8308aba4afdccdf0aec12d66a, 0x1c97fc775f962fe05a7b66346b93c3260c8f6a90a7f5c63223a3386e19852ead, 0x1c7dcecea59e6f7beb6d702e2fe74588415d30e5dc09970bb2d56acc8e08328f],
    [0x65850d11d0eca87c3697b6f5e57f78ca86952bad1c9047dbd2eb6be9e9db30, 0x1eb97819b3531ebb640ed6b42134335419101d1db60dd1a924ef9665f7a91af5, 0xee4683c8da536b6b50773a469bbbde2e417a1cf9be221520af1e755968d7ff6, 0x2dfcfb280a3d372dbc15639eace45c0bac562c44e292f1429bc916578fb0bfd, 0x12ea921acf5b8adc6a4e36be85713576d658099230b0b1766c666f12d92ab142, 0xb5342503af446ef824df4df6a088195fb67276657d420e6f312b2628e922986, 0x9265fb314a676b6b3f827f07283a1ed4f300e8d90f967b20ff61f455d2ab2fe, 0xab913f65e1ceb39ed8b83bd5d7fd900e78511edabcfe62314dd10d567858d8e, 0x407d585a6a7efb561377e5f3972319a3e7285e146c5499ef6c8504a3d0b62e3, 0x2ff5bbbc022d1b74fe184c064e58d967f1aad1f0926c906a5e356cfc3b81ad24, 0x6da6d88c233e3182c5fa5ccda1392c0f89f7c6bec4e60da8df8054807eb0922, 0xaab27e6279952c7291f036918f0b279d3b1d9f8e4e8ac380da77ec2fc24ea0, 0x27737fcd76dd296c28817646d30b1168c4d00e1f764c4565caa3276defd15c7e, 0x110a5e84de09209e9363c03c22b537ac6a7aaba2f6a9d1a1f6bfab71a960a583],
    [0x1a59b36b94f9d723577e504d600c493f2810f0e67112672c743abbb13abf43b8, 0x226b91e352c65de4fcee112445bff20e4a67af0e110957319b2860d5087406bb, 0x168e771e9f8f860c49367ef919a00d4f128bab01c13d7dd72ce8d36bc6d1d835, 0xb345890b33c23d167396c583d12e4f3d9efc904f261202512350190ab1961c5, 0x1815d4c2e6a18f4f3fa538a004146d7f540fbe80a4605857714fba2795615df9, 0x282a555f9ad4fb57698faa1fc3279bb8c28c1f8dc8c693225bd8520db4313489, 0x148ab15972a6925b714602710fe9e64c0a015053acb838d0e876a46cb5653f59, 0x8e13c2e61c446b53024d2116ab176c843600d00e676402c4641745158c243f8, 0x11cb83e01ff5803b049a2b59ae9915b3e0045e1db694a6df9de9c4e7152d191d, 0x119816862c8226e9e5dfabf3167b3b2bf7fb3d19063989b24a16d97c94bd53d7, 0xc61ec79b106e9dc6494a6359f175ff637839ca53ac8e7a13471c56646180390, 0x1e8ee641308ba6fe5600b2df492cf2f14f9892ba1025826c53c77aeb7bcdb04b, 0x16b61b242d41e1975843309a01a36a14397d7c8e7beb4afbd9233b453aaccdba, 0x13822dcc3f6271b71549c2cd917b859cdac36af6848804d15a354d4de0f67ef9],
    [0x1a4b186b77cd53f961c8ccb7815d9781cef7a52af64d0bf746cb522512d3d0af, 0xac5b86128ee47944c12af531cf1458042c35adfcd9e5b6a7531973714559de7, 0xc2a439067121449c1ef3dba6be1ff84f6ab7fac4bbd54ad7539e61826ca1971, 0x4f7f1fafee121bb811344f73f54f4a3583076739dd9dfc462b3ae6343c93cb0, 0x18f6c40e3ccf885804b374433af0a962b2963fb9aa01e8bae8cc834b3e17a31d, 0x174c1a1095e95d4f098c8d60826776c2f73691db37ec3b937835b65b01ba13d6, 0x1f7f9704cab1cfea2b2471d579ef99d193b234af90e62ca09b5a671c2428a515, 0x1fa02616024cd9bedf643ea36d262d1b24f38a557a77a82c686618c3c33edf9, 0x2e1c292e06b7f8a6e4344f10540675a63ca49e452f69565fcfbcd43bac0f3af4, 0x6fbced52576a913e6cdc5c5c96fdc8f9f4e931fa90beeb46d9b3c2d775e1e36, 0x2cec67e62320bc6a0ca32518ec81c74363a4b6d259bd275a63425d6cede468d8, 0x276e2623828949e6a2fdc917e2ed45dce0ee503cdaffc9add815f6d1d3c4f9d5, 0xc75ba60f8e0f6afa126e75703b83d9908116147b8b2db45ef24f3156b8f1855, 0x85e380905eb2cb7e753d0ab0ff4918b232c734418b6bfe1331de492fc76b21c]]
  p := [
    [0xe30a774c353a2cbf244d3d014d1a0e5ff0bac5e242673ae33f1bb2030feff68, 0x2525da24e1d134d9e989838304af65260bc9e8f31225ca603420c6f22782a31, 0x138f42d30ae01982ed697be56da923021ca5ec09fd9fdeafecaf1b815a8eb44d, 0xb68eaed660cd2cafd2ac447e6b5f44a4acc0acc59379fa1e1d6d6c23e29fd18, 0x23a87eff7dac26756048b8a99cef16bbd4ed93f085177da15c763bfbdd413a72, 0x298b224b535d0d32e971977b9fc2b3f83df09ab550af80b838c2e1308a388aff, 0x21fd7ef66c4ff374e85b552f0c1162831af7f2e1feaa30e4d42c9ffe585e730, 0x2a75ec0f43bf0249456ef5cb1e58b4716e135e1033791b706c1198e370cf5912, 0x217005316ff983a988abb4150d5b89fd58f5e7ef95d275207afab9bc736dcf79, 0xd200fbac6500899253294ec3394f5fc2374ca3e3243c34cd97c5f8f31f78edb, 0x225829f1730cfeb97ccdb5b1df418bac0f761d57293a39d5ec293014c78f38cc, 0x17b09625ab3ab20b7be3da6740eac6450972d5297ef55ff4bee47857841685e1, 0xb98d9ccb5cd1979a0c45a9ff8f87be8f15ba1cb758c602775d2a5711dab8f70, 0x26c6a596dcfab11f05dda86122034b6f2046c51c0024c4c673dd93c63ecca6e8],
    [0x12186bb22000ad84b6bf29179ade2d4e7e94ff07e51627e09580571061fa8ce8, 0x945c0594d96052f702d1c0c8d423cc5f054bca11e54a939531e5c6616696a8a, 0x1a8993400bafdba532b42fe60fa719ee2bb70744c9684c87431ad462b69f6234, 0x271684ec4ed2564694dd8fd7f7ce52f573c22c72e8268ecffdb3f3256cf94d86, 0x199d5f44df92c42cdedb75daae78948bd1b812ef63e72c6d01d77c9d513bc32, 0x1554c7a78e970212db02a0c7478c02343ddeaf350d52ad460966c2198475e5d5, 0x222ab7be52097210638f70d1bcf3ad6842230e0561e1ae556519ed6e44ab56a9, 0x391e74d9ce9444812f42cfbe156e7403ec00c10888b716132c819542982da3a, 0x145f48fde51a4c7f0469cca2a20bd5c5794c594c08ea063412b82e4c21fb67ac, 0x1c346dc47106b6a9c0e34f2b6a59aa07c0e23a7f0dcd72f98698b6bbe2440a9e, 0x1d881f9bc6c0a69ad8c4cf8ae0854f5e39d7f120543ee72fc776156a6dc41e25, 0x1d6405c7bbef29b6526df75b9b3a43749f55a7cd60c2956e61ce35446a14055e, 0xe1f6e07f1a7310ed0af6b08fba57b93adf17ac40ad5b334a7b5b8d2b21822b6, 0x1dc01119987d2a025898bddb1d79385b99960e97c100208b5e992d9dc74ee608],
    [0x2399faa648aedf9024c6ac3ceafea248216e24a9e56caf5acd29ce2546a9f6b2, 0x14a0f9e89a7bd2f9e93a28113256f5909e18bd8f2d4c6a4b91fa764f5d6e9813, 0x223cf3744fa802eecb6e33bb5d345a4e2e494e2e0868296a075010d891596cf3, 0x1cae3329696575edb1c98df16a20e97a0dba9988601fe24a6ac327233edbd7ef, 0x2d2d2d79eedb473fc052705abd07b5d7d13aa9a52bfa0a34b29bccb2768ce812, 0x13d95f949c83e09efec7464df18f95b0f569fb43aacf2e2b2b0d1b8d6a4ad5e, 0xdb367b50c96c5ad714104e535fcde5cc2d98a7358dd85bd98cd4e7398985874, 0x24d565383969b188f2900ee27741e48500dfaab461965ccf6acc7290c5c07b38, 0x2c08d33aa07452ec8d30fed9ac5f8218885c18de68857395b7361d06d5d50c64, 0x2eb969d5960104432dbec4c924f829411bcd4eb2582508844fb46c57e4b971de, 0x1899d3ef6a66651b27035f47a0030d77085b988bfb2595392d46a09eca668e9, 0xdcd018b542eb51472ef63566573192f167b8a41b243d2f9cf7efe0427bdc769, 0x1e76abfe0e0c0907983d49bc07cd22392c9a9fba1cad773f87877d8514e4103, 0x270775b57362a96f142cf0560a3c1f28f8b8f84b1695cfa20b271217cb9460b8],
    [0x3add29fe398ed2d44f233125ecd1509e3cede77e6be08b94af4fec87eb3e48e, 0x292e485c257794ef8e1fec5dacdd6ca69f168408249a6e203853615080cd2cd5, 0x22a26c25e3631f154c6447ba2e8543b1d0f8454bd027168e715f21c86d09d399, 0x2013efe5dd2c054f547d532fd6f38d63bf3cdc07c1b3beae0b830c536936dfc2, 0x10b99b04d7a8e09059e28c723db16cb75528957858c3f9988f0050d18a30e660, 0x17e35329c9aaa754c345d6eb317c368788b093ed1d2d136714ea1b2f793da580, 0x28ec7da8ea43b28add669ec05c0866c2498ffe99bfdfbec896bbd70d08720f64, 0x145115518f4ddc7a878c4a4c3a0cda353142b420cbfcaf2f2eb7d67c6817ed1b, 0x21c96a22d60f44c34f543b5086ab4fcdec036b280b9f5a64a3a2003a2a79e906, 0x2fe67a3792bfa46545ba3633c2d504d9735e7d03b58f9208f584a3ffb3f04a82, 0xc27c0b2f86856b2350007a8501222d7c7d89c02919d2a310032c4ede9da6d5b, 0x76eb0679a3bc5901abf1204e92462dd0049c8b80f0d0b110ea12ca6d9da5808, 0x28b6ca5d7278ca2537b3167bd0e8c8094a06ff3453e060a1f52f077ce3c0f9cb, 0xf7036425c9f4bc087576419d0534698adef68a0ded0fda90b211bdcda6e05d5],
    [0x121af61f4dc5bb24890abeb9251e5cea94770ab062dc0c28bb8995dd8f183635, 0x1b75bf6cc3265511f786609179f18b582a1b6261e9e6a9f05ac7e9a4bb015a3a, 0x26b90bebc295253c79bbc8d0324cec9805f3730a7c7e3c8cfe7220cc90b2ea91, 0xca34892eb7fa3d7bb497043be8462cb387ed055f83566b165a7dabc75bcc623, 0x1ce0f7ea351be6aa78e3ded0a3d69d69de3890cabc1bfcf40583226decc32d54, 0x1b5b9f9ac26a2e054deca324c9c92bf4d64b0b7be729631f2350c4db32232768, 0x94707149dc563db7a45c5cdd80091c3972bf52a6ee3f8eaf0e6bcc6ac0e3976, 0x25ceea2ec9fe11994d5d6c2e2af196963dfbe8112cfbcdb49c5b80615cbddecb, 0x2952f32d846a2cff15c9f028f02fb60bfcd8a7b34ed120ab6e393a1ec2794a4b, 0x930264343e7f5af2b7e5a4f7f25d0be85825666a68d5c02c5a813e958c3253c, 0x3f289db20976c1ec1aafcd0daba9c386dd8edb8e577311dda9ae8082369891a, 0x183e186c2c72f4a35c4fbb1eef8237e1aaa2379dd8d61facc59d6e5f44da0a83, 0x1c921c4536be42aa8a93ec0ab11a37231dcbc0ca9ab7749e3d5cf9913adefa8b, 0x8ecaa57e55d210f56d9c8141f70394e59185625df57435ee2cc924602212203],
    [0x2ca8ffee2d58f2945297b00cd0b511da167080d53949b3f1fceaca9616b6143d, 0x23894e025a72e4ffd1580bfc4748a2725ab6f214a8f84e40d266e5183c6db8ed, 0x2600d56e9f728b982f23746da7a2993bce578e7204b9edd1f474405bd7593103, 0x23e3b3568798af43a561614af2c8aee40d2249d9f58452847c453594dc8f38d4, 0x2145a0959a46b3c43bc559b8811d309d48a452423025b85cbb3febcb24f4066e, 0x2f172acf4fcd26f6f939157d0da15bcbffa981ef6b22f7525c69f9ebf801192d, 0x28f529934ce9fece64356acf523f32443178669ff77a0ad6e7b86020e413ca4e, 0x9385ccdd032e8784bde4412886e9a590ec85ff5cbfee02a6c5dafcaeb90250e, 0x2a4b9eb8b2f9e4c4f2fd334185a45d0d2349163bcd7b808815b2e89543c09412, 0x3bb2a5b659f1f5c2c82bbe5824ad64a260e21e688f5fe01c61632fcda348adb, 0x29e0c22a0db446552403a18473a2e5d923f0d2a81b23f593877de4657fb1e877, 0xbb85f352ad58d8e5998cac57a0fba1d49349aae47164fba3343ae32ccbe4206, 0x24e9c71c5607519169015cca5f0be8e416f21194fc7d610a38d3e48df56dd40f, 0xa098b67cc231ed6a2b72bee29f823702b67dd0bca78f7316543097856b478cc],
    [0x2c99ef5e064147da9782b914a294b6c14d21ea7eec1f72e8761671069d82a134, 0x1605b0bd96a60af6d3ce4feeaba7498571b693596f79c09a3485cb6e37b1480f, 0x1b322f4a92d336fb2b92e1347e0f73037655b344fa6ceb1275eda5baabf61dd6, 0xde44974e91df8151d38ddb337dbefb7b2423f8c2db33c95249664256049447e, 0x1cbf2e32e48308fd5254bc8466ee1b448825badcd0d038171d39d77bd61c122b, 0x1e25aef828ae1b75374d1806053383a3afeb4c247bb3f4fc602a31258129088f, 0x28796af2b46e4481c8c68767d755b2f28c2229892c093faa86ea6daccf4f403b, 0x2b9c2881bdbbcab60ca2981c28b4228f8ad48e64a7b393ef4ed080907e6a1774, 0xd00d400c8809e16db25f2f1593dba403ceabbe3d0b868399bf12c1ce2a6284d, 0x17767169e7d1636e0cdab5d29588e903e1d4343000d5b54f3e523e956af6fd58, 0x12e4b3d7107e8bbf73c227c3fe04ddc9277aae8cf8b15a769c7039d282661866, 0xf53bacde9c9005381ed7bd0d3a35048f9b04d99b54cad41bbffc9704a574abc, 0x241e0bb48bf63003f858adf8134bfec90214a7836f7af1bdd263f5ac91906803, 0x106f70b5c82b6a41e401fb3c05ed0d4a5c1d6ab66ab048d2a928a323556632f0],
    [0xd7d07cd3798f44d832a6571c21706758693e5e93684ce2d1a5e8a53e0cc6709, 0xb6ea459a3eea9912c01005ac024cdcb60d77df03bf6d57f9de9277855f5669c, 0x26f749e039b1b58e9fd714e0b5edbadd2ba23f0faece28348ab8eb36126e4a7b, 0x1a8077b3370f7e65d450e0e536e1e73c9ce33596023de1cb2d4f1321896f5184, 0x2f6784fa0636348e5b73d52307c09dc7de28dac12256995b7d2d8014be1511d4, 0x1b4e7d76dd8cbb42c1e90574b4f832a07a53912dc74b2f1983440252c232ab0a, 0x9367ecd533634327435fbb0317bfd4de720261bd6c77f2348f0547d4dcd155f, 0x290e7fdfa796c9a6a1b3c2e6d746601f49febda2af0d2e7ede804b822400e81c, 0xd532c4429d77c08679ecb541865f7230787381786f7d98d62a06e8a7f33f3a8, 0x78ec6b19c1d89049a01ea1a959df4525e1fa2b5c6d9c7fe00ecd899af5b8693, 0x27932ea804885d901c0a89103c29995ef207e753574a7ed679b162342c54f27f, 0x20fdd250fd434a5fb9072c597b940cc96fec2986fd603526b2becc58e431c8a, 0x211dd323ffb6bf1f7a0c747597593c44053c3d5ad428b1145d04f0a728f4199a, 0x437b94aeaefff8e636816d1f7484e12de60de9199fe298c3a8466036fde9053],
    [0x29195117106623ffffb0af525c838686d0d97259fc73a5194609ac7b7b171313, 0x16be4a147414ff8080b2a744735ee85e2327c3645e26a4d21846bbda0f5f6ac1, 0x15302004242f418b70c701b89e3585ac1d2cef27046b512c7fa841e1c7fe564d, 0x103099f79452ce6c8848e50bb04b50723aff5ef915d2d7ffa0b8f72bfbb6a906, 0x1cddc847d2f8d9e6c20ff55628cc4e9cefc59a283a38842462cbe60a9a1d0336, 0x29bb557aa48769cff8a9d0ab0e7149f835c5552e5e5ae7e6384043790e45c1ed, 0x1cb2f7fda98a18a6fd20de6fbf412d07f0f41fcdf2088dfcd0e0b852fdfb1aad, 0xcddfa96db02b40d78f740716d6aa26c2c6cf125772a9835c9a34a9046702db8, 0x1f0f734e95a45cf07b70b85846b65ffd3c1eac10a95e0b917f27ce25c0ee4afd, 0x14ec222b4b95c3b602c222640d8d6dcae21dabbf1e805637ec3bfd8984577c08, 0x18f31da4274218b2691aba9611a798cbc9e9405f111267cbf424a67799ef67ee, 0x18a38fbc04f4e85a687161544a2e3323bc7bf504a5ce34e8ba4335767cb4eedd, 0x218b8f679b6f2f6070519663f49d69fd9043ba6d1bcd7b7b85e825abf8bfecdc, 0x1a3d570d5a331ae41c938e81e8155ded345d180ad5ba49b4e1bb70eeab467a36],
    [0x1b62d4b17de67375b58f248a88dbf707cc9d1491bce0095644ca0219a01e40a, 0x23dfcb4155e378ef7d127383d66785b33808a3223e22a226a3e3a0f7bc5200a8, 0x1bba25ef90c2742d6bab9309747fc14cc73e4024c803db5e58c7d2525839b2ae, 0x4b3c3687111107b6b39fde1f5eabb0de5e2fafb481c0845f0e9e3e5f90057b7, 0x189aeb454f60721eede010a005c4ce55509f152e6d0e93e8c5f9a9a6d3adbbd3, 0x18572091465cabeb96748f5482d37d3926bf7c1d6680dc932f45f55a7042b02d, 0x1a5ccf7ef451a14b3fdc531a52831728f5ec26b86ba77c952701db2913a698df, 0x152f38cb9808d5c942c23624abe88852a59f2813392030fdb7b1753025829991, 0x9e543a62e93aa3005be9112a49c5308f5b6f79591b4824f6355ae12300988e8, 0x1a145f49ae38f332ad67bd90734b8bf9d97dbc5912cbac8f57417e334f14230f, 0x8857c8b3f0b9a7649805371c01a74c84c67575d9a17be0e5590aab52143377e, 0x25fda357cdab4ca130314a01d381febf812c14473e4bc9b13ce8849eef1cbf96, 0x27b831fd2727802f6a873109adb4196ece489fb5b48113565d8113427aad42d7, 0xeb8c6eb7b2a00cb45db63f58e55d78f1130d92a56095b485c662be692644733],
    [0x2e1681bc7c22d24c433f81dd3a326fd0242bfc7e2bdeb6307e4d2aca32adda1d, 0x22415ca10b65c83a039f1a749e649fbda0cfe2fe3403477a40c10689ad5af158, 0x21c92d239c137b9a280a728acbd058a8c75f321e0d254c346aef2b0f3390b07e, 0x41fc409e13a628d9632b87385d24bf4f2a712e3642a36c9875cbb5e90028065, 0x6850ae560ad9a7e89bf454f4300cac5f5184453afe49fd3552e63e44e72ac55, 0x291f4b78708af2e6d2021bc67b8b43177e7c0533ae1d89287612d85cbd16a4a3, 0x22aba2a6f80e91b2b4912240c72983f027a4c158910c03cc1cff66c545f8750c, 0x22e33116da2228316bf3d68b2f1506bb5b5b87ed556aafe4f1c1638f723b0a5d, 0x27885fcd66e6a1bda1f55599328bda53f0dbbf8fe39d8e025fd500e44ffdcee2, 0x28dfb66df089941c1b64c42f01e015b5f3bf8764452add9b24f4065b7d276244, 0x2e5ffb493cfee9eeaae1200f360829d0c2c09ddb592d37d0821363aff6ece299, 0x21157a29f47613a80bdfc774d1c8278abc3f76e15937ce9b24176e1b4c9e3b7e, 0x1cc9014506211730afa1e9e45c9f38b6e6218ec646e79dfd38ae0cb8d96ccffc, 0x210396c1be722404813dca0f052e321e183c00dd1671044b18bdf1560b04ed6f],
    [0x65850d11d0eca87c3697b6f5e57f78ca86952bad1c9047dbd2eb6be9e9db30, 0x854fec1c464e2fbad9ed6737f451f4ea27b6a1d97349941928b5911b5b7e3b9, 0x2c240af2cced1a6d0d5aeddc36c875d3a8e74325772748ce1cbd5e01801b188f, 0x804921684796339f40259855eb51f118262da54c1ead0364ed73b7b6f328dce, 0xfea56a59a68a9d3131f96672be04f078937cfae01bb185c074be5f74a37b226, 0x11f61a3860411316eee42dfb735b05e0ab5a905a2478b9d446acd0fb1403d00d, 0xa80fee34581fae3188ac5f2c5aac9493e6db12ee7a2782a036aa65ed89f3825, 0x75c8623c44462e495ac4b62536c790a89875e9fb559e29fb51c32d6601ef297, 0xd4ee74163fe389031e01f793b3cd7f76971649372ef075dd3f2596333c5a6f8, 0x2a06bde137eb0fec584cfe2f11c2ca43be25ba8dc31e0522191cbb63ffc50b6d, 0x237277467500a6589f208fe577a0ed6bbd805f5bb1fc0543a22f21cb98b46108, 0xe20cd93d855c7f14979bcdb315d2f9891e09e4099cab4f82b66481d013eac94, 0x12dfaf2a058c0890bca0bc89b72eb4a575f10b43a009c6ae22207149884b4638, 0x299298324b7b1e7cfb05fa7c62c2c471b5a8dcb233f8c9e1becf67d8bdcb4416],
    [0x1a59b36b94f9d723577e504d600c493f2810f0e67112672c743abbb13abf43b8, 0x258e09e408d6f662f3539a649aa156f18cb46302fd0fe34f007b731db06825ac, 0x2049f9cf12d0e210a7d82a56694e58c76d2f1c5ac572aaf9b6fb770c09f8dfae, 0x2d4687de2ad43600f6852c2a191cf74d0c3e4a7ca0506f974610833fa201a72b, 0x2803e055305e45f9ba2d154206439c02a37e8a5c3fa8eb38d883c75137d96216, 0x7ec1b96a04d4eb1f0728f1fa0493019c6f1a95456997ba5003bc2bfdcf43ba0, 0x1dece2bd9b515875c114246d055fbd55492a7d26aa8022227192600fb17c8c82, 0xa1973619cf434b77422536477683d092d710c68a3644946e11dfc5daf4c3e35, 0x1e4a2c836090a5c960931f020bd616629e93cb093ee02285f8b9d850a74f8b57, 0x2a12cbb75facd8548f0d464d85c961acb166b73aeb3422edcd1c3c0400824673, 0x2ba25258891906648372370673f8b9701a7a17f5159c26f83acd03dbddecb683, 0x19e70fe4bddddbd1a2010dd7f35ad802004b8486a6a1296b75fe87c2c5246908, 0x27d1991b6be57840c86c76792fd9c3b44cc9bc56569d8f5d78012c17c9d01b20, 0x26a6b81d5d4c3e4df5e93aeb39266b56a536c153210b9f4dec10ece36e3f9e],
    [0x1a4b186b77cd53f961c8ccb7815d9781cef7a52af64d0bf746cb522512d3d0af, 0x8b39f702949a0a1a5906339e83e663519b264c3039aba4688bf2e3788b3ecb6, 0x152877c59e07350aa9f0b36db00c436234c76249dd0099607b03567b4e7f056f, 0x1156a55febc770d3e72337b4db1bd2fd680594a9c9dad08777aa5d898510e5c, 0x1e2cdbd10cd7e2993c0a41fb073400ff938f590e30b3db6855f12c129d681f12, 0x4f089c87cb7babaf031a4d0d0f5c08e00bfc99cc7befcdb22e55256170cfea5, 0x2ebc3e6c61ae6901d3047afb5095d5f86071a28026a7351945d6fc4626c2f1f9, 0x230959791080b2d262131ee7b43c2de9422a9b3a59ee1241e762ff0da380856c, 0x10bf2e728bec374033c31e16bab6772056a1ace43bb4c3333a086256e0ed9d8e, 0xcf6a0317dc98ba7fbcb0dcef53d804271bb932225cf3c2fb8c0564b898c13b, 0x1306e43717156fb4e21ac64165dc5fd04b3f5dcbf52314fc0c84d09ba5b6578f, 0x9a6e0063c05651d63e8365f4e17415f0ab59d07df4916e9f3c6f649c4f10250, 0x211a3b4e93de320852f06668c192079c3d65a00de2a7cfab966ce0fbf9322ec0, 0x63781e7bb64e40ef54a4ac17d47785b8fae5da0c4b3bdfe4de8edbda7029bef]]
  s := [
    [0xe30a774c353a2cbf244d3d014d1a0e5ff0bac5e242673ae33f1bb2030feff68, 0x1578623ddfe303311ac327a432aee9ac8552cf37d7be9b4323c9a792c5776c4, 0x17536451518c265209c2d9d8512a80f5abe4df372bd9aeb5eebc2b799fb1d978, 0x1025b7c8b5b38ccd6fff7dbea3215f6a1cc80c64973d8972c0bc7674c733a157, 0x1a7c14617cefb39cde217f3c2583bf35d538750ca9818e2f04268322c282012e, 0x27993e8fd8e80385b78a6214675405361deecbf2c86441634eafb7c99fcdda8d, 0xeb7c2b5ac700501da181caaa6d42837f6f51713924eb3e5d6543801ee3c974d, 0x22313b179534e4b6af14a56f8eec32f02c41988093cc7f4fefb281956250b170, 0x277988ddf7fa2eccfb2560b2b169e12a48dd0b3707ba3cf1c0a514c4852ca68, 0x2aff90506172c4300c94d20c37a877bdd98630c899aaa00bc83f1b7d99e6c943, 0xad7537b0825edcd460d01970323bf5f0c336d57b4ec04b155e361068216f859, 0x16573e4361e87edabb67f04a10a84b8655a796aadaf0ace71d282a03ef73369e, 0x7befd625351a2e970860afe5ef0eab07dc7dd518eb6145de77252bc4769a4b4, 0x250d2c639105c9c5a3ce4b6df01973cc41819fb85be886084076f4114fa0e654, 0xcd782c85933dd07ae0f3f6b0e3c440acbfd915c2fd7da79cab1cfa57f634f4c, 0x23b6198a0c85767848c17cbe8708eb23bf53938a60a99576e4c2a7caca25d18a, 0x1f7e50e68a089b2286a3ab4c8764b2cb8d0da8b26b85c0f3a468c781f7cc114, 0x258ebf40c08515d8976fb6d05da5f7a43455448d998e8682aa49acf25a307d24, 0xde67b3b49cb60cf0f2074e36325065707c58c2fed40ac7a1e2856a8fcc3211c, 0x178c746273a2650cb608c7abed3bab595e8c1403a7d01f8a8d1cb4197e3e96d5, 0x2ab3c9a0a6988f6fe5e3739e7ab333de77084e6177b0778931f004083f807de6, 0x2d86755d3a375e8b14ef5aae6e2eeb5105e7ec1607de4d61258de2617f790ea, 0x196725d332dc50d6d916a1a6347fd70973f461d2a1fc2b941ab891aa04b3f5e6, 0x132d62cf82833c79ff5136eb2e396d5719f76ec0c556565b5a7869234afda829, 0xae37c618053667860b08f31cd97e4e266191da715708bb84444741d9eb591e, 0x604994f682990576a6e1c907633bcae2b29d2b91ef8af1911b41fd3fd168, 0x182aa4ce666d170a3aa6bb17e7ec00bd00dcbfebd02f3fa500e8a01d6b094a49],
    [0xe30a774c353a2cbf244d3d014d1a0e5ff0bac5e242673ae33f1bb2030feff68, 0x10f8dbfade79085f2d9cc0a15334272898e50848407cf0d1b6866cde260a043a, 0x1953bff54ebfac7d02d5cb8e079d56c84eed51d6f341dea31c6eeabf1a65967, 0x1344c0e662baa299ac79300aef7ef1387b1926b0c323ea279be046775a8ead2d, 0x2f027dae71476ebb6b5f3b1630f9a92126bb31a72e50cfbbe9e19ba8942feda4, 0x2b5570a23123c5568920deaa8d1f8882ecc0404bf73bec01f67562b600568862, 0x2485dc5ae845e8acc0c38c7ac313607479e4ceeb25f35ebcecab10d829fba247, 0x25b7907ad098b9a7ec9773bdef17a1d315baccf502a2a303ae9292fcf24cf86e, 0x25bb66388a0f8630d499fd04740c16ae3f6f8481b2f9637a370e921489558902, 0x2a00221d8edc58656999ae7406d58758e795a9741c004d3b99e0624d1ed9651f, 0x41ea47bbe1f576a1bf165e9eb6c82b74cacc22011c02d1295aa68a734108477, 0x2fa5eca22a4bfc0739f0671dadb74de19a49bcdbc6b23b3e4acd659b3ab7e2ad, 0x1a103aceb4a30c1289f86ee6d359ee808a1075dbaa86a9b590da829f89e0e56a, 0xea6e1b215fdc970b74cf8f31e3e78129cfad0e545939cb6ea55b4e72f348838, 0x1017db78c2c1d169597ed69a3dcd02467e30071dd418eb6e9db209805314814a, 0x22002c2422ecc59939f303b6e3d02d35aafd288b4f7936838314e2047b669672, 0x7c83bfe3e0cd2efa62ff8cdf694ccf8b3268c2356be960335b45c9d57751940, 0x256b5d75847a3cfd5c4a79c7890ff08c58b73a31f14bd07247241b70e3b892d4, 0xaa8d8fe4f42d5ec00f582f56d0d64aad9977a43b185d66000c139614d9ea30c, 0x221dd9b914aee821ea23c359b337345a22da01eef81613e55c97fe275b42c4b7, 0x7a71841bdf7ee0dcf51ae4195cc8adf79be1563616fa5f6b5d932eab3cf4d9e, 0x3f7813649d46bcc7419f8ef37cf29e9b486e285da3045d96b5e3c6b636643f, 0x2e4b8a3c581c527e8a12b4778ff69d8405b2dbef389d6bc8ed143f72cf2e3b89, 0x17c1a87f4f960d913f5eea140959526f4c8ed7a7fbc2744fe37ed332e26bfabb, 0x2c46585ae9f6cb77c3217988da69423b71724cff7fbd8cd879a0c4479af148bb, 0x2d54300c647a770fdc4340e7422d79b643596ee6ac6f7e1b3b6339022a1768fb, 0x1bfe46241f2211c6ed0e7723765850aa6da18b5d6c692d33eea7647a73d097f2],
    [0xe30a774c353a2cbf244d3d014d1a0e5ff0bac5e242673ae33f1bb2030feff68, 0xe2cbddf65c2ae0452e3eb2578ac21a1e5279c42481e4a41affbad2969721705, 0x16ac1278c3b044618e61a767b13dee22fe364509ef89845b2fad1a47c2b9b5ad, 0x224149478db068fb7141fdf2746d34283ea9e42313f8bfa3e9dca597a23ffd95, 0x1a8f0b2c1be34d3d04ea78b2c38118f6e05ec781ab95c964e9fec00e9da70f45, 0x9ac6d36b9a63d40259a98a78c9a223de633299b75cd49a944ef361e6f9fb9d7, 0x12810af0ee251f24fb86894b758bc4e0db0db4522260a9bd5406baae536b23e, 0x13e21a7cb8f49dfb990df144ce9b950ace2762a38331d90bfd5121a7d8cbeaf6, 0xbf46bbc35ce9bab54a45c3b9a308df40b6b771b3a0c82634e86f0e8369aa2e6, 0x2d3905ba22fd54bb55e4ca78722d0c3c6d922ebee33c024e3b530414b0e27819, 0x21e94a20b029bd68674fbe1179ca813dfe61b3ac9a2cbec68fc63f4625ddf20d, 0x2eda11aa8cf8a13cc36a5ee865c465bc8a7b91e41061abe33ba2a48945be03b2, 0x1e86878d1a99e02c9108ca361563f8120dd46552dee8cd864599bd965905acfd, 0x213f9fb0da20d21d4bd549eb2cd60f2e951cdf11bbaed2e8347637c28e90dccd, 0x9ec04662663c012175d047b3badb9cefdd56abd0e1bb8824f8b1af84c81cea2, 0x2cf6e22ebf6b69c9dcfb9b5e66d03f2c9dead8b168be2671fa0c900dc0349c62, 0x1cb3909eae030fd0ae2a623232e8daf5a527642386e6a1a5cf8cbf36e49c9f41, 0x2a954bb1d6463b7b6723ea7a79b331b5201cff98ebdf77311f8eaab7a4bac880, 0x1d232685a73dc553d0e1b8099acd8936bddf42a40813d52edb2ba0e2a72a3853, 0x252d7955742982802013cedab484c8d461f9315fd6c30a13a076ee1fd84ac652, 0x2144739dc6440cf4f08908cadc61413b30e9fdea3d600ff64f05c5afe2742a52, 0x26d2ef597c02295f490a26be40bf56c9505e4a977f017b0ee1b4539bab40f92b, 0x2effc6807ad79b837e532bf4a9f65a83f920df891e563011c34c585b8b5118ff, 0x2e095a7e1c68ccf1cebbfd1d9e6b10661fb3cef485f2ecc8dedeb107be1a99d2, 0x226f0b52596d08e12c5d979f74cd74461c37b9ca4b74c2d3d72a467f682f67a1, 0x27e4dc61b7f4c719754040db80c2c2103197f34a54a5de92fde3460eccf92b38, 0x2a0121e238a13d0dfb1507f0ca6c1686f838aac334cc1ecb2f7d1ffb7b89c130],
    [0xe30a774c353a2cbf244d3d014d1a0e5ff0bac5e242673ae33f1bb2030feff68, 0x33c6d4d77acdece9099b3b1c2820a64c2f753582562ace2cc24fb4bf2099d13, 0x8158a4f4a451c60b9c190787757dc064f45712636cf0171e54775a94bdf1954, 0x1d18e0af711abc6617c0385617d21b4c1896f0199ba927f33692b3c1171294cf, 0xc8ff9debc6b5b90f826623c99e25cc8ba5b83f810b1c2be42298e445cd1e516, 0x7455ff7474bf2511d200716e916cb97e0842864cb89a42fdb87a479a63f5055, 0x2b796bc4350006ffb852f826d4261ff6fc792aebc1cd37f273e652180dcdd65d, 0x2231f46d69ae4d0ae2429ba6080b7fe51f3f934c3d6607aea12139450e394dd1, 0x2e37b2806360065a4e80fa3e6f3acf0cc90fbfee5e8e29fe20367345f8979dc5, 0x1e52b1dad965f7d359b8dec0592575d918b48baf65dc217a442db727e46ff8b9, 0x266f2edefdeedb61c866a0ea64d019f31d1ddeff9607667a5e89412393765810, 0x622b99a4f10e3ea4c1a9f0a2c0823602a1f37fcf2d70b6e729f8a50751dde06, 0x20b6fa4bb93ba74bb91a9680f4dc15e2436baaa16cbd85173881a89d2d39bf07, 0x1edf9a959b552bfa30461615955d8bd5ab7a2d826fb2b440d363029b7d8a16c6, 0x2352faffb1f4d71dcc7870bade6df391c49d4046451de035837feed53448ef50, 0xbb1c8476707800ecb7b2cf40d86e6a7d5aed4214b9d535b21a0292790294b29, 0x1a004861dbc666a632c6ef9fca6214a36256e7b0ca97cee63d02d5740f7f72fa, 0x115cc0fb69c30646288e34277bb9d59f5cffd364b3a48dc5df13936780e452cf, 0x20b9d6ea816b25eef2eae178eb85edf16d922e259758611f8ca73a8560e5f612, 0x1b7650b9721a1589244d0bb8910acba3020e5a849738c729261d229252d7570d, 0x228969388482a46d9d2c33e3cee3f07ce2c8d2438e0023a20c7d5e7c1c84bdfb, 0x1a1c5996f580dd93a0d48654c03d9fbd053a6d4a64b21d4487b7d16d586b9575, 0x25c69df2d6d1a1203df21d682d24907f08c34b941f5351caa2b3c26efff3d1cc, 0x12848ecece4c7385b709ff7c98962c528865e86bbb652a874c495e5931986f75, 0x76bd3756046b7989e8aa9115b57abc352f470b3e8e981200cf37548edcc00fd, 0x2884069a9ac9139181cef297a585728448ac6a74a26a6fe56bf9ef62d13ec6a3, 0x7feff811d5e99b474c5fa155004bea6a6fcdf03a681acfef2e25ad334f71e5c],
    [0xe30a774c353a2cbf244d3d014d1a0e5ff0bac5e242673ae33f1bb2030feff68, 0x1d20333ffc3cf745d561f12c425d8e1148000b7d042aeb5f26c5dc223fe31865, 0x28abbec7c9caa428c519415063a6f2d5e1a0d349e3061f05c40ef35803686d42, 0x3a8e10fe7fabee8686830b8234275a3abf3cf888d9ac500bfc643c47d476c3a, 0x18c2e2dc3d8b832d050468b7a71e26bc0d6e887165176ed06c07fbecd3d15a5c, 0xd50f1334b2bcbc0cdb0117a17c5542080751590a269f4530441ee1a428cf53d, 0x13806f8807551b28f4a063f853d51c621cf08b2f67259b03c7b1b10734945688, 0x2b08fe6c94ebbbcaa380b0dd6bf50430c5bead290a5cefef3e75aeaeaf7b63fd, 0x20196101b753985b8d81c33fed2d02bfc0594ed7b25aec355a1efdee746c5633, 0x3745c143e9794534ba8e09393a84d537e45a0d9f4777e77fbc14d22daa2f067, 0x23e0047f3bcd71895bdb2030e2656ed5ba74f2340b2cc87626a6739b65b69299, 0x2b7432db324f5d63ee6df8a327ad7d03752feaea63b8483523e1b1ac50af5356, 0x3230e5463fa892ae37f38ff6bffcfdb09a881baeb117cd45199c5f78498334e, 0x6d227987110bba2e393ccee1a5d01fb046f88e9e82c975d69c25505fbe2f7e0, 0x2137c2037b936b9af605dda34fe4424a2f095aa784956c7e1a8410602381d2e, 0x1b85811f361794bfad1d365f9278b8ecccae2e29f16e81a4e81f8a76980b06df, 0x18ce9e29cabc3a88ae1032aa09a664a307f07c41d0d495fd88f4729fa471d83b, 0x16117eb08d088c3146a297600420e21723b75d24767e3e927a465ce543a442e9, 0x143137a07224a1f3df382f66ed1eaa0000006ace56412ba51954dcecd725f03e, 0x104d16d80f93f2955a067d5b615b3169cffa4c95c7bd28c57df7a098608b52cb, 0x1d486d6cc1ce7b6f2b3aadc680d663e9afed57c6df3948a99edfd8d21f3283e8, 0x26b9676c3f4be27618037e6b8681c624cc2badc95e3dcc2858f44e4227b90ec5, 0x1b9d6e78b161f530bc835a17a56ce26bb302ca73846a159744389cba664d9309, 0x133c6470bb5a345bbb1e3a3650b9a5f39295bcfb97ce888cb775b07188be130e, 0x2eb4042daaad9726c71a3b6be579dee9df64b6aca59cbcdd4e014ddaf860cc82, 0x2b7e6bf97ec1a114b17e6bc4b4808ddff15614a70e43318f7840ed715603338f, 0xa1125917e9750fdb258e4113f2e3beff8cd77b2e4840d2a0a3efae84324f1fd],
    [0xe30a774c353a2cbf244d3d014d1a0e5ff0bac5e242673ae33f1bb2030feff68, 0x28f2406d5b2006a8163fa449cab775337ec435075e08f76dcb360575f1d0f9a8, 0x2833ed76d81d99573f405e2418760ecbfad333f71b35f293fb3fb2550d32fd32, 0x1329680ba1700fd38f42d6f88a166d7128ee68baed48025f1bd8273c6d13d5b9, 0x2e406c465948d552b82b4d0443d9b4393e9d034c1eb96779b25554850f8d582c, 0x16870864c7481c37732c1226601c0fd0912ecaec9c4986893da2ecf1e7e9bea5, 0x16f0206a256a1eaf579b789362d74a6df9b4e8f4c3bc43a69d5d84f8e2b86e1b, 0xd3769821a46417d7c41de7fd8a44cf0e6b03851b33d35f9105b91fd045f4364, 0x208072d81c7b1e0c7fb8bcf2e372a3a6142d3643084a78bfad3232dbc4d0421b, 0x1b00364bfd8258bc091a61caf85bdb512a8319ce47c9dce782e62103c2c7a71a, 0x39d9478f244268c4803f9dd0dd5e63217be3c8118476c3c36c463acecc573cd, 0x1702787253c770367113ca024f835dbae15b5c16bcb2121cf3d89bf60993d771, 0xd424c24ab70fe46dc0b70ac44f1560b98a7c179b6fd59f87b51cb1580404f3b, 0xc8eec67747155b02438d197c9d55437492eae235c05e385f5aff238ecbff493, 0x19318a85cac2967adc34c434ced1261abf43e1bf1184a43a0897436121191ff7, 0x100d0e39b0ac4162d13e523a8308b3d1185ff1abc0a44f80aab198f4d4af2e77, 0x1dc9edb515bd622a09d6f164eaaf2cb987aca23e7a0a79c8e00d02ab44c71cdf, 0x2cb0a4d99188559afba7226f3a7dc66b1293a6d5dd7ebf396ac96d3bb1b0dc69, 0x457e9defe2b2e3ace40217181c5cf8a361c3303bae8d1b867e62386ee0aec8d, 0x27cb603ef3700431472d85ceaca537bcaa301d220e8cd68c8db9b2e1f53e99d2, 0x2a0f737481bfdbd65f8fa4cb4463e56a31bec6e77c94e27216f4d5aa734df9ed, 0x88e30685326b92f6007d6efa42d8af737bdf42ec7e1c4d565318181d8295ea0, 0x185dee7ffc1c09332fc1436f1c6d67eb3c6dccb36bb98177de5f2802302c68a8, 0x1a3c2ca9dcba78005a28af3b621e50155295f14ac746057dcce986f6368d3d98, 0x2c899f8d46c18eea46b9b431d69f5449bf5c896b07343a5199e587c748443f7e, 0x12b7b81c78c7112c7f79de2eba33f1859e77ee9bfe54d5f3ee15bbae2d6b90aa, 0xa9c41fcacf18941604fb129682761803f162c0e7cc1152f70bb76a28995aee8],
    [0xe30a774c353a2cbf244d3d014d1a0e5ff0bac5e242673ae33f1bb2030feff68, 0x18c2c80c193bf893f8e24328bb79195e1cb8ec5c30fa4d0aeb228c820e7edc8, 0x840212cc8df69cdec9a5d73b33f77e6630cd08a0462709391407c8857b09be1, 0x23a2a69b4c1f2a9d5da9bbc185ddfc88facc9958428e06fba83d67a6bb7cca8e, 0x2990a00237ce280ba705df85715600a7d425d4ebe2b13ed3b42b1b44ae48fe01, 0x268d4b3af37b5f5ec11836ac54c1ced9c569390d0463c316c2caaf71ff452c50, 0x151286c34d2d1a88fc9f696e6c762e833309a6710e03831212d317296b1c211c, 0x5a0f37b771fcb8d26bea09722510af9bf510ae84c5f0106d3824aa274e80f4c, 0x2186448573dabfd800c596cf64703bb0bb45ef5b8a91fa21009862ae3aae0c0, 0x27ac5eed415340d9907c6b414708cde2b99de1a550be1c26d6ef95c6ed5fb9ac, 0x118baf60eb743773cde629142c30f86d49d633c5879f1977aeb8496971b3b956, 0x2206f4af9dc21a5e94a00775629d9eb46a104ecaf0d2188122187fbd9c5f666e, 0x1874fa5cd6fedd8dce56a38552b35512bbbc6ca56a4bc6410406ad149bd30589, 0xf22dcdbfea00f4bc89dbfeac7b3dee60b16ee9a74f13588f5879ba714c827aa, 0xedf94bf49c040df972e27701e16229766d84197b29f023406564e32cfd8358b, 0x2d24ceb96532b06e751d109a7efcd29ba741e61e3472bece30c7128c47042813, 0x26fb8b8eb2d90ed4886b9982bd3255b9df4690f84047ccd4bdf21810720bda44, 0x1952641fff4b577803eac12d290acc39f4728e3fc086f3f76313fb2b78da5b20, 0x2233ba51923c10394d1ef8718a6e82d84d9054de8c8498bd05d52787faa25e32, 0x10550f7d00d83f1e7fb7e1c9772f545e32e0a60ca3ba0ae168c750147df29eec, 0x7e5e890c3e62c5109e3790d2bd1406f8425883abfdde19cbba3b5aa7b7f2bfe, 0xd611acfe2f91f645a07af0ed66ea813d7395b09b4e4b3cb92afc27a31e7cfb6, 0x1fc4f96fd7c7a69fee8092b6d11c7bada79e851324da48e658a166d00e66820c, 0x10b23d2c5bd7e976228e19064ff33921faa59f2eb4c8652d39546479d26ecb7a, 0x2f21166be2ed1b2da47425d6bbf4ea1f2c5aac82b83265913f6ea70a3321cdf0, 0x2ab0952fb29bbeb0d5728f07aa4d67431c1d3c348a0f1db6126e47cbefdde394, 0x2a10c76f857e47245d3c145ce70c87a1995448579647698c122d3c7f8087639b],
    [0xe30a774c353a2cbf244d3d014d1a0e5ff0bac5e242673ae33f1bb2030feff68, 0xe8bed4d86934cc84383480e2301331becf2a8756e9098c8a5541d39b3be2084, 0xbdb68bb05cbd1a32bea32b8daee97ede7a999c31e66621b4ecc57e806e9b68b, 0x1c68215101419d83d15a0260a0d19456d8a4d552edcef12b8eb3c8d0fce018b6, 0x14c45f6a32e995585ac81545545d2803fdd9cd0fa462a89f2cc8d2f2869289fe, 0x3c63147df05188262fe56d1991f872b8069a6c07b7358d166003ab422a2bf67, 0x27b093996711ee7e4d1d6566008eb46b53bc45925a385ba64c4b314e68f5f939, 0x1a67fc8776cf402c94587340f50ff6a0037570c50f24daf71d3b14f12c37515a, 0x368384bc98a519dd78434f63f92be511aa6ebe497a0f202c40dad53cc9ac41d, 0x1cb8fa7ce16b44e38432742589d4857c290e41ddecf1c04d19475381588dbe15, 0x23597b850f364b4569de68f1ac728565dc30fa8ca25fbc7cb04de5d7c4b97c62, 0xdd8ff19d5e1308fe4266a519030fcbe2a9dad492bf87320fee1b56378548b74, 0x20feb7de1a5e96b834f33f0cfd2be704639c024c4d40b2e130272ee52abd43b1, 0x20885682bab854ad9b308b29e93bcd9744b30a32a86b43656eb9eb398958c569, 0x19d3a25bcaa553994b945b1966f0e88877b49a0eba7cfb7436425ac980d1f4b1, 0x2ac8cfd84802b67174c30e48b6b805af5ae5c0e308beb82cf3734fab1cebda79, 0xe7309eb986b717f72684842ee44266078aa935820e854ecc26e86b304a3aaf8, 0x2bf7eab7ccb382e902533c265b264ffa63278fa298fd28467cd075a7e3bc332e, 0x83dd2953c55d5c2b9f2835c418fabe9f31d712601bb68964101149a09100404, 0x714ed30fb5590de5189a271e1a8c643e52ab0e5f138671efefe328d85eee14b, 0x21148f9fd3b0722bd321a3f3fb59dfb18dec828c71a820e50e2dc0b77ba06c28, 0x2232e4d97bfb4af6fa023ed73bdf899e040c85e086ec61f64d9e76bc8aefda1e, 0x2f130c81592d14daa4a108219e2381a3c3d43f9a7fd9407eac791568a7290d97, 0x1bc3006aeca257aa1e0a79238a6aeca17b61c6dd8c5e38ff259cecc70c6d957b, 0x1e2cd754d9765e6bf4ee604c3027dd1553e6bc4c96f0a1860de5ec1ed4e7789d, 0x1b03008489762f18d350e6f59491be94b91125f6d564810b226020fbf1266feb, 0x4139587c94008d2ae2862f17f4623e00a60f095650f0f954d33e2b3e028c8a3],
    [0xe30a774c353a2cbf244d3d014d1a0e5ff0bac5e242673ae33f1bb2030feff68, 0x2e92d0d003478aad469bcb62a9ca4fc6a4b8b7b54aa20082421047b49526bc1b, 0x2fa9f127e186da4adc277ed2d0fe8ecf65d7686171b3dd9b5ba57a41d94be782, 0x16b524b227c91d14ae22fece795ab7b4e0672f93bc0be11a4bfdedba618ec632, 0x1bae132d3cb67233efb7501a87ef7d5304d43d84795422a5980fef6deb8d9e0f, 0xd64e85826004f524fa9633ff3dbd2acfe2147df88df435e71935e5184c0b5df, 0x7a8991e9213182f06e7f27126e583ff1002b732d48fe69898c3dd1854468c4, 0x78a71ff06f3a7037e3acea1df2f04e326774ddb20d6717052065d5b48e4d9c6, 0x2bdbcc0653dff0b864ba7c35a2053688b9a13ccf83fc78b5857a91183c634ba0, 0x135c4770b984ca724061061017f6fac63ce3fd5f42e3271af748221eafa486dc, 0xbe4b3d77e216a0284da484fa0ec171130980d6648a10e81494264284df500af, 0x1d33a1eac83aa2e8e33f90bf9ac51bdaa186d7714de7cee4357b5768bdaa03cf, 0xc80a19a319c0095d10de1473bde0636e199b13b8d838336a0133f86e9fd280c, 0x1fb00a5d5448228839fca9b108ddf4cbeee2e5c6a7cb8d6bbbb33daf72e5dff0, 0x3428c5cf5139a60a19d3faabaf6d8571c01242000e216e3e417d37476da91cf, 0x15313c7636e93c90281b5946d1223bb25d849c6b05a9c6e58e3459d4058b424c, 0xbe94e5c44e86577fbf39b9db0d3ab08a8e90a14881360a3be8e77b1465d6a08, 0x215f4fc3b36e8ef41ea226080fa331489bb1f5d5b2e9924b5f419a2900390614, 0x16b0162d774c50882a9f2739bdb279317918d0f75e2fa75bf24e9ec3f1a21102, 0x12c30feb12fc441d6dd5059c269074f10a69decc148bd2283dfbe594d2a538a, 0x1649c52ddf7788ecb2150a1a48aad096b4dcda9f517ab877a11927cc3eb7fe9b, 0x6edf4bba85eb1927ffaa307aa9385c0e11eff4ba249a8e605d624f35af6f9db, 0xf61ad25f3641eacf1ca4fcee3830d5222f357f046c474ebdb732e0211e49e40, 0x2adcc2f96c95a40d796e0c8bddf303d75badc37ac9aa6cd3173b868f6d177dea, 0xa50edd8bd899b1d15dac22136bd3a3ce00ad0d581188aa6c2db96ff696613ba, 0x26a9ed9b96681106cac0e7706f4293fe79d078d918f25f07a9243b912f5d5238, 0x19595ba4019162353cf21250cafa1aa64a7c0597c0d0af5b1de0a18131520439],
    [0xe30a774c353a2cbf244d3d014d1a0e5ff0bac5e242673ae33f1bb2030feff68, 0x969363ad2fc56dedd932a66bf1193a1b96276f16e423f78cfd790850bf93477, 0xf364b0a5a1b00f7192697f5ca0960680b217e3fee2ccd320cd408fdca0fa7fb, 0x100fe28b46e80f15e12ef4d5759fddd560f76bf74cee6051f23ab10c8803f474, 0x2dd0aad73d277f8bc1c76d2133bd8c8a8ba8bbd573bdfc1adce1380345bf233d, 0x1ca5603c3bd89198d450960c8bef433ae368efe4be568d1f8f63418bc67ba269, 0x1eb4203b299398722feb50f86e2131f870ab2fee6f726876b9a213a69c8b34c5, 0x20d3eac3a69ed9d9963de0a1d4b554ce0b5e350033c7aab8742fd258af31392c, 0x38ba0b5c2b7c3d41293047fb42ed9df347056965c4d73994fd38e0b3d0c3c74, 0x226c68b53ad316f22f8aa803a90ffb02c489364fcb807ab2a6dae085a2c548e4, 0x1159ad22fb4656dab10da606d298a856831454bfb237a222fa393a997dada332, 0x22d898f074eadbe133b38174e7629a3fa47f8c92e8e67f62130a00fa7502b956, 0xe118395fc451a7aa4612da12097c4372c92f7b978f5af092a4771e09a13343c, 0x5b91237560989a738bbcf80a2175422656dd27e0f5f96741d141fd19392e462, 0x1bb3f133c2d5f7930a9decd0caf63f17c5528844db26efc336e5101f1868545c, 0xa39ee8089241c5cbd69954994abee040ccf43b9510d54a05056194912963bfe, 0x11d1a72d9666be10fe5fef74e6e06431532f5157ee24ada70683b9f0a586b585, 0x2a0872f23949f213b46b463ad828919ebe034950429f91fa3bffb275d722b47c, 0x1da2741d74cfe7a159666231eb9981749a40bde5cea6f1a069dea57cf460ed45, 0x225046f36d161704c26a8c378e2fa58859a2808f94d5242cdc3c742c530f60be, 0x2ac5e790d78a3b19e40fb98b247ed9caf78b47d884da4bbd70359482c2f4ac84, 0x2a9febeb411787c59c6b8e51108aef6d9dc63aa97cb314907602d5f6b702175b, 0x10519bf4b5d77f8397a4e51ad3dedf5b0dee2b25e08cb5b866eeb2a891e0a6b2, 0x21e9add284054cb149e67ec3fc4208b9e0f8a8c2011ab17bfb3c4e4419ee700f, 0x861419b33d1a9e2a944bd86a22a03490fc560a6e3f3922410b1f4ceadbf2fce, 0x204bee088f716345187c1c25fcfad33eef88a8be606b0441139f03be3d39de21, 0x21a8509dc07b690f149ace959540eee40d485db5a21e3a2ce9dbe808f621c92f],
    [0xe30a774c353a2cbf244d3d014d1a0e5ff0bac5e242673ae33f1bb2030feff68, 0x2bcc9e799065b89040280d6bfa90d9b0f98ac91d5051d683c4dc19c6d078592e, 0x2a2af9ccc8cd9b8976ec203de687836e6025e0197a9e756a094168da234c6255, 0x22cda8a2057a524f13ec0bfd8cf44482691536cecc3218c934ca7f21126903d4, 0x195abafa1531518d101c427496305c52e3d2c9e5f7192207f23985a15a85b384, 0x226c92973e2bf06e8800bce486d3b5c5b086e9717d93b79e4084a9a3cbf41dc8, 0x2d4b19bdffed4790eba5957e4545ccc65ffdc300d945b11fead52f83825cbbd7, 0x20c83290d5ef608ecbd330a998cde98936060e1fb520652c9d6eb1a57558f91a, 0x2baadcb57bf46a22bf299c393d1537bf2d612cfdc70413af5e5d8261f87dd73b, 0xf09875c2570527eb866d31f96e357946cf01307d89962db0c6f16a02097d08d, 0x2a29246703689c0d7c52136c2b548245b34bd6b6c341ed99c340e114b856e0fc, 0x2f05d7232622eba1583bf831f6a810ea116f0fd933e142650c58d6af1bcb66c3, 0x1afe5d1e1b64e7741039d6c26a054b7300ecb7d052d89e8df8ce8f1fdb5289e7, 0x1925f2484e57a2cf13139ddeddfdc2b9235640c4e40e7332d1d632c724801f88, 0x7752556340dcd48531bcb144583ec742cf7539c9ac2347363f9636ea060f39e, 0x43c28a9d6f38ca50f057fa71bb6f07c62295fca2197e056160e93a6c82fc15a, 0x417aaa17f575f42328eaa4ba22be7207ffe9d26564b42a24b41967f3e3173bd, 0xe6da876303fbed7ee756fd87a8f3e1636325532adf26bff8910198c92e0caf5, 0x27fa572643a35732cda21571d390600f9188739764febb8ddaf9c01bca807ff5, 0x1a510cee95e7b6f4efdba5612e8c5121c1ce9cca1a376d8379a1fdc206a55fc8, 0x14424c4b3e51ffba1869ff6527ce3ae53dc13cc1ea19ccb5c8792ca6be287753, 0x21a57d8854d6cae5d0818d294fcd9e1a2dc71691a2e3f9b227fc7889cb72182e, 0x225cb50db0b73b20058ef3f671fdbd2c0877a0defb8392630a01ceefda042d16, 0x58641892ea470cfc83e363c5b880eb8263212533f8ba6728527c4636f3e0113, 0x1f4505746ce4f65004b43f9f0017d2602e1bd44ee569e08fdf832d91531cc2a1, 0x2a076d8186db2528d94fa47dc41721629bcc2fe83eeedfc433c20e8cf4c3efce, 0x1dec0d6f62e19a1d2ab02d6c4d6a6d7a1dd1387a4a1fb15edc8622e1a3def5],
    [0xe30a774c353a2cbf244d3d014d1a0e5ff0bac5e242673ae33f1bb2030feff68, 0x2a48253491abad4561b2ca9cd08cc1ce7ae0335240facfa6efb4fc653a48efa4, 0xcfd514f09e0699217166e20a7eda9b00512b6146af51fc1776dd6980588083a, 0x1937a11923000d95131baf310078bfeb84b99a77e027e8d0d96201b918132ee9, 0x303cfb90a228509ecf58fc6e94dcfa0860d206b34b28a8368a3559a57add1cdf, 0x28930e4b9ec17c58ffa7934c216ab1af55df309d115d0789233f84f2c441a535, 0x18aabdce0da91d3b644bd5ecaf154ab7148f3c3326cb01b593f8af9efcad0728, 0x391f2ddcc9bd6fac600eb0c26e0b1a9a27571629e9b00f080d876ee2f1b648, 0x1d765c20a588ab7217fdda5e01dcccde23dcf9a9cccec4d8f424735f39e25f3b, 0xd914d807b0fda1cdd76d1955f170ab3616a35ce53516a81e315825f93165905, 0x22492619b16183d3180c15994c2508c83737ae2a42d968dac85af30392294e7d, 0x11b3baf3833cd4a6039f2bd42af1633a47f240fb88a7f0ac0902fae2a5be3510, 0x207c403b77244c8018d8845714e68566216fbfc49acd0107c55ebb88e0de3949, 0x2c9e431e04871524a5262b21286d04333dedb393a078f2fed92266ac22fefa6a, 0x1fd093032821a7772421e62b4e3c23a195d27ea4798f9a3f5a6c7d4d2db583e6, 0x2eaa82b7fd1c061940c2a77bdd2fb653842bf1b0466696b292cd304b490752eb, 0xf98f710e410dc1552fb69cc85076b89b4fde8f27428a30b58219f52e422d130, 0x12229b56730ba20a6a52d21bf8f7312696e8cf6537f1f6c50bfdcaaa4ed4a7ed, 0x1c2fb95b64a0f66b65d9060f1f065bb82ef882af760419aabdc6cd3529431e7d, 0x2f2fce632964228eef7908478c90107a5dde45af647f2323ad8a612e41c48154, 0x61849aba4451458f718c3be3f76a38347e512cf422d1f907a82da750dc21478, 0x2cd60c32d6ee36c374016bd4f1c0b273ff87315f6bfe1dc9a81fa0ecb1264599, 0xc3e897a8b91c108ad19b152e9842cfb87c4af0aec8dc950e0fa325ed4d69ab, 0x7a38f888ba67b2150b0e6431ce02408681d2ec80c8daca4c51e65b59d329fff, 0x1af524a87fddafaad82b5231a1e75e8076c66c44d3b527a259a15422870db619, 0x1159290a4743365d781e01a0d6bc626832260b07df2d0f288d15c95272eb1f9c, 0x9e51cd15182d20f87b09cf6966f9268578c3d9cc58b3e7f981f67502f9478e2],
    [0xe30a774c353a2cbf244d3d014d1a0e5ff0bac5e242673ae33f1bb2030feff68, 0xb0bceee45e31b08c0548711d59c548f51b7d1a80ccefe6599b5dbad0db4b738, 0x241c6fed92ae4e391bafe3af5103035f9fc1f727a6dc8ee5f61ba9b1e3eadb9f, 0x26aefffc4043b22cedde88f2bce76faf6fb3c21b4eda9d682c14dba06fb9e87a, 0x2673296dd62cd736659080d030b98914f6f799752403ba5c29bf9af6afccc8f1, 0x22ca97c4de769662b071f7cd75657c15e9cb20d744edd0a7911d78b6a4aaabe8, 0x188fa74b7eda792dc3660885901c82d57050e74b09a12b5f346d34e1e5f67614, 0xea0166cc4c51c2252e4f3dc92fcf33a03964a03050f9f125b87a7fe074dfea6, 0x2134da7fb4f089a21363011b08fb72aaa8fe767c618bdf08d7b87810d5fdb594, 0x2be62c9234dc7d3db66ac72c758b15628df1cdb781c90d0f2f23de2a29005105, 0x282ae8812d729f2eff86f2ec478a65707c4b63d33443bf6d8f872569c40e442b, 0x189e7984fa57098dd737293a19d6f60971ea7c74fec600b4e6fa20cc314f015b, 0x1e20cd3dbf4a75643421e4fa713f5ceaa35ed0197150182f653ae9663a9e45c3, 0x23bd66cfdc54f92e0d532ff413a2e2ff3cf6f561a344463e5e0a0a8c5a010304, 0x42657182ee4b72e3e4408528c19b71ccf1d4f5f38acb0e5a5efd641cdfc6b7f, 0xa11abc1daf1ff8ed6afb6b0a6370bd55fbbe7507f1da568f39b2ab9dbb6e340, 0x200edeab8b94daf3135eb6046388ccf8c7140d91873d2fef04b9c60f509c7de7, 0x58546b9e80b2dc22250fe5c53d66aa14be31d5d92b5c04a05e3525810fc78a8, 0x1670b9e07e02e88814eb40a43d83bdc010739e9ad6799c10bba24e1f40b8afd1, 0x1bf39f979c015af4af119c137d5c8a334ed0bd0d7f89626d4f79ef4793b91324, 0xe19dcdf5b4a1ae01fcb6c6579db3fb615bf176d53e6ad047ccf905861acd584, 0x28f22053f72ea545761afc9557c84b05c6f736ebe7bfd2c8c5c044d09bbd4d4, 0x56e7854a96d6bffb29945d76b51fb9e81f5f19ad767171c568b742e926054c9, 0x2aecacf169f418d8f47472db625ac3bdb5403667c61457666d4238bbf39d6638, 0x15b04e62d4167a166f14364bed196d1d0e49c8ccde5bd560e261600dda4d3c3f, 0x15f88c4b31508718af67c6e3c30cf3cf594fbf481a837e80e89156d9c2d1be74, 0x14e6645c7627e744f9e6140679c863325d1d95e1e4786e573a498b0a790b431],
    [0xe30a774c353a2cbf244d3d014d1a0e5ff0bac5e242673ae33f1bb2030feff68, 0x1afd97fac1f6e77c5cfe4bce848b93051a26a3b7d3d6b18dda048863a013cce4, 0xdf68cfb65503007db81044af06d38ce63fda1f569a7057f1848ee4597d87c01, 0x1086b32477529f9476fa324d6d9552bbab58956c2e2095548dd1bb20e9be078, 0x1611046b126acf5767561c32d31a36c5070d645bdf08684240a72b9832c3bf2a, 0x1bf3eb5fbf1e5bbde992521837a8d3a15a187921832989b4d357a1b2ced9b36d, 0x799a349b10cdde87ae631ad3959d6f9664ce23ee91e010679ddcc6017ef120e, 0xc55d0ca35aa0d453acbdd8993d05b479e13fce555b634fc6d3e470035b0de8, 0x20444c1bf67d6ce8afb0a20e79d6b691bac54bcb31ce4182b1579ee21ea9fc8a, 0x22e8f59cbb4f92639cf517fd119eb650704b00e6eb3f58e92eb31e713c1b91aa, 0x1b4841aeb035b2e896d64b59b47873cb9c74cd05ba12436e9d1865a4a74e8be7, 0x133d49d56c7809b942db891b424b30d56ca44ee7f73aa028a5e577e82f509968, 0x698faf29f83281d3fd421c78ebe694cf5eb371e29a09354741c59f4a4abc6ae, 0x9cf68b95e1a447226a8c39440513f965a41fff89a1e1618c70ae4be00e92c66, 0x57a0141a7ba203881e5a90e6d422e6d9001eac737fd9860344191026c5fe545, 0x1b71aca0b352c5ee4eb06dea7f4202fa1b908f08e2be55dc0834a1a873607597, 0x142915304bb01cec99a22a96d1af31c3133829bea002ae98d7011fa1516160d2, 0x4aad51b11363b30a26aef78b4af431dd8bd65dececfcd1a6673d8f96a0e6c16, 0xb63c18b78503b6a47a88f4d54c4da7a9c23fe346de39a8884224a2a85a9511a, 0xfe10d1f3c9b406bfb832e85b8a844c5c4dac7398f2dc3ce2541dfa71260d259, 0x2a42420809746917645806d70631564f61103186f9cc644df5b7b0ee4e6a27d5, 0x5a66c6f50d393da791e5768de874774d066f0874118f0f417b6a036a657dcb9, 0x21a4d71862dccb7c0a0a9b80945c5be92307f147f29917684378111cdbe9d2fd, 0x46f855f83e16426aed3c81f5a2f7f92bec7ceb71e3dc7e2453514c1081ca202, 0x185eb4c67d4f479827980a96827cdb79988cdf8d31c2f8d2532765f4155cbef7, 0x2a4294d3919b5debce649b27b63f40e5406b2f044e1d41d58411bc00719d3e7c, 0x2a802da0e4d59259bbaa7dc3227ea2d725f6cce50332661f0837cfb87af4af94],
    [0xe30a774c353a2cbf244d3d014d1a0e5ff0bac5e242673ae33f1bb2030feff68, 0x154eb8f04d175057207d617931b51ba18ec3c830e1afa755e8ade5bfa71c1d44, 0x1c5fbb238cd09b4ad76154a2fadb7e7d732bd534603ff3cbbee8031cdde7b994, 0x1c3a7fe14c3ef7f03426643cca0e6faad2806f9dee971ba41c0103d42f4f116a, 0x928a9730b25d647c4563b4a7273307c94c347565eee36c781c3b8adc53973f3, 0x2aefe39f4fea948261cdbe0accc5c7ccff6714fd741fbdcd6e298249560dd97a, 0x1feadf4aecbf7c7f1f526d0ab1ae1513f1b4fc8731187f9b65713377c9062037, 0xcd2f2d4d826d98ce3bf08da02ad5866f34c9b43f2068da4e5b33378d93c4c24, 0x2e7b56a6409134126d411b560967c46ddf3a46fa47dec457fb82a070bd448b05, 0x23ee37d1d1e1f8a3b10680bdcabcb89268a4958051e8230d14a0605af857d190, 0x1a910c02479a6795981001f40273c702cfbdcc1c00fd03de1f8057bf2809873a, 0x2786abcea27c34cf4ff274769e51787932001c0640033a7c89914f44bca3297f, 0xb27d402fc69e2f23ef8e60420a38e429da969f038cfceedb073e12f28a5a260, 0x5c8f462872ea76897742babd1099b0aca77864a1b165eaeb8dcbb3fbfb95286, 0xd29130c3cd0ab2358ab1683597256a2f7ee611376b9329b8aed30f69505bda1, 0x167beb74665c1a02b90450914870d4480472b6b2bd22563750afafe3de5fef8f, 0x2574275c7bc58879004d63dd307638b057eb9bf99388ad4788659f957ef5623, 0x1bafe22329c00fceba1e48c5f61bdc519b20eb352e183859b2434eba6cbfc4f, 0x40f25fb048f262d0b88e5a557234c4f35ab898d104cb2eb960905e1e8ba5a80, 0x2fc7cf259a1474e83243039afef87ae87f1a07bd433405084e3e4241c413aecf, 0x30144980af35b582d434cab99e08835bb09644dad47fbe036aefd9b19b713ae1, 0x140f2ab47ba1a08e4ff8c38a8245b79fc20c2916fc3470e4eaeb0b3654b4a6d8, 0x97cb1acd89b5b12e82e14571e4a4ef516f5c2693f0bf70d4c05cd4efc72dd9f, 0x30435adf792ba5a8a2c9fb599c91a1de531c7fa809f3fc364761e8e68f3c99de, 0x17acbbffacec919a115cdc4c303f9335febbb1dad12f0a1825fd41359ef73491, 0x45ac0782c8edd00c6d7c0eb594b799de598bf538c80f467fb7a4eb1f6b01d85, 0x1e15d1be8d2281c6f25efc56b33d72bfb59a61bd91518a3de93caf2a357d0256],
    [0xe30a774c353a2cbf244d3d014d1a0e5ff0bac5e242673ae33f1bb2030feff68, 0x125b96c678d2ef181f7e4bfbb795150eedb5b46a913d6571d1b204790a2c7b0f, 0x130be605c83bc01c1fa0e64c79ee75b27d4b4efd892368f66959cebd8ef1d79e, 0x3051c6918396878ef98b13b7c484c6695a093ad607bfdcd87f01b79d420e731d, 0x2635445a3f66389b4638ebb81a36f4ceb210d5fc5466209ec215c08023aca95f, 0x10bce0fbd3a8796152759cc25f72601dcd99b699a8c34686e43fd2b6d1b27d89, 0x17dae8299eebde0062043e9e93267fd1b38d6f0bcde5827c10822b137e4bbca4, 0x2664e95646ec5ed0536a1ae2ffc84165b5a3c295c21e58606c95037ab746a878, 0x2b8b53c8e90382786b60fa50994f281866ace7a311a40af07b633f3c30fc7776, 0x16ae53f5d4c63a81f4fd487793eaf5cd2cb03e3c8236be7ccab8c20372f911f8, 0x127dad336628ad2bc403718c4983c136f34cbfafdf3e45c616af7c7e1ca8793d, 0x10a10801dfd21422b4f5a264c2eff2121e0f716512a9dde5e6371eab17e6e7f8, 0xac6189eec8ef4ce3928d7756fac44685b425ce64bee3d4852698709e769f45d, 0x6f49e55c72efdc84f7ff6306157d770310b1c4e6e509ba3919b9466bdede393, 0xad1247adf1e4bc8665343425bee4d3f35429c54d6bf4a8ec3b16dfdd1dd3a45, 0x9f989c92995f86daf29a92cfeeadce5f105a0ae272b2253bb2de3758a771c26, 0x1fef396daa237f6467f62441a55b75cb5a09fa94cb1fdb270ac309487fa682be, 0x130d74deb88099e35362801333bf7fae8abf96165fae4b8179579761ae1de1d4, 0x1b1e63b7d8b5f8d9612dc59e1aa9422f962761a992079a8e8bfc91695ca204bf, 0x2d5d5c8feaed5dec95fb9d6674066c03d6cbd0d584084827214b09553adddbd3, 0x2278a2b596a3d0af0a9365f954adbdd2c8a1514cc906369d3b0402811c952a48, 0x11291006cc6718940fff0378cb6cefa09db4b7b7c84d447ab132a7a47573babb, 0x1e0bf04d48d54e8cbe871bcdbfe619ed38fe69bf9d2a61fb5def330b2d7f4078, 0x2b0907cd35c62152c10e47e930dca88d4b12c5afa7e2836c2637ae73500b765e, 0x2e5051c91020bf6c73339f653843436ce182cfd487c02a16578cfc96d27c31cf, 0x1227e0c86ab02adcaf01cfc56cffc815efeab33ece8c164c31bba50b28477b13, 0x103b328f8e9fef02f340e3f679d91d9508bb1eed21d98d569a41583aab595707],
    [0xe30a774c353a2cbf244d3d014d1a0e5ff0bac5e242673ae33f1bb2030feff68, 0x1e3d52642e16240dd7e2b0ee21cf4b3b4cc10c805fe52009dc7520457180945c, 0x1fde6f3b98df6104d07b84a703494892d8fd21cce53cfe9ea41c4ac6e5125269, 0x6934a63e04749754a1980371301caa1bc00ce38505933b1ed0e085a5755856e, 0x2897d663791c69c9bfe9b313759be1cea16299e667c3acb3e9f18079d39209b4, 0x2f30ba6752d0900a64be8d6be8b718eda67cf96af95a1e0dc91e720dde3eca49, 0x219898fe3438a5e5bdc5a79611084e0977456513586fde2b23b5e8e34d7eb7dc, 0xd90f0afc59b011d2949f998d7c5e4c2a53953aef58f971a458704fd88f6a27f, 0xf21f3710b4f641ddfdfcbb67d13f845216ed16a0f1c0b450acb82e81c85a93d, 0x2eb036baa89d926515281aba071798e7397122fb51f4504e07b6acccbaa17af5, 0x1adb3f0ad3c7e2300c717a6674e22ffa2611978d8c29e3d21012fbe7606ade6, 0x11e1d1fe7ad3865581a1a8930698e676212b04c64773601034223475f91a7b69, 0x14648747b8bb5b1e8b433222a964b95c4e143f70d6b26e6aa620e1c57c842ed6, 0x14558bf2daf718b30756ccb88e3890ec47f25b4b5e087cf9d47f33423e97a902, 0x2e6d0bac325dda6331e2117c682066a1be931e8b6bf889e5aa8f716bc14358b, 0x1bbe690c183e54f281bfb4bd843afb3961bd3e428c81dcfdaeb8220a3858736d, 0x23528de8742f3238128e65c88122a5e74f26fb2c1162fdba69f65f7d971d52c0, 0x13e395afe32392f6fd5c4c5c728eae324d9c247649a6c3412475c4d04c6b0ea7, 0x1ff38b45c4e5b8682a7357723d20949f7b792ec55dfca74c72dcb53fe68c92fe, 0x245ded3dbd6c3db094bc040def9c4e8a96e67498f9923224388fcbb441109dfb, 0x1f6ec4aeaf3545dbe65de9602ff4a22c48911ca6647bcc632c857ffc99a42d99, 0x2431b237299f1a5e8ef22569cf8db020247dd0e7a298716462106e5519d3fdfb, 0x2e4939b015f27fdc938f5f1ca55e5d7e912045ecbdcffedeefcf37ac77ddbe5a, 0x26c061cde477c7011c04505b0126eff13fa555d248df1968878956209d36e031, 0x1c6f21300d13f52bed69b2aeb3dba9760a94ed945673e3283848cfa5c4555c44, 0xaecfdb86a64315429605fd463ed664f224d10b2e0a32d35d3a5acab914655b4, 0x25a11f201fcfa64aede18e05fb19be93cfb4c15587759d5e5110420a267a44b7],
    [0xe30a774c353a2cbf244d3d014d1a0e5ff0bac5e242673ae33f1bb2030feff68, 0x133fbbd86858b9143bcc298a4d783e5b8b4ffc4290d1d61e87d1ce5fa4f9856a, 0x2cf3bb0c00e204f18bbac1f7f093b9febf2ca7542f44072be70cd915d2c43b53, 0x13c1a4bbd3a938e8d0399ff791d86962d7ef1504597419c2c00f421d4459c55e, 0x1b008db98dcf53332b67c287841ed73838203b2d8598187413c17308bd8cbe30, 0x1e42bc2844c8f32ca38ba9a1d029c7250d75a237eadd2d40969ed5674ff88fab, 0x5e9909d9b2a8645974d54fd3ce3e734fc0b99236a2a590e6fc564fa00c806d2, 0x1e26282b7dbf93f3aab257ba1e13eaac39ab22fc81b7252c079a192c113ed7f4, 0x102a6b3d3a90d1f67e639a27e76023612e096c02df65bf64110ba239361e35e9, 0x1f8d425b3b39db5096f4897d43838bb2cc77b4ed0f1d99a7208fdb45faa3b3d7, 0x3d122f74d869433e1457806b82f38cd91103972e456ced5ca9fbc375497ca3c, 0x17943c0d333da5d18d0856b442553e882c75af5684f2a8127a9d52123b350c43, 0x1cf484412484df0cb49e3916db14d6bed50eee93dfdfdd081480da21b5388ce1, 0x3e41d466271e7fc632ee7e0acd2c4c446957175ebebf55463ef9e16f48bb9f5, 0x2abd2c1f5f2ee158080419092b91d64876bb73f9aa94d20824e06448278f88c6, 0x1e979043b35e1d57826c8f7192a1866ce1b287772cb266eddbd177b3c6186d8e, 0xbdad4e92dc796512c4daf27a755b5c5dc6c666084c648c4bbff65ff662c667c, 0x305dfb6283eebb8f5bef8a33e0dad282ca92ba895e85853d210c7cc82f56aedb, 0x273238f0bf3b029f5064ad1beb0129b9539edf1ab828a4d113fa7652f12fd273, 0x14b12b9068950f98de141ba4b38cddb1e398b0093d7e118651d518a7980cf6e8, 0x3015c78de17c6ccb86e47c1ef08680b12b948b5a56da8a371e6e2e0147c42f51, 0x1989f7bfdc360a572379c14223f75aebdf04254a589c9a9aea6d80e020e13a21, 0x2a65e0ea8cc0ea69c631c16bd174828cc79e80143a51c35a8dcddc6a36e7e717, 0x718f6894c8d87898d8db2c9e3fe7e924b9e31221235f56a11d91c64e4d65fac, 0x26fcf8cceb403f4ba44219c27d6e595b794f4fa99db88133fe1a031cfd32b498, 0x78d5c5f6e5f3e7bc47044a82bab78a85279d741c5f9d5c8f3522d34da3d8b99, 0x8f0b5ea35e699ebc6443284da3218e73f20e8c7eefa51962ed8f0706db54bdd],
    [0xe30a774c353a2cbf244d3d014d1a0e5ff0bac5e242673ae33f1bb2030feff68, 0xfb6c5b68b5bf3fc0bf849c18e813e610eee228716ce01fad6f05e005802d35c, 0xc602aae4b39cd1a84195fc795b9f4650d45b791afe4368689339630feffbc6, 0x110455540d38fc9c7ae7fece8bcfeda5602ca72823a8162cc4edf21ff54867bd, 0xb380e9795f1ae5eef24029c17d3c2f1b77f2dfd1de38d84e4c95a344070ec48, 0x2ecac08767288364ad3ab00f106c9d45fe106b02e624bdbf2bda3f92739ff03e, 0x1743f85f877aa121f1a8ebde66a3ced16e0e2c61cfea1f89f8f050d872929332, 0x4d0cbd1d1dd0a87474e35d15e860233328e67057c1398d9921f930db1c32b97, 0x2d22b693ec70adb123adb300d69ae39ccdfe6873afbe66fbfed0fd1170f0e49c, 0xfc8ea8eec07829ad468e18f804cb685425a7f56702c78bf3ef9ce424d2ff611, 0xf4aa2f3aad32e709a407a80affce97c751d6d188b6c9ed4dd13bffe6ecdee76, 0x5374852d2261dadf1e1404368b67bf8377399ab2a4371ac71ec0c6ec525150c, 0x496f544992e33a4f0c52c8406887623656aad3f25ef8feb0f485903e94a2260, 0x18a9a16e6ed044b20459820025be1a938747b97db166552581a0372127a75ef9, 0xa2f1c011a921def0baeecda662d0cd96c5d54efccc20897ff67bc18e6359636, 0x22aec007a72e506f9b0708c0dcadd6a95a61bdde90849d9fa0f7d6ca4900252d, 0x12f1607ee6f4c110aaa5575fe992f47e024df0955ab3a985ff5797c7447db36c, 0x8a0e21aebd5298400802ad68a96d644378b580aed9c46cb70bc39408bb5d961, 0x77214bdfbecbffecf5bf823ee5dce410483c9af4906d7e5e3a6966e446924c0, 0xd8a51d698768c1f62ff879f0e478e98f1157ffc88ccc234f8322449689ac79d, 0x2ca7d5473e3a7a69e048db0b7eaf1cbe2d15bd97dd62c088cc222af396daf89b, 0x1db504c331d3895a78674b2f685fcab2081482fb20b16843abd4c34f91e754c2, 0x226760b82659919d5795bb171b21f92fdf931045381c5f341d772a6018d78f27, 0x2c6ee4af1e71f1f46a56943cd1a40ae76de4db5447ce6603eae52581f81b35cd, 0x18f11a6b7218237066ddf0f730b11e52404b6418028f591d2b03dde94bf407d8, 0x1c726bc6da34803fc45168badccfbd6d0e90838303b5256be9f3e29ff5f6b2a7, 0x230da928c59a36907165396cc12f5155e3358dbb891941e3a70d239183132785],
    [0xe30a774c353a2cbf244d3d014d1a0e5ff0bac5e242673ae33f1bb2030feff68, 0xa6958be4b971b6fb712329b991d9c28ff15be0c1eae89cdd4610ce27a2c7c12, 0x18fb79983ed105bbab4fffc7c6c532808676e702d5d4deeb82ac9bf3ae9118c9, 0x2cf2b459fd8fbeea84fe88a081b89db2e7b502d94d149126f6a532831e31764e, 0x24879d31eb0e13c6968d486a3bb01ebafbfe6fb47a67f3634d1294334d834e5, 0xb2103302dbc0c7c6c86efa0fc45ccff544cf89e07377b37bd81b2e8453d953b, 0x2e2e1fc4c5443e2ee84483bb71d753ac2c70e0993cb280e0d6f6e420763fb7fe, 0x1a9e105d58a6f8fca7fb505e6240b2fa3f7d84d1bdf1dc5d60baed683049b488, 0x2a1042ce88edc0b73ef4c2c44c12d6d9ca419b2f8144c4af86ed8df0379f02e4, 0xda87077919cafe94aba4f234b6fb078f93704bb4155e9a8d55f4c7c8b887529, 0x10df86ad83b48800b7b66fec0843926e7d958f1f69e0c2ce3305a5aad0d6b8ba, 0x5ca67cbd464f830c5633b84cf3d172f88acb852692358e4bed0a5b69fa194e7, 0x6f1f54b5acc18eb09f7ac569c51177a0248e9e8e9da408cda7f06826cf19cad, 0xedcfcb405af9c2132a3992aed66c0d945d01ef726888c65a260f3c56f208b2d, 0x3009525f3f6c8641daa9fce108036bee7bd265e758ad202810cd526101201528, 0x943a87f4b786f072e9637b5b58e280b0ef10cf747cf13729fd4edcb5c09d76e, 0x2fcfcd4647f625c42f4c129dc9d782771c761134be63d3140279960e6b5e3223, 0x12afa4b24ee867bc58bc57d2e55195215bdfc1f29d541b09bf8f1311d8dcdb7a, 0x27721fde56e70f248964e39185a35af7c38e46d8f86a160b508fd63b623489b0, 0x2bc75c98655a355c8ef7d48b0db3654bb2c579f0fdccdcee9cf277f2af834077, 0x1f49b0d6af4bba3a9d89764eb3fc5a63da95b559607ae0df206034450e40195f, 0x1ca12480c0ab186896c01ecc28e0a41014814b9a28de45fa0b79b90a7cc8cf9, 0x1040b4f3bbeedbd2ffafba407c214cdd8abd6555cb54d590f2edea7145d9a48b, 0x131f9b70a247303bf84112dacde19a9b953f26e7274279dc974b643314f51d61, 0x102a78fe962133773dcdc7e30a00f87fcf3a3ef135fe4f01f9a9517b572e0379, 0x1389adcc893fb4478e38b3f3477b8c23c41382aa0bffed4b8a54f8c87ccc6285, 0x59eb07efee98970dd36e2857a183c43d6ee9560b3c90fe54515a5dbe55621b],
    [0xe30a774c353a2cbf244d3d014d1a0e5ff0bac5e242673ae33f1bb2030feff68, 0x2ff7ccae4b6aed16c52d5cd2b2be44d66968914941d91a3c9c4d38d5c76ff881, 0x27404d8154cb43997a5d6576fa461096c9ac1d885a17188bb9d7417803697661, 0x41f16639e3d600cb3859f701e46e5e38b88927dc20e429030894d0d2bfa5f07, 0x280cbce70a5f719bdf3096cecac201b2c79693c13f01d40af06b7dae353685a9, 0xaeba2eab11f80d6527144cb8f13afaf2ec9cb4c55ef424bd00e2ac6f09cbbcf, 0x11473e38a5168c35404178e0c40b35a7b2e49584246518c521375af70e99e194, 0xdb9935eab2a555400c37dcf884cb2ccf1226c4d931ad3167493ff0a272fada4, 0xd9a481cfa6ef0c5c441c790cb8c9b30e2be0adfd2723ea5c1cf0b962dc7a40b, 0x2e8fefe6bb8a391222b65341bd25b01b02ce0d88b65a496a9c59abaf25ca0b5d, 0x19dad0c5b078ac863acab028bede54e6c1f5d8f4b8c8172176ccfb53740bb10b, 0x1dcdd9fbaeea72955e6752f92205e88e094fc5aa4e9b75fa0e173e0425a95e28, 0x125eb35ed67f035219169de7f612c1bb3eb788e3740b9054ec89352aab2e506, 0x1f64f0f4b2802abd8f6ec78b6a061bd3345ddd898998ab9160a12ba55f997760, 0x1fb921d2f30b13504d31f42d0cbc3b3e83714a37353246e6426f2a8da6d26c3d, 0x241438f09da43d99917952c9f600d47a3f30b79b5ec80924f4427326d284abae, 0x2ca504ece10e731645d09ebe52614c3e0fe99679b4e210297887f45f99f055d, 0xef909466b00c00c4d39e13ce788fce28c32eb73e1e4575f396110cd78c690ca, 0x28aa2ad31f21f32f1b898fd025f6a9d34abd75cbcf29694cc35178717db80d69, 0x2e7e619b01a79ef24869bb8a57f0c1668ace7d7b721e253167ad661f279f67be, 0x10925878a22951d216c53068b9e2b8d2a2d4c235ee483963c68e75b246392d9a, 0x25bf71cbaa22e93f533d72118b04e187d20eaf3c07c96b86a857e4435e870c2d, 0x2c12c98fe7f663cc207ffb753b9c099ddc0de2d774771a7c84fdb379fbadb65b, 0x2879d4cfc6efd84feb0d05d1546968f98e11c38374db3f72b753412d2cf2e3f9, 0x213c205c362aa0d41804809efa5f53a93c4c26ac9d1e91ecd081922fae6346ef, 0x1a65b2fcd5d9c0db8dad898a002a9c11ec40412378c107a8aa0ff70d7416d3aa, 0xd6ad0b286a355b4026058b97cc6a952a6ca1ae3ae23641e81bcb757831405f6],
    [0xe30a774c353a2cbf244d3d014d1a0e5ff0bac5e242673ae33f1bb2030feff68, 0x13b5aadba85b01644fae9e2e542b8ebd5003686bc751399421a798a1ffac6d84, 0x207a44c8e2044f2f2e6953c2bf4568e8abd69824f301cca26972266e0e18577c, 0x20366c61e53dc8718125d04f64ff70881d22e856a3f4d9224cf8633143a9555f, 0x7dd546b57abb0a5f0fc753b8a97526ef3417b06a79f30e5a2f2833d205bd29b, 0xbb6251b7bbceeedb0b366e3fb117676d1a31802d373e10117cb07c8ef4abac3, 0xc19b0d2fc9236505c7c7b6a4b1bea3f91f56b56d2d4d6b0dda2b6e0f428777e, 0x3238596803492252af333365adde8b43ba1ea6722b0bef2d89eb8b215e7a568, 0x119c3970cc386d6f0e39d351d0d1f308c857c3547373173d673b72c5d555fc96, 0x13574c0b39382b249280ca5e86593852ad435417157fcc4a7d7af23b1425bf3, 0x2c41dfb547330e3cd1ab36dcd14b2b65f6db6bff0cf3fc858d7b4555e1ad2c87, 0x151ac386d35911a265199613ddf17d28ccad77333887120cd6ec04b1ae5d7844, 0x2142f184dad54cfab54f49734a6dc8e858cdea2a2039dfdd261319fbd8ed1396, 0x232960591ef4ac647c6f02bd38cd0b4e0f26293eb1bbe703603714676de7e4ef, 0x2d33e28f33c118eaa8c9a50322e0796a657acca1822b9caa8368199501a577d9, 0x12da53680185973a1018f3c8ebda54b5fdbd196a2b192f27dd4e13bda2530a6c, 0x2cea06b27f51acf0607fc354f64c2c3687f86bcf5616dbe9e56385ed5f7246f1, 0x12ae9658e5e33252bbc1761824ec8131cddd4f006d354f1dcbd17c6133fd84ea, 0x1500265313eafa13e4db72b664aa06998f7d0f08603f3b59a2d4109263c8668d, 0x121cb82b95c9461189b38b4f9d1535debbe5e49954ed684767d191d8ffd5d613, 0x2792672831f5282bcdb13cb16e9049386e09bc11a74c1b34c2ae3a52a3d69dca, 0x9c49e3fde0a20b1aaa8e0cfea69eb95377ad867be9df04c11fa23e9e559ca3d, 0x2b2ef2807d34d975db74f912e385f76efedd545addecb765209f531b82c957df, 0x7a76c4304adb61e8611d9356708e26b98920a0a3fc54bf7e8341e9e189e365b, 0x1175aab1e1215106386e7d6ab6e8c8ab11898648556d135e9d779d932bd654e6, 0x95881e72157a04b0e21686523efcc318cd810a2d31afa2c20a49bfa3ceca7da, 0x1bc2595f9eb575721f2cc048180d6a1dfd39b2c9432c4288b896ff27338a0c15],
    [0xe30a774c353a2cbf244d3d014d1a0e5ff0bac5e242673ae33f1bb2030feff68, 0x2d72542a02d6093f229924f57769054f0c9f2341187cfcb456b25f659cca62ff, 0x2a00d2a68a415131906040f416d85a4293bfe098ef6c6cad01deb413ede2cec8, 0x1cb01e5cd271049bb0325eb6957d2e04fe46c4f43b88948edd3b0faea5b69528, 0x2e83b677673216f321facbd90699c9f22c2e2629191c76f7ef99b51449c8f763, 0x2575e049e33d2f09c8ced4d3f663f7721007dccad5ef54af1bf0503a545d78c0, 0x27885d131c5352064f2b1dfd7eccc9c1eb563d86f3d11a4901a4ced089dd2537, 0xbe09ca0f50c25da57ac348af3c0c51483babda2e62b2c3b55d00f1eab40c7c3, 0x20ea980b40600cbe365168750117a9d40e156e1e7633ff512573544ee7be34cf, 0x3f0218ea64202e828409a7c012c47419edcf7ff1c2902792c117fe42756ef64, 0xe6a42b289d3df7f5355f32dcf2a507735a0b4e6b4ad2ec1dbe976187f62eadf, 0x224853c3ca29c4fa226d98c4e2497e21000225c6a0e0902b3d801d8522606b2f, 0xc5295480691ee73d8098e95570a794cff16c70ce743bb8a42dd627715648416, 0x148645a642117f6c5870fe24306f9b0401ffa1da04908e1aa0f6b9423986badb, 0xbe448a3f7e892d80d18a4f34e16919f8547536c517b49ca457fc4ec9162a334, 0x2bc573630f948a668f64606f9128f8f0105c11b08a9dce89aff3b02a00f0a5c8, 0x2519650010b2b9642414e33338b47f1d33ce4976d19f1fabf8298db70deca1ee, 0x2825ddb803da718800beef69a8630fc7f3b58206f06c008c9876772d5227736f, 0x2f2c24da651d81f403fdb4dce59e64a2a6bf17e83f562426a52b79ab5e7401cb, 0x3bfdef37744dd23f5ac9e47fde12035773eb7a1c666890f3d8115a0c0f1749a, 0x2df9d9e9d2c54cc87d0cacacc229d561566b56b0cd00a68b31dc706e3f06351b, 0x14c29bac822f6d9d454c11d35520dea723fd79b06110c8135e178536120a0b8f, 0x8b6fe4157191851acee98ca63208dda32c9bf73c833dd1caf158e992847a5a, 0x25a3dfe68d7513c1a26bcda26c412412a2f7ae80cfda7afbf996bc81cfbccc54, 0x2d3c0299af854fc8e64fde3e0ed04c3bc54292273adb103f74bf623e889691d2, 0x8cc27272e1668638fe3f85e5ec76f5ee1595328112a949263afc8d1406d3e48, 0x2aeb2bd0a8da3fcb57f5b428f850f41790fa68f5b54b506794af4db04a30a1d2],
    [0xe30a774c353a2cbf244d3d014d1a0e5ff0bac5e242673ae33f1bb2030feff68, 0x11ef04a3823d72d4a7e073114b2e6791e38b5b6aed376228ac4a20b2eea244d3, 0x101022055653fcd3d2659d6a42694578ebd518b5738e6cc884192e1091f58878, 0x180f05913fdc0f67f5074c976b3ce2137afcd1c1b2940eb951b8de723397d036, 0x29ecb8a00aff8bb64fe2df4221cc57bb0cd6eb6b002eef1f735b0231a72c7e91, 0x16156078057591db5810dade70d6c21de3a782d5fa3143211da32ed8f22c0e8c, 0x29af8f09441dc2c0e1344abf63fd38ba7f08490f435fca75a26390b4e59b9ba1, 0x24d8bef242f5ea95cd238844e9134d9519d6682b7448d40bc9f1ed8920eb49bb, 0x2b76b5027eafdd7a6a3902665416cb07e713952521c74857cec4a829375fcba0, 0x293dcd5247e1143980134b15f9efbdcad3e7700b6effaa97e17339745e004a5f, 0x2ac6a13e798388a97a5d9b856f8fa5aee5036fd0422f9444749f3b8c4b9e884d, 0x1f5dc64952b9c1bb892ddae76de8212aa15c49508cb760a4f579d608c665eb68, 0xeb5587c5c438db178f2725efc1b739d53d261f52cc4340f6488a8242b74913d, 0x2f58f77c4c03e9591ab2cc38567d41272c1dcca473cc4bcdd0a4783d2b07bcda, 0x1c908cf8e41976b7d63c3f59cdddcf83cab22433870351c60e4bea21aaf373cf, 0x23581184440c2ce0f3acbd6ef778e504f6162f1930e06688417c82d85a83e9dd, 0x2fca62a378c65e6d2a0b3b6d89489e8ea6bf5d95cf27f40b16c58a15f05e0ee9, 0x2390511812e8b21ad50a44d1eaad9690f187541f7ffb8a0ff44e35ce3b2733c7, 0x24660a052455c262cfb78be90a43345338dbd808c422e880eed6b19a76a42d9e, 0xdb011c8a8f6df9cc0163eec3eba51b230837db2013659415ffb24b3958cf107, 0x1bdd458fa2cd40ad49ba12709f1bd117ba67639f7b52a7732c56b98e6df5b2f8, 0x21fd3e66b238769774a650e1159c04c47ea364a48157df08d90d4eb53974c15, 0x7556eebb12fbeed954d3e9dc4d5da1ffadd578d4ccaf273acdcc0635edc98aa, 0x200a1f0fa4e71fb1aa1c9b45949185769e97d29d11caf13185fab33fab36e09c, 0x1795336032f18e1f4e392b03b65bc3dd268813b2f9bebbec00548a18ba37900f, 0xb3d2d7ddc758d320c61ee6ea8137f08d2f31f3d159bc918b0fae895c42fedbc, 0x2bf1a39486382c117a286a19ab96d73bdaa9c9b45096518f69491f157df85c0e],
    [0xe30a774c353a2cbf244d3d014d1a0e5ff0bac5e242673ae33f1bb2030feff68, 0x22dc5c692d9baea0fa2685d2c25fc510a43bafde0315da1c52c108124bd40b0f, 0x1c9a763950a409e9363997de4e3beaa0944b0f1feb3d917238409584e9c8fb68, 0x15761f0591d99bc354aa0bc4a11153cfb0b5335993e4e600d4da4ed88fb33199, 0x19374736f4b0ebf7dd3aecf4e7cbb669a53b4dfba1ddd4b951769ee44c51edc0, 0x1616bc37e489b1559a3e813544f2d3f6c05a33dd8a39c644e0179aeebc274cc8, 0x2fbed52ea54d56a8aae40a2f16262b5cab2bee4e964f32acba16067841ef5edf, 0x1ee85a9999931500883944493baf240eb51de8e8015fabdcb9ea68797bb03696, 0x2b78ea79b23365607e821a947bb4ba8035f28820f1ddddf1caba7edae1eb2919, 0xe84e11e29a4b9ac41c2e953f61cc86d33254120f426e217d2e5727424cdd81d, 0x2f28c96987a9aeea275da5f6bd86a15986784da79796f308fe96d7b28bc3b2f4, 0x2c14cf8c8c895efacd96c501d5461df5c2f9494911100a4c1baa5b40f8751ae7, 0xd311aba1168e2352b438015bd49b31d9f5ca1e8460801bbe65ebf019776ce17, 0x2d1ff9afaca2339c66e640fde96fdbe0e586e71d79e76d145acdd126066c119f, 0x1c5ec2267db567e8d5f1880899e3add17e7ee0c611605320bf32fa2d3b1842d1, 0x202908d4f1a4ebead7acbd09fcecf10a8fe557435ecf51e30834bf136827a83, 0x188d37c6825523715475a10e21e432d21a8f921b32665cdaa6dc91d31913d982, 0xd976b5ddbc8409fb64b65e1c5f458bd058ff8d789386fdd595eef3a064eabc8, 0x19268d14b34ccccd93947b6ec6455b6dbaeeda1ca9cba82f33d6e4e682066db6, 0x68d38aec68f918213eeb15a3d5e65b3a3a4ff930b59b733e34b0b295f6db1b0, 0x24cf117219d823994d2210d2bc2b60585cbf6d667eaffbc726c2b68a3fe466f0, 0x122577912131a547f85c741fffc4d5aa5f6e45453119a63c3004f64651e821c7, 0x1996ff6a6f3dafad0245a77ba200d39de3371ca2be5264952657ac703241d4fb, 0x1c84f6cd3c3b1d091534dff90e04f0675e6c6e60aa660c3dc4366eaab3ddfd33, 0x11f23290442ae048c2622f3be83e52ab302660bc6df31171f26bd42a5f356fe7, 0x2311bcb36c72d2a3f8b103c39583be307ab91a5b020252f7c8015e1c9ae7e56c, 0x125707cf76963d6475a5dc5c1f832166070dad40eaab70cd31b51e83ccadbcfc],
    [0xe30a774c353a2cbf244d3d014d1a0e5ff0bac5e242673ae33f1bb2030feff68, 0xb4b8a05506a055387dd95d95f3c91bf6a1da689ded43e1f548f703649486988, 0x1d0c6ac842eccd47045e4ddb34e04c1938f9e93aa78b5fe2c0f44b00c6131ae6, 0x8eae224067879f0830f967241ed0821f41b0e20f9cd8a6121f07aac10e30cc8, 0x73f79694b751847664cd5da30f38013f2a52fc2530a56f01a10901cef975cdc, 0x1294381efbe257c11ce6136df76cae6caa4ca5ec1934f1a7f5d4895e97391a5f, 0xc80e686ab09da319588f7c17b27db8dc60981c0feb8b2dd58be98ff6b3f553c, 0x28b442efb75aa8e6b0d277ac13613d59b09959b3a1e90b457f7d93fa7bae6766, 0x302904181cdfa19f33aa2838f6ba83cf0202f22054856155d5c10a0d5970042c, 0x2b17dcbf694b6ee011663776b422100989f2576d78504227d547db889adc4dc9, 0xb89fd0b5f5fcb94a3fc154664390d7dbc7a8f028db060b7a594f205eb554de6, 0x29643b0ab6cd148bffeb6bad54e34bf13cca00ea98c538d900e949f8a223d1c0, 0x25ac40e12ff5d3ab47779044da20a35fd1ec747e7f9804f951d3e3994f0be643, 0x22b19dae475254f480d6ff651654f808e6c99cf54186094f5a4fcb3d9c992524, 0x1c5591a266c5ac14f1c83848bbe3f9bc926c83b4a19031af0334da64ebcc0f57, 0x22dfd894770188e65c40390d7ef1a907800ab916118530a0c1b736c885a42643, 0x3ce73087e6cf15f4c0c9e94c05b1490f58f2cc4ad3fc746bbace3ee6134f65f, 0x2d391381bc0ec52a224a9add14af01b875b9ffd69dc115e348c1d6c3c743ce29, 0x1561f352a096cb328906c091a612b9ab92a4433f5d65f4f55e78b02c4f84414b, 0x25de146f3cc4f32b6cf8694fdd876a1c9f0269e89d63d48a8ae9ca064ab2ae64, 0xf410294c8d91a9bcc60d25f4c73a4797913a27067d1f664771da8d1284a77e9, 0x11a522b6b25687e258df304954bb84ceb1aaa9d977ba292ef1ba49c652b033d5, 0xd061366179c02608f06b6984ad53a5adc8b1effc60275817e79e7eb031f5dd1, 0x14b4604d095f37b5974254e48d7dbccb68da55306e08d00fbbb8f06bebf15f8b, 0x2f0d5f558fd4454b062fa33f1e52c5a6559ac1379ae507aab152104f511eb53b, 0x11b307ffd788170d196853547920b916d6a6fb63a15d4cab5452e215f62674c2, 0x2c4b021e2b757863b41bced2e1aa5be7e77c152e396026fbaa09cea515001c35],
    [0xe30a774c353a2cbf244d3d014d1a0e5ff0bac5e242673ae33f1bb2030feff68, 0x32fbae1fe345271632403da8c2a96a35805c2a3e87c4457c8a251137bcde383, 0x197360c47371eb2f8266e052762cbf42283dd8c4ff1446213c1c11752c6c30d1, 0x213ae97ea4c10ec4a64720db8810df370ce3e9d8492f6806e06c871f0dcc4ba0, 0x23ea027e72e70e5db4ef89316ef3a127454fa082bd84b255763878395ce18af3, 0x1a522fc99812fc6ade296385a9f64cefbabdc59b664d33b02cb1c805465e0bac, 0x282bdd7da996a1d58ccd9e4797e17d6a30224531f3d773b48ef23daa5077298b, 0x278f051ff5a35ad9a0f1e5ce9a99c9e1b669f58b127b174b1573e76b9a95cb66, 0x14d2d438ddd5fd9756f4afe9649c2ff2c9ddaf2e6d1ad10b8dc4550862f7424c, 0x18dbca4af7f465ad6968bc7a1837c03d10d09a94f03c3e7fd3f2767e86be7b9f, 0xb2f4c4bb0ad8c2047f62d2e6b1024da131588d16986b03e63e8ce9ede6c7fe0, 0x21316797b3870762390b31a48e8b33b319da5dab6cd4a0c28170eeea58f782, 0x6b3f86ee68e72580f8949c7ce7e789b629efeecb5e71a64d17cb1e8f4b57211, 0x21a36423378fe8ddd4d3ac4a6ded8b65b8ba023593a99758ab917ca0b67a324a, 0x1ff68d97b4ee71f22110b03e7e9f14641d8e98513a9b70c9e1eff000fd537006, 0x2e0d1aad3b8bf21314fd506d418cd7f78887789585a28aaed747cdacf7765b7f, 0x148bd4a9f6dcf19bbda66f4531eb4e876443c729ece0612fc005dd89c808efa4, 0xc11decd7766f5601e8d5dc09960399e2a441254b57aa25bb3bb80724a8510d5, 0x653950fb31c1384207cb5f22e6adbe9392e0fd3b6fbbc9eb25f4064656e5b7, 0x61c7be518e2a7e7d9ff8af58dcacfcb3f0499cf7c35ed13929affaf57c95818, 0x632546dddba57da93cb55ae4fd8dd0065ec22c94686a63cafb6b151d94fefa3, 0x1458d6428e6cbba4df84a44ba6aad2a9cb0d1c9041283c1ec5277b2990418750, 0x1c58296b3da9f61460610a21dff1ba812b726a9011f0180e4f457874f7d8b8fa, 0x11b039dcb0af8c795298f360dc7f55aca201c35487b1b81cf009fefc204bdcc3, 0x1fcdbcfd2065473d499a075bf5857bacba94563f2814577e5705a020211dd0e6, 0x2d9f02a658742633b88fe4185dc29bc4297d7aa9dd473740183ae46042dfb040, 0x100e915a9be179a7cb25c2332a3d48481deec2ed9196214a55d765309cbc8af5],
    [0xe30a774c353a2cbf244d3d014d1a0e5ff0bac5e242673ae33f1bb2030feff68, 0x1a618c68dba0afe90df2de9e4aa3091ae73582b53555822bc903932747e520b7, 0x2cc1683d5312031d06b89710f03b3889066006177c574ce3cadb093e7ff5a301, 0x16e6197f7c10ac35b2432c0ca10249b3b39a8e3eb83d702482ffdd8a0888fe09, 0x221e4bff156c6a15260b4c5651064fbe3b3cf8f10721e87ee9f72e7021759490, 0x17ce9f46591fb9ea7e5794a6fa66b1434fec12507de6e8fbc1e4472d27109b28, 0x22fce270c4b0961c89d92325c52c85141461e0994e04132d632ee19d9c51e556, 0x15cfedfe30848fa55432b62e7791109698a457ecd5469ecaeddb9f083f66590f, 0x3343e9088cfc374b61b75ad600de6236aacc4769e5ee8b9aec9f07bd0969f51, 0x233d73ed21179810ccace1227dc72f2f8c80ddb446861d6e833a29c4084d44b7, 0x20c8fd20ca1ef20c39e6c99478f2bde9c46dbbc0afa8c840ed93cb153fbc0be3, 0x696b187d4df08aaa80aaf272d12f72352f6be2e67568dc45b9b22df83b4c672, 0x26242eaea95d43830574a5378f27299753c7907135c9350cc0afa30c1873c429, 0x2db7e74c58283b55cf6be1fe422fb2f2523020e04549b7cb88815694bdc078ca, 0x1c3db6fc9f3fab8d9e62d048cb1a820bea78c43a71f202f779b8996a1559d821, 0x14eaa8042ada3a2a7d247d46b7cc0138b9fd124674823942d207c7c6a330d395, 0x7de2b61b5d7796c55c6c9cf4808569d61c78671f7484453d201d29cbe419aa4, 0x1db38a0c262bf63e0aa7929777ac0914eda83aab24aa47d84e60ac4ff18bfc4d, 0x2f2c6dc0cbcc26d091d95038e04a2886fbe8f4b368a738beeb995255fff09df9, 0xcc224d62b63572de577993e48205d0a7f574cf32add5cbe518e55163cf540c7, 0xf301c14380b822e1f0319cd575d63e603ec8666f361b500d1d6c28494c309a6, 0x2e5cbdd4c1599557d596522efbd078c8e2f9deca7503fa533ea5230b622e7a9c, 0x2b7b5611c6e8b5f05fe9fd010bda63b3d6bec1a90dd4e4d95da40bb720503d53, 0xac828155aa6627ebf486d5491bac13c32b61cecb4d3178cd4701369c2740155, 0x1946be8c11cae21fdd176eafd23fd635352031a5df260edc493c820fe05b00c3, 0x19f2dfcfbf6dfb65a8051d60ccc08795e63fa53e3a4acf89b85259e6f85f0030, 0xfe752a9169dff4e402c76a809563f0d83c6e26d9ed3ab2a3b0e4070ee7baa4e],
    [0xe30a774c353a2cbf244d3d014d1a0e5ff0bac5e242673ae33f1bb2030feff68, 0x275833d56c1035de1383b7eb6759e6971286af950f5b5b98ceb2a2a9fc52f45b, 0x2c02e7a87debeb5cacd4f9c776b5999b8216f0621e87720a8f672ffd3051198f, 0x3a6f6d6dbbd957561e33bff1e7f97ce1b8bcbb97e5e363a58810cef7ee91851, 0x116fa8d34d5c67d290555db1263b34d2bb0ce83a89a81c5a0bd4110976efda34, 0x1e81d2d2d04f5cc16db99fdb340df3e85d75e9c305b541d2d933f8b808b6e075, 0x284898f56dcde9b85983aabb51a7324472955b62538c8c6fbe554080a871497c, 0x1ff3a909f501d15420e9efb7f8071c0f4c55649d5e0f81a4de0fe31bc4e694a9, 0x47be1a9fcf3bc7845474b57d44fb1218bde905cfa1da8c052a9614280bd9cdc, 0x2a3787a31e5611ca3856cc840fad2b0a07bbfb4172859fa6fe527b7e0d5b35d9, 0x2eb3bf4b3a98c7da655259991393cf7b87eb9f4908c475f00facfc5572c885b2, 0x26aa5f863ce3498db1f5b71c96457cf97232cff235365a2a1091b6a85fc94d6d, 0x19a6bc7f148d056a10ed1610f5f9b22a827ba85e51144c0414400ff4d2e91edf, 0x196f5c78726e289ecfca7a2d2f6f2a5e82f51df54cd54d4ced1627b9e7f30a72, 0x1118c048d3dead019a262810944ef9fe5fa017f472d5cbe8d27b7ffd2041db4d, 0x4c7b810ff3f0ded46f2d4cf346e22e402a529d4793314a3bc85f963a6bb428, 0x2e843295db044df4ab207a6c7aae26693f37a5e5765663f22c6809e22fa0ed24, 0x17cbf9e9e90196672fcf0d0530c0a02ddf4879954bccd82f75bfefb4833842e8, 0x27ea08561c8d05998b53f428166ca0a25ceccde43a9ca8bd275b4f7c537eee18, 0x3491984564105af9bbe74e7d14e96eea58d73c39727a8ae616bdccb8a2451f8, 0x287011118b922300780d5ba09878c898c662b7d5bcc838fdd8750170b643eeaf, 0x19af1b66a5d2c6e5a4c34856b37a5a2aa1992546461d6cb65190f74d731e7b82, 0x438f8d1a68e04ded124f370274324e9db5b35c0114b3d5e19fbea7d867e1b5c, 0x1b7df25e02c2d88bafb19b2f9725a3ddac024746f30b4b0232518d3d4b8e9f1c, 0x2fca63f9577b3f88ce614fdf17473f7d033bd30f104931fac24fb3878cbbe2bc, 0x1a782b1c4732869014b1ef8926206360460ee6e9b7541f5eb0bea1a0ef184db4, 0x16bcba1157829125674fa67f49a62a3da742c2639c62cab43c92362c29c8c186],
    [0xe30a774c353a2cbf244d3d014d1a0e5ff0bac5e242673ae33f1bb2030feff68, 0xfaa456a4f334a6d64ec7443330027c0f6fdc3d0232029ec5e0b7299ea372295, 0x21ae168025d871601564cb94712b6fd70efc57a75bd794f96e09556ac9fa499f, 0x2659b387d06b87d28b97c58326d60f8a8e9e20956925cb774f4fb99cb0fc7bf2, 0x6ecd6537384d3f96bcfd794a53b1cb3d4ac7574d23c753e20185ac05641a510, 0x2c47b359757b6aadaf39168580ca135268ee4030f857e83079409db9f61a7a88, 0x2e3c4551ba4ea1bd2f3bb46f4b411ca86accc38c54777867e6b6de8b6381e60f, 0x1aaa42d6777c0cccdf6dd9c4628cfb4f9091c8c4e19b218d13c5ce8d41b02747, 0x101d7175ecd398cf6b5e339400ed17866953ffde1fd49caf2327ae39ea805e2e, 0x47aac02ad51c60e7b013d7e76e0219a33395d4103c62d76426b97fb8a720bdb, 0x2159734df6ba0ebfcbdb4412f5e985870f836d55eac7278057bdb5fa002139a6, 0x12c80a7f80bc5789e17e76a5323cc6e879e26b2eec7f70adc14e91a679d715fc, 0xb37ff835c21aa08cf5e82063ef6dec2dfeddcc987e7fe222a78bc9827c797ad, 0x136a6d023c29c33b1812073bf0cf9fb61603ad40ddeb3cadf8f202598cb3f7db, 0xbdbf9722d2aed63d0059307617c47ac2688d9d01a8bb20f4a61b95252dd7b32, 0x1d90c4f4c52e4c8157ec6ecb3fe1a70937ac8c365100935c3ec4c359137d468d, 0x25d8cfba9177d817bfe2db087ca7ff74f3a4ef92986c6e5cfdea5703affac237, 0x30562348197f23b21238c777e3d7f366cc9e69e796cb218281b210ac3f1a142, 0x2e6b5b67a5f7449b426e3fd32efe3df98af0bfad5006d6370b574b40c645c1e0, 0x60c72ab89831fbcfd1084cd3dc94aa8f69794540671bee622d6837d41add442, 0x949047c842cce9e422d779c80fa13ecf5aca5859086ae9c3759cd3b02d7476b, 0x8c9031e3f9fcc8fef60f82e8026db19bdbb5113c77a4c06fa4af3dd7bdaeb45, 0x2850905ce0c275e427478ffb5bf44685dd95cf1f57056bc19108d6c85c3e7cd2, 0xc76f19ff9f52168d20cb4f0cc0d10bce93d28b3acd6d479ea38b8a96f944455, 0xb66fa2f9d2feda710dca114c22cabeaf616c70ed2bb793a7eaa328ea1ca3c99, 0x6198754cf90bc048b64a8e925c41c9298890c946aba20953090e05e55e768ca, 0xc637cab8864b9bff868591c6bd14424892702a1d3e654037d0625b258126c6b],
    [0xe30a774c353a2cbf244d3d014d1a0e5ff0bac5e242673ae33f1bb2030feff68, 0x21325a5b2ae982ee23a4c911b190b63005919d1ace55a101818397c73be72f7a, 0x48d6872b84e860e934e439b065e7a162d5705b576d4fc14c47535d9e08bec23, 0xde725e2f88af9c238e880d725e71d8a1d79c4be4421fd9529cbda976462ed81, 0x27eb4b06d352a3404e16264a0fb08537ddcac2add0782481c2e7735d7ef1803, 0x1b47254e3cdd4412e01829f03e74fbfcaf9f882b745358294012761106a0955a, 0x1b4332f4bc0f47d8728dac5d12fe99070a53ab0ed1462c6add9ba42c2323f755, 0x218d22d5f13b09ace89e377cd7e02d3b52b74a1285072d62540842686f728ae5, 0x68ad6997a9ced270daca95813e82527f7e6a4d5cc4911c7e0fdde7a1a062d03, 0x67a187bc1e0d1740ebc7f7343397b235ce0034bd6f6fdbe43fc50394edd65cd, 0x26d27d9b4d504feb1adc50f40bc7171e56e9cc7b17086d68ac09bd337ab9a756, 0x6e901afc5dc879d75ef7d324c7b7c8cb8772f7948829dbd2293ab032a9ce962, 0x14c8e19997ea7bb4131f9765ed587425a2fe5f91aa4f4c918201e74110bc7526, 0x273abe5cd98541349618c993b7192c978fb02fc236bd40dc3a4a4f61dbce96fc, 0x715d346135f3b13f84a62b794f2d00bc19cab24d35d168d1f95429d8856e296, 0x2b9bcfa6deb252ccf6a2550e198f21b5fe0800fd3af70329500481a1f472f174, 0x239f7dc3817df74d0e93174b1564fbdb7e4010b69b32ad0618a169748e496c9c, 0x21978d48e2d9c7b097fd4d0cb72c238855c33bc79834ef7b08405b1b6a25b3f6, 0x269c70c27b7564c9d24a631fd3604d4238528e20b010912916e2c1927df5b950, 0x2c583dc96a0a9dc9f9efaac1de85327f007597a5e812fd564df9e490b5dd8f68, 0x121e4187606e3b3382106069e0d56de26dddd453c81d009647a9cb5f48418094, 0xbeeab0c615c4acfb17eb9f8dd647bf03917e1169c9c38d0f397c10e9dad80ee, 0x1e07049aefd34f62eb9b702cdd93e84e4f5bc2bf88ac583ee4c8f7f358638c3b, 0x59c6422f0c9d34dc813948bfdbd3d525a5050122abaa725261b21794a4bb03f, 0xada60827cce301bb3aba3c0dbc1a32d14cf5723ab4a85abd48baa37b85b318a, 0x10370b82fad9fa38906fc9afd3d2103760b279a5a79803039ac6d7b47fbfb080, 0x22b53d470c374ee90f3477d1bb36a57a7cd3e39305dbf4895d1a38df65828962],
    [0xe30a774c353a2cbf244d3d014d1a0e5ff0bac5e242673ae33f1bb2030feff68, 0x121bac144ebf731b7e106308001501b5aba39256622dc16b6832959ef32d6a8d, 0x2ce538366c9cee7a91c93252cb96b7c42b4e4b26a6be57c1e5448524e5acf376, 0xe1eb214d4443a823686062d4f44fbecbe3cac0513ec37dc6969a24a5c2f34ea, 0x2b10f3aa519015cb9f2d8e03efc3e54d82cdaa8825760f40856158eea75583de, 0x13dcdc97aaf8d23d666426b008a02be78565ea485fc5b3175f2a36d3c6589a4a, 0x1e179f5a8d8cf761188a1af7f3aabfd0c6586a3ba2da4ac2e609406494d8b04d, 0x26350c1076435ab7615ef9103dbd8224d3780d72055c5bf265bd8f5bc459c5cd, 0x2569aad1663fbf0c512be5d7549b856f5058b8d9254ba788ab4b67f957703dd6, 0x21d296071bb18ffc608d41b9284b25f99e896f90b73c4b6ebc6c7e845dd2756b, 0x3403ad2e4edbad53108b19db3580bbeb575989bf763939ace10bf3ac11ac946, 0x2e87a068e7e10cd0a27806e4eb87fc4a909b75602e7ef4d9b49732d30f8f68b2, 0xfecb01322ccd429e5afeee9ec8f3888c528252874e09ee6c82110bc67e1133d, 0x21b1a2e21480c8623fbf9fec55cda799a152e941e99d0d6426d24666ecd9a7ed, 0x10787afe51951f551c5ea3de6eecc8c08adae2debcf2c0add7a578db5db669a, 0x129a75842ce7f380f4adce069972a00aa0550841e41ad2f46d1665177576f052, 0x33844a0d5987a19e66c014e83db7c903b6aa7baff5cae3ec6f2e7f9870a7102, 0x2af0d00127c68081dd29a5c0858f6bb0d20d0e8c8c1fa50d0d539436a66b4950, 0x2452bc4a8de2db1f282d2d8063ab568d11cf00ddd0ccfb165523b0e7199b4278, 0x7053595c4f99205b79bf985336e456422650f494c2f79670c0d34257ec689f1, 0x1bad1a52d292401b1a8335df15429443cd8dc8c5e856e185b8c5f9d0c9bd2a24, 0x24635b7d3ad41a5bc44a3a17d80a7818355ff8f18379004e5344a7b1713a31b7, 0x2e7876129f03a5f90702ccaaa35e3d3c2709756360421113997cfdfb1ed927be, 0x1f6028d50d8a7ee644320cef9612807c7ef8fe40223751dbf8f791ac516fa897, 0x771c9d46f602c613a689a8334d46e0e5cd1d214a4831ebbc53525ab2d80e5bc, 0x269f052ff6df5ae60f76c891df96d8e4a23e80371c82349ef960088ef64b141e, 0x2961710040a2b2d6ac5101cb03a28f3bc2fe649baa6efc5100592077f15de362],
    [0xe30a774c353a2cbf244d3d014d1a0e5ff0bac5e242673ae33f1bb2030feff68, 0x10740ce6766bd5d45ef53a0b79f688c0c9a075938902c676cefec8a82c3da53b, 0x27f3dbcb60ac79ca5eeba26c3971c64600543857b0d7a6019b292df5d6084e02, 0x21093160140db2a25e4a17cc7600123cee22ba57790926c04610b8c95f1fd186, 0x891be8d562bb6feb60c7571f367d6048c3b083b2adb097a27e62e336cb27a47, 0x2ffb17d674958fcb7a8da2d38554bc5571c6efebc77e89514688212c68d50a1f, 0x94c68828cd769c940b27f645dba1922d26898c64fef55d5638fd6e1d357b75, 0xd55cbcf35eb4b2a41cab995bd1b90571e4a87677a90e62793f6073343e798f0, 0x18e91bc3e095f9b687fe66cfdbbf8c234c27af317f13fc27707d271e871e7061, 0xec0612f29bc32d89f73f7f0926fe0b3f3587dd7eed49c772b3aef2c5d41019, 0xccf5311099aecc81a34b567999eb4c663d907a8bf4b22c2f2ab63a324ac3451, 0x183ffbe622900edf9b6a8021ab80db00676f619dbc1732dcc8fad67128772d26, 0x8f4331aefe28fb6f009e17ff632db3505b18ffaa61c6b0d341fe0b6387ce2bf, 0x9eb7f33498704db8dff1c8777ff539d1ded2bd207fae4bb7465c375b8747161, 0xa531199830d7120018b3039c7afa9a084d529d930f865c38fadcdc40bb008e5, 0x194b3cf28d7b62413f9b837b687bbb4804733c8e174e76bed846f92068c066f1, 0x1b8604e1486a35ebe8e6b900127d0dbb54dc8aaca97a4eb0c8956773035f3ef6, 0x9b8de36766da341c7e0b810a53903be22879912b707e1f3f752e6f079ade75c, 0x1a435eb920d2b84fe3c0b803ca2cf85a6721d31f21778706d4a87a923ad0ac35, 0x2566d9e893c2afd892f4702accbcbb979c7cceb980d234de549a3c6c34bdaf59, 0x18df8272b0340557ca8fa98dc6e75c6d788484702d389f13fb82bb09dd5edb19, 0x20b183f7293c68cc2324f01a2693d3edacf0c28691685520cb6c1ff79f25bb29, 0x128c7a2624a1bc92093ebab7ea53e0d5d53b059e21004b19cb0d2bb3dba74f31, 0x40287c11b5a3f980d59ec06db46c6fa3b54e9d4fe0f474ca15a7aad1ad0ec1, 0x21d7fa42bc56b52d557e34b091518d6a694595207a099c718b87b6f216ffcd7f, 0x169dc2796511017c3e4ebefbe57d6f93194a77513fda84ef7457afbada8a5d58, 0x1d74ad732a1dc804b9584e557a9c18c0b497200e0d27312bd2432691470566cc],
    [0xe30a774c353a2cbf244d3d014d1a0e5ff0bac5e242673ae33f1bb2030feff68, 0x2aca8e251964d1a3261f98ec83cb17d611d17f5758aeb8b34a8121121f7eec67, 0x12e284f43dd76a9f1751d11335d43514ef963ffdf2036171cdfd4f47c99eb5b3, 0x5071e18392facabeab0a39fea36c393572e98073e18330d9c4c7e654572065e, 0x260d7455c8470a5ca5cb7a63c39b0d1fcca3eb1029d2994c5f2c19a39086eae7, 0x1cf8584e37677b19fb7a05446448d550fe72a4fc79c92e93e7576f101dd05099, 0x2d19dba2b7658adf60d8840e9c7b115fc37503198335c9050470ca3c098cafce, 0xd98ea1ad72116cea32da96c74565bdb292b6f62671c5cc9de0904e1ac8a3918, 0x24ac021320aa1f1addee655d4feaf537e470915474a285ab11b80fd166a20cf0, 0x216feb63069f6947beb294a1c7240b202d132ae945f7cb81368a2c79223d1131, 0x20ecca83ee5156e6092763d78973859dab5cbf438b6782f4d4727f07e7951bb, 0x1e632a42fc326036c1f3313f372803cf8912d762b3026cb4b868ffbec464da38, 0x2e652d54941af14d90b4347529d6e8734e184f48c5827373e35e96a0441d56b1, 0x251ff531befaaafc6933e195e6327a853e70f7956ea16f99bae74ce703e13eee, 0x12ac47acb9b712578207e429b989e017e010e2f8e513e5fdca0d5d70cf69cfa2, 0xcccf17e0d61b8413ac667303d31b27e5bbdbe2de4fb79272fd26a96a6033c00, 0x20f2060a29ea58ae11aed61e371eeaedf8c49f7d2d310a20daa4b08742a9c195, 0x1cb9f0d68dd3c14610ff690400ac156b0f88ddb3496842a82976bec878c1fcd0, 0x1e75fd54061e8660fb82a6f24ca385580d37c17fc731ecb67aae86ddcbd2c363, 0x2d29ebc4f807741c6975700aac34dd02857b9ca3f389a34d281aee269e9509da, 0x1871cf71711f4036a0104f07506e2211c40ed44327c7e19acbc2400345eb7bbf, 0x630b7ea40ac6a040959e71933395a414a78ef993f03d2306233b0aaffe4a814, 0x1ea87ac112d60f22961d5b2da26c0a06bd4dc1e73788a388ca3bee772cc78e7f, 0x26a7a6c245da9cf530f87c9b20ed86af369087bde004bb6dc3eee8b32882c7cf, 0x1adf5a028ce2b8a0787eca43ebcf427dce7bb7b3ac19fe0a8c0b7016afb25e6c, 0x5e2e3348c9fb090e628aa40101db8b4f46b6adfc7d31fa82e1f6c9fe5b55a1d, 0x81d87bc2e14f185b9c19f4cec48fa501d99c70a2bc881ccd6ec4f6e677721aa],
    [0xe30a774c353a2cbf244d3d014d1a0e5ff0bac5e242673ae33f1bb2030feff68, 0x2a7ab507906adcb6522c043a1b2cb2f221e5470822f048220ba731b3933f3212, 0x1e0791ec0c83cd1f3a0007ff027dd589fb0866c6257c181d293cfb70b62abe59, 0x19ad62da7c5d8766ef927edd0f7fbd997d0e6c6555a6c38fdbee7f5299b26d8c, 0x1cf518d282e00b1894f86c42ccaa292dd208bd0d3576ecd1cb1c45d426f660cc, 0x86e5c668f2c7540e65a379bb9738416e1f43e0b41619cdc040c321aa89db7c7, 0x2bcd694a683fb621601f2a5f0f900f6bab1f4291d65bb8c26537029484b38496, 0x2b6f0a65bade0adb23efce9c6e3629a07cefca2718b3949029362c6da4baebaa, 0x12b25f49fb1cd92da7fe1fdfdbcf0ab1d715ee92ae7e2c0b2a60b8f4106abbfd, 0x797c7a863ba81aa2acc620e089ac0afe2f713e46fe4d52ccc637953a4ac2f02, 0x113166107727b2ccd9e2bde6285860c912a318ff3cbe1cca006973f444238f17, 0x29d8beab8a793123bdb47e3bd56d6e0d6e4c9d957b38d6ac7ca7d53a30fdc94c, 0x68f99bd269ec2bcca30a5c05afd5136feb63a3315e05dadb2acad3caad1c7b0, 0x1d8a2e95f5012b9744d33e3db84253261797fadda47ae08eebd349753511d342, 0x26a6dfcbfcd2a98fa147bd0b18f3e4f66e1f1a329a168e3a61336e4da3bb8f80, 0x1d5bdb15bbcfd215d8caa665e9687c2d8add0b51cf54c5226ed9b89866f767c5, 0x2bea457b568fc29ac1a23ff4322caed5463a9cd648769e8a1a118aae84df1309, 0x1dbe7419ee59dd580a0ab4305440a57fb651830f979f8d21656ff28b1590ce4d, 0x17ab1d55da8ff17391ba874c4b6e52c77dfd316a0cd9566d1e28c5dc9308d309, 0x4a3a0d0f9e1b091bdd336acd117c4ede9d64621c6b2ea4f07726e065f17e2cb, 0x2634ad4e91d1f63da6e2534c1161abec660d92371ed85e8f0e39aa91523b9e60, 0x1afec968060a10697a3889bf3456a23a4e98c3781d0ee88e29334b14cf7614c1, 0x23a5fd23ec8919d62176ff3954f983577d5ea821cee695387f096c7fbb93808f, 0x283039c47dab36071299505922ebc21482295f95632d17c49fb8f07e382641ff, 0x1a0084bc1b3e951aeb3dc6388708f8ebb52247527a393209664d43a1812e13, 0x16fdfa540f269b40f27696610cac06faa7eba7d87542dfa42d28d3f453a70622, 0x638bad28fc8427c2349d2930b08631be095bf0c03572131f3a8132f38f4c0a8],
    [0xe30a774c353a2cbf244d3d014d1a0e5ff0bac5e242673ae33f1bb2030feff68, 0x2b960b4aa6bdb5968fd27106ed926399bf40c9ef7a0abce38158191156d94b47, 0x21ee2ffd320737215ba399d91f5287b56286e5f286441b29e7f4950f2a108d82, 0x1a912af8a3a82ac944bc34390ad7af703d1e4a8f32996ea0eca203709bd526c4, 0x1e2d77fe49d12a919d8ee0b0bdc15475f9d3d5dda831b098a921ef8547542ab2, 0x1e461b0bfa65838c31b66e8973fd153308af46e6563e523b4c97bad304ce6bce, 0x1222b1bba586c324581ddde55054315ea378754416b7b74406a44d90468839d3, 0x231cb90d301a6e6e3f6c47a07a3f262f14370bda5a9844a4c128076b5fdde8ac, 0xe3e66e543fb59290a8d57f5fda43c4b74b235e00adf1e1440859d8f252fde19, 0x1bcae3acb52de61f2f907f6fc16c142016e053640c8ad9b4e3baecff97b2c13d, 0x2a2e7e286f90e3554ac96ed8f80267a3bd9f747d787fb2533bb98f465931f724, 0x1729e7b06ac26c624dc5c6cc6d761f94d93875ca170cd57f87cff909e922223d, 0x9565b3ec6e63401bcd15d12f12d8c805ec5c8936c2223ca4dd510a57afb12c1, 0x1ade0fa28ee13df4d382a505b3893baf5b4568bcce7121b5d48d29567da13a9e, 0x2301dc6a1236420c051aaf16a095e77aa88f23f63cb30b410a323ba77f21f7f0, 0x158c6a01fb01f542f7dd93ddf2ba1771d726cfaa7c39ba5260a5f6bbbce3b9de, 0x2757b9eec4cb27d4e4274cca6e00289f2d12e987465c267b1fa104b02932a84b, 0x3043d8b0cdac25b084aeab7475766326ccfd15758870a4b47a8783f73f5e4f36, 0x1a1739fefe6488c79c6c32818ff62a65afdefb9dc62a23bcb3d46428cae5cd88, 0x56f91cf9e2444d0d477c13c994388d88a2d8e1b88d6080b5a415a53117643ca, 0x28c8f42ca93036c7226451ee7ae0c1a7b87b0c560de7b11350dc7f74e4ae51e6, 0x18dcb540315a43872fc246fe3f6779a237c61ef5527e87a400b24b3eda058469, 0x1ba374f70de60473f60fb7452d42c59f4748debdd345afdcf94d09305b601a3d, 0x1b40af6c2e106fd4756b548837d64bcf6dbfb9d9380e1a70e010769efc2281ba, 0x2578f4a6e3dbbf2ccc5e1837b4038327925cffd00f96e8d2fdac677f2b0faa3d, 0x2ea53ec4f2f8900d39df68853f2ae9e969819d33bbe6ab9686e1185c37933660, 0x1cb7cd707a851d764b7c3d2da544afa59cb87f6ae19971eef7f403342c205aea],
    [0xe30a774c353a2cbf244d3d014d1a0e5ff0bac5e242673ae33f1bb2030feff68, 0x6bd8c397b1e2d8e3b0d32ef2594a311d49a259567ae4c635582de9cd15689bf, 0x291adb6944892dabcf5217145ff77361815e58600ea6248b0c0069802557ddad, 0x96477873e56e5691171631e4eb74c7d2f9b2806b4f0e45508220739587a890e, 0x1ff4f6ed8be43e079ad849d03ff3147fd6b1fc0db8c1b8477d65c096d4b25a48, 0x9e5e4056e55464d9d5e6ecdf7127667de411a716e88014861d5436cffeabcb7, 0xa73b0495d174fe15185e4bc010a545402736752585288200ea5922c5f8d29a6, 0x108e0279556e28f04c5570a6274d115d4b3b1bffd7fbcc289cebae7053f40427, 0x20d97451d83aecfb5c0f6cded427ddd517ada729de160d4ebe2429dba9d28a53, 0x2d8a77024da1f633ae52a6cf17898c5b908f50ae49fdbe65b4662853337cc919, 0x10571ff92352d4e69df05c3cdc65c0e52747e03f86476850a47f092bc272b263, 0x18f7cada1c661e5f8f2074f16e72baaa705c2ce42b68e16fdb4d6945a33054e8, 0x786ff337450d3614fc75c4d314a61395b71473e735332d78a7aeb270443cb93, 0xcefe88f60cb9a382d5eeded9e7bacac15e7c906dead35cec09ee6e6d0016b3d, 0xf163a2012b2484e1de36b5991e59ab0ffd4a531574f6c72382fe92576ce82e8, 0x63dc4f07d9f069d06a30e7c5a96830d2731ca8165abd9ed89d187753f29c682, 0x71a3293473c1dcd0ccd5a08dec6a321265ac88dac53eea581264663e1dff0d7, 0x41b8d2a056f60d8d3ce5e3780a341b97592920b170625c1a69f2a23e1290268, 0x2deddd6775308aa027b3449357f8abb6a6d10e11cc3a14d0feff23e3a8597ff4, 0xac050f54534015c810863a63b7354a35fe52279ce4b7a142b48f5502702a4f9, 0x215bca7ae4832c5946f9ad54abc0b3e7c547f8a5a962e4df85d0b82dce914799, 0x1efcb27d3c098f574e7fd799e2a585ccf54a59147400ce00c86da0ae0ce90684, 0x24ddc6ad9a48856da363007a1923d1106affa889e44ffa7959bf41edba382efb, 0x2ef8e41f289aa4c64244554413eb515b9759a6b5ed9e2562d1a674267171650c, 0x2f1c219c4d272380eb411db7ef93f6e692eca339fa507b656e0d532801c0e205, 0x5f18c83d3464488a90182139c312e753a60ca4499e3c2c13f7c2e72fbf47395, 0x179165ec0d175758f57172f5a9f7d1ce6e435a4a1351d77139b92c6ebec86da],
    [0xe30a774c353a2cbf244d3d014d1a0e5ff0bac5e242673ae33f1bb2030feff68, 0x11c208a0495e0e7c3e473f98dd1e8c61b27b44de88dae7850122421cda7cfbe1, 0x297f95f2fbd4565360712a71bf3c80b798b17dfac6c54d884d99f3aa7d673dc8, 0x224ceefcf32d746010d8069e79d356d69671e3aa9403f39892e5882a1891e718, 0x2732b23001c43c62c459cf0a1f48790deedbdc489a6372138594a5a74e5f85ef, 0xcffe59dbecf21803d789c62b67f94bb027de571a963be229c54c84ab106f9f1, 0x29b8feb4a9a3585ec376063cff8e0f5a4292f37f7a4b7b1ff228f03f5fac0510, 0x26a0c0e60a2ffa10be7d6b2c878312de74cc43fcc7f9eba49e05fcfcaa3a8b90, 0x2e570656db41e2f88c3de3c09d68baba727e76e3511dd4d1291443db29aa5f70, 0x12bb58e4672200ef2816a8237dfcdf70a9fb07b2ddc8789b748d0b559b7cbb78, 0x216e369c8afad59e15e88e3ffdfbb1e137e9b314785632ad2c7c81bab01a77dd, 0x2279e39d7921b8e04b6f36503059b1bf2ed79a3b94f15af97b9720bff85ac25a, 0x60564813a0ce62e4ac21a85ba36fe359b53e84244f908b866568084e31c4afd, 0x2268a405631dae60e8eac4f408fbd5268b40b1c254970e3c22eab22fb8ecc554, 0x300263f7d8a2567496a37ab94c57e2015442257c062ecad9d8412f6c6ddc0089, 0x1963bc7aa03a152df1eb518cd9588bd04f3fd21a318314fe0e54c1f369be3c0e, 0x136b67c2b78e28a9c5276c6fedd9afad286d344700fac868de5548c404abee95, 0x29a329f4a94c6c6c9fc81e8cd90f7f1c9e5f6c89875a280dd9ea0b4b90b8ad2f, 0xc3d92aec4b647cb21e6f0ebb98ef3c65c3450672ce4694f49f39919ce6da1df, 0x2f5235ceb5912869936811f841c3ee0f648bafc9edebcba4aad0168d03f9b52, 0x63a760609f24b3692d205c9b3bebfe088c215877de8d79deaa84dff83abb2cb, 0x1965360730aaa2fb621c470e9042cf5db28c4824575c994b255c92b02d0b6524, 0x1838e4b596dc759d6a97b0b763d959bdffc4ba10f84ab4b1c4c71d50a924d179, 0x258cf09bdda431facd55b62aa65712248056e3edd9428b010a809ec78c41ac86, 0x1e587e52329f0a29bf3db7337442690422a9722e228dec682be39df28b3bf14a, 0x120effe3050205b3ed1c06aa186bcacbe860b61e77bd06b9b71e78a710a09500, 0x18213dc619ab928f68d5aac28df923f90282b6ec64d5ac376880d31fa3bc1d5a],
    [0xe30a774c353a2cbf244d3d014d1a0e5ff0bac5e242673ae33f1bb2030feff68, 0x1f02f7e2e07843a88bcaa2797d91edf88cbd70ad743e938e35396628fff818c5, 0xdc5a85d95f105d8e4b18eded697c62a032136374296ea9b14f54cb0ecadb9ee, 0x219b60e6d5a22578775e83f4474206559204025913238a98fe09297e6c473c8f, 0x435530e014db11e2bfcd58362982d8a33e222783a5bd6db56bbd327cc5237d7, 0x28c1ffc5c10600c0dc9dc3d193bc58552b235922bdf46161b6f8c4cb5a6cea5f, 0x1bf7a2f7bf358cd12302582a3b02600994fce154fffc218ae6442bb46026f98a, 0x179d43fb87170d3d97f4a0166d1663da78664d328cadb544dbf5d6c5d611de99, 0x8cabf5f7d8a6d458bb6576754fba5a716ae9e484a668217adced3296b7cccc1, 0x177be1eacf22f916417a28651e18d379eb44e5c2000e329c1d3c8df516c1194e, 0xa5fae0f09f85d5ab6b22833947da6cba0daa2a9671ade494b7f9d8367394987, 0x28df87b43e795b370762f1d3f9dc2685e91bbb7a6854acc152f705c89db4938d, 0x58de2c0fe8e6f09f1b853dac8eaa473e4f6f80fc20e0f4190875d94cada6ecc, 0x1ba657cd2bdb97e5d24bdadfe5cc11a7543f54c18e65039c0e616e138de5e368, 0xea5b3a4116ce4ad61e32cfbf9662a60c542aac16016d551149c76700ecc44f7, 0x2c219d3a2b0e433c1ff243db27a237fe15c733edf0f0084d7a5ba40123fb7361, 0x19ad974a2285cbd14d04045c6414f199a891524b798cf1e3d692b742cd6d89f6, 0x2c7d9c944d792ce4b7535207891386b722458c54fbd627ba39521ab9cbc1ebc7, 0x2e71a3a451566f8919a27edb83647652520bc5b920531fcdcb2859a5ec77bf73, 0x6a4b1b530cc5e64e84e725629950bd7644f65e7223dfd4986161de535cee83b, 0xf55042c0a72b5b62d2107153b60482981bda1190bc8b8ce4e30ad101fac7464, 0x20378dc7686d64b35b84440493ca10a587a5505169d380fc5c5f4a9ee803fc11, 0x26c526f859170915382b65592aa1957e73f3145c970cd7c891dc86b7d3cd41b3, 0x194c4e5ab7214877317adfd216f34310e5bc07da13b67139dec08cc25bf2a052, 0x29e0d646063e27cfaf0e4ffc0546f1b309333958e0ecaa3632bb9fbdcd0388aa, 0x121b4451014b6382209a13bb0fd2727e59f0702a081fd34e04c8ddeb87d349fd, 0x3018ea843d3f3f525b9f96b6c6c07e5c86d4a113d183cf66141aa80960048ef7],
    [0xe30a774c353a2cbf244d3d014d1a0e5ff0bac5e242673ae33f1bb2030feff68, 0x26a889065a9131ee8541587286f27b8ab978d106cf21e7cba567839eb83cf5c7, 0x12f2322938e02f96227e539152719a6fa62147cf82937a0c980eb011c62b01d6, 0x2a7052a220aa258284d8bcb1e0646c0266349044ca3c17bd0bb628ec5422a75b, 0x1e01d825bd60d76a2040b5de5e43b90d1bfbb0876dabf550baa3a5dd47ad62d7, 0x3002ff6560000420d0de98e87d335432be4a58ff3eea053d2d332354cbc22da9, 0x3d28736a2952e396f2de28f3a567902027214706657773431d54cd10c0a0464, 0x27716d5bd3e14b61afb8d6ba91b27739f9075ff2630b19c6c2c26c5d5496e195, 0x13cde7afb44e0f9b6db2793a51226e40aee9d5e7fc75ed7c663fc2d06e9b8526, 0x503aae89801bbfc5f702f60ffa566477a634dc17aff8f9747d1fd1fbb3cd336, 0x1ea910a5da3ba8d8a39930b38b64ffce7616fc9c8bc7fc1fdcf12b650d04089c, 0xeb1ff569a325e123ede757ea250df5f41f75dd2b75c6532ab96dfe64cf7f3e2, 0x16cc1752c575ce984729208e79714c336bc3224f951fd6cd0b82a2ac4d43f892, 0x2653378743d2eea387c330a375bb80e67878a9740fc2425a36315206a140175a, 0x175b14e3bd393d825ff9560dc4ee5834c69beaceb5f8580156ef162c6d36369b, 0x162b65eff59b3bc39a2ddc923c77da7a17dfe79b7557b8383367922fdd8aa5e6, 0x297d9796101df9152043297c780dd5137e6bb2d9a25a8fa92187b5de2399affc, 0x292db1438ce4bced35048fa12b049bfa359709bca7dc314c937f0514679f0d24, 0x19c2715e87c332adbcd530ce981d8704f0a207e822f190baab421d4d03d24bd9, 0x139bf2e121b6694f773a58f70956cb782a37e4949e482d87dc820b034ffd0f28, 0x281e06a2a3e9c7ad29265b2ef8c1f4814adc59e5b3b605a05c3cce8a59e321d3, 0xbaa4181dbff92f83386e95c6cae0c8efa07f0cd6e822bd3769e4ae8c64e7d9f, 0x2288cd08659c856e697d93558197d16c03fac590096ede68e959636d09956d9f, 0x2af86b3b3cafb3ace42a0cba5c99dcce7b0fc35313b2edddf0401bc029373c1d, 0x173806fe4b0512b715cb7e3cc8679d3a7a4c2b7174e8cd710574b3c142b8197d, 0x25b66da637a8d92f088d8faecf034ab77e2b2c3f88fce5c560922f648eef960d, 0x12f5922b95ad36bc7a81c2fe8ffc729342bd3aeb1555969590bf2248d70a3e91],
    [0xe30a774c353a2cbf244d3d014d1a0e5ff0bac5e242673ae33f1bb2030feff68, 0x170bcf0294ae4059d95f36684abb4fc2cd0369a67be4bb919fe185aa39467569, 0x17d247983fbaecafd39c9dbb1fc2633ee7ccf02383978abe8bba05e7bf498144, 0x275c74ba59d68ebd78d02ea7bfc087b17708544436bb5438b41b053072df4836, 0xb97a196195430ef69cf23dfd0906653e5808c3593449bf58c374242ef82bdc6, 0x25bf621be7fe04105e8a50b02ed9025840affde6bb3bbdd06df97f2fe9e02e38, 0x296928baa83c1016ead86e5c9011b134d5d24179b1970e68dc89794b73d024d0, 0x23e6fc3b8617b6b51f35d983c470a99546099a6361ee1626e6e44e5e3e2f7dbc, 0x1b9b57f457f685d54e7f7f332af4233d293106f56ac093a07c209205217108b6, 0x290f0ac712987d7956e8b4dbdd8b6706399adce9506e3373d229d45605637311, 0x262a3b6b3986c250d387fcb734cd914f5e8bb751b571fad1ff366a479e3e6538, 0x295b88ac50fee49245bfd9bd911734324c8d00abea718917a4dc6c21b3e507de, 0x2e7a6894330ce6d6478206619aff889fb1bbdcec80e6f09de69398f344a4f6e1, 0xc3bf1bb2ee94489afed3633b8ec12dbaa4b6a2003eac80e7f1668ff340bbefc, 0x2d61629d203317ea4449e200880be2ed8421aa6f2de73aaa56810fc304eeaae5, 0x1d94aec8d967eabceea3de4acbd2c3b19fee00212d2dece58d5ae53bfe6037b6, 0x2f76d72fd59722c377e315583f91b326ea792968fbe6bf73582aaf7af697d3dc, 0xd243da739e905f8b000912519379de3a3bad6de3c3aaf91cfd78f9735b0c1bd, 0xacfdf5f69c09506cb85199eacdba0b9b3c5a0fa1a60cf283877ff7efaf3bcf7, 0x44de47687196189473b125ea91ec1ceb1481f8f49fcd47becef1b01f4c9fe09, 0x27e155dea5a1134466a8e2ba58e2b03cad8c38c20716a7d3e78c483b019e79b0, 0x2860ac51f3e70148561d5c109abdb096225aaf9b7bbc17bd7aa31ad26e243e75, 0x1a33e054ae45916951f73826b9badc032ed3d0f3c21acc7dd18d46f268cd2a86, 0x237acb3608d9158738b6b37b6f6b287531d9683bbe16b463c946b752c089ab8, 0x9328966036d95ecd345f77dc984391d09732acf567d010b855e0422365c6209, 0x6a41ffd9721ef018d7e9e2d67b8d9820d6a80be401e1617e07b29b3c5f8e53a, 0x1bac3b3b9cd40ec41b542b47ff0dbda03997f88a37aa23de69d0d5113e5b448e],
    [0xe30a774c353a2cbf244d3d014d1a0e5ff0bac5e242673ae33f1bb2030feff68, 0x17dedb52641d9f9e688a673980bf47c462346d1d6731db6bbf0c27ccb2565173, 0xd947949f35e75c29a986ed662cf1e1d85c2e3f3a9489da6d7a6a6573bf3bdff, 0x2bdb20a8327ea3f509eea1f81865ac34f7e7c5dc43d516294a29c208cd0bac7e, 0x2fecb170873731d070ccec6d88733be3275e5be22a47cd294ad7247cd75247f6, 0x1183c981f815c35119fe4558a0aea9f533f9d7980195d96d75a80cb1fed40c02, 0x5fa320ab5dae365f8a114d10921a5fa13f79f44f18b57021a483eedc2c5bba8, 0x2b951512add2c708a010d1ca59bed166f3726cae5cb1525dd379156d810e6c2c, 0x11f646514881127c9f1067238c06a7ca39b9c1a0234eb1b8658c2bc70404578f, 0x72413e94aca278eeebaca63c7941b548147387d21578f97e58ec27198fd4e58, 0x2aace8cefc1be4d4175001aebebe91fc87a46a280be0a90886383ff2d561d7b7, 0x69e64230343d9ac3c6130b300cfa24cec6086c85a1aa1c8edd073a7d33adb2, 0x1ce84829e4e67cd9fd3bcc8d1169a15c731e06ba76c77ad60e84b045d5d731aa, 0x23b52a113ac4ea90a8330c189a63fe9520f2d73db94406abea72150ea2b7ea0e, 0x160218f2b7e2d22653b3ca12190f5538563aeb27ad8ac8f2f71943bbdb0c5928, 0x84c1a87e7fed6aa9c80f455dd132e06f897f43b6bc12f3f5ff56a4297eaa153, 0xcecba653fff37ab5fb266ae654c23b2cab83b0f7ba92c706a078b4de3221adc, 0x2ef80d5e15aba6b2652fef7e0419167f804f2cf713200eecf30682cd138781d1, 0x14bd930a77fef4cdf7d47bcb46ee6fa596c43e9dd40ba87a488c613d5968cb58, 0x1ced050594cb02e43a97cf4126a5dead21217e9b5dec28ffd803a381ada6dbc0, 0x2efdbbe781cc22b39fdc48af3424a354c48ceb17113136ec794a9b3319fc9429, 0x2070e4e04671601ccd0842cb7a374ff2b93838af86ae464f82ceae2f1539c1d8, 0x123741e7f63e77fa3e2d8abd9f222b23dbba1c14e8af53385cad56594f065e1e, 0x1b75035c35b201efc55a1d47aada8976f5fb0dc1da22482a6b61d33d555eceb6, 0x25d76dabc919ef40ebe597d4bae43fdbd2197e9b0f7b7dda83a1360295e9fcf6, 0x666b59c9ad666ed3fc9d1e9af97fcf7ab94ba3387573d8d31f03084f9e5c976, 0x654f99795543eefc6e1b1e646108896ea5161c9c9a5e174f2e1cb9093809b4c],
    [0xe30a774c353a2cbf244d3d014d1a0e5ff0bac5e242673ae33f1bb2030feff68, 0x2a4984518cf4d03a9b3598bdc254484a1805160612b943ff7b509637f12a70cc, 0x36731a2bdca86fe011dd7bde4043f89ca492084165aefa6ad9f74717ed54536, 0xf5fc4d1e67992e65abcde194f07cb07b72800a4f4a26e5020e96c5d4ae3a952, 0x20d02c9669942a2fda0de7a67b8c5cfca08b2e914f65652a71044ac9a09190be, 0x20b3c785c2072c1016dc316a7933ad541fffa7df2d289b32799e106dc4f9c1b4, 0x1007df7ccc98951aae782b87985756784a1444531492615315080e2c80a33131, 0x223a10997957b12816110049ac7b56d550cd7a5c0b47bebc1f8b35167189b2da, 0x358632186da4fff1765d4d688ccf425c333995bd7438240be0cce1428717270, 0x216b1f88bf14a781c99ad7a394781182d40162fddaa8391917aca465382be039, 0x108441368a058a30c565ac01d4145056d5a5614892879844c07a1c0289b2c928, 0x3df1a412eb02d17bcc82088f46cb5f77ec6279ff7161856c52480d00554a366, 0x2cf2d9f080d1219e2dd3d7cda1442b178464a583260e6d9632e12812b08c38b, 0xff8f5f8d239c9afc6c9d041ff0805ee22c3ef3cf5248fa2ab198a303597d82f, 0x22baee6a9025f961d95afb122fe50ce73d0acd9a913f2fc8d07a050f4de65dd2, 0x1131e942fc36296247e9d9013e71cc89498a7090a683bf08bdd23e267340fe1e, 0xac6a1c394f929725acb0a1b5e11ad9e28aa1c79da25624596451b04645d8a76, 0x3cc80ba68d89cdcc935b0d872d775b3b8f2a0cd50df89edbc3a6269290d6950, 0x1db513c2f29ae454a99bf928ffc2d93fbc363d0bb6cd0bcd93106d1bfe5f789a, 0xd05dae2a4b1ec3585f98d84bee7d10717da3b17a71281672e3451916260a301, 0x2adcd4c6f191ccdbcd5a98bdc6050ba95009e2039de7f0fd9bbeecf0c4f1ecef, 0x4d0d5708e1d87ca69eb4d44350313730d9d8403801606def36f035183ae03e3, 0x11184dfa1ada7118e79f8890036facdd47001b7b63b74c3d2983fceecf3ecae5, 0xd32f8b975e939f7efa097c2a3d4cee8340deae3012758e3b3a4ee0a2fd193b4, 0x1a24e9162049895bdba49f57cee0396e4734bcab60d8ec4305a5b685b3ca66ed, 0x19873998ebfde4a585f34a40a6e1fa702b7fbd29b09aa141c5a878e448e48e2a, 0x2d055b284ae3e229cbe0d4901ce6b687eef40d815da38cde743f3851c774fbc5],
    [0xe30a774c353a2cbf244d3d014d1a0e5ff0bac5e242673ae33f1bb2030feff68, 0x301d2bd94a2a85a3c802d0467c1cfb28e2aee547d2f7d51c2af108a549462a23, 0x19ef6ff9413f7a05af63f528a7f80dac32bb3fe601e02ca15feb99f91a844d0c, 0xf1cb5dd8ea58b523d3e9d9de030ea9db932b770ed97d2755da22a1512696ebb, 0x151ec2edecad41d2a4a74e8b09748ac3d11acff9c8a825e0f0c539376313fc8e, 0xbf605154c6e6cfca764590093b09ecec2e38a0426d4f8f0f6f9ce771d4ccfcd, 0x10d1c2b4f3622195ccd9bc64ab73145907e7358d92beb85826770d174810cf56, 0x79c01911499171a82059606f1a0e1683eb2f076a4a72314e51924b61259fb79, 0x1886095782a7c6abf9faf6549080c2a72f8ececc22bf58073df90be6920473dc, 0x261c4081f13edba795488c906dfa2b59917affb44cedf1727cb27da0b0b2c20a, 0x2cfdc7ffc3609e9d82b3bd1f2f1d42e15d1e0b7eb24719123e0b67d060800dca, 0x3c9ce71c00e243a950dff0d9e0a5d3c42f823983f6c1d3d50e0de1822993d84, 0x13714ab10fbbc54e15fa5ff0d6bca9846fc940a9c6bdd87b044868600f89bbee, 0x134d4838b8c77e7270460739fb444e60580e951d914a5a20493a2b03d294890a, 0x1e6f53eed7f86f7291436624847ef6451457756a213c168c3bd7a5945a4f2873, 0x8c4e9815652721c5293235dec1eae97fb8f93ac48d86c37ad6adfa77055665c, 0x18d007112ac9205d16ff209b80cf0b5260387ce770d4e6978edee9e0003fabec, 0x5140e8f5d27d7248a3e50e84c6bf700fa31c1a1a7ac144390f4bcff5ad61243, 0x19f153d66e44c662af026dbe5be9be834a10a3dfeae59729555d709d61e38f7c, 0x11e0299ac3f3ed3ee71377dce3b85768cd2a6b65e9d3bea24743d150e19f943c, 0x190ab7e9ed8c741d54fc558afc96b35d9319d317ff6d6332ae4ca77a8a3a7911, 0x5bf8fc4ad0126d42c22ed2c659b66f053ca3604f0968520ce5c7ef06c5a8793, 0x28c05200db6d51df10d8a4986cb65c078001f295343de608d68fae45cabdc5f0, 0x1d64d0d4143f869056ecb1026a361b48dd5162f38beefad1a6d139843d3dac9a, 0x56869389330224064b29f958f37fe90fc2bb4dc2454425b0d362b892be0fb73, 0x21124fa7acd6d96ec308ffca46465e5da69c44814c6e40e705b7c6b4d7eaa333, 0x210de4f22732824523dd4fd0587eebdd78cc339e8dc44fbdc2a317244132f7],
    [0xe30a774c353a2cbf244d3d014d1a0e5ff0bac5e242673ae33f1bb2030feff68, 0xc231a81780a5f9babc1f4137106d456a5cdf0a356e0c3b79b330982dde6c5db, 0xd2286ef77f15b562ba8316151a92458c52ab6979d36481abb6ee9420befc144, 0x14cd6adb239444df9b510c5e1c2a378f3ddfbc75b61371b688931bf3c6ec2563, 0x1f94577cc0cb87a180811923adfca9a8cc77b8ef41c0efef36e1b319679f0f10, 0x2bf8ecc53796cac7b1b4b8e8cbfe8f92c31f726dba638783eb063b675fa96064, 0x2443dff5793f12826c9195fc95caf2162cb739d837c4e15d426e65eb20c44884, 0x28807445f05857e5db18c6ba6c0f3d67cfd08d7ee0a1b5a3ec259c11e57f6581, 0x2d7181a0eb717fc3d9554bb1996ee527cc29fa9dd3ddebabf346725d84389a45, 0x1d467a0dad4ca6c95707e95f8780ca40fcc983a7e1171b111a8874b122574488, 0x2cd6049a0ad06e9a9a9eef6333566fe7558db0007e6e92d71250ce582189453, 0x2ec06f373cb79c1143d0ead6ea94a531574b642a2a88ed6cb21bbafbe2932c57, 0xdadde1785a6e8705856c47207ee42045dd0360c3cb332e866dd032ef9bad925, 0x26ef0863b7b4eb4223c88b5864b903526d84ff81c099ea942fa99ffa0e376678, 0x26f1a2490186a61de95667c8672dffbee6bc1451ac11fe2e9d159d308f87caf9, 0x913a0a4317ae24b6cbef39c87f10a3f47b4fa74b6e7f9286a6991027af81d6c, 0x101d691311e602f1bf45e2bad29994880376f57804517525eb169240d21ef3b9, 0x1c55eab0a94644305995dd5b9a4f2724390d88fd3e982be43b01a627accf5b16, 0x1f788dca1edff5172b4e948868bc18e7c0ef3602033d72ef3227f8776bcd40b8, 0xc5dc41e36fe501aacb4d8f8d33b12da167a12fcdc10626a1cdfc90cc25cd819, 0x18a6e567865d428f2dbbb6e9bf298ab8958c5d1737618e5f1c5679c76787bac7, 0xcdfb3e5975fb90caee98497768f37dd465586e1669d6bfc512b32a3895c62f6, 0x30edc8429fa6230b5bf9553ce19f0a78055f2d68dec10957d0d64e8a3bdb3e, 0x5ff6dbf8c00e9f32a61f908e6fa7518e49ce0bc92dab519524887ad9bcb3a8f, 0x187c0035a20f42bb04a4d3f172d8dd71761fbe16405a0c73658a18e177012b32, 0x267e0e37151a8018949bd766e65170ad7944b54b191df4904b67d181a3b0341d, 0xde2f39c45dc6b47bad47d29d8ce587e60c432bf03f9924e3d70152bab232ead],
    [0xe30a774c353a2cbf244d3d014d1a0e5ff0bac5e242673ae33f1bb2030feff68, 0x284591632913e57214bc02159bb3e8e81c06bed2fe6f302a3d238f14152cb3e4, 0x2f6110333487576bb66188bb38170601a18b160a41c655f55b366e138ddc3c88, 0x10e8a25fd4ff737b1fd8eaa1ca0fdc107a1d9e48ffbcbd86fe2b388dd10ac80c, 0x934ae9d36b935e477c1d92c9ea1b80bcd2d81f3fe0e37a4df894293f7ee2e0c, 0x1d48097697bd76fe5b0fe21d8c182a9a032700c0aa94fa147765147a66c7a732, 0x26a007b8e7c5a0f095c47c27e9a68c6be8b08766863ba33854b2dfcb6c708f74, 0x1db9c979d26dc221830cfd85bb16b9bf6e6ed9032c917ed64046d24b19feca2d, 0xeb6abf55ab892abe5ed8ad7223d04460eb7cc6591216c260250ec0ea22852f4, 0xaf52963d2d8ca1d85fe433b3e20e360f488dc7ae40a074925f612959482fd7c, 0x21a08ad9c5da7fbfa096b1773acb293efdb29b76a2b0d54f107110e7f7e7ae8c, 0x6cbf675121397f0657bae080980b2b22566613e0501f74eff8f71826a5aef4b, 0x31a23d2ad653f7306b849eff0b4373a7a2eae9279e8f048279d90241561b192, 0x2f086707d317470467a8e0ae03ba725ef79ed1ef014395b67ad4da788237769c, 0x24360122ee8c5a9ceb21696d69d5456a3166419377b098388a2f19966ce62005, 0x17c0f7d233d0fbcc5c520f1ce3a5d4b095bd11fe8f39f090ab7e9d24ebca8195, 0x3f293140b7d07e158f63f94792f943632ced772d71cdbd93e171a98a2bdb1a9, 0x280d4d680de44f4a35a8d0baa4a1feb3701fec97a152e977b5352563c797f68b, 0x1633dd4196cf695bfb9e5138ccbb381b0bab619ad1b728802c0e9b35770503e5, 0x549cb9c6b3ab14ade93f695dc31df816e13e6cff79023f91c5ead9311fa37e0, 0x12dcea4ce3927ca8c308751550a77c5ce4e095e0e9a417108c18102e4b0aba31, 0x78331ac4c2c6702655cbabe212124d4f1a1f5005a75faf2c6fee507b9996541, 0x5674b32b037c937ab00bb7ef41befd1c0004014b66acc26b117bd0b462870b5, 0x165c541ff3c38f4a9af878034316bc4c08ec15fcccc77657e7aea32c982e26d9, 0x16477e2f6956b2a232be8389586b0569feefab7d635f173ebfcaaa06040441db, 0x1698424bc862b0a96fe6843dd5c7626ae0182d50f8323c338917bd9e8c8a8744, 0x1dfbc6764488855933fe75e10ddd60b09d67d98c622f36cb565931d97e922988],
    [0xe30a774c353a2cbf244d3d014d1a0e5ff0bac5e242673ae33f1bb2030feff68, 0x2f722fe53b252f8256f3c9d613fcb12205dc97de726ac8f23c6d4ee0a9575add, 0x4ce7f85039445253ecbcbf393061759062e52a54060331db27947bb0e04b101, 0x2ad1ccb6918b4dbb68bbe0389521d418f1930df1cffc91de8e8ee648a6a4e62f, 0x119ab9bbd433ff01c7e43079d288d053e7e0c4a76facdecde1a77d544906b4ed, 0x17d263f75f3d3f0d472bce50e641017a291f8466e6c03a768c138deb1b50f3f4, 0x248be6746b30e18cc13259078ec848411532ad11d4506ac6ccde131495c9fc42, 0xb02fe4295790760e1fa72811dd63502ea36bed8eb8652e6b35f4faf9b554312, 0x148b519dc0b5daa50f0073094e87db4449c8a068ccd109872696973f9eb806c0, 0x1bb5e7ef82c1a2a02827a2f16a34cbe60209f8475d3bfc0b6652e61f4113e6da, 0xfb76804e630b9b522d9af08f1b53880f5cdc691bb22c27151f541fc8e1bf2fb, 0x25f15fdbcc16e5c1ab1066d294bc774db9166ec45d4dcdadc4597ede1da532c8, 0x18cf6ec7ac6dd943c57b9472b58af18929a94dd92a340b3e43c074f62b7cffb9, 0x28993fba9683f72a8727701674e3e657fdccac4649f82879df4295e858857317, 0x1fdd6bf585ede657728a4e97eadf195c08f8e6144b28bd92ef6cb706e4f6b05e, 0x1810b0fdc26d123bac819ba150ffb6ac9455ada7dec6deabf178f0dfffab05d7, 0x17935bc39ce241e78bbd64ffc72166b8d8054be62c494f3b89abf88810808fcd, 0x23b66feb87a9b7a105923883b0ea0c73f795e445e3cb6f68c9217cc0ffea43ef, 0x9f6acc9470a3ca1b06e023cb2f6d68a46ca6c434c521b2d0a799cc3f7b29a9d, 0x7059db933a49a59d77c7dd8226ea452868ab183d14aa09ba3f62011a08ca31a, 0x110283c2d84ef498d54d8cc89f3ccd48990382ae73b8993a3644ab9961b71141, 0x2e0861925cc9b76c5b0046d8178cb36a13b26aa4ce4e5f7d3be453378928627d, 0x186d7f00229ad745a0123ad95fae9d1136d4dff9fb693f954ad9fca972ce9d89, 0x22c7a666156ed3e7813e98f60d15e23a461d2e9cf389a581dbf8be0bf5afd011, 0x1cdeb50c6bcc3f9cd2f59588fd72fb929034685f88506e891f41dd572c67c360, 0x2978a2a151c95155411e8acb3c12cdbcf929d675fb978e636c93da663800c33b, 0x167e72f7db7e8e21f7daf4f02fa830884851d562c3b51606b52ad3e80d4757bf],
    [0xe30a774c353a2cbf244d3d014d1a0e5ff0bac5e242673ae33f1bb2030feff68, 0x1957be621bd6207736b0374c7077ef66cdcfa4bf575a16d2724ec94e2d764876, 0x3b264ea2c2a171ce3bc6672fa95706ae37155fed16218080f33e469bc9b6e54, 0x1cac742468595a01d58239fa27bfd73e5e4c811d31bf2307e3ad7d9f7a440c82, 0x1308e2503e1623793102a3c6ef79b0041696191d4cd1a089d440e717d15675b6, 0x135997d11a8ab3d418e1b34376d3193d0b8355902aedfdb2f29aa43278e2790d, 0x6f8a541f16f9f3d8bb1757aaec5ed1fdfbe7990e7b046fe6deb8c6af212ff4a, 0x9a4037450ac7d74675a6abf0169890a2161dac550cbdbb257ca22f4026ee4e1, 0x1bb22813c573e8209b7100e77ef81cedf79e7ce616b229a7540505854c2612fa, 0xd5235d7acd8bad965dbeeaaac39d599543b2766dad81dfa738988f8c4fecacc, 0x24522e82642d0c00deb6406ab28a1867dfa50cd6d0ecaa0e18b6e5824005abaf, 0x51808f718e4a3898d1266b473a2e0fa470b9ab592f9e1efdfb177a8f1b1a863, 0x2ebf139bad53a7408b452fdfaf8847141346688e05da4e0e5b478c178bc36c17, 0x18f177bfdabe5eccaa6dc0fc28f75e20dbd9e470ad50337724be79e46f4b4298, 0x23f5e3e09744ca3e73ff2660e40ac6b8152e1c0a93e507f311090e6574458779, 0x23fc5867bd5b4d52686ae8ebe3c1454e266bc576aec1f682bf18f783853d8527, 0xde2e3ab296be75fe02af329d61d80c5c4d29886528315b4698223699ec70de3, 0x2f4c1d3cf6793b0f8a707de4909c1df3f888a37f5f8e382065b500936c33d207, 0x26bfb7031fd16e59d70dc1720d4d04301d97e07a0023e58765b2b6b735b02443, 0x8f0bea4f928caae9d19e71f19dd85c7d700b1b05b3170548784677bcc4dce73, 0x206dd86edb0388abd591546b376a7ae6dc433041b7d248ea75d908c4b3740afc, 0xbd896df632e39aad4e575444b0bf49de0e10183b09137b8f79f704cf2feebe6, 0x2188116488e4192be2569647ea81c6caa45d08b896ac14e497ded7a6b80d9852, 0xe95540fcc2df2d1f630191f9e5f48b7e4695fdd5f4e9a7c930f16598b3e9e53, 0x29d25da59f9b238929d0eb4c669216770673bba9a48a1160793ec66e75259040, 0x998c56e22c0fe57c936f19774ec4368ff33aca06589807db3a1e8138395b4f9, 0x1f460a24b80724cb88af9fd2b73b512e6d5fde9ad6d0b73801db0cae1d0c0357],
    [0xe30a774c353a2cbf244d3d014d1a0e5ff0bac5e242673ae33f1bb2030feff68, 0xdc5b4d3482661089384d18500ed0afdb1a635c006ec67b3137ef97cb03d27d0, 0x22c7492f2fa7b9f297c2f0365945ce0e262793331d3cda1cb73d083fc8a0e21d, 0x266af95c1174ed0a5781bad21a2397578ec4d16642d729c4daca8f14f6c86a91, 0x14c46169d20fa3e4a67fd8da381ac224d61cef48dd27c1971273519b6f9b703f, 0x1269bce1327ee515c7de22ced7aa99a4df202cf661ea0f2c520ce2a721a640f2, 0x172bcf2621fe4e5c2919490728ee5d19f6d1b3db328addcb2f70a792490e9bc0, 0xf26dd040a3d43e4788c20be85b4bf774763729fce73037ae53a5f490ab99c49, 0x2fe304bb2aad7c3a3fe30b77087600d1da7ca2d9053f7ed264c1865cc8231907, 0x2e365d1b4f6d9946faf2ba71fade06bbbf2f8475eec5a56fc4843765fb4a49fc, 0x25a82f1231627dd4fa32b82d274658a1b64e8ebad06ee903aab649e32ffadbcf, 0x2cb9324b95c056a7dac8511562fdb8049c4f08e6fbd3ee222bab96ecacb89c9a, 0x1e3c03ec4cccb96e93e7b8fa96f6915a0ea2f392b4f5ebac5b2f251013fcd3a7, 0x21011730617a2b7c760f7758dfe37725189c39224023ff0d819dbebb1a81c07, 0x28b05c0a2e98dbe8f090863730a24b597d97ec3adb4a00f3f1a176d02f495138, 0x27355701c30ec033287bc103652855c341a8e80aed9b0bf7a1633b3f0ab11a43, 0xfad7793054577536c56651b9585ad1ecc2af28c4065c6fae4ff47df4289d5f0, 0x21bb038dbba587b85cf0fbfcd5e69de9f329f6646bdd40e8e27a107161f624b3, 0x21b1f094f3e78cbf60067b3b785e3b3f24c4161c91c452318ee990e07e225524, 0x52d8b24d73c86adbc8311390a5b2c9b6300671f92717203ad7c463bbe0789df, 0xd7039ff767a3d8bb07fb62d6b2ebe8c543277e3da1531da94cc861d4574f648, 0x1b916f0851986c4edc2b927aa8bf9d92178ebe75b77552ce47a63ef70409bc03, 0x33cab9f4d3c360924e9227254f4f9bd52fa7712fb518e534f9fe69d04d994e, 0xe26a5327b3a023b0d1a432d4be5f7f0b09f8c4143ab881b985f2cf7e458fde4, 0x2ca57bd0c629753607a4c9e37b783668abbec7e8e306f75b88ba97772d371595, 0xb7533836731172ac9dbb56e54588a5eb800fd80d6754af74fdf13460c340ef3, 0x28c3653d647bd221d2b3c79f3da382a937cd1be9a33232748f04f8e1c880bdad],
    [0xe30a774c353a2cbf244d3d014d1a0e5ff0bac5e242673ae33f1bb2030feff68, 0x7fc230b6a36abb1c7f4b7504fa51ab01aa880f7b3c0a60eee1637ff68889dbe, 0xbbfe36421ba52a2fc87f6d7976aec0165e41aee0f71cbfc87f41b6b965ca6e6, 0xfd2424b028d4d8ac1a8c66e6306af2c3df213a3a7979e367c2957eb631f17af, 0x1b674725a1f99e1dfeeb07dffa4d961ec24a31d433d83f858cf3ffdfd2fabaeb, 0x12c9cc35e0ea2482935ddba214f21a8c08df3dc9d6b29f75619f9ffe0d055f10, 0x1ad3b10f3f584f4811c804d95b3709ded70c5a7d3bbbf6f91339943d85bbe21c, 0x2abfcda5b9f799b2d0af0861c17c33253781df51eb186a65eac958b34e8c35a5, 0xd9cf52fd20c189982504d02aa80500a5c732434dfc9e7cacaf08ddc0d0c76dd, 0xd87620da15c58c50af67bf3533b399edf83c1e7dbc0bd9773d40d5ea287aba4, 0x289e55051ec741e27389dce0eca1cfc0fa57be3381c12943fdfc6aa392b60af1, 0x285ec1799c195e638e16e4cc7fe5bb7ce06b1c82105cc4d61385dc2d2ecbb979, 0x284ce6e7141920ad4159f9c97ee921a24cd188718f7000f1ccb091067d4ddeed, 0x2403b3f3f99fd0daa8ad77cb3f8d515055cf80d1d5e8d32e4e4627e95489f57e, 0x2ef65bcc67502169c5c5d324e09297b7253302c82a337f00033c814aa33d9cee, 0x2b1ced8656b92329d623a85ee61e310495566ce4effcfefb6e6606ecfcdbff4e, 0x2cf6166a9183e66bd94be5aae54afff0f02cc6eb68d7456cdfdd86e0e7f0719d, 0x60d392a31de88d78b696e7238af3ca3eaa5e412437c66e59d7049b69d2507c0, 0xc2b62bd89e35735926f6474264c899eb2b5956738a478b6e76d792bf420cd16, 0xe070af64e603d24608847ce8677d0291e08d5c10ec31f23d898d716f1c39d1a, 0x2de645e3763155f48ca18d06dd21370f314e26382c6c9e883d84e387bd892893, 0x17deebc35147ac645572140ca181a81785e74dfce063b37e326ce6e79c66a6da, 0xb035d43bfeca4b7a464054eaa0f892cb035db06a3150ad9ce1ce45f6ad0b811, 0x100c78328ef5a499443541c1e27f78d0e77f65f93738e393bdcf4b098681be52, 0x180cd1e5a1262087a60bf156e8ed528070936923605d5fb078f4f6f956a55aef, 0x1409c9afb266f52723089bcc3b495bb15c9f10cb55b32b73dead030f87e6e24a, 0x100ee62d3a9d66d3b6360f540f954493d7af73e6cd95a10ddbcdd79d6739fd38],
    [0xe30a774c353a2cbf244d3d014d1a0e5ff0bac5e242673ae33f1bb2030feff68, 0xf8533b51bd9ed54a1703fa8399239d3a7fe77b0a55210917343e09342a0fd81, 0xa38a8515b1393a083782c40f7261e921d87155c081b7039db8f409beb2dc8f4, 0x1dbe26b8ab56c6de11196b0ffe7355348b99083a94d2f2966d227fde43821f7, 0x2fae58b811204fbf3232b298e274df120020289d06ba343bc9532fae7ccfa76a, 0x2c33c971128abcaffde44567163b071c1c845d5e04e4b3e4f3256c690cc61efd, 0x1d6879298603d7ce919895eaaf857157bfaf20b46ebad48c36e85927e004967d, 0x154e2b495b2894e24c7b64fb83c0473186b256f83de4e7b5f82abc3e97b9d176, 0x1108e6590ee097d6177f9b0e8f6df631e91ca6aad1744fdfc36a5a7cf73689c2, 0x30e4cc0defe07e0c0ffc72ec35cfa5f902e564359dc27e6f500c921db4f22c2, 0x1c4f81779c8633490f3e3e276603162c4a5e42fe6db58a53316f805c5c822922, 0x2954c55e5111eb033ad80c867317b4aaba9d750b9f9bedbfc48abe8430ba3c20, 0xd519d7237511791c479d178f6500e54532625fef17aef20782d15be156830b4, 0xb18f5604bef3748e0e8ecb40e7f636d2452a42ed19299820a5d41241e3e27ac, 0x2719c5dffb3c5e099e2ebe58e16855ef505dd10daf7cc2f213113ff647614b42, 0x16e635dbb0038d05bd950a92b785afacb3fd0e6b86cce3d242132d4f1c1c0ce, 0x3920a662038566aca072b265532745baf239bb3e60326891222047605015b23, 0x2c4f137391f3b5e4e6024a97f1c9cbdedb1297d123add7adf4d6461ae5a875bf, 0x2264a7d603db95df9f07582fb03dce9340e2de326cea846bba043b0946f812d9, 0x2f1f379f002c49094dd938433a986b519a123c4d9d0189d66533665d0745067c, 0xd29276a5ac511cfc3a3fe7b9244d4b7010cf0bdfa90d7df0d6c4000b9585d45, 0xac3ab6802fcf30b3b6d2b1a69e54b3699179b4f30b464e0b71b6b4b6b1124bf, 0x2dc0c34175e61183601ba4dcf9ffb457defd36abc2e24babedbb0a9450155fdd, 0x6fd088a7bca20b5570d68665ae17172c13bb3698f3640cce22ab74ead7c5663, 0x1de87003640c024ab5d55c378a74e14e1adea072f8d22ee932b49150dfd1126a, 0x2e01b475d78e669a868129b1f173a77a0b28d82a89b4ebbfa274a0a41eff3e06, 0x1ba9c82ee2f9ce1b70390faa1d3c40585d751775bc8596e32acf34bcfd58f814],
    [0xe30a774c353a2cbf244d3d014d1a0e5ff0bac5e242673ae33f1bb2030feff68, 0x2a61fb95295b3b5c0949c486673d1ce6ed7328f42c9dd1c82e27fa3dbb0e3bf8, 0x156befb6eeb13f52ba65eb7390b7c812ba6aabc5d1acfc189b95f71fb47db283, 0x13422f783a978ed5ce35e1540d99c3cbc67803de00a3a4fdbd37f7c120d7aac3, 0x1995d00ce7c99415c2727e89618e705a87fd4456149fbd899c40f43320d5ec8b, 0x24ebb318e440a45956fae1a46a3303ffabbcad5acb8cf98b6ee6805672ea84b3, 0x2c6c1b35e7979c2e34b071a03101db8cf753b5c26193f206e2ad214ed47387cc, 0x2fb55d17e5a50b80b168fcdd0d618f2da007510bdbc429c5ed7fc9e9a1ee5c0d, 0x117c39033ac0e1f5f8b57844220b7260e3085bb99925eaf937d4a43a06bcd2bf, 0x154a4ff3064027d0d4aaba2fccbb05fc4b074ad7bc4443132ed23c5f03d38ef1, 0x16ea33e7327d3fab4e15cf66ccc4e99104aa40a4ae0eefbd478517475c274d62, 0x7af162f6a41d5623cd47181367c6f1f5ee0be7b9e0b53fb8097789ea9a0cdfb, 0x1a732e3765405223cdb6eb28abd2d425dc7d1cdbe575e08568e1028d8ddbc398, 0x1208ce1a3a017db5d1024920a6a0f94fba55f5b88620ace2e180c3d517163641, 0xbf9ac6ccc83f71dfb86d40b19b7609b555fbc1ad465b09f9b47b21cb230e174, 0x1ae8cbc6e5e4b91ea924aa8045967abf4d22d687639e7f64df40e1baec14a3d0, 0x2a1be1e4d0fddc88eadca5e835f30bf7ee39b0aadd995b48a7ba601b87d16380, 0x1dcf4c29bab85ce96ae81703ff26262a09c8895f886a71c01413d440a2f783fc, 0x2bde5bc567bc599e209587d01a8e5b83c9f27fd4988c978294ed9b680b03047d, 0xd7f63416aaa46e1a5ab07653c98721b3848f7f40dda0cbe24f5be957249bfd6, 0x201c0d5ba18737cce0bcf6069d82ac70b7c6da968029939fd793e7dfc11997c1, 0xfd4dfde771c21adf5ff971e0bd0301b0f9c0079a5ccbebf6cc05a578218cf9f, 0x6e26ebfae0d7f5596bc1719d578b1645bdccb473c802820e8d1e73ba95fdae5, 0x153a90c4a4df503ade4670a019c1c539fa9abb1d7bd85c5627e2a236816e9e94, 0x268ddb0d3607d6d88ab21623db322f70881c865d1baa284eef7b6f504649f5ca, 0x10ad938c2c97c8785232011e8e9956ca87ab31b6e9947a3f5a9cb2dfa526c178, 0x100a9d42b7617d60e4b3aea5150d059bbe751456c4249f0d807247629e61f0c4],
    [0xe30a774c353a2cbf244d3d014d1a0e5ff0bac5e242673ae33f1bb2030feff68, 0x13bc85e2ad431df8a6705d1990ac925ccc3df1282405746025b8a5b9dea661fd, 0xcf2d89cb39c2d88605c0a34e07eb31436a77a2909604c6917c1c8ef5b490d8e, 0x2612eaba8d6b833432665b1334d612cd9bc430a3bfe2ebb3e34b7a9d878f4054, 0x17f2915802e376c5827e719a6890d90fb067762c96bb3bb86bb34f2f14211011, 0x1ec7edddf6e2543f5e457ad0adfe66ff55ec07302a6051d90797b65380b8f07e, 0x1d4406aa079fb976bf4d8a3bfac81347bcea2cc9b8ca732d3064f9413f202082, 0x29b71a20d311389c672d8a857b34b04e5b4c95624ca72067879cd312d8b17cb0, 0x6df0c4c7d3b8552c2298f518a19665ec355cdedba299b20eb193c67c0e72d43, 0x26779e10800437760c7bc212ceaa5d63d53a234368296d667f1d19784f47cda8, 0xed1c5edb7053068b07ee60910ed3d1c1e41684b276a0ade50c654de10a44cc, 0x24b4046af28ee5013cb1662a81ae6b60c9431724b3b16202a5d9d5ecdb0dd322, 0x2710607671674451e9da2932f51616f1478e7440017bcbe5f1df1031baa582fe, 0xba845a38009864ca2478e043645bb6d035ab0ae20053ae65c99ae914819878f, 0x15c5c54f3efc26d2836a2ce81c045bcb20e137945f8a64ec93b50b05fcea1624, 0x2f416e4189aeae931290aa08d84764da18dce217ec716ec1ad530d21d035c1a6, 0xc92385c63d6c451389a83dd7a46784f98852b6ded3100b65a8b7c5b96d89305, 0x222e8105aa188083af23785e36e1eb3b483fec353b832f97e2d66d79dd0e2926, 0xe98d7f5e45ac6610fd164ed687041f2952e6dd3c9fd12ebc8395a6893ae9fd, 0x11591f35ad1543a7a8398cc80d8d46980fb2d5a91848942956072a3b58c3fb7c, 0xfda43471cb17ed2c9e4ad1bcdaa962da09fb99a5bf74024d3223784df4e043d, 0xa12e81049a88849ad74b40f381be30c2c2e9ec8d8c50bacec5d1868f498285a, 0x7c6d194a73f848f7d716d6f30acb48ac7baec5affc571b6b8b6b84996168339, 0x194f847f3c7d048a1937426a78e0784cde6075dd3ecaad21a4d8b0c29e6dcc58, 0x478225c0df10ae1047eaa6bb766c7cba55d1b2f4ad2c92b579287d4afabd622, 0x7098d85221394b7dd9d5e01bb8d8fa324f52cc50a01d04959f7cf47a9d426ba, 0x152237727876536fb0492b77e2ca5083d39421c48dc34e5079a33fa3d2a86379],
    [0xe30a774c353a2cbf244d3d014d1a0e5ff0bac5e242673ae33f1bb2030feff68, 0x1420a14de2cbafff2579616faf1bfa74f7c6542b053a499ab551a3408f0170c1, 0xb9d1c211a3135cf248f2ce8bbd1fe9c687788d37dca581e76ef796a06abb333, 0x2d90ad8b96b95e07f313d485195a90e8cdee4c30fd11b740617caa864d20ba4f, 0x1841439f401d20be41e3aa8154a1ffb5b06a7cba6987fec7f41df5f92a6bc91d, 0x2388640642c291a6a1eb98d73ea78b7d176c2b70c6d9bb637abdb842c0f4a78, 0x26847393fc7364e97651b2b787111e2863ae61218c0a21b8ef93292d6d3f59a3, 0xa97aa86b7cbf546c5722540fbc3257e37e701c44023e6382785a6b8f5e2aa6d, 0x1e66c9e1d497faeee46a478ab27fbaf5f9af29f43fde16f9a6385e0d05b17930, 0x15dd9d1744c08352420e756cc25e76537e8dcfd70c5e0dcc445f77560b730ee8, 0x907dbd7263cf90b8cb5dfb3bf60610d4fd44beeea309945d8205cdaeadd2a2, 0x233dce7ca21fd1e909e98dcf2b584e9ad879edeb0f395bf9a44aa7fd588ff23d, 0x28d0f25cc88f3d33af54d011063c0a2900fb50e18d1517d52d63ce72b435a3a6, 0x20db88c936bfe7c6e86126581cbf8bd7edddff26237df67c02777070d012ac71, 0x27531eb0037dc5b938ef188fb167f38039f82f2cffbb8fb6511b05676af6e230, 0x174c8436d7632117178d777c3174aaa21b1908cedef20997afd4f9de59dbaf61, 0x610a7245fb111b8632cd43f8d356a839751a7ea383870e108f45815e7dfe527, 0x51ec3ebb56094e6fd5fb48401dc97a7aebc08c0321260a03ce15a64401d57f7, 0xe79a17117660b79651058aaa102bf530a98c0fc27890c0e572ecc6d6669c36e, 0xad64295a0a164517040af0cef26fa9e39b1ea67db4ab22db5d607c4fca3de99, 0x2861d3d53c2665d9ac962a2a78fa4fe8cb6e81e7ab229f66c432a80dde7116c7, 0x2ffa7a7a62d5e1bd03cbebfbc5c758444ae0d0734c4a5d667a158fba11a9ac8e, 0x2fceca53023c3cc3e8991961644decb60806c5e26bd2ee6459424033cbea06df, 0x1b315dd83c8b16a2aaeb9119436076344d2fa321f3359d6a9ef6cc15b45aaafa, 0x27c786865b0c424bc2e21f43f42168d668ece1b7707b62b6ea77682a60a4b1c8, 0x2f55ac5fe9c4deeb92cd318504423f31894b80e6a340fd21ada215856fcbf5b5, 0x8484c73576645af031da8d059f7cacd28c66906a7ae10ad91c196373601335b],
    [0xe30a774c353a2cbf244d3d014d1a0e5ff0bac5e242673ae33f1bb2030feff68, 0x1f1e99a24da4de93564a110744d481be210f6020ad98006f0bd4610a054bb397, 0x1313ce9497a6e074c155fc0218d858202308ed1c1241013fdb1b23967fa23167, 0x20dd2b7ad2c4f1f1d19f18b29a3ae436405b6866b8dfc4fbbf0877fbb3e7eb1d, 0x1d9a3b14077a7c4d585632de9c1e0d4a68c71203492d5911cb16f3afa68bd2e1, 0x1731badd5397325e2221f6739002faa9da0372fef8043ebf93e4627a3fad156c, 0x23e7e3fe8c10b5580a79f4c3298c8e1862b7f5237942f23a5455d4eac9275685, 0x2c014180a6ecc47452808fea233b82f39e3b7caf0175687777ace7544a29e37c, 0x292a5b755731fa19173af35e46536550ab67aaf5f7302a003d0f6df204e8976b, 0xed8c6981ca41600dba450a860b85784655bc05193481ddbe475de4f351d243a, 0x1a19597908036c20ac63ccefefe74a7d4a34247f7471bfa743f7d1858c8fbf19, 0x21d82813886827e8c1985bae1dd3b8377bfcaec6e7fbe0924232f059501eb278, 0x1a3ba88e071dfb03e2af64d4efbbab382517f94566c7268650899eb6bb1971d9, 0x1d48d408a857660c5fa36286c7fddd68d2a4831cb0cd055f950be3c3c9607347, 0x23a912ee06a717208ac5f8e94a3ef1c0dccb7cb14a2fc32be71d8d25e65827e0, 0x24f16318b8064d97d3543dc09c0c2895745bdfc96371bcc99b5c6d6ff6af3e13, 0x732c0b040e6bffbae6ac8cee5748cc4b1dd79559d2b84d73347e7868ee45e36, 0x28d961a33687f15d8e4239aaa2edaab1dcfd543bd30437afc151cba1d8b6f93f, 0x295338d4f509a0e6ac18622299635bd3930bbfaa4dec3b885b817bad870885dc, 0x20bfa91fd05c7fbc2fab0619637bf4fed31f95731d89c2f7040f4c893cfab9a3, 0x40df188035ab2406a932606a391e146c51463a5129c2bc5ab3416e6455dcc03, 0x2483ffcf685a6a42aba1af8b1c9af41b66796946957e69947f9790615422c61b, 0x285aaafdd3180b1543fc1994846ffac22fe06908e5a6bdd3fa3d22b3644b6ea7, 0x2dc5f343de5cf59a69c9429e96289dc1c4c8cf08fe69184b68690f33e233fdc5, 0x6e3d7b62ce4436fedd0a240d7a777adce79716f5a22b5efeeaad0abf1e8b5f2, 0x1482cba9741ff1dc43ea1fc5189a2a59fd5b2bc2f1959c164241662658f2507e, 0x1348498420e5f9e977c9db960818c96b1f93cf370a2380138bbd56e0c9d0d526],
    [0xe30a774c353a2cbf244d3d014d1a0e5ff0bac5e242673ae33f1bb2030feff68, 0x14fe503bb439d34ea8eaa57cfa1caae71e4284521ba6240b0afba874b93ae8f7, 0x1f9c9a83a952c1e72697d8a93b00a57bdb092d66ebde1ad8b169343f93c3f8e0, 0x24fbb0c0f2ace05a5faf061867d2cefb35494ed9fb7e5b590db562486c88b0ac, 0x10f738bd7905a3db9f0d6fb73b2cf3c4877dce60cea5925d5bbece78cc5516fd, 0x2a62e245b8b68d45298987ecf40a0a3419ea8653e4da0d6a6f55b2152d85ca67, 0x275b72887f4a3fd32bea4bbf47394106963761ef3e007f2f1e4460140896c168, 0x1552e36d16435150e476fa6665c4f058355854cf2202d91573072ba3dfd2807f, 0xbe9ef904aac486fbddd1b8da7d57f9ce8d1bc5fc7ba2abc179c1fa20873b597, 0x1e81ddff4f76a1b2dce1bd10aaa16530f8636a0e563bf33a02cb9801d7f762ea, 0x1c9d6fd38c151b16888ff3ee7dc7a8f653fead50f462a6045cc6bdaa72231de2, 0x249f6caee2d3f22549b753cc0857a89a85dc00258402594a5ebfbd7235c85a4f, 0xa5bae6c55380bc6c3c5cef4aadbee3d7ba2e30ace0dec7fa2c3e852bf030798, 0x1a591bd8ba8f5c6e64b984ad9274257d38caaf25b99cab177c84c8f0ace22c47, 0x2f14e7a4d071ec394f43f46d60b1552aa9980bb50e7c963d42f483da3211a0ee, 0x9dffc259c60af5ff5822cf8a170477695ac5775dc1b90104503cac64914f86f, 0x295af9152dc405a43b353775e93828dc0dd1ad4657f1f324f75e25fc67d355bc, 0x4ed39653bd52f01b25db50f75b0f9a7868dacf3c6f2999c23bf95f58cd5333c, 0x10e815500f22b57ba8056deff42b51f4a4130f6e6d364bc1de7117b9023c0b37, 0x2286d75a72832bab29d58395c45ad419d3d1273062c893a70c56fe9e38750886, 0x111df543f14f2ae7ada849b80d01be30e23fb49ae805d09afb7a1cc98057a27f, 0x25c1d1e13619f1ad04831b2339d163ad83da3809a89efc10610d5c62bc03da3d, 0x2fa4fe7aa2dc0ece1dd482768838b9ab913010539fd9a94c00528b037e4f8ec4, 0x1950f2d47f38a0976e8801a03edd51f982faa74392a70a0d381194dc258770ea, 0xe6945795a878954644fd4d36dbdfa856c6b1513c8c38dfd71e3f6f648d568cf, 0xf15e86e69bf0d747c7eb9d100a26930e44b558de46b2e9246c4cd269f4e0707, 0x132cccee9c47ea27484dc9d759d93d560988d9a42ac6f90be4737761e0d438f7],
    [0xe30a774c353a2cbf244d3d014d1a0e5ff0bac5e242673ae33f1bb2030feff68, 0x1f19d5b58c771b1022d6aea73259634d1c9e1db227bd7face0cf3d7ec6f04a89, 0x9e99a9892ec5c92fcb2db34f0a80d01f93db6675b839e54ac081e2616efff4c, 0x2e39982857d71f53bdfa8b2d2fd8481727267c00bf284a011e75de1090b5ea11, 0xa4c0ebe2118c2ac564272eb8f8996dc8ffc649480a144bda57e7c33f14ad552, 0x25451345b35213964ce431f6f9ecd15934443b435a7f175abd80d97d999fda60, 0xbbc4376c1f85523bc7c8ae9fcd8a172f4a4f9905d09f1de0a6d48e273ee9809, 0x2bdd1037469a47d75d5b8994731ede44306e137f4460f2ac7c178bde7bd9fc6e, 0xf677b2a55e756de8223dca8cbe59954989d27ca87f57b8b8e59078ee30b2748, 0x2fb0b17b679ed6fa3e528b009e444bb34b173fe18925971a3b6777863a936411, 0x8e4988e8ab1a27420dc600aa4fd13ea9d701291e005defdaa33e0df72d180b4, 0x2aa3f6fb81b544fa5d338c2a7299d28d499bf86f77109ef9cd91f3156595f0f2, 0x202ce667a6cefe69a1d12ec6f0b7674cae7fb0e02dde42e47fcfeb6afc011bd, 0x13fc451c175cd7d0ac88a8b7013cd460af9f68982753e01eb0b9ccccc2c7b57a, 0x1b86a2f0867f4a97d6f2ee4701f23d7e05c7700ae53c0d57284c69e170e90858, 0x1fbf812f6d014d7c0134b54d9d6aff50f0dd76d7889926aaf59e86e69c720821, 0x11ae5f1bc0b2f10956e35b2a125ded0ea4b312aa52707bd5e98452f6ed0d9d2b, 0xebfd2844a28d08df2ccbddc8d52e51bf9714e9279ae25b7f7015d37769c76a3, 0x1c9e2830d53d2fb38ec3fb2cd6f45061058949dd18312b212fde7082778eb970, 0x2c89a19cc675823c61843f218bdcb0cccb5b9b4f0069ddbf7e900fd643c2963b, 0x8da85ff8b6200e090cff0a2c2f05042e30c79e425907ad9a055a9a2a496e73d, 0x960180e5d5ff549130360038aac26bf7d2f5828e88327a1fbe2227194ee270c, 0x17ea53188c77a5760fd3da3213f549e5a45c743db6b27f4f1af87e4ef28609a, 0x1cd300160e5cbe7b9cd7ad1180598c065a08ea594897a8b2c667508e93aad2c6, 0x1b8db86cfd31fb27ffd05312139ac8594e4b9a587927f1d5fbb378be75fdff94, 0x9ce92eb753807b4cd89cefe94e7f31b0eae43b4cd6b97d8248731cca7817df9, 0xf953e8b043a5bce5c459ae0c1758ee52707f6f0dfbddc5e407483709df22a70],
    [0xe30a774c353a2cbf244d3d014d1a0e5ff0bac5e242673ae33f1bb2030feff68, 0xe61fb7e75ef9295c4189d5926940c65bef29f9460fd6acab96fed3d1be3e626, 0xda574faa3851b0f89ee096792e722ef02c0e09793b829579e62d43e9745078b, 0x29e8bfb4394174320d8c3521f9a665b547cb0560f726a0d70f52f613b0f24686, 0x138864a60c066835f127cc7fc18ad0bc92774eed55a5735b8f4e58f1c4de54b0, 0xc4061a8556cba5eb98d6966f7014b7f093e6c16ca1c498bab266918efd24982, 0x29a31f9aaa8ddea5ffe0debc4ca6968854ac196215df67c09fcbd03352180b8f, 0x1cf3ae0b1b9b5d99445a7f94998c5e59488c6041a6205045683c42f7417b8a57, 0x297c9cf4083fe500908bd1f4c886306df9b080e77569a534c558ab552bc61a14, 0x1fee3441a345869bbef74446fee4f51e9303d36e0a3316905b917db8b33ee846, 0x29f81a706163b55c6e55324777703a9303ef8bc5650160e0f46e5b800d62abce, 0x82ef985b1721ecc770cb73b1287f745769f9652c7aa177e43706ffb01683fcc, 0xd2909479aba19cdf059dfd28915cb101756fd0be6fdd65af27163d3d4db80a2, 0x2f9cd946fd1c2dc74bd0f3ce5737ac83b1071b7d4e720bbb2d8f138c24e9f336, 0x24ec8557ae626b291b510d9ec1bd354247dc3727f72832da7a79c4fcaf8cbc8c, 0xf11a41f841b89ce70505543d7028f8c852cc0df7c8d840917239c3724114e6e, 0x114bb82795b43471c48a7d4f21e17c270f98c6907c37f2fb1f99856266cb8089, 0x2b62ff5f01bbb491c744a8286db0aded602f287abaec3b1fb1b4212e58e6a4c1, 0x65601f8bdd487ec395b20fa5fc276d78ba591835f481113b3a5c59b005e499c, 0x1fc7286cd0168e84301b48ef87d7cab67e45883e166ce3d5b398389230d9ae4b, 0x795f23bad239c2e465601e109ffcb16e153f5e47a47354138940d99088c5069, 0x2e953e715e0c47fdcd618c2c5291215a73d3c1a29bcbcb7b9b7d362f211072c7, 0x577b3abeddb1cba0385cd479d5b80be73ac18ea5564d9726681d8c29857b509, 0x17f68ef80fe53b639194195275d6dd5671d2016e67b777a0600d69fd4e72384f, 0x20ff4e58659cb0932f9be3455d13d0e6591b12da8f4c61489013cf9060b12ede, 0x1e22384181c19d8b6c515b275db8401e900192f0ae54d144fa7c43c0295de2d2, 0x2b73bd9ba3aa22ee4fcb81ac91cf8ad03f66f640dfbb1cc7b61a83c4e7aa2ea8],
    [0xe30a774c353a2cbf244d3d014d1a0e5ff0bac5e242673ae33f1bb2030feff68, 0x6e077d5c2e4e5c9705827a87bf1d03ba0d1ad0d1ad6ca1d634d25e4c66a0a15, 0x121a212dacbbbc0ccf4c3b4292f681523da7c9e1a46e1ba0856b900911e4f84, 0x14a5405a71e3bf12ce347c54fde1d22398fc616db34d6d6ec57d8d0395589341, 0xf09fa7c4eeaba22ff000bda61bd7d4e87734f3f8195b38bfcecc6ff221d2863, 0x16c25869bd517bdef88345315641374ea86e66541f12724938ac7dff3fc14353, 0x293cf96970b904d201ef1baa8bdaca1321ad3ff0d67548d7ad07287d2908518b, 0xc5f2232813e8dd413410645a1385493ba715260b3d968149f307b53ecc793f8, 0x2e620a39a57898eba4992b7a1b2bd9b0c28573a1ff470f544c625a60ef624173, 0x1c68b64c8887d3dba495c6bb3608065f7b26b8d39050099770330891de2e8722, 0xfe00e735c41fd0086afc250224c2d48cd0e771edab73eb5e75c58f957082478, 0x1b668eca521af2f9222ae86819b5aef6d32d8179275e7b98f6b9c314b62653a9, 0x285025c188e98d4e6e58b0eb6dd46fd1f8d26ad5199eb9b647e99f70472dc4ba, 0x20dfdbeabb8900090725b38f84f661cd2ff5b11ceb3c6835ef698f7d8e02d2a0, 0x7d91adadd5a4f674b69907c533d124ee9f15988cb71a732d1c31888924d3729, 0x22c3db5b12155b945c7cc04c0cdb534db2f8836b88742cb32db40fd0e46c9f7e, 0x14b640a03dd9207764cffecd90500a5f0901946bf55e6f37b4fb1764baf8382, 0x1e9b912709e85957b58fa0e0d424c7262cfcf3c0840667012cab0d06542c6594, 0x1f4a75e965d66b9d9665ddb5a15ad09a9d688eb2b774fc8a86af46fd72796bd0, 0x3d5c637f69677e08331c185d53ba9759ae018a832da036e31f00dcee14513bc, 0x1e42641bb29a48b1b9c8a187dd6cdf6ba6029cb0760df90734b5d3bad8e212b4, 0x2d80ba897d626e0d3bb15479044bb007cb55262149e10f53e63f42a53b3e87fe, 0x2071abfa33f109a693fd07c4da6a5ca1175ff0413513d36add5bc72012e73a1b, 0x2857675a3c236532833e6c04c6c9cc91d4aa3e18eb8f38cea6e421c4933f058f, 0x9d0978a861b9d85265039a22191824e4974b2b113622dd453c71b0b1f8ec663, 0xb1ffb601c946e8089d531bbb8bc34d4a36e257e8596c47a3c773d71c68602b3, 0x1b8cfc651b9b2a51849dbfa72c4f39ae01b098997b226f58616383513c76ac0a],
    [0xe30a774c353a2cbf244d3d014d1a0e5ff0bac5e242673ae33f1bb2030feff68, 0x27d167fe78708447e11dd1f9e1342f67a9d2be1dcccb7c0bf1cac60b0d1f956f, 0x2d211a9a9b13bee0382fb707a0744ca47b3cc0f5a0afcdabb5c34e52dc8fa277, 0x41215a7139109b953e3f75f039c3019d9a32526461cb1e749bb5e4ae9e6df14, 0x139255318820d9f769864e4b9011bdcac24f5491a409c8d0088c0687554d0d28, 0x26dda446062c11b3ee8a7d9f8383db1f189859d91a03d35e92c2ae1399b994e5, 0x2a9d3359aa3ab359799d23c03f3ff677ece3080df978214c9ba08836846e31e7, 0x25571de296a11ec26c7f5b378dbc5837c3e8cf09679fc63da463d5a26e99f24, 0x2e9d042c2deb3cabd6d758a54cdeb282891e695d463cadaac01a44b64981e963, 0x1ccfe17477787c3bd72741265e5ac419cf04f60ebab95dda3cd74efebf34af95, 0x1aabcbbff42769176f05c33ed6e957f6efb3f404451d83c6c107313eb098d57d, 0x1c3a79dc7ac79b401429b1284780f82052b0217a69adc6ce431fb6de7075da31, 0x2451bc265dac3547353b487c443d19230f1d4f305ecb2d61baea643f183fd1da, 0x146ee9dc5bc8dddb22c7ce8a3be636d69c0c0609709b7d183bb8a5230f490c14, 0x1722db13180d33ba99b8199a7e6e14bfba7ddceec3bf35161a7e875c336fbdf3, 0xf90b19061d11f2a032bad6982196c3ec2132eae07e73a7d7b7aa1a1353712f6, 0x29dc1b8c70a75052d431288905d64240c6979f04290472b941f943deb7f7893a, 0x1cbd570d3b626cbff744b8fab455a37c54760431142aa6780e7b346a93f32fa5, 0x122e0d5aef6a9d944211b3087266a4dfdc64c2c1e129b146e4b45c93e8128789, 0x6a2e87f6c251c2f8a54661ac4c177f2ead8c66bd42cdbfcf0642e4b025375c1, 0x121b14b512f2b6767bc67691906e59d0c6f1f4be4b77e15e277526a51dbe1a62, 0x24337459df3d36f14130ef1c8950fd267b58a86b37c30ab87d57245719f3843c, 0x2d751407d72c38bd7803630b12fddc7a076db32d9016d3b0a938231b5f667540, 0x1fcfa3e97394e1057eb5ef247b47a0f610ed67d67225f4c8a246f54bde575cf5, 0x1ce46568fc2b31fc458c65d79893bacfb0cc96b0e08b51e85d4d5432e2447e84, 0x2a2035389af7aac382d3515d999e6a687c9c2e93918c56253c6ae9695d16d79f, 0xa7485a573492c38febb77b703b0675290ec615974c9f705fa63b175628b8548],
    [0xe30a774c353a2cbf244d3d014d1a0e5ff0bac5e242673ae33f1bb2030feff68, 0x3c0b95d22504012438e7da78b1a5dbeb4f95569d68fad5fa51f126e434251a, 0x12422748193dd5410de675c58584a4b6612ee3cb8fd929320a9e70720756cba9, 0x560d13602278afd0f96096d2554342cf3bc86970f27fc807dce69bcc0b874cc, 0x1339418b7b039d8e68260015f55b9d91fac69bf8232722f941738aabea21cdc3, 0x1cbb466b02755d32eb5d7924147801125833e9020af6f52be688e5d8c071bc77, 0xf5c38aa299be85be03b8f06c2908f0aafaf67662a714edaa407df93fd1a327f, 0x6445747eda857a8191b68e27d640cfd91d68273e54d888ff057001e476f00a3, 0x1604659a656d9ed6e5dec461a593c3eeb6a5be5dd722675425cf883debc696ce, 0x11fc146f9aa45f748a6cce102854720cbfb60f5297ed2f77b16c9f8ec9a4acd5, 0x22ebd4f9bcd07c59828633805fc99370cc17c8a818e04281fc862f425a83fae3, 0x51c3a4921bd206f65a1cab1bb83da2ec6128b927e2376508c74a7bba353712d, 0x1b04cf2d7a71282e57b33b3a67235c89acc5a03e6e5b8c2fc784891eaba9e221, 0x242de34ed5316ba97ae4f46f05aa9e7c2c1c15dad9dbf8695288c13171bea890, 0x2046c91a59d50c271c09271aa40ded980c91a88ea5f7e3b2b08858464e082c12, 0x26cd545999428c5142048b641af7077594238778d17196da2e5c8e1b253b36dc, 0x256b2f4800071aee94ac6b9031974f26fa6dc520938c96952878364f6f9790fd, 0x164a0f897508f50e81a4a51e1abe56413d3b53306c3761dd408e1743fb060a33, 0x1f7569343079826f0b1240702ec507915173f38d7a39bc75ad1c86cf79bd4414, 0x5272bb3e84e9d0cc586a7d6af710026f809ea06526ffe9da350fddccc09d1a3, 0x22ac9bed266b94c00d2f9d34f71a2d36c0d09bb30d9ef6587be752ed8b7fbc26, 0x7674836517777ed3779e8a584732a9509e49db9d94a77161b7870cef981c1e7, 0xffe7a0170bb48fb6c3e0b80e6244e1d6ef99ccf3e8a3061aa3136b1f7956cf1, 0x1afd9dce91b191147c5f764300d8eed362eee907616d0bd56c931aaa7683194d, 0x1ae34688936fcc0968249cf2077a1a982df5358dd5abc8deceb6f33b848b455c, 0x3386d6e82aedb6f4bc05d34e96805cf875bbdcd9f59da3b3b95f7063442b228, 0x1a1c06ea0926bd024640936f97377319fab6833349ac323240167651f3a01037],
    [0xe30a774c353a2cbf244d3d014d1a0e5ff0bac5e242673ae33f1bb2030feff68, 0x30192336409d16bb77389625d09d75f79f82e3e249b9b80a56d541a463184498, 0x19c8967febcf45820a2fac7a8f7475b591f3dc87e263392789d247b39eb74b29, 0x97570b91ed5d59d977e8e71ee895a590b529db6ee364fd82bda34ac18fd21c8, 0x1a4393d778fea4efd093c5a43b4f0fb318caedd91ed30e2affe80054b6cd8e4d, 0x31f540e1c1038a98ad3b80d8fc9bdfaea35d1d153da0011063b2472004b67b, 0x165f001bcb8a3a0f9d4e00eeaed05614063d65735dec8c39737a83da4a293f6b, 0x22e6b223b3e435309ee74f4920584e681c03c0382ad4d4d45f7f1e04c8f1e29, 0x153d4c74f674e56647007566cfc575d08220dd89f88e9199174e81006f4bc589, 0x46d4654e5ea12ef7d79ea7b540efd8cfcb0f8c803be7a9f3133227f8b673919, 0x872d96c258f6400c031024c81eb9e49f1aefbad34225fa5633347f615910152, 0x15e8a238d295f566b70246488ae7ffd1465a0efd12d2d688ceb2ad1cce50fb28, 0xa7c019933d1c0a25cb8de67da2926591274ac799ae7a0800e79dfb1a66b09ac, 0x1271c70f8805321068c895e1e0370f17bd49d7b75cf8e055b87f7615892c6c3, 0x11356c90cf6bd40bdd299859f2439cd098f43baf710198aaa457bed29b78dcd3, 0x1cfed55f4f804d76ddbdc211f248a7a7b9441ff124e31bae6f9f7a734f75abc0, 0x2f9fc15fa8a7aa7217dfcb63bc31e6e9a2ec67668ef14499eb4a6b932234aa3, 0x682ca8b867c78c917f04c2a7745a9a79182816677c65a771b019e64eff93abb, 0x21dca8a6aba3d3f01bc0e27ea518f049bd57897f1354141d461b4a0c8682e484, 0x227615abf38c854ee4abdef8b53b2687832b44eb05210ca355082ae06d9b5f6c, 0x2921d807cfeed7a85927966f1dd5bf26835d3877c7227ad8fce96f28d00b66f6, 0x1c9045d27121eb200e99a9df2b8e956f570e7cb06aaa424872e64da24668fc04, 0x40850a1c2d1b7b78b59dccb79077605dc647e3971b26679142cfa657b3e77a4, 0x4800dd5d34860acc745f73e61c474dc48e5ed88cc2a6556fd7d8ba47f7fe19b, 0xcd605cc107283534180cfecb268068cce0e324f8eed13dc548d238559feb80d, 0x265a4560a8a1ccecfd48264d9ee16af19c125244c13ee626b23d72bd6c1b69dc, 0x2d72b58f878e0d96fe819ac630ebae41297a09fbc79fff372928e6bf929a0850],
    [0xe30a774c353a2cbf244d3d014d1a0e5ff0bac5e242673ae33f1bb2030feff68, 0x783e03e1c20687dcfa329bfe762847ef8469b9a16f1aff46e721bcfeb4ed9a2, 0x7c549879769b6127b1fdd9e119c7f1088459b2444ca62f946f80265c08d96b1, 0x1025885c29c40db31ca8f1f490caa4bc621924e88725428fbc670555e4222db3, 0x21f0feca587fe54622a731ec88768d986581c07465c474729691e31a8b4fdb75, 0x66df9e27127d7003f397e03dad246027125ae6c99200dad3cd5faf2fe43de22, 0x27f3ab0ce10f55f231d7d249eaf38aa45375dcfae6add9b21783d1ebc38e4913, 0x1e2dee4d94a3cbe678af8b0a8bf277469150364496efc0ace58540865a6288b6, 0x9972d0bc51270751cf7fdfc95ab7208812d7e9d93a9b45386e0bbd3fb23c709, 0x147d3302a23dfa4867fcf2168badaff8e987e90f6c141e92bec278ce816a9566, 0x2e95c0b710cc179b4e39f3d45c97d0555437195d3e894e5bf238ab9fb9929c54, 0xedff84d026026b621e6de741849300748078db140c9fe04236c2e05a35d7f0d, 0x245d05ec0b5dc822bea9b8a2cd6c56da38bfdda0a4fa5744da442ba833098574, 0x138874360b6e98e6ccd8fef742dca0d8ec44826aacce221b311cf421a6ec0292, 0x1cc05be64c2f3cd2b68699c52f15d6265d493e7bd5ab4030a53c8be2fed67e89, 0x2f5edc508ba14e8271fc7fbccb3e7d8750f4322606b2e5dcaac7239ba72143d2, 0x1557d4eee207353143eed1b01c37806b4f0b6e688069a13b296214439bbe0949, 0x258650e8ca6e1162e19f92302d2a6e8e40b00bb161c7f2ca5b92364cb553b5fc, 0x12ec2381a018b71858df6bf6b0c9e02f14d8ca492878055dcfce660c7d915532, 0x2aecb59a26510953e9d38b5669447df6bf4c2dc1a9bae6f4b84ffdfdff6a2a29, 0x13201907ff8421dc74e517a6b72e4f997135c8f0e8ea5446907c6fd26f1609cf, 0x1db130e5583c812ea25e107e27899c895214abb225bb3807ea80232015d21e2, 0x27db99bc289ac5e1ad7b1192ca0c0f3b1614c77a77781cf00ee2e411835185bd, 0x21a326712c5b109272d6aaebb73cc74cd389543fd17e6f12cb3a6c201ae735e6, 0x2716f822617a359b60ba9d853d76a5d051c9bebe9ea9425d51b98475a9485809, 0xe99f2580adcf372f1c99d009a22816c53cd5272d479fd64016a45e75eeea381, 0xa3113a6affe5598d9d8ad2ddbf83ff94d56ca7f078a48713d0af15c4529291a],
    [0xe30a774c353a2cbf244d3d014d1a0e5ff0bac5e242673ae33f1bb2030feff68, 0x2cf67d5d1a9383ce14adf8d7b63005e058980ca148deb3bf0f17855cb115097e, 0x14182d28f17d764f790f9185a15a6a03144c9e41ed22e8a2269619775dd3365b, 0x2d63510ce0f51ac8f325327191ae2e8dac8775c05f87b87897e73416a53d1007, 0x11d2023fe50f1147998bdb7d03b70f70f1a583a67646b055be252e3393bb0fde, 0xd5beabdfc8def1c0fafd2b625bf1f4eacb6d3dd8870d0557af54c9c98b5b799, 0x2e8f4e6bb6f7a28422636a7d3b0fe12ca20ab14cd0c5c45c4ef13f326ea5fee8, 0x1ae5ebcaae05bedb59194e96c92c288479dce2ab43fceb24541ca2648245762a, 0x24cafb4c21af1cd16216dd42b7e5c42457d5fbf4bf87bdb65730418efd682a5e, 0x2e139e0df93864516aabdb86d6ab65d6598a0017346fd732e7f895aff36e9481, 0x2ff83bb2884713055564970f1e39cded077a9205cbd74adad70411e2f963159c, 0x2552f8295742fd94e0f264d182e9e34023f4163fc929c6b143cb35dbc61a32c5, 0xb05c0f1defa2ff4e6a56a7582a568d650a7a2ae9ccbc478be52bb4fe3452299, 0x2c0588283e0bb713ea7a22fb189fa359dcab39f137c9d5953ccd0ae136770f8, 0x18bfcedbba1f9279d2dbd1d0b4b728a4836b9682905e03f6d9ab9992ee702bdb, 0x4b314d086daebc4f33a7e8fb2ee578c668e91adff3ac3168dd3183965f51ec8, 0x6cd84135ffdd74d9c315bfe319d01b17060fee963e8373d1458e181027ff005, 0x29eea9039c59c939cb82a69a7def6a60623b9868e1a7137590b930140bae4ec2, 0x1972fc96c24121bddcc76c44074dba6ac02ca1a10bbaa7bb49ce6d7161b4ffe4, 0x1bacfc2d72d57f6bf695f3d82859859b329b87539e0c18313a1d3f27ab9afbe7, 0x1069e2eda47e9fb6bfddfbb48d740256acd9be07d2ea9883b63e3214d0ded0f8, 0x1d87dc8c8e73c38d20d2edd3f6b5abd456a881deeda90d0780176cd7770419c5, 0x1d08c8a0952b5e4fd915b39382a0ee45893e3c207e339e6c78f28f1787bce94b, 0xfdbab60a929d492017a0691032f8042201a3223c7ad628a6e1b6340d0893c, 0x13f25826edf3001e3d8ade5dd2965989ae6c2578b7e886116949553b6f0ce244, 0x44fa02e1da99bc4866c220784a4ba55ae28cfc47c4b9e5ba488f43b6141c7c3, 0x7492d98f774f6c8f67583aaa485ac632906a19003a7757119536b19ab78b9d8],
    [0xe30a774c353a2cbf244d3d014d1a0e5ff0bac5e242673ae33f1bb2030feff68, 0x1fbb89d438ac14128a40437352ed7182d10f22964833efe6fb46eb21b780ec01, 0x6ae819a8e0c57d44ee1ab07a49be82ca5544d89ab8518f844385576aec43234, 0x2b3d3a7605543d350b0838b9b3fa9656cb91a84287d6f06e9338154f316cbadb, 0x1620323cc24fb81854d716dcd972c108ea5d3b062841752a36c994c594199774, 0x53924bafabdf89232353e5c853dd8b946f617a28f094f9f92badf1c233c925c, 0x199241c82a57014e3375029b265ea7683611ead5148a8f83a231065c7887951, 0x1e8b6db0d447c099ae7433fae22a2e779d110bd3b8feca58aee056f7ec325a4f, 0xb3908d2ea7af26d42a913972fe10c3565f627cbf3b05af7b03a03b455d2745a, 0xc337f61785e502287e274c817e5f380e5cd314d1a3ce42887dfe19bd20e8348, 0x965a7d0f2799aa6f3ecb0ab4fdf5f02e0fd5386bf137cd2bdbc3e6aab74b608, 0x18d8dc79d76890bb7586c65d83acce6185e11ba38d288f4933f33db74234eaa, 0x2048602c11e8e771bb35415db4519798c36b593ea0b8fd4560410a7057d5d6a0, 0x2966833633f29aaaf9d5f8d206fd1353f140d989a7214cd13bfed0657b0b5407, 0x1c6ba85ab5f85ed4b53dc40cedaba63e5ef8006c724440b9448d64ac2b394b08, 0x65adc608aa6dc0878f5bfcc2b89b3dbc18c5944c5b868dbd6d263cfd386ccbd, 0x2f5c69bd32960af29ce7ab14150ba089073d74b14c18b63dce9242df8da666e6, 0xd4e47c2eefa2d97991d58198e147c5dc3f856665f35905c8dcc0c7981979669, 0x21dc79896380c9936d5da47117ee730c16563d40826cfed9a1415636bb6d9f6c, 0x11393d10b1b89df9a2e7c68df33f1ee41656ee8509570cd4aec6d68917732245, 0x2501a832c4be33ce1a4752aa3c3840b89c7eb9d7a2a267b16f076d9c90a6e98c, 0x29417a7ecc3faed51f8f4e599e13699d32073c5f3865d8ac92f664016060c84a, 0x1e6ee4be7b5f89fe5eb7f50ea73935fbeebc6ca8756580099b3c9a41a8a66f3f, 0x24b1094cffa81631dd9fc78b33cbd8d7a93d0269ac60501af8ff82fa646e30df, 0x1bad44f174f12802c4ec1dcafb6852b6b99dc3723bef629361b5bea594a7e3f6, 0x2aed2c26dc890d5283b53ad5f30f9354e22804016335e4190b551be5e28e4e44, 0x247d59448600ad981156c2e19e2be924d7b83bed1bacf16899dab7d7a8bf7f51],
    [0xe30a774c353a2cbf244d3d014d1a0e5ff0bac5e242673ae33f1bb2030feff68, 0x105097314bce2c2588aa56f191b813fee58479e8b541c13bd6c9bc8e654172ae, 0x28d5354a0ceb5dbb339ec880b3b6fbc0e7e4f07ac0ecf5348429e1af57069bef, 0xa31c76780b39b494f7334a7a2ce004b80f56d898ac155716f65172fce3dd454, 0x1225a8ce4e27af6625ad1a92530a1fdb3206135eb09f679b2b38c13869b9370e, 0x98a16fe6c6a2a433a045fd0d02346e5c024d7b4bcbe12d2594469a4a7a2925b, 0x205ad0dfc7a7298bcca92aba3ec23f7dcee21785c96aea116bcf71e07d9ba361, 0x148f1eadc8be731f95ef81b8e1f3634f44182101b2f13d8fe46bb3aafd2300b9, 0x4372474a7938acc947df6d261fbba26850a09a16587d069cd877151e287e1d4, 0x2ca6979a079cb2f455da4e23b90e191cff23e2d76b7d0a6d613e0c1a4507c4a9, 0x2ca59df55ad4923070a4669629aad754a88b50fbd4643d544045d76148451dc4, 0x2a7055f1e24448b52bbf572d0efc12754593d59062345f918ba7d90a27130580, 0xa644e2fe975a3d062ff496a17e7113a395ecf678289de53b2137df5811be1c4, 0x259bb7d88bf3f1c2f0521ff84c05423a250fc32477823c44d53e11cae6028ae3, 0x27d551eb8809df2e1c200a661838fd96bea30a7a0b7ffb20795741a46ec359c9, 0x17e37e4432360ed9a16dcb9cf0584b47ba049cba55b53ad5b5bfdb55cbd36ac3, 0x263693f36da574e9f6b1af2e2817e803080035a19ac1c2ff754f0f970d20c6f9, 0x1a893c4de3717842ede135fdb2a63f3c05c834cab22572bec21d57db7c3cb052, 0x9bca88fc417d85c16bc98e2fca531206336226ba3a02a51a7fbdc2310e26f51, 0xfe6944c3317d58ffa98fb3a991c22698ff20765d34c2b8b95802b83fbbd9cd0, 0x1ba3d144274a073e17ed52348cd82eb3e00c743b7d9d3e944a1e3f5a361474f7, 0x2cc42995586265e9cdfbaa845525177269b37ba7fcd3294074613d2d12af4070, 0xa83811bff1e7f22000720d598ed2e3508ee14a9e12ff6125dbdb78cf07a2d62, 0x4242918a5fc9ca3c34867d674dc7d1d1136ffb519de0eace1e6f911ea197350, 0xedba1a161aae781bab92363fa0d12d8fcfb5e3b818cddef8844f94e9db890, 0x230942de72fe0db9196d787b929144bf4faceb69b6f12aacb6e0d6b51cc7931a, 0x1a9561c0d020fb28ea2ebf3851832058ad1cf972e99841f4772a8c578b6ef48f],
    [0xe30a774c353a2cbf244d3d014d1a0e5ff0bac5e242673ae33f1bb2030feff68, 0x22c0fc9c00f53d4247c908976b1ed1e55c4138b96e9c3ac1dc1f4d268e64ef49, 0x22729d77b7b881af2f484a1a8438f52cb7be3b93c607310c5038a1d07253a184, 0x14883acec95e824ab505756a5336b2c5e1b984c6a193d4bdbb014c097734b464, 0x120d96dc5b428589ffb9f37b5001c6f5915b3ce4460b25331c62d59d65adc01c, 0x130325a89c8e74b5feebd6340dde992f569aaa3f9350e45d0904027087e89b2e, 0x16e6e793c81a10719f613ab182ad57ebec76df8dbef775cf03e1e316646d05f5, 0x18bb788f4ff54dc0981e35a7178809d1f2518cbd12e5e78a77c2e366d0543cf7, 0xcedee51d5b87d9ba52d6f12490b24cee9e61c1889ef46f2f882644046626461, 0x1bfe0f0059a451175348f8af855e1f384d1299adfd1f8d852df6c325130bfdc6, 0x1ca82eb1aa4d6081a46094f403954399af76a7d7dad88d5a9ca921a30ae1dc9b, 0x11e1d384eb2a64472a26e40594253acd255027b2bf1f7a9a518b954d0de04321, 0xdc70139469e918276bb65ff8334f64ba442cdd64bc1865efe3e788ff0c74341, 0x1896f5f3c754db9d8812e99665c89c873620d9f0e599c0b2db25f9b186c05bca, 0x2b1eb292fbf05207b3a916692003abc04683db775eb3e97bdd5f388df5b9e6e9, 0xe822a8b6bdab9cfadfc98982d3d27df53300922ea795b29e1ed4e61f2ef6b9e, 0x14447323538128d076a4a7c5e7d487256a671dce167e1a37f69601c64783ee7, 0x1731ac8243601c9ad1c2d81f6ca118d479b9d71d03ab34c282bf68f3caaca5a5, 0x1efef24cd417daeb7fbc1789fc2381fc194f515d6bf1b7a61bccd70a0fd13c2a, 0x26c6de8f5b580b7d222bfee2f19dbe02580da4e383217b4870f1d4c8f7b692cc, 0xd3823efb4c4808c275f720c340a733ffaab28c36479978b485b346e4ebb1ab4, 0x24a2b1d438ee871cdf765b899d2f068811a6f46d02422c133ff6695a7f304593, 0x9fe29e36bc74cf6d477ce054610f63a43855a08c27b86af1ff58e98c9fe686d, 0x123e4ce6ab585e748a6424819b24aa2fd60e371b9842355df95ef13318346c10, 0x257d0d633e7b8e40fa3a0c30548ff79d268d90296d8b5d3e9e7ee4f39ec814f0, 0x21f4b792c1fcaf55e70e1b1804cdfd952a7ea45dcb9982c315024446e36b4b5b, 0x18cec0d331cbb93e5cb4c1d4f1080de356f465e2ffb2fa712feb858bace4f5c8],
    [0xe30a774c353a2cbf244d3d014d1a0e5ff0bac5e242673ae33f1bb2030feff68, 0x1e5f08ebfc9f997ece7730536dd4cff8b519ebf519ad1342de3c2e26473a0b5b, 0x2d77d34a218a752dfa4b941b63d7b02ab6078037ce22ec0608d3b7b402e4efbb, 0x19004b8f6ea39ba279e5ecf8210460c112c1a563cf106736d9a0a46b7b842695, 0x11fb4988936908db3d50905adda5065ee297a7e7187c36212ffdf5f81220f256, 0x1081ebe3ee722e4f687bedf259ccdcb6fa46420c44d0ea88389917cf6717c04a, 0x185aa8d933cc96791097565775894b15e2858ec2980311e55d9827471bbba810, 0x1ab306868bac9a5ba65245b93f2c9b936de449a9091b45f3473bf97dd425aedb, 0x2f1fc8f6cd473593cf38527156e482897df8441db84c875587c24966f6523973, 0x17770ba5bd03c9275e2fe0ebf158ca85503ce65969cc9f86e3fb3be24e1fbada, 0x1d0d275c4971978edab4b7a7cdd85ad72c204a13415f140d9d28b8af514bd692, 0x1ca07f602b20372b8d50c9863fb5ec9fa033c63eeb293015a4bc91038be3f7fc, 0x4782f31c8fcdd4898af76effd524fd0739c8ac290480fd0f32ddfa082dbbec6, 0x68de12e587aa2c26e2e509faea0fadf79602aaea46e45b608be969ebf46ede6, 0xf47f3f88ec297c36cc16581fe223a95388c7c3baffe6cabc7f4f669bf746e96, 0x17bc99581c7bd39bae9f593ae1d72e99d7628db94135a65c2c510727f6148029, 0x1d85dc0db735b4877d9f1639020da87afa6580963e0c2dc95c30a77ec57ee2b1, 0x27c21a6c642486aa075c9a7757b96e68419cab8ed819e40d179992652eaaf1d8, 0x1c15013e0719650306487b07e421e718ba9c35256964071760ef99c6b8aaad28, 0x26bb2e4e2bf9a53e1147608d79a93bf730b09f4e651d6b08db6a509ce44ebbfa, 0x2cc7e0fa1e964c48a3e0fc90f35e4e74cc01b2f74cc4de884a2dfde37331faa2, 0xb9c87dd914a25c9d75070b7997507399970d9add413b9a8e4397f46ab8b97df, 0x7f9ce6c590326b73f00c860875f2c7d4e6bb52725d8e4d6958caac8f46a4ae3, 0xc289d670c7e2e743fbd60fd2a2a5e3ca077b4bf44df78babdffa232626d3900, 0x190ce149a93a528cb01fb27da9eaa39de2bbaea50552a99286d4fa80b8e7b22d, 0x20633ae2a05b6d69d765ab6fc2e335ae0c5dbcac130b204c01f88f9cd091b12, 0x2543a932d6cd8dbd7533f3bf5a905c366dd1ac737290f6671e7ad6adb557778d],
    [0xe30a774c353a2cbf244d3d014d1a0e5ff0bac5e242673ae33f1bb2030feff68, 0x22187dc1425cbf505392f976a839df01c17067dd9a7e67d09e9078f1ec43abac, 0x274579b98b4831b89a42351a2bef67f33a0741af871e3b1911edce28d6b1320e, 0x2c52925562b2b08d1d1b2696af293157692f2a0b7f34052cbe8e26e80071d256, 0x2e2f8231db4f3786fef48e7b65f9c890f1aa834729f769feba60a3554b9284a8, 0x521922aba91806b1e4e13a4bdf92fde9737099751626a1c4d6011cb0d28d488, 0x2ee11408d02e460309bfd46344e5557bb6711504030c84d81d127a17aa72c787, 0x175981ace0eca15153600235260b821b4b05013f3e0e3cad3323bd32588b398, 0x1d17093c739566880702816f776d54eee78164e5716335708fd67bae6407b863, 0x7a6e2b3a2495845ca96a757a279b823bec23e6e2c2ee41f3ed6705a9df22548, 0x1dee69a0aaac76360a66e057a8eef5bf7d845cb09a3eb27bfd152239bc8a6818, 0x15df16ae54e8e3e211eb27f95f7da0bdf38da9530007085afc20553468eee2e0, 0x2d85cd78c80244f0900115c6f5f5cc4cfbf8295c2a0b685f987144b9151618d0, 0x1e894f052db0012cb83762d3fb2a824db10684db641c6e3eaa9fe45c9561541f, 0x19bde06d6e7eb6c84a02e9a0f224c77c0b2cafce0fba9fbfc063a46b69e81406, 0x2897de5d9c274ad4302ae652103f0d8d3a041ae93c0d461ac15d30d36a60edbf, 0xfb0ac77f9a6cfe96bbaa646fe280d4b5449eda51b5cc1ac36325c3af0f4f830, 0x2c3f06f6f736cbfcb1b6927b53543c31a95c648d4828ec34401c2474c932a48a, 0x23e564383465f1d1f7cb62a80d4995fa2145cf6b06fa2f1e0541effffc19f5f4, 0x18c139146446dbc956ff95270022370c93ee09947cabee3b0377d1524ec20807, 0x2bb3b1a1771678092e80390f181fdc6df345e7641c8b7e4932708ac1f332f0b9, 0x8df0d04a0d8d1b2b80f219c33a9266675bfc080532e9e66430bb67e05360f7d, 0xd39efb103e032f986c875db6b9f6a6748cfaeb333c93ad7cb45e755eafe48c8, 0x5f47c6fdbbd7b4e59cc7877eeaf63cb8c16c4dd77f214428dc94b9b2c0214e0, 0xee1051b33292d8a7dc350916b62440745f2f47981721b80496d2aae0c9ff288, 0x2bbf58da087230463a98b210824453823aed830f60432ce3156c583e06edf08, 0x1674e5bc670e98029ca22d400ffc19a4200352fb152c784da88be0b67ffa14a2],
    [0xe30a774c353a2cbf244d3d014d1a0e5ff0bac5e242673ae33f1bb2030feff68, 0x8a1e55de3e637ffa6b051ee33ab203483029584daf0c57c454bba30cf6363a8, 0xe5b4497c397b27ca78254adc0c66a45514929a3dc0cfe2ed3c447a5d3926088, 0xbccfad82d3fbec329e684d19569993c855483814fb2547e7b96cf79ba875616, 0x1908c79adfdad4c4aeda2295a9db560a33e91b01050448491632705b189ae1d6, 0x1299565dbf2547b30db50f5dd49ca835c3213eeba0130e835aea4add65037abe, 0x2b4906e765f1e80f6e84d5852f34da89ec6d996c4a40a066c68b6a98100a2f9c, 0x124a247b0b866c09ee5d3783bc715de3244599016f0fbe385738f95cb5dc0a28, 0x77d1bac0f5b226607b2765d8d48118b1c55380c60aaac2ec0940afd0c05b24b, 0x2ac41a842793f693dcffbebc5c08ed6b4aecee7db956ec59ddc230a7b3579c1d, 0x137d327d41a9c6e42e20bb705fc3da5a282c911c8e7a79cab4e3665fbc3b529b, 0x2dbd1fe87204abe2f9c27a8343c7257a93e781451d8e159feb4ef12f38b28e58, 0x20d9cb838e454e9841ddd4792e4ea7b8f51cd7d7f271d6e32f3fa963a6d2cdf6, 0xb34270663039e315f63a5c992e31d5d09451221504f85b37e1480067fe92174, 0x12826e5b9be1c9b85f7c98aaca9ce28a870687d3628d60def0ab3072b57b09b8, 0x22fea1297a4a5f08904d555c2e15d016102a4ed29c32b4bb10809ef14af42c77, 0x24cc6751894087b831598b5bc7f9db3cbb48ce294d9208e1aa436cb5fa2e80e1, 0x2cc3d0503a0e1da952b081ba5dc5b117e646bed572a645266c6ec3ce0a1474b9, 0x11eedbe5a5969f33446503494b469a2b83f88d3aa477e5d6d7963a8333a61315, 0x189ae9e9b162ab1a19d599cedcef428bd1325c78740aaad6715b710bfac4c1e6, 0x1aad11449d6e2c6e1adcf9e89114c336c0145528f356ac049f52fd8cb084370a, 0xd7e1eae2cfec406402d34c259e5966f6e2eb261d4f08e29088325a6bb669a63, 0x796a23ad6ed2ac995104a0d3e6c75e977ce29aba1d25e62a9a8a20364ea1be0, 0x299b8e8621d7d8c8d3d6286cb126b34ee53b2dc9a3697b8380c6e47f5711345c, 0x20f11ee81d2ac9a9ed1cac61d9cfdf10bf1b49cdfbb6d232872a1df1427c1839, 0xa403e979943b8d2f947f6eda6d41170881341bb5e4fbbb3b4fe3dd7dccdd777, 0x4646253380f4bf642972ae81977779454aa0833fda36b1822cb9c09719e3dd1]]

/-- starky/src/poseidon_bn128_constants.rs L6325-7418, one round per line -/
def c14 : List (List Nat) := [
    [0x304c29aeb6f1873847879576d30f1f6e8a3ce41082c15c7632df920d6db5164d, 0x2b7380d8b25bca649b3f8bbd0a86ae417109069be27066f46fdd1c7c87d4c40c, 0x4c77200e5494b1cb8a3d334f69ae5bafa7e8775ba1924e563efe591eff302f7, 0x6c0b8966df93080c3ac1576486e61ab0d027637aac41bb35e482bfa10e34fc5, 0x24c73f425903904f40dbff590225f251ce1980a5a5ce2d07ae436e1d090778d7, 0x23df6f6f4448273c745ce53d5d7abb5d26c46724a58d68844d3c3ee45e9b924b, 0x1dc1b1ac389280188e937566071b84bf8189b955d0579b6de5ea8a5136bc2ee9, 0x27f71c5ca774ce20028b8140f144472043917cd4919cff64d848a745bd569180, 0x22b2ee53b302ba2e836b98783e15eb6de9d15a72cc7caa374e61b51dd0d2e2c7, 0x254d85065f87271e86d7b411d6acc280f9ed257c098c9fdb04a2ca4df7c7d766, 0x28620793f378bfe881e098bd2ec62beb46899f37a54abd053cfb0b3bb8d5e754, 0x2c19f26d0836635b04f38fa30ee5c648fa0ea1b202eb0846821acd3c699cf061, 0xf9ed87e9a1ba7ee7c28bfd7ac38ff3ba10849fb04d3322898ba9fe0104fb445, 0xd1deff42263b7cae8a123a1641b7258015476161ab881e1dc20e165b3f04579],
    [0x5b275e07a9e23f477a9f0e2294227286528ddda6dc74484d76e6aaa714db5a4, 0x1bc255052aed9dce37765bc5a95de779273a96f4bf4013542588b09783ea7fa0, 0xec2286cba99984d38c3dfb80cc08aebf79a4af8ecb98ffc53ec4abef79ea6e8, 0x1b05bef71fc396f1be97c82c082d2f7a4d8b32ecf30c19875409050e3ad35886, 0x16e93c7eed0dc0006958d1824d0dc740b5cfb8c986fffcf1b61d100f29eb69a8, 0x1ac49ebc00e374fc647c65981dd93adb8998d6128b917a6235aa5623ea461282, 0x727bebb845f6d4744d3ddf12c2aaf6f2c2a58e04571ff17adfd905cd57c60f3, 0x1d5659be4fa9e713d3e428c29d34f9ffa9ae0f2aca3474543a20d6254b2f0199, 0x1316e470b54f0dcd5311b6a930347bffdb833901e02448a9419f127f8642fd77, 0x1f7182906e184bd88594ca2589ff849eb2daa30caf8cbf5213ed3fa4747e4581, 0x1319714ecdc7e6bab2b7cf57d8b088094a003f2d4f88edb0d0bd8441b4cef318, 0x88c106fdaeb323a76f94a0912add1b66be216084a42e14bec597248e017d88e, 0xfb8ab5bdc6168d1ad8769225641d0b5eb4ff8fb5c609c661da8ee83ea2a0488, 0x2ddedde404858c4f097c6c8ddb66a00381635c4f155014d3012ad1daf790345e],
    [0x12d92b7c7a88c9869f79fc61e4ea1c1c881bb1320c0b7787c6437e230b58eda6, 0x21cad521c1abec464be99a77f0c0f792a5aaefa104bb7c036b6c8a405050aa4d, 0x11047fba7de2a553c3ec55251768314400708e617c9bdff33a49663ca2deb319, 0x2904529f4fc0291449c3af18fc9f54722ad2c751620d8f6e0e1f2a1382cac5a7, 0x121fe62c53f68475aa2ccbe28d58aa74a2abebb2658422cd6f145c2662cc96a0, 0xddb1e4ea7a6f367056eedacf793b94a5d37dfa020e655e90711306dc7142d19, 0x268b44875f19ff58a15dd84f4bb64ea8bacc7dfc04d1ad861910fb9942a371ed, 0x9c17828425de5e93c9eeb82d325f770935de8c24584591b744808316590319b, 0x230144d2945f1475376bde7ebb437cd7358d501b9c954f67e06c0a6e90ab3c44, 0x5851a8847cdfbc802889ade3444a577263d93718b2038a05b05bbe890a98891, 0x29b5ad2c6282954ce356aa7c31085eb91b6cc49ec6bf139422c39fa54eff00b4, 0x265fa1838ae2f6d591b8f33deb78d3d7c9ca14014170ff650618b601443be916, 0x1e87cb86588c69bf4f9eded33f03d497c15d61b0e48dd04594df336d8793a23b, 0x24594f115063f9a063ccb1a580e8e9f042526c8ccf6e4bf2a6a273afea167f06],
    [0x1d052b0dd5715c889194fe17e83763ca6f7bc79a204c4c40073bc8a516f934c8, 0x1e7bb691e67410a24507dd9a5cc323c0f86f97b842bc13ece75d88c800e76049, 0x2b7558d08ab870d30b18663ef9c710f97ce4c49454d34c4bf714be8865b80c76, 0x14fea23fd7fadd53c9faf43e1e30c1e426668d0080e706389f5d44f8d0cdb448, 0xd8f85ff6b797e9a28f4aba6019337412d7a778c3b7d7ffe06d4e20864491add, 0x15d72cb12a8e6d3c9c800f96fdad51cf24527768c9d1334c608084d5a0728cc4, 0x25f75e361c26495bd9e51468aea168f9f097874e562d727f030a8cf5d8c5855a, 0x28623a688686721ccfceda6c9d786832e02654859b8150e21cf036fcc154192c, 0x31e707664a432be639934c2b2daa575750cc41f840459d85a6d6d7d8abbbed, 0xfd555d5513b8c6945f97bb6f3a5d3b1ff2ac2d81a7612f12eedefd222bee1a6, 0x2a1fe11753b7a8d0977038be1276a355857ab20cbe4484b08b150a46c8e392d5, 0x22e7970da1008db5772bcfba19eab45385538e2545fc20d950a60f840d9702a5, 0x1541fec85090b07d8856402ea224e1bb2d8a8a9d1192b9a13dec81b8f69682b2, 0x17c37be74622c608e70301092edc69ebd19d17be9a0d44bc78944a309f221cd5],
    [0x26032c97bbbb5c920e1208592a4f5246b11d4d78d63aa195ce386285bd0db4dc, 0x2e62d73cc8ace5bc12f5e5aa236ccb730830fda62d6dd935c6a3c420fd9c40eb, 0x2f026a82b15872385978b49c6b6b487659e4f5cc394de6e6ee4aba26a104e229, 0x25d29761cc1e49b6614ac429444e19c070b6a24ba90e7ac726672c7cfc363270, 0x1ba97b48605e1754e7e17d1af7ee496e7750fbe6165caba1529c89cc67f27911, 0x275e5aed25464202f1b713852b4730275b1ce92153d025063e0a15fa077b51c0, 0x2b363e45da3ff37132430409c8008ec685b22ebfe8438df6d3ed4a787a762e65, 0x10ada3d922f994d88afcc40cd9ddf995ae2119961df6b1daebadb62262f43f2a, 0xa39ed164286e39b01282d6519cd022111dbd0ff83ef1556269a63a010083341, 0x1c37d6085793a30c47d92caf677c0ce0caccd2982bcff18078a46b1148cf6310, 0x2552caee804699d4d6ca75bef4a58f7408f97ea307b448a5c40d311298562263, 0x72529903f5a556c8c51e143c97853540a956bd3b9502b1a43fdfdbbc66a5b2c, 0x1a9611de6b18894ad967a44f129f48af82eff2bd0fe40b0bbee63ae07bc8ab76, 0xa014cbedf93be2a924b9aa3253e8f832845a8562d459ac932bc831e042524ce],
    [0x8642d914725572bbfe7eb7f7b45d917b2d1debd3c44d3636cbd6617c129b24d, 0x9f8138cf03fdd6bd110149c68dce4ded8d45206e8016fc7d3ce6e2b66f743ac, 0x1afaae2609ce7d15c7ae47509767687a58ddc2115367151d6f38d2ee3373016f, 0x1e273929c27ca3f6fe04fbb488fbbc1d945431fa69207100dbccdbe2610fc984, 0x345fe0b8fd130b8e3a3b2379acb34ef73feed141b806c074621a4e051c149a9, 0x17a3a98a7b70a445a3aef301635e8e5e8b277eea1773061eb9c5364f1f76773b, 0xb124c9ab4def719e49619aea6d374bb2bdd842d5b8b84eb55665334c1439170, 0x20acb7a69cfcecd60733426ae5a7472db9b886e2f11369aa9f0f9270440cc1ce, 0x137ac68a78893aa457ce3af79f84a52ed31df7407c5feb5ab4b4d9aab3d479c8, 0x2822e5e8243c20edee38cb142be3e7d7e005d274fc346522f531c1ce0b0560e4, 0x19c53be6b70cb5c79e3e420968b4548b3ee55dcde0ed28075945b2ae8f2331ee, 0x270a91c925ede45c008bdbcb162d9d532717577a01ee948e0a9913ecd2ef9d2b, 0x29ca3e6811d8037a309296a3fadcd7371e87abe21eacb37c8f4ac7c98f1d48a6, 0x2fbe832874e6a044a4e5ee1b63fd7da24910ed685e1dd12444b80c95f959b91b],
    [0x2b10b943bc42b1306ae3c0c962fac147f158d9e2adfed079f4a8b7cb836e998d, 0x6927353ce97f1a2c75b57aa42d742974a60dcbb13586f9999e52d42b7bca433, 0x8819fee01c9b7f8f1d987fc3f2cc70de7854ace6de0728ba7a0e7a5d721917f, 0x5504a16782e9c95d1870166d6ec853dcd2859d0d4cafa6d320709069e221340, 0xa6c9c3c69e558408931240885e4edf91e5448230aa020a59721e94ee19c4b10, 0x1638a245b63546e931ee796d3ad7f8fdb1f7373169833aa6ddd4ca0d3499693d, 0x12b5ab3d45071d84539be772c9f468c8cd6efef151a3f5b2b52b86c47c9480da, 0x2f9d04c7aaf854180b7c9943a86ab766f1c61f8265bffb8477263b59999a4ee4, 0x11709a242657e17727f2429c6736ed1bf6c756dbba899aa4eae5ecb6c845562d, 0x29668f5f5c4a3246bc3a86f22132fc0cfc625666f99e640dea0e1da7a9b5670, 0x2b613d4804feabde47da71f26e13d61428f2781b9ce1fde088902decf515f322, 0x25f3892eb57862f0087557ea0e93867d2bcc0220f7da2bc073ca276d750ad83a, 0x2103f7a5214f40e2ff64474583cce0914d2e9a4efc022f07ce5cbd791f543271, 0x14a8711072a8aeb4e3c72bf7685120f2325b64f906e2c1ee31f6afad6c815138],
    [0x2d8200110c740dd51bd22f4267cab97934e5adb86daf1c2f0405c2781bda7ebf, 0x5b299e405131bb5631072396c5b57cb87f50d070f196533bc3f0506c8ff218b, 0x2595e4e223f843dd01b550c5532cfdc51931fdc340a11cad1019fde0843cec87, 0x1ba92bc78f26df3148da920c7b4084f015ee164662a5abb3c94acf36f78a957e, 0x92caefded5f804924ccf1e63543d61dfd570007a1052abb764983233cc63e4b, 0x1c0dfade3ec3d45119238c75c700b826a422ee02f45431ec110449f1f75675b7, 0x1da05eac4674e99b9546876461369aca20e289e67d052cce10fbf418b0a0442b, 0x5086928cbd0d49403bf4ad6f4c626cbd48c1d9c7a22957306f0bddce9da919b, 0x1d32f71e4dd99385a2929a02b92912085173b482548e1bc06efb3ad96fa31170, 0x18fe8945c081f1a9937e20359578cbdb19343ad0ac50435f26dc8193cdeadbf6, 0xc27a1469d7c1bb60c6923587a81bfa0517587a3b0d3356826a45c3ac8afd4d4, 0x1a0bcdb274bad54e1c3eca1e4e14eaed3bdafb0846b4fdb41c0cbc6efa4900c7, 0x18c15a3bfe80e4883601664288df62171afead7dcaeec0fbd959b3e7c6a8f768, 0x23af2addfcecd8cf403bee8c4dca81fb7c978faf147c990f260f115b2d3bc8f5],
    [0x186efb35a6b23d406efc6237e175dae02de9c44e5dc2897d5633cfff571c939b, 0xab171e95c605c6d5361ffd31e76ff8e4eb82ff2da56d659c66902e9d392879d, 0x1226226d5541e6086fb775843787ca537dba5a9684ba87ec0de592cfd20e88b0, 0x246c77e6d2858a34a3ca29d3597611adf328a4a2211f74d5fd04dceca9830c8e, 0xd7495cdf807ac3d6184c18dd9e858b250fbb37c11a29e6291c12540d5e2bda6, 0x230853ec47ed72d1ffff83abef03b5ff7678f2e104b9296d8d29430140e89702, 0x141d86088c6316ce0dc3a560961a50f0769cb7de216689077cf65c6245ee76a9, 0x1fd4fda571ea5db50bf9a375b7e83ee18dbedc37914b06646014a50092a81e26, 0x597cc1432a973d83896fabe991e7c2a537045f9a8ac612ac766a37bcaf9c9da, 0x16dc93239b74eab89823aafd91397dea7a5c2fea07e12e562afe2a94e7f33cba, 0x15d73eeee6d48102a0818cfe70ab0f2add92ebb7c8d847922aaef02054280414, 0x227c8330e2d7a7de907eebe9e82f7264c16de97fb23f4bc0d563a7874bcbf578, 0x1b952fa7b0d9dc8e9f3c52a957468f492a2aad45cb2d4a5037a474a6b3231afe, 0x2dfe192bbde5da75c175ac3265857bce905aa7ecc585ad20f4997f67a5042e44],
    [0x18ce1b58bd3f2bc554b746e90f188a6705f842be29f85b6a672309909fec2156, 0x146d5f383b2efb9962e773afa4b086c164b0aa5306e537745f15680a85f6a1b4, 0x5130082aea77203ab1e2819d4704f0e9d723d06c4579b1bcff7b9e70cf1cb26, 0x122d2c1c48550ade6c88d3498d7ba8395d44776319f12648c14cacbada6cc30, 0x2be0dfc2a9ec2844a58563f8f0115944e9a39a8fbccfc3d79830f4a494a429c, 0x2362b83ecd5ac86a908533a876ca1738c844425822fd0f5e0646c965e94cd99, 0x27343a0ca83b7cbf4cd78fec7c2bfbd6452859fb0f7b5c14f62391a8fbb813f7, 0x25f66e4c31aad3d3e8f8940302a771de770c855cb7fce3fb170162449950059c, 0x1728135861261e3f1995b078af0a0f1236eb457fc6201c5aceb8c93f87217b63, 0x153b4d75654c5fe604fa2fc96bbb6a0ef1240c8281f8c0b6432bf1a529f50eba, 0x1ef294fe797568f55253c2f93c4a32ab6937a1332bb1c412b8cc15e74b3b8ef8, 0x2a5f302c49a8c8fd6e4dce1e265bc6ec0eef34cc46136f9cca664273ac3d8eaa, 0x23215a1413633606a8c8f22ba642bcaa8fb559f7cd322cb08aae796735bd5270, 0x1329f0d6fa9d80e536ed120858dae6e51376624c7daae3ba79795a5525a6c484],
    [0x2664e9a98faf74e1416aa645b64589ddecb3bc2c85f9a89688af7db70ec60285, 0x305d940fdda525f49e235ae6d25f9d4471e396e7bc3a133aeece1e56eeaa7382, 0x1271af6fd004b867484dea1dd43cbb5d58d731dac6de8dbfbb3026c17331ea9a, 0x231fd9e11aa688e3312731a6a027ecc1331516d00d7e30788c63521aa9326251, 0xe19fcb863828bab9d152e0504ce09fa61faa3e0a23c02480ef6f866655d575e, 0x13030654176b06afcb611203a2369a442e863b3c0d1c88b89cd4c7fdf4f9ef06, 0x1fcd60b9a522c7405763bcc95462d77c0a36b4e952c461bb2eebf1e842854559, 0x1bc1cc4f122eca17b951451c773472f0a3f6a57c185319ce1d2de0d19ba1f21a, 0x2c0318563dbf99ae636bc012bf310175cabb7663f2a6764cfc3d67d186a21f7, 0x1cbb1a2a490b61176f9045b4b0b60ec03f12b15b30555a3932aa3c1ffea6b3b7, 0x6796f10e9ba669dff948e86fd462dc5cd95ba8079b02c2b2b4ad1e62fa37de, 0x7e6a8fe4a4397ba709215c5ab272f3c541465cbd8e43653dce2f59cdef8dee5, 0x284e093c985657bebe96bd671120c92995bdbd2c991cdd4909309cc3722b5ed3, 0xd2071dadfd269cea8740cc0299323cb6e1a64bf123dfe1af98a1787a6ca3c04],
    [0x1945b6f5b9cf94b95d9341fbb6b8b4b7b461b96386c1e9cf3c7c4e3b2f083550, 0x1576a69840a50e47e5ab4f21ab39d53190038594ec599700415e12c4692b4678, 0x1d9f7484194e9043958d6ee7c8a552c0d25f9587e66cd899d2cf029179641675, 0x1506003f39bbe412e1a0a4f2a57db29e29af2ab61006382f6a1d4ebb8c39437b, 0x2245f77edf9eb3e22d647853698be8a2783facf92b14b8392e7368a459da62d5, 0x1897e74c6f1bf3139060eb8049b95328fff4e9db9260eada1e55346dbbdece3b, 0x209ff86085273e680ced957d0e4e165c78bd9670a24969e83ae8b0db12638c3a, 0x622ee9d23b0c61b05845b23853e40d88d73593ab851e8be3b338ca7ce8cf5af, 0x2ae0659e9e749a47e3e0d244862ccf5fd6fd6e1af0b28894b4ec72940774bd9b, 0x2c31714e2c67c045454653f1bdfa47db03928439d44e321232023ff4d2fa0fa, 0x1c4a827874bb4a455d790cd7a86672634038bafb12d3b8954cf3a3faa87ffae1, 0x134da7e19243eeb08e0f7e68eaba7641e98ec35f8ab77f134dd10a8adc8499af, 0x15f65369e51155ed42a0d50c3479d7b880cff87e81765a97ce8ad28b9de6725f, 0x1081dcae10fd7fec12a3328a60678c2d760133860cf30f5e45a0fff5ba95fb14],
    [0x28206b5cd44cdb7bf177a2e3d60ae385e3ab2c7c8ef9daa9b3dae35fbb992678, 0x5d9355306abea7a1494b4875f06fa9f81f4fb0b85524aa61b03aa053baf43aa, 0x869ae8683287423383a2317ce58fcf88433bb546675d6971ca292a0f00aaf33, 0xb07d8566ac61df9c2fabe8d4062d8fe46bddd15d08734a4eedeb91dc9873891, 0x25dd57a9bee5a30ef1291f0aca75d55f20d11f8e0f2e69704013830f26c22b5, 0x1c9e2eee7d79b79e19a01f617f37eb8fdfbe0420f3c5fec58491ff136b459f2d, 0x1a053731cddfbf2d58d723ba5d50f874125755c8b2c236b11a2fae3eb15d154d, 0x109dd67f06c490940396df6410636f6535ea7f2b8eb9baf8e3be3ae1da12b374, 0x1b8e939a3cfb76056a4793e85b1b42fd38059856c1a434ae7ec90be0407f80ff, 0x1bb4549873191701fc74397465ac489ac5adf990710f9ae59fc7685c489f2e31, 0xd971a30765153417cb648298e392f4f61defca06a05b4e423b97e45c8ce15e9, 0x2c58f7231642e86db82dc34a11ace0e87c24f9a1bb8e9cd926e073f74a96a3e5, 0x1797d37d7ee35e50dac62ab43434d3c103c7442b00891dd3f8bf0dad7d7f44a4, 0x147b1cf0b44efb08f03bc4924877bf51ef5f7a4cf15e1adc57253a33f006c607],
    [0x97667a035e3b304702995a8e51a212813913fb94c8db886c6c4fadd5261b744, 0x1d653ae96dc57c1bfec7cc425b328e4f4a7e017621b6f528188d2fbc5ac8460, 0x1b39cd9f113388364c77f755bf1fa42b706870d61dbdc416838f26459f4a2630, 0x25cbdefd82649ce519688b4e4f853341c11e14eca83b70c6bd27efda86352931, 0x42289f519c5c7e22728b74ca92afa8ce890cedc07a70547fdb8fb7e467c8466, 0x1cf966e94f1d7c69613fe1871f2704d239e1804179dc7ed1301dadb0e10ee728, 0x2804d255b571b9ab3f54011b69fefc0772db77f529cefe27eb0acf1e4373511c, 0x2b274b23b66d9d561d057bdb7ad38a96341b953943a4bb361ac57f816b44ab98, 0x1637057ba7c5dfba78dd8e38a2e3a8a4141ddc2dfb41598923f66b5ef886cb71, 0x1e55cde5864bea5d60d7c1ed34e6036c007d76d91d0929e81e1929f6305322b6, 0x1690e994aa14899d93ff21ab98ffcae9692d7e3f00ca258684268c06b7c80632, 0x27df430f854092fea91a08eb7e40570382563b16c78c12b8e839e7e7e3d723f3, 0x262c27865c6ccb2920d7a8d7ef181136cd5f7788cae7ab9be23c7498d23d9e0f, 0x14d8d4ec65500428ebac44b267b322e41d5cbdcabc277ecdc3cee7838b0877a1],
    [0x1d2766558195a3ae3031bbfd302439b08cc85d608bbe36e6d8c9aeea2ea0b66d, 0x11c2be8af313169515f4a855d0d71e80eb6167bb88d3533b70f818eb0c945cc8, 0x20c9692f4a3fadfd0ae3d2f7a78ea300a4417696e321503b0b6aeaebae7e4549, 0x28cd4e2e7c1f3ec3343e44f6cb1786c25dff23decb785302820d0dbeed3302bc, 0x11f34dd9733bd3d0822c7635dc976b2cc2f6707eaf4178561ddc5d4f563a27e4, 0x2d6c790965582a05f8e3abfd1e069e414a1df5d86a52db0fb57de9201d9b964, 0x305025e1c03aaa1a9b43123fb9f35399c6edcf30dff7398320a78bda920b1ba9, 0x1f9a91691a4a3aa765c7303f4b7ab8ccacd4d834f5c8e680687053eac7b86323, 0x3f134e018dad8b80ccb8dd780c808d3fbb1eb2222c364a0a3129048259d29dc, 0x2d9cdc3b3ca2467c237dee666f37b7e2dc58dbc59e0be477248961efd6782b20, 0xf437d8f3cc4dc487e8971b038a11324b7a984c85cbf698d2823b2c3b71f485b, 0x12413aa63de038cc0427b1acbd24ee2ce6cd19b37149c6ca761504fc1e39904f, 0x1e42cc0b2b4bf580173dfac63ba6210d195e078880467cdad8774980a186756f, 0x8d62b4ece35499b60d1beca4f23a9c3d39bd6798dd9818f95a9f02e70757ac5],
    [0x2924988422b3cf13ee98c513f4fe249c3c3fb944805288b50864c26c2e398875, 0xa797e9016f8f52786057f1b2a3cf50fe20f1fcd98346a958e4bc1c50ee8b685, 0x63d8222baf254dad1667f6bdb24c860ea17a33121763908e8ab1e9c3ea48fa8, 0x1815d8e9cdcb9c3b7d19759c898b078a33dfa3a38f3c22f1ff4550363603cbb6, 0x100541e3ea8bf5921eb66951943b5fb44530076330d19c6ccc49d5fedef81589, 0x13ed4a0f7d5a26c05266535f8eeb1eca63e346fd7ef20db88edd1d1b05ac1fec, 0x217fb49a601d07a6e772122074f7bae116fe2061315966ee39e7b3cb4f51e2db, 0x1eb9080e0f7bb6f01b3b05f9c60c62e0bfa768276e9e59eeaeb63bbf06f5e127, 0x211d02e9d453de842c6e2744d5ce6557a3faa6467cb923755d543abfd302094, 0xcbd5f7cb609c7e5adcdbb25f6f0cb74da626a4254afa409b9d2c1961b4dd4b5, 0x13ec6d0550258fa91057b0dc06d8f00a47d40c05aa124dcd1124c59f4e22635a, 0x1258ca1e77cf9d67a8ba02d1f665bb405b388553a5cd9d6c43037d0824ac4bd2, 0x28c5a7824391b529e9adb062d3983826ee1e7bbbdcf2050aa24045b2d5acf8ef, 0x19cf73a54ab1f2e4421cf88acba44776de1741a0b317cb5e1e2012df57287bae],
    [0x3011455d11c4a1433e6a9f6ea9ac559527d7a17a0191686971b7836a3170731a, 0x17b7373ac5c3f3e20d71b349aff449c73d41f34f1d008140ed5829cb265548e7, 0x204a96353538fe08da8072b3fd97d64b245e064d9bc901f0c0a18efbaae0995c, 0x285a72987d0f0f228cc694d10def85d22ba358e744825522182daafb14f4c258, 0x2474bb9f91f6f5401fabbce0f102f974cdd061a5e57a782d5b239cf7f8925a96, 0x1b45841eab52a5105aaa42cf7f6d8acec5c06ea8a8b0ee13ed691477054cf5a4, 0xa3a4b8bc77d458c8eb26352e92b685e00602a68dd4a9f13cac10e88ce972ce9, 0x2cab4c359d890a1dec1881d24dfdbff978218003735a10392cbf6049d5cd382b, 0xd0fd0694da677f99a809f785ee1ef067751322c28613929a8fb7249d3e6787d, 0x29e4e09d975b50201c40a8bb9750d31f30ca3601e110d17bb21c5ff860727a50, 0x115efe78f8b2a72e8a213c24b1f5c6efe80f63470439e678af721a0f04221370, 0x29b3ccdf150428583feaa28461cf1ff1a4e49aa92f90c6f720ee2fa89b589031, 0x2eb754990f68975867e35e9589436414b88a25440bdc0886623f1a568f516077, 0x989335bcfd41020ca856ccf61af50321eb1d21ce04d1581db0c62043fa209b6],
    [0x208a9857b859c3f620169057519050719043b2d42c669ffd4b681a1e52159150, 0xe7f8469184f41a9eec6990459221b111b01c5dc0fad09a985e31576e0000410, 0x25dafa7bc6be0a1f9fd21cbd71a64e56bfa46fc7f27b2a7b135904a0f7672e6c, 0x3da2dc2049d07c4d185a16a29800f785bcf6228cc891f1ce30156fb3175ca1a, 0x47b5ff19a973402f4621e51ff3146513505687f720e2ec080b6e44c46881d3a, 0x299c01d6095a1d660d4e001a6821f800e50efa1366c25656d144cec3b0294c65, 0x1662d7fa007ea31e89e692ebf522794e2d106cd844f8f0dd5d0b5f59759e44d6, 0xfe4cd065090dfef40d074039bd06228c925c77bced4b25c6eb2985ea6da5e6, 0x282e49e314c31b6d337f417e9da54ac7b686fa6cfc1fae8b58273353be658678, 0xe6cd752537a9180b86fcbb5ba8571814c7780b2e486697b18a8dc3a159d9fbf, 0xcc70cf2866f123a2cdf2cb9e8a238813b0112de364fde0552d38062320bda5e, 0x1aca51b94c7479850d3f67d07a710f55ed784d4cbbef6f045422b80b438e5d07, 0x2670a1cc090bfb1db16c528c1ad51478b58db66adb1ebbbcbfe69f5ae47ca844, 0x144b566d3667faf0eae3ea9c8c0e4be553a7917bb6f8c45938036611327559b2],
    [0x27b0264ff594fece22cd26e6092542ed28851a75d1f15310a4091bdbfed36fcd, 0x1f608a88e8d2dc5bb6cc91be2f474eac4c3a659e0bdd373f9c6dfde4d6a0add7, 0x122d0509d2508c60e8a2a6a83f770f27d24aa528a40427db069093fe8e78a064, 0x15ea3777f61dd2f8d4860b202d3f4eddad0f6a5ac5089705be0ed60135fd988, 0xf0f1c69e52b1e410d49a46939eedbd48129808923ef9f05de025f993741a4b5, 0x16dbd963fa198fc9a3c230caab4580b34d25c6223d611351c9657702e5168545, 0x1d85653beac61609f08d4a988b85c581a5b574c269821e66b2815b31521285c, 0x9ff09f0cc9a53c87802865299520b8639f59b6a5caf06cb80cc80fe960950f3, 0x650ae88754b4ed48d3520aa7771f4ff9ee40280b85d9e767d3e53ced36ae0d3, 0x91741b2a425d5a56b2f914bcfca7699e385c734bba606d394261b6367b10263, 0x2ef48108bbc4c7b67f1d00e045eb30906ede0032a9838e68067580f22c15a386, 0x11bda846a5e5868bfff65e9331e0bec764a72dba5549ac66179a4524fbd6e3ab, 0x2b6b3bc942da684a5812478dcee5f2bc0138395cbbd0a05ac6b04b6e9df0826e, 0xe117fc5897aa6d7ce2025a574c8e4f1651fd95ff1e63c32df1fad41f2830473],
    [0xd285c64565bc502acdaea74795a0a64a46a148b904ef986a7aeb3a9e6dc56d2, 0x98141a57c9c6b72eaa0bcdc98f203359137fba1bde27afa94181d755823c723, 0x1d113cfff2cdf12cf8353701521ff920e8d10489f477d57536b59c600812a023, 0x13bf98387944aed3e268d0ad15b281a82b280fd924b8d4eb43a05b23e0f36ebd, 0x1c84249a8cecd1361a4b66b6d1911635ade640f4981ace2cdc4bb85ae7199173, 0x1888f869addf2a91230bea0393ec80b7cfb4a4cbe7a2a049f74401e7479fe4aa, 0x257341d8632255d76f29cd7b33d890b0c54b0e97b8cd6897886b6e389a8d2305, 0x1df9bbfb49acc99c43203403c99923a6fd9c8bf7f9aa6cbb91bd1a91aa4d7e92, 0x2a288ce4b8fed1b94cbd37adc8b6f814a3254feb0d0bc687213c1077648819d4, 0x23dba7c996de6b3c227c23a70785079fd4232a17f19d0311d561395d993a4bae, 0x199231edf22878bf880df305412ffd8a3ce6a555b1e7e81c7c3c72aa02b358cc, 0x2cc3d9d1107e7a5fa6aa9497994316294c7d31898d80ecc3b782573d81932873, 0x1847e8e68d4c183f3094888dea15007a6bc6b35daf79decc9f0ce88b88dc3c65, 0x1ea791dbd9aaa3d2ad56e590aa7344514e45684ea3201dc9bba200a046c3b896],
    [0xa38e9e4712de317a533e3c929d6ce749307e8849137e3ebfa2a4d0bf6c080cf, 0x2de42647c0232f7870c412596bacebda08bf27fe124e16f1585cfa9d1f61bdb, 0x208c7a7f4dbd4c02d11bb6840a3fd96ab78ff9623cd0a39e3df3accc03fb5dcb, 0xddd22d2c7a22798707187615a91f9130a66d2c0d7d7a015fdc35a68deb8e388, 0x2a90b2d586a6c041362cf2667d131fe7c426075013c33923b0c62e3ffa7360cb, 0x298ab2e353df6ba628421948a02952b2afda68c463bfa36050a7c1418a026643, 0x8da6d2ca619829672809813a61cc5315f02460d8b1757dc014f947b729e5803, 0x65c9c7619f718cded1a784f0373fffea114170310b3105e2628eed621a2561c, 0x25ceb8bfda01132364f07044c33afc4d14755edd1bd6502528c367497c2e1db3, 0x2facc79173aa070593579d64b0f35841f65cda3b47c4ae4e675113a9eaba231, 0x92f157ad123e65d991404a2704a91b23bcebfde142a1e20d88e13e8fdc599df, 0x2e47ea8e1bb77292c06ec09029c1d1245949fe39de87f4101338417dd3f72bf3, 0x1e39369419393b8ffa389a34392449d953a992d7afb0ba34af8f2159f1396536, 0xace46ad0dfcc316211a507be4e87127b2180a16b2444fa8917459961c030590],
    [0x2e25fe7c19d848ac780af912aa4299cd59a55cf679625fffe9c14d4fb994eedf, 0x1d8d31d97fb5ebe90c25ab3fb433f8a82ba9fbb4443af83c7549d2b7688c17e, 0x29561c80c9527ae48a5f605db61e69b0892e43741f27e38715ebe14554776c2, 0x19104cc8e39a77156a55aeacb90058a42b001e74298de81f2d18cc617760db08, 0x1cb2e1388605bdd6583aa13a6eaeb2fc9ecde1337ade0e56f3e2e3e3f81e25f8, 0x164b7c0e87b3e37cd027652e2fef38b0897675ad34baac7a777a78a5928660fa, 0x3a2c5c52f34b9d603addb63238347c204e9bb1e65fed2b2d8cd09428ccb0601, 0x143107befa4803b1a04269d030233f68d927676832011c7512bbfe2b22c35785, 0x606ce26a1a3b7d8bcfadf00f30d4ff0dfcbfeb1437ea0fb35f918510b1c37c8, 0x24cf1337b43c827ea97633e387c7948df90a3c42a8f7f27a1efa5e079036f982, 0x1c26028b3ff7ab73dd2cc99df0ac3caae4a9f81be4091ac7fae5767e4436da87, 0x1e0e4d243dd982c611637d510f43ff32874ea6680c88246a053121fa0e302a8f, 0x404f39181657306e1eae8acd510212389713698606b3c8c656b26cd4f2bb73, 0x1138aa24e42bc883993d4c5f6eb785a8c59cb7bb1200186b5193afbe1c2ae478],
    [0x23b126fcde502df569a036f9d65e651805ca040b0e017355c6aa990e1f48e8a6, 0x2e761239a389a531493fa699dccb3d86125533a4608688ad2f159278dcac908, 0x18e087059de0eaadb5e3c5c4b9279cd76dc3f6d8a0d060558b19c3cfded6a6d2, 0x27364f27770f58b6dba3d3f1666e504aa45e867b30aee59144a53cb281528965, 0xfe00ce1679e3aa5f4d6b7b80e8e2022bc2f8045eb43a4f8fe9f04cd4eaee94e, 0x1afede9489f5ab94671d20d1ab49a5ae0aeea4fa29d38ee212e0a9cafaf5de05, 0x2fdb0d7e75731eda93fc931e8d8f59762e0cbe15bcf6e0a3ee1da0e899546a50, 0xb74792ad4e5624f94cdaf5228d8f7b7641e759a25ef4e30e802e3076ad09007, 0x407950b2453c974580b9ba314aebd49d89052a1d8eb2a606fadb4052f2d9ddd, 0x29b8d1ec888f27ddb52f8e366cb07a3829a821bfd57296df667b49699e249593, 0x25d0c20a9006bbabd4f5160fa9eabc648c7e41552a0762b5d350cc151d6c4020, 0x2f3540ade2e57f26ce36acdbbb4198cf0a17fcf04c6c926bc3283a11a661df51, 0x14695ff8da20904e07fef545ab104fdf0dcbaf5b69a3b83485048a0057e58312, 0x16c7f28531a7dc674e8f240e35d75b08c6673995a46ba746bc718f42912ff69a],
    [0x2e2c2616f6bc0201be908941c83c38dd7cf79c47805ff93bd640ebc552c4ca0a, 0x63bca2d89100a11021bec39f11590ec08488206e016257061ccfbc613357060, 0xf8c50aba399310f30c201d7be6990a7b5061d52e1dec5dfb59f69ec93d7af9f, 0x10b6435421a2edb44d8045a51332b050f137e26b37d4298dcc33213225bf1452, 0xda21a08e5f73a231b94e20dc513f2681bb15ad12f33bae3d5f71a4c0ecc97fc, 0x238fad1f6960d619947d509d97efddb3e2ef3e30f18a26642e282864a7ddb426, 0xeb8c17eed2e330329401b5ba5966bbace115ccc893423b26f224fba2af1179f, 0x197f1200a29e7fcf3537b187554dce9edd225cbbd8031120c57fda9a2a2d6cd7, 0x7e59ef9a273220fb6709ec8d1b831069b32169caa98e7f32affa732b55b827, 0x8798f412ce2aecaa57a737829556e5c05bea822ce81f856f9cc095c6ba65747, 0x2c43f8adcc2b39e262c252c3309e5ffbd6ed736bc0ed1e45973aaf52f7e0063f, 0x8c1d017bcf1edd53e4dddc010f9b9979f7a0d0dc3fed34dbbd8b0efc49d196c, 0x21ed2f1797b5183a2719257ff3eb1d3bfa896e6119929dfde80fa34197627222, 0x286886b6067d627947891e65b36f8d4b7c81c5c716ad95ff44e911b0341eb0c4],
    [0x1c0ae38a58b0cd3e5df96c8e5fae5f9b19b7ac5dcb839edc4213a5fa96c95f60, 0x543f286b8254edc3f5323bf6ca470ab50eaff46a75e096ea9a215508aa4f7cc, 0x25bcdafb4d5b6dd773d7b3cfcba40f8cc8db7675bc541d187c21537fc2c0a340, 0x28a81071826eb4f16615964306aa7b1addd0336e6158b30dec2773dc4fe7a662, 0xb2ae92d96d1937e5d1b42c830388254dd27e60d512fe8c417b85fca8c9b03a6, 0x11aeb340ffe89088b98a4fee7204585d7db8423fddb1b41064b785aad0a2878a, 0x14157e2dab04208eee16daa67f355bdb04f7014036d3c7586cbdcc6c1430b82d, 0x154035799252f5d335eb15af6bef9e12d6f37e33b43d4c099e89e518a4187c42, 0x145ee4885281330b255068756690f8af3c52ffe3a03c6f53c101a841a7ecaf83, 0x8c60b040006eac8f019307afdeb00aa9314bb8306b8fa60f8c1434c00d2ca8b, 0x1e0aabe003e834900958a13b47914ac4cf8f89509c001c7f8ffefa499f31800f, 0x12a0d132f615b78b0777aa9136e679b8dd334137027ffe5ebb281214ebbe4a83, 0x3a7748c591ab7a91d8f25859e06e77c66cc0088f2bab04e919508933e84d98b, 0x2815a7d428f1abfa2ddd7b67c2e916e3cc8b2d6950739f514684e8115f0ef0fc],
    [0x2a4e69d67391052f8e2d9f09cf09b0f25261bfc0b0aa208b1532e2eb2573253b, 0x28f42bb5e8069754d72b97f2c08ba8acea2ef1c21b3aad642c5cb04dcb4cee6d, 0x20fb72c032f2cdb3caae7ff84a3892097053ad8c2ee097fce6b247450ecc3987, 0x1369c95af38ec514dda67ed9ea6eb0e18e0e1137f70e869528e37bed1876859d, 0x1c021f2449f25dc718673ea93e652012b14958fd9b0268c30fef793429b73e2a, 0xae3815ea26af43c33567e41f83e305d0179a059f89a228e824db1684c54964e, 0x5bd2be31565865033475b0e553be2f47c0f7b1216f739365469174f67f8f982, 0x2368da2866a5dd17d187564fbc2a4ffe8682afe7140a9d957046c2bda1a0f669, 0x213784bff6ef1d44d08cb7c33602666a4002aeae491dd58196b0bc9d731e3bfa, 0x1dc824be3362a184ee8ed97489333ad2c5ec8ac80fc29cb1a3fe93724eb5985d, 0x255b2a1c202a2851250ab9d1f41427e8031b637aee29ff6a41d2f16e235e5d2d, 0xc7af6613e1ec2e006780fef74b37a1039dfe29c76f6374c811ca923962f1de2, 0x15536861d874742904cbc356a66f3033a43306e67c3379b3c397b8d73979713, 0x2549c7bfad45cb19310828ccbd3b5b80325893f3f537bf6900b37d96cc10262b],
    [0x17853e6a2be92b752149605e938c59ed5b98a51b5e298dbf0a3f42e785ec611c, 0x22fb9187e826fbc34056155b64241d195a021c199bce96140c45a066b755ed04, 0xe01dbb02d04ded9921511ee0b41d422a47df1acfa85cce84341b3a1a415173e, 0x13ee7aef873f8a2b2d7612cd2ceb88694d9dadad37917e8d323cbf7ff85dbf13, 0x6728405a1d96e7e9121047c6e9e4fa91965cd569b8a55c98acaa8c7990586e0, 0x1b8d4c1d90f139199df8da04f6d098b38e8f08ff0815c7c50ec70f0f221d6b86, 0x1bf50f97a290f53dd99387bc9c3ffdfe2f878bb0ff7b1e4731dc38f8806d469b, 0x708564cc6c399de0e3b96dcc06ef877f839229aaaea1526527b8abb7e8a1c72, 0x61cf4c2260afe2472093e2b18d5b7a63e023a0dd2332fc11cb9c77925369e14, 0xc1012dd2f4168a4ee6c8db5c7b51c8f38934e9ec835d0fd12bac1afd23bffa9, 0x10d2c7b272f6b1d02160bd78a9fbf556fca6cd21c7bc86e23abd7497786ad20, 0x19a7dec681440da95b1866760bb8a48a17b491f71a61bd48cb7ecd9f0cf2a2c3, 0x2fea37daf7c788558782a2d4636bc8b12a021d680655e16d44194e88a2846e1d, 0x93181302b44dfbc064feb7ef479d1788c5b9c6e76f00247bcc1f4f28d87364e],
    [0xd562f7dcc8b1a57b47e7316c2832470447d46b1a05d15fb87d3550d52e310b4, 0x31d768025b65139dea57c8234259faafe28a1a4add5f4de09fef5b0c53a800a, 0xc8c252ec1046f288ec63ba23dcac68b914795281ee2dfce5c3128afc6799391, 0x249923ae3dad26470f071c56d93ea8a4c45d9ecbc335c18355e0c8961a8f37b5, 0x18feddafc99611ece003ae06d7ed3ca7d69a7ccd5adce377b9eddae5df20a67a, 0x1d64afdfde99be84d37faeb3740ab4844d5db1798346e3e220e85424e4e0318, 0xfb8de6ca433e586c7b5e1cb0a380769e6bcecf78ae4d9e1c09879fd9e28247b, 0xd5b17c9447052c898a2f4bb21ed827eb9d36eac34e49bbbe1830bda935f038b, 0xf2b7d51ec7ea6577b2e733f03525ef1e8fec6bd4f25c1f579f7f655ba9327d3, 0x2b23d5be39199976493c64732ab655589e05532a79a5197d24e046c281c0dd1e, 0x191eb6a33f3e80fbd227fbdc436fb8b1e3aa37b03617a7c87587a2cb068fb2a2, 0xbd19b84791c746fd5b810f68f10ce1f514ece00a0e7749537c10844ffca11ea, 0x25a91a2714a79060f77b2503f0d3070fbdbbd187d34d6097ae283bcbf4d65c0b, 0x2e507aff9f00820e21752e75690c619b8a03b1e2699ec7bc0bd550fac9f6313b],
    [0xb0b051cf9526c4019612dd0fd2afe774a8b1e828db2e42fadaed6d26d51ea17, 0x156b4cc0466b953f9f389eff9a1c7e261e902ac034bd9d285559e9c58eb5129f, 0x2f8887dc7c16c111475131c409f22cdab1440eea684fb76148fac7f33aea4e9, 0x1f3a7c2e46bd4fc1786dd949ded2e2d33ee5fbd53130f87235230209818346b3, 0x1102546f1c65fb38431152174613608dfd17564aeae1764f1570f72bbf479950, 0xcb2b67c1f4aeebf54e927ef903fc6aa0e6acf0d4b1427040e981a102d15f84, 0x16f7924c29a61d1790d23da54fa4dcaaf1e264e46d6882c85d4fbd86f2b97c2f, 0x1a8977e7f9f883320104bccaba7b6920d4fb2b3e15d5134184c8c06ffa9cbb5c, 0x38dde93666a06ff6df51857a40218b6c34f368e7bcc52d4504b85a9eea9994, 0x9af8b7ec74f96740f8eda9f69ea72c08f5e2311e78c0633bff78876646d6ec1, 0xf06e7643fa6fd0b016904bb1234855dae0604472aa1f9e7b12b0ef594780f5a, 0x10ffb0f0d659b17cab58b2e7491212a734d45b41ddab889beb65518cc2b2a3a3, 0x8393e0581bef9db272b5512d3d6ac16289a6d51a7e8fee8f0ca854b7e7968c9, 0xcd919f11e3940afd0fe3b7d687ed7117b40100f89a60ba1fc7cf743962cf97d],
    [0x176cd2d5dd5039afe4f9c9af84f1920de7c83f1d663a3dccefaac3c0acefa46d, 0x1ccf20b79ddc78dc632e41c11e537e599b418d4cb9ab88a74101a27a668cd46a, 0x1f8cb61ed38061411c750acb4c313d2fd167fbadc588a14fe6a30dac6719a12a, 0x2de3744ef2d7114fd6bb58fb03d0969bbe92fbf4db49b636a2a48764183b679b, 0x152f8c47e86343d9780324c37b0844681b1a6c5b76dc7aa3a57e957edc0aafde, 0x99e633a5f55fcb80e3494c20e6c607ff11cdf92f45acd6134011ef96e23d4e0, 0x18f88c7dd5dc507f63264610d668b8da3b1c704358336718bc68ea22d5f731c3, 0x29e39b42c32c642ef36100451218da7b33d7cbe7bc5882561a3a4c2f30b90c2f, 0xdabe6781251df0230a700efbfdf25b0776b5b55e2816be9b614c3433ea26c5b, 0x9a1fb48c7575cb215e981afaf6fa4e0f05949fafaf7ec3f1ebc1a6b2e0d61fd, 0x954ad0d0b6b9c663b1936b4301194a9cbe677f9a38ed0b544122334bc509f12, 0x20d340bda271bee29f093f2a5e2f257580f7d773afe3fd6006fb5d9c9461d337, 0x4e175a9a568c9a3473226fbf67f3c8dbdf71891833feb516ed8f1dc952d143d, 0x16efc53ea0c960e6bbb67a4930b7714a504dbacea7850303d662a56189688c9c],
    [0x163642b36df9c9b99d6a5350222139406ff558c486445a57a8c200065a3f85f3, 0x16885f2d67dd2eaa6b6e6e4a1cb778fe5b38d249d1d668156c033e36f8f35bce, 0x2154d6f24acd0cda11326e279ee9f9e84ddb4ca4bc11efd7136ac5d54573a933, 0x162cf98c08205fb5f4a0e9cb76c65445b300800021db1ef3b2d7919f9c202fa0, 0xa6fb67c2c0f3320e22b4124b4feb76ce1330f85dab89c4477acd78214f472b4, 0x26021cf74a02b192f0c4ee77938e4f452985f021c469b6e84f7df3dbd86535d4, 0x2c8b9704c6b41769c9059238f51fb3827a9fb146ba424e318ab359358bae0d77, 0x28fb6c843b7e89259c13e51589804ca40a10f5b97fc4185449b1a61a6321518d, 0x1e234c17405876154e1af71c2ce4033078099705cfcb718866b347d80ded098b, 0x22836e37162efc88789ad4a5615f8e32e16a05fb2778006490a2fafb3743a7b5, 0x28a70d2aff679df7246dba5fc5d8e401c7261129e8a1965c5c5ed57f2ee5a7a4, 0x20a5a416c4101fb1ccacb4f101ec93c08b8ad9f4bcc0cd34c518d6bc136d4d62, 0x84057a3a39dc92da1f3da1a1bee29679f343096287d1044dee2fe29cc88b068, 0xedf44da29ee4186c3ebadd1148e1011b508aa94a544915f9746f75c57df777e],
    [0x1f75f3cb325a537b11c16002c927ff5d8c75189c632bfe66793252d242220d4b, 0x20acb68f015bd689779de6a6c70189e40f929ac4843d1df1d78e6cf25f6753f, 0x156c068f32e0d7caaa30e86ea973f7ecc4bc2d53049970c956b0aeda3af888d7, 0xeb5c66c8630a1c3b1b67a287dc32eb874d7b8944f7e2e4b6d5f81ba9a86351e, 0x86432ca6c103cbe76449ff27acdc0c72ef5535b3df5eb728e1d4caacd3867b3, 0x2591a12a1bb2e85526f2b0110b0fda970337bff3c42b0d0e0921fcf12e13e91e, 0x4ddc8e152142c57c766b50c4c8baeeab6813467c1cbd43ae57c95b0f4b74cb2, 0x16bef300d87c6582954f0b2e5fb74bb04b7852b2d09af537dbb87f4c037d114f, 0x22bb40ac95127ed05da2e9c37f14eda92586b50485efb61bb57e7b058a5cc5dd, 0x2152a25e328616ecc63f9f625be4ad4ee37a296e5a584926f1c1e6a99d335fa7, 0x1bc5d41bad17b44fc5aa6950aa643ede01d373b0aedc703c26a27dfa6337d04c, 0x19993e2352fe907ecef8bd33e642d549f9784545e8aed512af7eea0a5703ea4f, 0xa8e009ab829fad34ecb98660ba055ed46d9e19a5457fad0e571346d83207276, 0xe5abaa3b20ebedddbde163027514ad22ea8b6452d1e0fdfe5d6c92ca18bcde0],
    [0x2dec3c17312746988f783b14f92fd900fb3bea137b9da241e2d6858dc7b691e4, 0x1a05b78180f3bf45994f7844bbb59f02538dd3a06a1f462b3a8586d45273ffce, 0x16d22b879334448785405b6e74e823fd23ce82e68db2b392bfbe3ca740c141b5, 0x890771aced399845ecc5b9cec64a6fc925f28e39e48ea0cb473f2ad38b670f0, 0x2530f400e734ed8b165b590db1658060cb45178fc4a3b6a96bdf62437c4215a1, 0x15e0290d7ecc55b275f623a63521d3979777442a14f18914d1fa8361bbaec66a, 0x2047fb78d48665b96c4885e5561fd89c6ca44218f4aad4adf202f32a3e3435fe, 0x150507a482c9b02e9c8884b33b154f4d856228655e7b64d0470eeb92f070517b, 0x26098db852bfdb0733c07727ee94598b5b75f96170f2cea41b51088d4fceb8bb, 0x1969394fb4a65784c3ca4b1fd9d241648e6aa58bf45dadb5848b9b55aeb49dd1, 0x2ccd5ba044e09902e540bc58af998861195b8d1b96bde96f059ce2158b8f4d27, 0xe241a1e88c1676b2cd2b48ff54a473d3b5e8c95da39c24e84375e74f7640eb9, 0xd64f55b84a0a5249d7452cbbcd2657bc2cede899380169ef36acf73c6fb42aa, 0x276cf981b3c8485a7f6e8a85a0c37bfe9485eaffd46796829cd170df1d25f5de],
    [0x125ab705a0f35a6c9e70e37cf82cbfd1b74a47ce4dd8c636520ef527cfd4996d, 0x2edf2bcb182b6c165d77946a219a542afc9383e9976271b19e585cdba3b4c034, 0x3044593e5115c8bf4b42bcc7374eda1f336b1d00cf30d0c6e0d8b8a02e70b17, 0x2c9288d07b86474cbf24db27b74421dd413b90870cfc013f00ecc0da9d880086, 0x8096ddb7dac5cabdd02794e0653def787bdcbbea73661915b20b233b13b4938, 0x2ca0c65eddea643c6cdd2b617752f71c5b36314afb56e2d7733c54ed7dfdd8c6, 0x720ef11b7868de6172541965560951e30f9eacaf95da183e793ac4405c7aee, 0x15775168211ae2c9505cdd3ce6188782d031648cf812d9eba2b24ceca36277c0, 0xdbd7358505479eca3fe7ce7b3c75615018996d00992cd43bd2736bd8ee0fa6b, 0x151a6143a0bd9763292a6aeaf7c0992ab65ddab5d35f2e713287fbd672b9f6e9, 0x119830a7f1e16e539fd97602ddc967e4119d9a48d6e84281ad0e72139c0a54e5, 0x166d4955f6c7422f53e750084462bb82ce565161c78a71f68c06abfc80c5f578, 0x2bf7f7791ad848e6c8804113cb78a0a6dc5f1a947341006ddbfe84dbf96ecbc3, 0x9b2550da955c2746eb3a0014c116e67b061402072acf2cdddc84af76da21cc5],
    [0x3ae24e58f82a3e97fac8b390c64434722325b338c6de16ab07ea83da7115b89, 0x22ea98db27502e4142824a333d94e297e0134757f316dbad2371cc2f0ad18d21, 0x2d42020b8f02617d9afd0693dd8cd09000c02a94aaa14b35d8ecd808edfc1596, 0xd948c0328d6ade9ecff1391cc926da7311bb4b311cd893a9fe917640b26e7c1, 0x1ea1c2c8c2824809bde63dcc62f6b06a149fd2b9bdada635a4c35ede26a79e82, 0x2e90887277a6e6e8d963799798c9993b41e1d65845c17840bc1669c3432c64b0, 0xc850a86697d9a609d26f02a99e116c164f3d8395d3bd699f8321f7628077165, 0x16d89099db9c32d90e67a74308b85c8867d1cdf0ba3c97c7a3c050322f912329, 0x122b8bb74a1b8b229c491ad31632da8e0b90c66f52be1cffba1f50bd740148af, 0x2cbbb2da62a9525283fda5fc5782e4e11c0f4ef559c7157b83c599fa51c11bd6, 0x1644c2d0af390c7835bf9a1fec01ae087bddf1a21a3d988a75c9c5da6006acd8, 0x147cd2bae2e9b717963ca623cf2f2b7fcb95672d056c1d73d2af372d8dcd6cf3, 0xbaa4d0ce6331d92b98beb9c28f6afafa0b9c2ca2c194b9f70a6d3b628e3ea25, 0x46f9a4aafb654f4a6b9103d20814e485b0a00819f200f8b2fc4844eeeb9b871],
    [0x2e6e482813494b77a2d153f8ce9ac84f614871e2d6d6410a7e9e9a786210e9dc, 0x219aefe0530bf083338865d59e42657596ca68ce12067fbc845c4b906ae6d8f0, 0x2b93eeb5f5defaa2cdcf165c91dc4b2c679f0a8275e124d9a45e4ef49ba78419, 0x2f5270ac7581f2186ff3bcc58c6fcbe53c3a8912a5e2b51d073b0e3e2a5e0489, 0x10cdbf5f96b3ff7196f8a6caa0e8745493277fa659bcc448efde72b71e8323c3, 0x2fd3890b8256cb06009edc1ca614e5b89896414190c4ac912ddd2fb0a54547ed, 0xe0158a776bae6cfec58654426a8e0874d2a0b51580088682628d85b8f628ed9, 0x11d039e75730946e1b43ff6b1a36ca08cc68efc163a44afbbbd181aea1e3f760, 0x71e4c48fc462575c67463be4de4c67c178e690f7da3a02555f124f722f28c09, 0x221d11a98eebbf2aee536ea32d02ac18d539ad54ee9172e46a232a010017b2a2, 0xba4e4f69c3496368a277ca36f6b2d8e740295843219e90cf7cba25187357f1, 0x300c4c6484de03cb35ff858bb199f7a84a414f0f728de84742a88773642d0aa5, 0x1c508d314cce78c25d37c299edbab30ed7524e1902b335bb4c9386f596ef3f72, 0x2383eaa5db4f7ad7418a38459523b2b795a4f151505bd796916c5e05c0b7b721],
    [0x95007c9bace943994fd0a9f9f2bf09f8e576893256aea86969d1bd210f2249a, 0x2ebea4c9470c5979655c311724df6a0e451cdb84cb2efb05830374b4fee99a71, 0x24b7e73f62f97c13ee370552f0fbe6ef0b5a6e647f42d95f3c66e31e0b0e0226, 0x803599f8035ea689063376c1ab9acff62203f5e0c1ba15ecb8efc30fc1cbdba, 0x2ab4c0a9e9115cc1303530733bea83654fb3d8a8ad4adbbca1b37ad21f8d9b35, 0x10f10b0d5b7a21918f84263cd64adc10e54f8767ada0a7fb59d7191c31d68f4c, 0x238ee32e5ca6f2911047e0797f4fd2571dcdcd775a81bf945787dff83c1fcb6a, 0x1ced6ad5ba466f3efddeb749c7d093d5a5a24348c9bedb513de6047627ca2d29, 0x28429555e34e7b9d39b0f9b8d68b09c89cbc0bd61dd301aa951da42b77ab72f2, 0x1b3a4e3db4dd67a5df83035ba6e55aff71f517d7e6692238091ffd1da89a1655, 0x13cc2082bc604551ef4fd01a81a52261f7979dbea0eb84296f2f6416d57d460d, 0x263b9e3cd8dc5a4413ce8e8c573a8116de4af9642bdaaa35ac342ac8705ce5fe, 0x1ab39521acbdc88aabad582fa222d6adf5633cb16fa853e6f4ee0414dd8143ce, 0xfc133010270202b550a0322e569a9653a21f034a8b305a61819c26a9cb538b9],
    [0x291875d007b5cdd415acbc76c69b6122c86abe51c18eea30136bf66571588216, 0x2e2f9329346d920a98386f2c0a367740e032468696fcd5ac6e2cc6622ed81d6b, 0xf093b428c6244578cd070ca16e69b36b0b8e2a585dabe4af899efa7c5f7ab34, 0x85bc13b698239310b05501cd59a78e9d1f3aad161541bd43080d9fc867d81c6, 0x136222a91f1c9487f3ff320b9e3baa52ef2327895f414c4d4b2b8ccbfef82d0e, 0x2e9341e5aac4da39b3363dee93af0482244b47679de4eecb5a54655e11841305, 0x28988bb98a34d5195384445d76cfbe9a7cda979693d25caf6819739888cfda7b, 0x13b4e0317e3f9cc2f3f49f7dc14c971372518f2b053de35762225ed265cd5b36, 0x19eb35c7021e14e946225fac7aae09481548d0eabf89304a3f62ce915768a7e9, 0x1d37d1e1ec0d7f119bd33a5116e19b07ccb42a6bf7b129bf2aa1dcaf069094fe, 0x1652a1124b3a6fc2029e43dc24de0a2e306968b12092787e3d578ed1d851db17, 0x2d82e3d62258db1a035e60aecf90cfc35c2a68abccee846d6f30dc7be13136c7, 0x1717bf8ac6146ab14ed32dc7a340f8bc0165bdeee55222d4fc0d1b9b8e87313f, 0x2fea8ca2751b165005fc5799cb9c928d3f5719fd377ac3d5ab988cfe7fcd0b96],
    [0x13122020261638533ce1db1818eaeeed3a3e5461925dfaf4d1ad253d00c0ed96, 0x8e63b96916fc88aab33140f6ed477424caf1b792acd7ea43c32848088b35b61, 0x1faad0336f78a518e2209d7e85823be53ead506dfb0eb4910664121f4db6d7d7, 0x9e63f2c7fa18fdb6fa1c263ad5f6cb0c39e75741a94bf9f32c5984347369172, 0xd5812bcd3b13051f2a5811608cb30968de4f9c36dd7c4f6d38fcaa9aebde1fb, 0x1cef48b1d61226b8988148159e826f942e93972ce36051f55d0dc019f9ebd106, 0x213d3f4a801784d43909b5479cd159cbd628baf8b075cdb2cbef556dc12061e1, 0x1377884a51544da78a20bca27c033d666c05179f6f0c3b57a144a4d7c154fe8a, 0x2c2028206c6a58ea6b3fb8bd732935d210439f6cfeb683b7fa0b5f2d9041f86c, 0x291c29c826514d2807fe656bc2eadb0a5f264411b1381b0d85ee215e4806a4fd, 0x2c7f267d39069e4902597c9e3348b84a950f91dc7eee91a8061785de0c231723, 0x1bdffff475973387eb8cdbdcb9adc7ba1c9f63000a333d6b5a77c5b9d0efce6d, 0x108504de6c323d7bd6c6a54b3c7b2cbe67e2f863a483afcf8cec4d66849e2822, 0x143830758702da287919107b796f3e2c4208537704b355ef6d7d4af3b16519c6],
    [0x20cba0f444c54b7d446e9546034760bbcb21e94f64d6b4c9aab41356da39fe34, 0xd05f1101da898ca8034234c57c1b8d90a84068cf4242d3a4dc3ec6a71b56a91, 0xd58c99e7396f36791b921ef6b65b06f87c391b66e774bf40da42af79368e78e, 0x2f0d35b918fbae52212674d2c086ac35ffef289d3bfd783e761838f119866214, 0x2cf4868270ba3c288f4de29e985d0117ef8f2032235b5039cbfacfaf95b9f6ef, 0x14cded55649259b92ac128bd6e1b1bdb71152644c4d818c1d9a3a0e3a46eb2a, 0xf16f496633341d1709e144de29846f7fb1a40e41bb3909f41e791b749795d49, 0x2076608271804137e0c9f68c1b0aeb571e4d34da3954e07e60670e31cf4d691, 0x21415fd472789e80cbc15fbc4a5e3fc96567d552453049f3ba8a0a4158d8b293, 0x28d80c9d6979564568b87745409fd0c33e38efe056510874727cacf65e7f4068, 0x7fc32882a7484c03cdd3a0e24abfe7587ef02c1cc52b11c55ae3b626f8b0701, 0x2d8dd2efa9868ba55ade797226fa74ab88dcd0cd6bd94ae685f00d42383e5f8d, 0x1a986dc0a9c125037fa3b30ba0bb49959d21ceb20ac5d336b09597c422537ae0, 0x21f392183eed36e011b851311afc2caac6fe76cce1eb6ca42b9813702bf015c3],
    [0x14d56f1ce4a77333e61e10d44964474bec74349d22c209bd4c1e3c0a3df5022a, 0x2326ed65301ef1c24feb4e9603860caacd9c6f80683303caeb0ad7f26cab0970, 0x2a3d9fcab4c508b0725e9fb8520ed06b6d29b522e5e8af4e4626ba281ee85718, 0x29cdcfde40f6fd4b84b8e3678b51ed546be8a3a0d0025bf892357a9a2375bcfe, 0x1ef82bdad09b9fc4f7d84b1d355f0931b096ca3d0db7cec8e33daff2b4093a86, 0xbcfe28aeb735a664a360120b09176863374c387d6c0fffea5870bc0ea877cd2, 0x7f3e3ebb0d7fb60bd576ad9e7cb241aa310cca0d5d45014964197f7594bff2a, 0x2ac56c23ad3b8667fb05469317023035cb87ba64ac066fa035c73837ac8df1ef, 0x1e2e9f7e3702fa82feddb16036b94442ef1611ca1a2f1ca2f47336f16db80f9f, 0x245d55eaed831cbeafe45ad8ceb4fcbdbfc9d0ef8ee6ff03e31068d0832398de, 0x1ea295decfda9c0a400df14483ab3dae5bf43987ed926a02df2e7cef2bb64ea4, 0x5bbf568249f3ccae4c98e2549dbde639882927b39e4f39bb7d05f37f6af0d0e, 0x1c1291aab9893e46d2762beebb1bfb97465d00f30da6cf33e860785874cad7d9, 0x17634d1ccd51f9433152634c359773fcfc9f93f80fbe65baa59637703646f7ea],
    [0x14fc8f7234f6912c40f82a1bdbce93fa1af8d24fcf7abeb0c2d4f5a98ed71c24, 0x27efdff5ad6678d5fc5bd1da7143b076598b90db77772a8e9cf5c5295e0af7b2, 0x46644c4e7022580e83eee330c7228469b7ec8afd154a47564f0ccab9ba89872, 0x2c00d457f72e3452c86c1ae3645e645d0fee2d34f5d502ad1b3ab4d0ee3bd431, 0x3d24d7d5f668e0c76330b300b3eb77767ad982a878f643ca935a00742a21ae5, 0x3de941df807fb1cbde0f88b9ec89b64c11252edddce5123d2443fdabdfec534, 0x13968ee75a666efbede2dcdc1cdd9a5e15543cbfdd3d045486ecabad362df82e, 0x2a49f11f36030eb28dbb1c123c00bc12491a461126edf2371d4787dbfab690d9, 0xfa680c08661ce0671847eb582b5ebb305c69b6166a2d3d32dadd35b73c87fff, 0x6d5a0ba4f63840b7dbeee170772dbc060c4e7da78580f7f02dff8dbcabe2adf, 0x1f624813ff4e4ea551b18a754fb0a852be6ade91807e86ca6def238cc0f23f20, 0x104988ebd6577839a2b07a037ab4d20e2b00daeb6451e21ea61028b2b6acb296, 0x4e71dcb7afa2e832487ac7f13b79eec44d7781897e9075b9198dda984d7f7eb, 0x236f6b011d7b96496fa7baab4c5dbe743276bc974c0d2d17a81ff079a483ff20],
    [0x1587663e2b5d740eaef59e36292d85686b5854082cf903e4de4beb5340e015d5, 0x11d45895b6239ba0bf7d68ed7790502aad8e13c8b45d313e323e27432e2cbcfc, 0x253c79369fb2bb163ad88c751e81d0ed903e0fe6f15e12c0fcfa9a06eec12476, 0x18913458b59d37dacd0dc16811a34f844b7253e8bf4d7dbecebf97b0549c2b01, 0x8d5bca196a8ceb1ddb165927affce0e3e57e42b22a130392bc52214749297d7, 0xdf1eb022b44f3c8f358a7424021402033eb56d439bafca09201a463712f6bb3, 0x1ec99a4a3dbab58148f9cc3024da287f4083d70a91966a5c76b46b0a27bd651c, 0x1cef3c619c6c700bd295937063395501cf4e208182209f6718d57da33a23e66b, 0x28006478a2117dd3500711cf843ee17b97026884681a5bed0621c157f78a13b2, 0x1f8db17184e9aa39e5ac0306e471408a83154340ac6f9c585ed910d0d897ad61, 0xb4dd727de06a0a5946961b6f5fc0bcef0263f7e2e5829ddb6e49008cbc1b16b, 0x217209fa8996d860daa1f9c210eca2580eb3f1cec5aabbb56bd901b3d9fc871b, 0xf68b53bbb8bb4798d191608f9542849c18697dd7402db0b5f30317d2178befe, 0xeef36b6a205fbbe8be6815a1983e6cd146e42295eca46dbb316f976bf0596e6],
    [0xea89f549e8977b2ca99be52e9fef5713a73e5a06663918c83d22bcdb017f15a, 0x2bb5f1827e14485da2183c2c00d624ddbc01deffbc3235878f07a04a47bed1bd, 0x2f630711a84b9a470356b3cfc2ea0b9e09be16dfc9a75086b4b5978b69e8de4e, 0x2d1a64e0411d666c0ef9f06b3eb1f0c442913ca621a54307961896f61fe74646, 0x15eb85dc380a0cb81f1511dccfaff8a5079ed3100907772ef076f64bb4fb1f8c, 0x2935deb4412873991b6220aedc3e923c05eb87d8fddafdcbe1da6ae476075aed, 0x212a58a5f2ac5530a2515434437538885218522ac412496ce5f85a9fefa2d074, 0xdcb873fe2bf8ffd64fa76001023572997bde0937993bc9822928476e735561e, 0xe39308c1281899d7150092d1f116e41b981232c9d096111d827592e32c5ea5c, 0xa5679d09418466a7300e8a0a964f4d3bb922958885147b5decb1438b101cf84, 0x38a8f326cc8a51dd41092f40ea3aac4ad722a8744101f4068139c5d9115ebe2, 0x1dc0fb391c19c979337f1983b07d90ad225179d1c6bf4fd85601fcef1c1854ae, 0x1ffeb0fdeeb9c720e7be5842a019527689b3b8f5e3d63a3de2505a964223a292, 0x2cd6511bbe7dc9d2a8cc050225b73d69f7c2075a623fd6ff4bd024c2a69ad268],
    [0x21d4706590b1854d962bec4cfa56951ae8441cbeb1e4175f5d3b61b8db79f68a, 0x12da59528ab92ae9f0268eb1bda47594920e4f5a4526278478dd9a0107bdffaf, 0x7aed9e16edd41aace93c2078ba1333457676697ceb8d77b5833121aea63f06a, 0x13e9c52761d0fd356778f2c9ca94f6ac1c714324435e0105d419e112d3f42c7e, 0x288cb3c2e45d353233d2680366d4913c125e7f2cc6bbfd65069538d89f4dc477, 0x16af712074445c8af7578cd68e6e32e0f88cd9e99b3f46c63b84c8392468eed, 0x1c1d9b10584a446463b905d7194c780666b9aa00a781ecf1003a6a0c81685f7d, 0xa7c876f83ab4efd0d042493681e993a66420f23b0dc6337fd8e1ff0bedeef7d, 0x1bb8435cd2e6fc9c768446b13a53fdecee056f79ed8d0d1d36e3a784cdbcf255, 0x2d90be1ae182c3f440b85fd6da69e21de9eb2929e54b7512216ddce08a7095be, 0xc9de3a0dbd2d14270f8a16c486495ae5ad2d44c0322f0d990ac4a4e024bf575, 0x1e397c182116d4e00a53581aa108e5bf880f8fe0736e98124aca92873840399e, 0x20a611d4fb392c94d85684590ea0aaa38e4800d027650f823bdda0e8083ba202, 0x1ea1b882a97d732991805ae46935233eeb424f9363f9e5fe864d30237484ebf4],
    [0x13f67ee6e8ffc6ff26648bc6e3106b834a3354ed989d351f4f08f2796910d1b9, 0x35d6e11fd71458caa1c0a7f76828e3360ad2af2e88a7aa8e5e5fb2a6110a56d, 0x1254beb4738a5e8e50f45fc7ad73c512165e0c20c0c764b1747dd24da4b5186f, 0x1e0b231f595958977dd7571e0e6988ddacc14ac1fbe98ac784f8684a101f417d, 0x1d787be18d93eeebcacf4eb98f2226645cc1aa4354e6af4cebeace6b44001963, 0x1b629ce1b52348a9865abe18e6c537f88b2455e0f0de338cf51dff14e09993bb, 0x102b0b82afcecad50b6cd976bd3acabfd34ef4f57c78f5fe7b57127d166504bb, 0x2c4f4e1436d85e914162bd51bb9d13bfcaf9f9d30ef53bd75d8f659820124eb0, 0xe5d628e75b9cdc3a9898c4722023bcd26c2307dcdcb74d097f4fe00bad021d5, 0x1898efdbbbb625982db0dd512e8540ff986925bb78ea970cb5d044c53dedd4b3, 0x2a586ae0193dc050c68a6340d6387b5944d21cb79566610ca15cc0afbbebd619, 0x2c8df3a839ff2b2e1071ff973963e163cbde5994da3700d24c0942a1fb8f3e81, 0x2c40e73f41f7ada9ce46fed754b987d77c7b9c9be1c866cf0e50491785f9aa86, 0x10a44419a271043be49ccf50d187302f300027363f20187925db8bdd0aa9cc5d],
    [0x28250cdc61eeed8b98fcf0f9a839b0cb299f4a80f88534298660902932b1e8c7, 0x1b01b6d43822237fa886bb86fa5d0adaecde3b834324e93a02571202d39c16c1, 0x2b780386f9f3da9b23f88dc7fa2615e3429288d9c5de4803d42ce69ecfb64661, 0x24984ac7b0d3a403500f0a88a73ed082f8762c1686f379d5241b64c6d1ca26c8, 0x2954829e72a69347f4a05b5e4bb3a3e6e5badc6f7b963fedf95c52ed5ecc488d, 0x83607f9e053a5c77ab95343c1a4620357262891d282195bcc4ded3dd788cecb, 0x27cdc8f0618dd378a7ca6b89fcc86ceee70a7cc73d29367d3d4539291b73775e, 0x1c452a7426b31ef9c186906b2528de2b6f8b264c7083d07195fee3240f0cf082, 0x2a70b8f7a4f98c94dfe478396c24c0c73445153ca6a63f4135a61a7a7149209c, 0x1ddaf2c29060384a64f142964f68c38ea9b2ddf14c9aef92b701a00f4d78c967, 0x18d763f5955669c75685d78bbcfd9923b1e28a6fe22d19e53182bae2e387a4b1, 0x15487b28b3f0687448c73f432cfca0db556501a9985db9782ad1f16011aa5584, 0x1cd157f6023cd720180e59db9dcdd1d6d6aceff9b6db1ac72284c0a54157bbb8, 0x2f2368f8d046b18934dd27f29bbff29c909bb480ee0fdcb7705273766a189bf],
    [0x9d13a02ee4793785933ced2ab70bb0334e7a6fe653e8d4ed9783fdbf9a5f1be, 0xd66c61f8b505a8efd06a8659d1f83910a781182a4383b9c734f51200dc4d62a, 0x2d32aea4cc326f82206b91c986181f18ed3c3171a53177243f2dfc7471976b72, 0xafde5f85a042ebe32889c6a3e00fb40c40d9a1325f2f418916b1a46e3e4411e, 0x29a3c3d0caabdccb6c7d358593bcff8dc2e0518a9e41ffad251b50d9b397cee2, 0x322c3386bfcbea88f4c322edb06aa6d5924122d858df34efe6373c44b7cbd61, 0x1438c5871add7ac0d3a49acd828a005222ce8c8df43059edcfe399d90e281363, 0x168bfa7bf400f5bc0cc14388dd1780550980e4134701a2f21fe0eceeba59c712, 0x1dc073a172aa9728c523545245f9160cef1a76e4cf74b6eac7d113fdf911963c, 0x26c80f81e2f12a302e630e9e4d3fc4aa14a7ef41508e4b35a0b58f3a63809290, 0x2dbf4afaf4c5ddfb04cb3ae7aaaa6bc6244c57790a6939ec0febe2c17bce532b, 0x905bbfbd61ac42226f3d9a1fbfd2e90eb04dc665e023ea2395e2b1cf79d436, 0x1c1daa03e2b5bce3607ff15e37bed1dcbb5e189b073b6c20c27ba16ee2aba814, 0x1a2f8e8d55339623c11340ae1b135454635c71cbd8d20b6a536a39ff736a5243],
    [0x18535c592e62581176a3464783cf099f6b90e5cbc6d80f12398708d7941ef453, 0x29f6bc49dc5991c8c89c9236e0535ffd6ec13e23042bd27843a51f9fd2b369, 0xf99bda8902bc2630a41884a5c477fe8ce7697fe86a28119d5a17bedb9ad85aa, 0x2936f41a19816dabc413275d943ef09f3f961b49e15ef9d671d119aa39e2b4db, 0x2b3e5c1fa1bca2cfe43fefffaefadee5d8bce97f52484ace59b10654909a3c2b, 0x2cf54da2864c28dc6817000aa815f4d585821780bb27fd6762ac6f8c2ce50398, 0x318d4abded11ff442e3295eae5f62b9ab53c783b0509643843123b802d2549d, 0xad5edae189c9098ae537345a1d3145b442a7776370ec6fdb6cc33cea6789c6c, 0xc02ec64e912a52f98bc967f67d74ea53374a195e6b8df2da1c0abf95fed1c96, 0x10b354fb05e07b72d7d655444cc964130e3ee7b63744981e3c5a65279ae805f6, 0x18135a3547443addb809e56d299d6ab71600ca6a67d73fb903c46ea1f88a78a0, 0x169b2d1c9533fde28f5b61725eb1db2df523c8a7f326816a48a06b492f7d0971, 0x706cc6846991bfa50aa52747c63ab1bb357c7ceaa4b38a0b6bdfdc48cc745d2, 0xf23a2df079a3a7f3909ffe89f2a2e5d48e08c81f56aba869b8a073b134c2766],
    [0x1bb2ed4cd681047a7d449a435b1412a1a54576d1a299d8307c9325d0d9576658, 0x28d41a2ac7b3c71974ee058c7223a0a7ce0bb5a1e485dbd2686bc1300b47e21e, 0x25ab50f20dd391b3bad83fff0ee9692258536da228190b723073d55310c4bd1f, 0x27b24b346de16f4f286a056a24239895adde11187ed5c7d11e7c535ba5ca6300, 0xff16afdd9da02815b98fb92c5763b49b0ebfb16bced629b8ff2d6371090c495, 0x8a1329feb54f08092d18db2291e91c4e17c7c09913fed4c0130fc8e7f75c9b4, 0xcd6bd732307ec5314a14259d354bf7d277f05badb1cd07253866472d7e90769, 0x101bda1f28311c2977cd3b452df6aa429424b87cf47c92366cd45d9926a0abc8, 0x2c39319445999f80e7b80b5a38639a0cebcd5b0766f64230227f6809280ef6e, 0x23e7afffd0c6fe2ec95a394af2cb724aeb088250214c099343289bdf465d46f2, 0x2176e7a545a244ce4bc1a7c2bdca95312da62fbdd2bbf8dae347c611670ea7da, 0x1c6067731c77d01d3fa867e8dfec2b88acbc17e7ceadd706c58aae38254ea2e2, 0x1588b2582131d05ee20beca1ce405c949fc16292219447d2b73c628fac00cc58, 0x232f65838476e01be1287b72f8897938f0783eda92b9f4c1ebe8202eb29dc889],
    [0x22b6f2c624b637e843e74a76c325b05ffc2ae4614384e0f3a0cc18565624676, 0x1202e2c0a73b8a2b43469495dd9531dcc8072d16e63adc02923c50b141a184ee, 0x14e203ca64dc05735b33078ad83b969421b96aa9e8347ce2e522eb38886db24, 0x40923212b1b7e37c937793aecc233f202d6b7578fc6f52774b165ed6784e471, 0xfbfc45be7c5f3901abdef853d2e6216b71835c365f0f97df2f341f0f049e92a, 0x27310155192b1726750c5bff7117c4ebec2099c98b0de8c553f58defc30ba318, 0x19c2594328dca95959c2af80bfb179d25adef59eaa4a74f15ed3f19340a08cc2, 0x104796be743633ccc53f728144bacbebf5a09b5bc0717ba33fa69def3f31cd72, 0x1c97f91df1d79a0e5b7803b2a59f15ab176a207d1ce3f686f2e322314bafcfe7, 0xa24aaf916ce0d22fe01afdc5f96cb1c40b49c48c99669354fe2c280a33f8cb4, 0x17dc7a5303ea797184fb650273faac447284beb23e29339d3ec9d91d3f8c76b2, 0x2e1b387ef959f82a150f807dfe5a3480faef6e7f79d15ec65f924d0aed280a56, 0x1153c4ce1088b51359d71725823d163ce69541317610e049beba015f256c1fba, 0xd8b8924cba44d571ef53912455227a5bffa46057018fb68314dceeebd088515],
    [0x151e868f5e19e96f6d2367228d388afd8c080794d0d5c77c763beeccac9fc0b3, 0x2fa3eb12a770e7837a8e690b715f5a811f4102f3f14bd30a308a13986a92d7d2, 0x28318e53a9949641761ea87af6c8159a0fb94915083d1a1308be8bb05dede389, 0x2bc3819053ad9a6656006fdea87efa94e4faa379e89c4c1d38aa12d0a141e9b7, 0x1c124776d2bb735283d4aad14ad82bfa8e821ec542aaf7065b47657757ac31d5, 0x2a000712e4a9bf5b395edda3092db0040d44a0346178aa0128997459874c4bc5, 0x1e0800b41ec9c392c2efbe25f5de7ceedadcefd12d437d874dc46af997ae0087, 0x2ab3b50a1e176957dc1f08dd47185f0ed0d9aaddec45c5cab796dd2d991e9e18, 0x2190a0c5576267156ec9081961338a471a0422d56035b8bf3a8afe7870a3196c, 0x3cb7bb7d3a38a7ff1abf8c9282298a5551c55d28e1bdb6c4e7377caa034961e, 0x13432d180a4b815ff8c3f3afb4250c99e89c9518417ce5e147440df80d93e730, 0x1596f4d7e5a9b9f5b7f5e1a4b6d068b6aac9092877b820ebe95a15c59830fa9c, 0x2b757032499016fc85df940d7ea78a6b6c8a1bef0417c976554640b914dc9b75, 0x2b1528bf87a89c542779e1d6671a269331a2b9a64b56501a652bef0dc5bd5099],
    [0x2fd143194441382b4daf486d159def58f1c9869aa0a3fd03abd5d9c923dbc601, 0x84e5bd84e9f5a3f8ac1a0be4269e1cab3bea75a651eb476b23af0a9436e9e10, 0x26c737750217a4e394e063815275f3e99bf87a6339e437655ce91f99a3f894e7, 0x11d44a14a217454b7cb9b013a7ed9ee78d380846903dab930a9f39c072a54e, 0x2cff02f46b0ec806c47b7c834e0c3378172ca0f7719b62de17f598ef8f047731, 0x18d2159e3a040d8af39903894bc9ec51d49aaa6d5776db31f1cd4dfa616268d8, 0x18f0110ae1d067eef4dd057722e96be6616b6c5edaf101db529b049a4e6126e7, 0x2870e7ca2635b5c3f898656bcd8dd853991704e07ad301612f4d7bb174bed2f0, 0x2674f59ed1fde5bb303cd010aac8a91458bea65a29db9a163ba3ab313cbd6c76, 0x3e34b2f33b176b37d8e88dd3501772a8961f02a5bdb29814588a44988157da9, 0x17944c0c7d9146518157f9200092bc82bf2c5672dc8584823659b07a0cef37ef, 0x1267aaa77cd7199c10f7c2bc5581a42f3c7b08371e3aaa60bb423ad2e2729830, 0xefac3cc0daa23f1e378d1dcbdb2edd6a5d84954dd00553fac96416259123831, 0x2872ef46fc5700461f9af029c3611400a0a80497b58520afb43794da71326a97],
    [0x1abf3fb66b933fe5c436b2e90dc1dbc6ac2ffa74cf60bbd15d183134f069b42e, 0x93da890a6a4163a094fb0c3140683ba9868fccf8e42bef0a51e7bd577bda0f7, 0x2520ca8de344289083f5d01264ff76a5ae776e69d65d671442f52a680242a44e, 0x8f3791175eb454942ba5e3fd7f00463eb88900ee9c053d105f9c838d29b1035, 0x4389b9fcf9b26a0d52a7a86b11f50e4cd49cc758ff9c1c9352481c2b7cf55b5, 0x8bfac675d4d1623f5486662b8e9a72fdb4973064d5cc6572a36f8691574cfa9, 0x2a8e53108a5e6fa2b0bfd2e01a859323491aee5cca45981d7168f1ad1dd42a5d, 0x1ea97e496fa619c52c19d5b33076ce84d51ed947970643b0a6df301102252a9b, 0x2921097b063365942c0d6a534e2a92aa408908b6897945ee787bce67e4574ced, 0x2113f871b713c7ab1ed7af63982cf46095821e2aaef61368eee133aea6245f27, 0x421c9fb1ea7d058c01c2537e22d1c717e40c0396c643be3e7c029c055616374, 0x181c57d9013554eebd5b3e9a9c4a89a7fd55e772eb2fd4b2f47e5f015b52b7d5, 0x210fbc7fae49a8711b72744a25878d1ecf3a88401dbdc87e7620ef080e9b1b55, 0x38a73037d04b19c3cdbf74c32cdbff1759dab57fdd42954a3afd9807537c8c],
    [0x1c4faea527a5a146170cc3a85289479fb22e5bb5ad2c1900999faa9080bbbee9, 0x20bc74457f7b36956f2759ad6a18b00ec602a039c00ca7929304afe1aa00678b, 0x18dbed8b1ebd14fcf2858ff2c139d26fe901ce4e8b50f28c16ba6a56cbd6c3df, 0x290e5f918ce5182793fee062e0ac82599a6039cedb0327c69cc35c484a60b52f, 0x1270f1c49bf05b5711299838acb2d77e4d5209d650de540d000fe0b636957250, 0x244bf00718449105a612fd99f81f8293bdfd43758a8375aac6447d67afa07d4b, 0x253c1267e1697769dc5b914a341b02ead358261047fda749eddcc3e6496ab62e, 0x1f6205923f15d6674f8fa3f5dcbf9b6ae3005471afbcd8571a0b02535246ff74, 0x197d7d842654c8e9582900b5b72a9bbd5b43155c039140646b08fed032afc7bb, 0xdc5162814338dfbdc374e6db2f4b541c598de3a6832361f44003a8a88b13f46, 0x118c03871e753f7528b2c0834123ca8f43ca7ab37eb1fda534bbb334e94c52bf, 0x212a8c29677a919cfac2b9daada92346ae588bee142654fa836347239d23144e, 0x12bbf40d2464fac9e64dd04d65399fa6ef74f8528cf6a3aec23555a82af23856, 0x1e1debb4f76f3d7ac15633e36bff09da18df1f9ea883af3bcb5ab4d84b4a798d],
    [0xce98db1da5431b8dcd8adee704963f8e89a35b3f020e696d79068ae3cfb02d, 0x21944627e60ca87a770eaddd5486c15ca5e487f4dd1ae6ec2104de83c3216e86, 0x223ca483774a7c5d4f1ce388320e1d5f53ff95dc5ce53442aeed94bc2625d392, 0x2501b50c7e7f729c7f4d896501e294dc91c266bd2a6dec0cbb09af8a13fc37a8, 0x2e438c6ef07f9bccb0218649a91da9373870a45ac4524c6cbf073319a2194fff, 0x20eb17b53e680c2b60d9f3d55b9dcc8b5db59e04b62afcb968cf6147e35a91c7, 0x256118253984eb71f26d781504b84d8288398293cc419aef59e8613c9fafcd42, 0x20bc1706e7de27b979166c50f3b4b713aa07a5b868f5fcc9da4faf7a066feb44, 0x28ba38a4827aa8ddf9349dc4640fa8017b0cacdb456a901065aa6cd3617e17fc, 0x561f8d6997b836522d4f18603799cdc60381f5f65fcfa7bce7620b8fe8c7462, 0x914871465b2f0f3c83c416535a525082f8e6558b54de301e5f4edf52bb6aa8e, 0x160e0b49d6bb20368b2a48a20c55da0d2659a94ab59f174de5dd4c13505b04d3, 0x971ac2fe1f38483d27137f792f6bc0ef51108d2a87877edb01205a23a18463d, 0xdb36e959b2089b379088932fa5251e65d4ee1f415ad497f5677e69d620c3f3e],
    [0x260e6baea06a53e7947e163f0fe833e512802f7862e8708f575fb6baa7ed6ccc, 0x103e7c9849aae12c3642ba73872141c0bfb65be896a6ce0f45ac9ac8d746ff6, 0x19853a0ef0c493811c3168e292855f690100b73069bb50dd32dde06c96a4bbb3, 0xe2823849ec0077c2e8cb25046f6a38780e943ca3affd973c883809e227fcd9f, 0x15669e10f37a3d252b28f8c05f66420a4bc6e9baf7a6dd7032838972bf7cd9e8, 0x1da3b467c133912c54fd24e00f2916a91d533ee46e68fff074d1a1467179bb9f, 0x28c8aaa806b13f8e240e947d48be89c609ec24b42ef9b1b25916669eb613f715, 0x1287309126dcf2034cb33aa0d01b7e5e1b020a8a08ace1bae33530d5db8cf15c, 0x273d73d56fc498d1be414428870a92f0082658d381013de76cc13c80a2cd8de2, 0xf73e29149d0fa5e27ffa53e4851187a653f2c5b310ede6b9598e4cbbd35a5a8, 0x11508faa2ff4f86a4ecdfec774e9d3f904e04d0fb9ca25b99be310c23dc74bf3, 0x8ada36165c3a78cf93ce4de9c7e13bd9fedf22b0222e5e70907c176588e4966, 0x1a649f2a76121b00a1fd7d4945e391fcdaf3bf69443b861fcf15d923a45658f1, 0xc7fb8dcc2a5da940996877b67908497fe074a98aa8d6008041bdb1f4dc6d6fe],
    [0xa6a254a2574b86867bfa9e5055ec61826368c028e52693242f63a83153abd3c, 0x286876e2f3e95927a7dcd76f37e4c937b4c5e274bf123801f0569bfa6fe34b, 0x2095c2d2a9f23395d77f1a86179c512dc1301d549996a3250080f52b9704c8d2, 0x2ac90aff52b956782ca8598cbb2b22a3285596b5891a1f60e141012bf2812ef5, 0x114e912fde21fbc12348be91e0598b057430bdafb0b4eb9cf93e67f7235749a6, 0x301fdf0c1ff5be9807b51a91614541bc0696cec7fb16a503029cfb4704d9696e, 0x9a579c36f8bb8fe12c0de65c24ef587ca40796c850053c022fb015fc6bb072b, 0x1c6f93d553f9e4f96a575325aed9682a53dca61b88507723b6d2adf2cd683388, 0xed419728fa31c55c5946db446b7fa783f8af594158ec60ad8c1f66893c17f, 0x19411996cb83bdd95e61aff2e6d4a57be99120783e41fdc495f358c98226890a, 0x2a1eea5321ffc604f87d055b650ee63503584495923a451b32fc241ac114f2e3, 0x21d5fe87e3905b6c19c384d4902bff4e573ed1df960100fe2f630f5ac7249636, 0x222da21f4b7c807ebe8f93b67bf507df715f53c3b2ba7754604bf93aed23a7ce, 0x11bcb33294e5f8e82bfab58152eaa2b91ef6352a9d0ba55bac003dc735172629],
    [0x15f62b8e5ac177e7c52faca91dbf24e6a90edbda53ea0c54d6ae7c38247b24b0, 0x1e329eaeb402ecf26259a1257fa85cdf1078dbd858394c06dbd1e47b988cf257, 0x1fca943281035ed71d898d161ebc246f9cf04135c3255cb87cafc6e11e0e715c, 0x21127d56f6dfebd40f026d758a4bb8591d3e1d48c12e28753cc71431a1db1ecd, 0x6a69dfdeb9e80796a63b4a698266093e1ba7534ebb7e2b0f3ab58751d0cbf60, 0x2c0a57a5cb496459e547d4366e34a9f89adab821f418b9a6c70aa1c61512ce66, 0x261858f737fcd0820151966863a110343b6065926b133870912c595d0fa803e8, 0x74962d54f26a02909f99bc37c93ef70043e7cc51e773a5e873d3860c57fe9e2, 0x297eb20bfffbb3c3dcdcfb56f0b0e221ef28fcf4faf052a5284c04bf776a0873, 0x1b8c711b0a6109a9fbaae034c0df650c32dd80cfc5981816dba5a2d3ba884246, 0x1872c0cfacf2bf6e42d11d52d28c306fccd53c2575a9a2534b83dd27186213a6, 0x9e802063ab8c0b001265ccf9e5bcd9a83de0f56fdebd385ccbf5cbb5da8566b, 0x2d0177d9e97ae16ea923bc29c3b34f43b9743bb04e0af385fe4010eb92b3faef, 0x20f64ef9f3b9143a4dca77cdb2c11a72f8e3bef8cad37a6e07d156d982d36ad9],
    [0x14085e315fd11bd4311613b563658e194a8de5dce828d0b401974da62a8f5953, 0x1eae390777228c03ebd563fc4cc11ee0ded718d0ada8ed327d4cc09a3307ede9, 0x6472d3a9addadb7ca55ad8d286d7ef0630ce84fa631832009f2dcdadc315da6, 0xfcdfdb353d3a99bf2c213d9a687d0321844e2371a5ca48bd41f7b25e96b6a7, 0x224c451f7674579be04568957daef86aebfab8746b8d8d68cbb5d4e2c53019e5, 0xe378f20b71ccdffb0b20149df41e2832c57bbf385e953f2c8f55fd541291a1b, 0x5edeb6a4ca7a6cbff5c5d92694bb46698d2d476ecc1787904863f49914e49f, 0x115bdd6b5c9385955a8a20d244c4062b08eeb78eb692ead7893482b00beffee8, 0xf6a5a9c39e7623c4583d9b7215dd4e3cc97e5a8e240ace0e8c5fa8343060ef5, 0x2aebe737741ada0dcf9980e84f021506d5f52f7a4082f0e97d37940123ad0bf8, 0x1b1ce923fec61ff8da2ac4ac5d3c2792c9a1adf90395d8c761aa96735a38a266, 0x1c221671ca78f00f58d5d5439c0d11bff3b9f74b62e40770a798dae970a5db24, 0x15770a93016e8761589b6d6e5bc57dca84cb91156222639139acc6f25668ceb1, 0xc530d9fb0d84a2b04d4fd5d2345c5c587e860361f808e5d5e60d7f6175b31b0],
    [0x9c928ddd310f013a0176e314d2d76e9487c5631082dc4c832b183b143630782, 0x75919a774265ef6248bae80704929456314b2a274a44d8be22c1a1747ece847, 0x1cc025b3a59fbd993318dbd65f22b4418faf8a597fbe9d9c46262f5b99fe104c, 0x10244f0e95bf93e832fe52e49e1c05830f10fba9136227bc7bee9ca10ab72667, 0x27fc48c5fd8fece4851eb5fab288d4fd41b3eb0cce56827dacc7a3509e4fa4c7, 0x219404cf8c7feef751db9e5d2c4db1ec96ee66701e78422f57b736faf2593398, 0x2c1636d612ee048e2df1f38dc67920abd00676a977af875ae66ea5d5277a134, 0x131e408587a1b372dcb79c84d4a9327e4d1a93e225e682f5a8c1e6ad0f79b0c8, 0x164064b05249b6cc87d1edafb21c8e2bf177f979d46b68b2bfc6d2f9bc636a39, 0x1a32d386114cf8ea9dc720717df855af4106533ab7e427da3d6f8091ea695905, 0x26139768d3bed1dfcd575cbd5c61fc57dd2cd45b8f725c25dbd87819129f23ad, 0x1d24e974d3c14d9a37f65a36ce2a2a593f321cdec81a40a58d65f12da202c3d6, 0x2569aff88e4d3f209061cb023efa93c26a627daee66d1b67b99740682a057fd7, 0x10b621d20c61e70b3292085937120b9b28c488875ecef4bb56ecb134e427d5aa],
    [0x2b4419af0353be507f3d3121275f9ce9a1a3c84003f47343972248b5c0d2f1c2, 0x187369785670fba473da72eac6a6b825fd4581b5bd52c78420cb246865845bf5, 0x2103a328f4a2673a0c329b136fb7f008d1a1f005ed5e4ca26db74d4d7f49fbcb, 0x799c7bf30075758b400e34108557143c4d713194e2dfc6d8a50089b1cb462d8, 0x20aec56c0e5b894caaf4e537d708ca7f8fa1e8a1de6009a7a2fea43a70519234, 0x2b839e4cbfc3bf9594e893e041989439863027056db91887c2dc09373f80cc1c, 0x95c1c06a5393a5995870dda2e65b90a20433dcd97882587aac02cf8fd0442c1, 0x8f2cf7886ffa7811e14cf8b4f5ee8ca28196b83478ded3719c2cec9a2b4de7e, 0x1ea2763d97a919bc44c3fb92e61437fe4093253c47bbfb2a9e55b252cf7f9f27, 0xc8e9f9166ac72edd6d7cb80e80227cccae1d2d2056d6a856a90455f56fd7067, 0x57bb346af28bfd4bc2341d64e65b1a5734034adb3e1099cf9fcca79cda9c803, 0x70f630af25efa8e4d8c5e35861344889bebc7ddb790014113c1c2a221e161ff, 0x11d35bb72abd9000474d448fe22416c8ebfa152c08e6a0ffcfa2217fb86e9c14, 0x2e486100284930c2e91c1d00add9c6c98c3114739b13f3b3f811717372c25a26],
    [0x8c39ff6e608dceb35123f2d64d68b23c4a81681e5b7d0b8b8407e9aa1c50ad6, 0x270aaab5852da02e7c1e6c8167739b1d719f2da3806118fe66b08b510aa1eb9e, 0x8b07ed9445f3d4f9d5205530d7b6490440653070c6f4c3e38968e82b93ba584, 0x666b480472adb317f5b138a92a4d295127befcfb83b7660681d41b96c408ddc, 0x2e06985058af9e113eb22379cc55b67a15e193613385bbc4775a68c6c526b6d9, 0x52319c919c1954c4d38a7c77741949a839b3f188619f74093e3180d144c725b, 0x2f8c80a8c321dd74d85f2dab2cb172a0824b990ca63765d6e17b483734c4a4cb, 0x229b17fefeb71703a7abe80495ff7ddb6140153f77e751fff2900afbe19114bf, 0xf9985aec263c3be8667e4c93dc0d8812f874cef6dc321827d66fd92681ae9ce, 0xaf15c566b682c10cc83c3bbaae3ce621d1bc3e0b45108126cc0df99c6225c78, 0x3177754c13726a540502787f03dea917c9c0960fb205478714c9515d6a10e87, 0x22c84885da685ac6b74e3914bfe2668fa08262ef24f1adb4c55ddda0cdb580c8, 0x113bb87961b449ccf5595cf68329cb19309e8d065d013fdb009ab0e90645186d, 0x2abf19247afd7fcf68fe30989a9a370b99a1f12df9b2fae30b6cd3383f8d6914],
    [0x2fd4fecf4e46d2fe72647bd708f4bd4809ff961d89dcfd2ae91f812e0a3b9fa8, 0x17a17efbbc358c53fb41930002768de9e1398f39df32a8b06e23033114c7f9ad, 0x2288e2ab2b87a12d55a319b351d9874c32ed44cc16d93a6a63e0852f0f64697, 0x3ac39f86700b6611f1192263d9442e900d1100f26031bcb8a8e6255ed1a9f4d, 0xd5322a34db3009785366c0060c47d29a618fe0b2cae945def9a35f3ddad1f5, 0x9d9a76e376e194d053554a267346b7e034a6d13447834db68d1c102367b92cd, 0x2a1e0bfc7f387787b93cb39bbd51cd9f023ae0e738abc43de81cbbf122c13e5e, 0x2c9ba1265abe8a7b57f69f8b3632bb13ae772ba1cc98ca033d5369664c40f5a1, 0xe82b784df5473936515686de5cf8ea1a86455a68b3b55abda5857bd5527e3ee, 0x3ec77e964b4dc113afbfa1dd2eeadbb676f73e27899f033c6faca223802485b, 0xa6f9edcca76c77a5d699a217dd7b62d0d704485236ed912ce6b8de2293c1e23, 0x1b628084d0fb8fe76d6353bf9482b59af97bf748a6e8046e8eeca9a8a9fb0ca2, 0x2480fbb04baf093bcc1c9162f78214bfe14c3649500d798e87477ff71ea99159, 0x2c92c181e91624bcb26fa27b6c0046054e80aebcf342de822df775333e2b1b33],
    [0x22cfbcf84ac83392239762dcdb03e8477b261be19ef57e2322c043c08935d271, 0x9aa0d0fd0027d58acacaf20e551e76434bd8216eb1ea6b317d1a6d23a53b1e0, 0x144d8e55408c898646f2e0ddb6ec192b5e4169bb312591d2c758b97207409ac1, 0xf1a39ddc785cb0881420f42eb4e6b5ecc10c81f490be17f815f9d7f34e5e54c, 0x1e873af18a55663a04c84470498b245b46ef6bd781fbb2e4bfd4333ba143ab46, 0x24a4779886a1ca1aa57204e1fb50e033e31c7f99b8084d285b0b9a933cb0b3c7, 0xe73aedc9a4578255f1d0f8527708f9d31131205e1d6140ef9757e8e07d593b8, 0x106f27e82457b91e9fa33358ed95a1fbaf86aae5d4ef9954a04dd4635ddc4fce, 0x1a952947fcb77c0ab07ecf32ebf40d96d40ec7fe87b24eb92b4c9eb16f2fcf7d, 0x197b9ed1a8ca8487b72d1e8cce502da9d2ba78c3f22cf7c05d8314722fff72e1, 0x1608554bb309772cbc9a0aab914c4e2c400d72f9f2e5dad466dfa1dfbe05d5c8, 0x848283bd8201837976d43341d43578f9b22609ac2e457e02664d34830671e36, 0x14beb77cfe2854019e05160b921f96119e94d616e93a0607936b450a3e033b64, 0x34a1494914e7698185d58864582bfe82fc0b7de6ad63f931718abf8238d2805],
    [0x1c319df3b2680bd8c716696b5d2cf503e0eea5b11d5dde8e95217f4aab6abd0f, 0x12c29c95fdebf01463121a20eb33a06425e914aa9ec61bf665bc01ca2258e1c7, 0x1bcdffb410b009efda67f405fa33fd128fa7cff3730b3860df29b2bd561e1ac0, 0x2e8a9b80ccd2b4387f0ec24caa0ddafb7b0fee1cace342ceb18e91223eea76e0, 0x23149eb655b8640b7fe76b1c0d3b486c2749e647a8d20f29b5f92b2fc64d7aa5, 0x2a650695e37bfea8acc998914335ff376dcd297583262384e27fb805a2223f85, 0x290a2e64f4e1f17bf39d5d4519a152801ffc2d2035d48bba0eb1a8f8238e869a, 0x179786019d36917e8bafa6829471c581d532bf10be7da1e8917a5f70a7724e13, 0x22bc68c0855eedfaef551448da3b639271008d0633aa9e783fae52404e7ddcb4, 0x1340d5b6ce060075459a84ff7f47920cd5318f9d127f9e524dd1f7ac1d082b8c, 0x942c9ad7de555dd976278aebbf1d22f1beaea0e5ca2bb5b0e6e679f2c7b6b22, 0xe65bbcb5ebf23a40d6e25703ae029a31722b64a0d210496dc17c9014f9df451, 0x112a919bd0ceb8455775ee49e2165b5291b9e4e400a75e977ca6566e6a0bd69, 0x1b91c4d8a544369b0daeeade27a0c2966b741a2d46131d3105741f31df20ea11],
    [0x2dd85797e168d21fa7e5b96622766ec0c02246bf9ee328a915ff2e2c8d9742a, 0x16224724314147d479ae0cbd26a381d4584a8acfd3185d4439b527619d3ae4c4, 0x2fe84e5971bfd3a919fad04214acbc50d07f3015d97c28405dde92827c0253f3, 0x2cb6734e19b3e02c46a803d5616730ad6343d3d923fe9ab98492921dbe14c3c8, 0x1a857e17f2ec1b4c210adfb6ab70c7b3dd0ce6ff603b7741dd2a7eed474453d2, 0x14ce63a350d29e5dc70f9ea2e1dd0912f8d734d32833723aafedabf41beb5b92, 0x131d2e152c7fc3e65a89f4a22e737335ed4f68c82c5dceb438b519c352132bb, 0x1e410af2e0c4f2d213cb346414d9169cbf481e9ba4d4431e2359119d796710f6, 0x2c93c1454d0cc86eb41df1224d9869700ede7836475611eb1f06a0360702d1e4, 0xbd5835813addfdd7fe52f4c8a3b10b157ca63073ee2782f74f43506ab58fc52, 0x20944de1bfc17ba91e7a4e57eaccb12a864f0f03f4979bb4a31a84425cc4c0e6, 0x21787b54ce543e9a71d11be03e1ee3ac9ccdd6221f43ae0d261624adc2bd982e, 0x225e74a0bc023c80bb25adf111d52ab833ea4e46967281064061ede0f3d70e3a, 0x19f618947300b561dc3d46a3cd62a9d25f7e9b33f301387d81ab1209feb0a541],
    [0x233a46287d519ac568adf99bb8694707775b999a6d0a3abca8d6ca64e0184841, 0x18d0dbaaa98db673b472c8ad11b490fac76f62089e10dec1e25386e3d04dcff3, 0x177aa6be86454adb4e45f649672423189eaedf3443933ca5d8cf2da4bc086fe5, 0x1a02810ac6a7679e40266f2ba978c62785fb467b84fb15da6b03c428ea1984d, 0x1ae6c70a5ebf251f5f7e4a1242096a326ef1d5514c38433f0128fdc668357505, 0x2214ef17acba28a71587476ce775f6ee0d3bd3fa5edade9895bb5e8e5d03558, 0x176948698048b89edde8c41a02d4198ff463d76881a3789b4b0dbe8837bdd612, 0x2fa8ea7b2bb13415e41758f04b784973ff08f48be3d5dcff9069f489ded8428f, 0x144cc7c6ad28fa2e47eb0275a1a4beffea9738cfa8f8e73cc8916349d1e22c6, 0x14f9aab5c16fb02c9ac8c143a41d7ec1f4968f48ee8df78ffe4f87b79a1f3c5d, 0x21e7fe0f38fcad374f525a7e5aec05b47a33eee997097d7b674cafc4a06cddc8, 0x28b0a91e448abe0905876f7c4b7cf7e0d582c3901610d72fa2fd3445339f89bb, 0x1a16874dc677554af43683ff0af81aea7c37d0c8a7d48026698640f69447f44c, 0x2422891d43ab71f8730f1c1447320e50f935213f5036da1d2ca308b84a594ee7],
    [0x1da66525137ce8f72bac9da36ae4f666c3cb7a3b29dba9d82f7b286b44c32fce, 0xc4731825357ab15f49be8be8fb61ba4aa49bbc66b9ea889de7433e88c6d549, 0x3000028c4011daebe4e6f64edb1fd3333638af69d40f0e95f484165868c9bbb7, 0x29bedc93abb3b62569dafc8b8987f295de2527006fa7d1ed0fd2f1481fd6687a, 0xcbe74380509c8ac7668895899fc2fb6b7fbf752aa483e1d9dccc25060b960ff, 0x22b694bc68df2bc4689a4800531bb1c9d8a536287cf1e991a03c0264d009fc25, 0x2ad8e28c2e4bf73c873ee8463eab2f3baaded932a543d50bb9182f246f394dde, 0xbbd04b434a55d4c5cdab684fa2b8484f8a1b83a5709985668e2d4e0c739c802, 0x2bd154a6074a15b651b61dc15a93640a887bd9e11704263464ecb9fec3f0439e, 0x2d5af17ab25857bdd7604420bd00f1f97232db937789672d2ca927a082046b92, 0x2f8e794e1b2e961d3b2cc77ceb684ca45338be65dd98f4ccd12e77d34708ea2, 0x24ea4fbe7f9b9e66c41cc0cb1bb5e2ce337611e360925dd3cc94953432a233ce, 0xa37dd5bcc98bdfe4fc6d0fd0ec4520c6f449af5a8bbe4f813b5ed5dd544168f, 0x86a59235fe20dbbe10cc603f69a78b796647cb0af35bc7206c541a48876721a],
    [0x2bd74d6c3dc977dc2309a0a7b0c7cdad09d54bb466b2bf0caf198218dfceaf00, 0x1faf44bd04babf5ab2e71528fdbccd5fd91db2c2001da3f5e76162313608ecac, 0x26ea7fff86fe56b7712b59e70e502ab9ce09bd8bea98022363816b726f374145, 0x1db2370b5f14be48485e1bff9033853c99d8073cb18bc9ec0b078c2cd90528ff, 0x24f5bf757d1a7c28fd53de7c8cabec5cb62e44c373a2a32f378da5aaa07d19eb, 0xbcbaced9ef9e0b03d3b87eb09c40501052c4bcd5fc32e4b2bf7b75e21148ade, 0x1ab76daebbedc5f1db440788616187c9fed43b1cb2668e53de5151761b39277b, 0x249dcd5ba6d7d23473c2a169c76eb581185399f9216aacaddd2463e0519fe6d6, 0xc5da17200b90a0b125b039ed922b6954d34b979354423743e6016b5bc5d8023, 0x2df908878c9402fdd0a3014351b0928f1c559790a0d416ad25a2616c1a073cd0, 0x21ce2e33089951b01af45df3816c80e2048686f1e8014c257c95e2ef3e2753f1, 0x1bbecb607950c54f74a627369a9f94548867778604dd8de406483e21f61ee1a5, 0x23c175479965b3b4a9719cfe6be6a610c0c77670e586c2ab0cf083501e69f101, 0x2f370d158d15b736562d6d0457c44706e671be9aaa524bc6b3bfc34280996100],
    [0xef11cbff50df1e1d36be0c8f35588bbbe406bbea31a3bb6e69b7f7c4f4ea1a7, 0x1f2ff117675d97535c24d19a58baafab0390f3d4114a965c43350c17ce095aef, 0x14712d01c897590d2eeaab6e98e18e5ac1958692a04c1b5124ee06ae8628cfa2, 0x268e361752c72a4ad949b2ad1ef9e6f2e806375946b8b9e6336038d4f849c2cd, 0x11de1fb7c05eb638a4abdb4b4382618529b99978acc73f4e8563c2831cde12b9, 0xd2a72343a90dbb53290239581b2ff31206a02b9cd98bac6667fd247ad909544, 0xfc693f9f8f5cb6a1b8be6689dbc03f5031f5df4a30782d8091f738dc7e1e9df, 0xe41e2a997fa4d0f8b752ecc0dc63b3a121be81ea0e242154dfe67ec049f5704, 0x87b2ca8d78931f6fde0837ce4fa58944596f3c9cf2adab8eae30b44944e1788, 0x125d93accf769d4d3514b21d4c663b1539e227e9cbc45964420361d8d220215d, 0x1f91ac718648cd1fdaf2bf6f11aeeff7bd8206cee5769d8817bb970339e88eb9, 0x29914ab6cec465fd92f8f2c869e1ce9d4dbb3f883b29685063f339588112659c, 0x2da4a10486ef6d0effeb26f869bef99f6d50d8feaa1ea1c8bde95989429e5d5, 0x82557d3f50fa517de2710e0498a683930db5b9fb269e8ab6a42771d5ae7dc33],
    [0x1d20832e960f550d7061872f6cd96796f9cf61faf4f807df0c3734a5e839232c, 0x1b57a822d34e4ad06cec4e19dff3246bf846bc3408036dab02bc2b12ca38e044, 0xbc798c8dcf79ca9a7c76cb0e8bb7c2366719fe74092e61e6f40e8c4087fc0b5, 0x1a975b179649b114e3c4559a1b14125e35e3630bf1f8383faf9af282c936700c, 0xcaae9f4b66b45e4732e97851913a594540730f26529801539c4d44896075fd4, 0x8e3da8124c621e070e8a41f0ff1f1cf75e2211087955392d85a1723bd2dc41f, 0x260e3155148f892b7f96b2d74e6c79b9e2c1a3cd9cd0784ae507875e4a267881, 0x2e3ed8d27ee71bb41e5bc98fb466dd4ff9d0f8a668861b773af825d260ae3943, 0x21d0fb7ce364e0ac781b1e11d89abfea006392cabd20f0740d156be1e45e7eec, 0x301a1aacc4f86684e3ed7a0eb023b92cc75af6f8214910f840c627c3da3cd71, 0x11ee53beb1e8ee4ec10689f4fe40ebd93cd1c9fe06d812e96a583368435ec2b6, 0x1d42d2dd9d2372530c30f4d6122732d1cef8dea9e2ebfb3b2679e9f0dcd04c9, 0x861e448b92ffe738e18ae67a143876d55a58c162f74d8e556714d1f7e628792, 0x193793bfe5c7b90c6d61475e89cf0d41447128f280d8c6c5dd4be1fc9072ef2b],
    [0x126b05ee124c85aa2b1c1273c21c3cefe7ded39b305c5e039a35f9024cc1256, 0x569dcc226c2e215ae697b8c6001011cbae7ce535f45a803dc60fde9da50c83a, 0xfe6172dd5afe8ff0e7e33f6499916fd4c5ff2fab969637ae32d8e4cfd3fefd4, 0x74ff2c5f008060e89d30965591260679cd3f0f5aed33162ac9ac99da10bab53, 0x86e65444d5366d82133d8cad0a61c20066b89be1c870dcabfe453648d2b6b06, 0xb9bcbd52b7b899a651a02c326e064ac6a97be7457bbce896e465d73e93afb9a, 0x269e035c429c4bdaedc393d2a87978a1c2f8ca0b25b085ea44ce5878ec506bb, 0x9e1b7724583b0e16a79ba7670636f87ea134a19e20dc3ec70c01c7b94664dad, 0x264ca5651ae7b84f43d8841cfb296bcb5f19fa5a06a2c4d2184b54c3d6370936, 0x24e4ad8c2f38fffdfb503a4dd50575c5a12426a5346359e3a5654af0188f0aa2, 0xadfcacef6ab262f8fc9d2f614c0fe4a3273c82a9e7335e5e0e0800d81e87875, 0x187addb97c4a6437145866cf270df4a57ba705970fe1e0619a0f016933065d2c, 0x710702df841d4ef5e0cadab7197a9ef19d7524808bba56df845a2e8f141bcaa, 0x2e0664aabc74b5c54d9d047bf5470e45ebc784026159273f1d2f5e4759c00651],
    [0x271cb7aae9142ad71842a770cc65df19d7d102d9235454d7c600a735a1fa4da7, 0x2ff475f9d52241c2261b9f520d2322f52268d289a028e974742d409fd8bb3b06, 0x2d3bb2cf8530e698b771ede66578a0149e561b366d502a6e79c23b33c500c2a4, 0x5c80b5a16b6a59e1e36303a59ba782cd71407f83273f37c19ea54a961e0cad9, 0x17077cca69eed28f21eeaf0f0048692cd310e6ba87b65b7594de5902a829d7af, 0x2edbe4d8286962d91cf1a93175f925b174cf53d855928f2f10cf46e7baf1f994, 0x2f95757a62d1a5289c6a087e5c829e54d5bc2e03082ad8621641d82f5758259a, 0xc2ca1a4f1682da3f56490d1f154194ebe40ab4419951cbcd508c86005cccfac, 0x151b559773edbfd4a49a453c1732212955dc9d5ff614e80e75ac63d065dd0ccc, 0x3043ae0869eb8d13b810178b96eb37caa27a8470777bddab85002384b6e1aa11, 0x1a843dff9621487d353b70ce04d9ded438f76c5013f4780798063a4df6db7b1, 0xeef8241527784cbff33f551f6e2e53d16b744589f50508cdaa0842e05eca01d, 0x1ae85b4527017d45d805a25b139e3f424d3745841cecada4658d97b38cefc4c3, 0xed437f0f11932bf16b0cd77f4983af1511e57078427feed328780828b8d842c],
    [0x17de9a117161bae7f824314ddb7a49d59e2443cd620e0e7af082e7246a725e9c, 0x12858cea51eeec2e4fba5072a9049318de40ea9a4179fa74c7bfc1e15706801f, 0x8cf404091f4ee5fdc068ff51a27e79a18f8ae93adda23b412de37eed164fbd5, 0x7638f755834b05e6dbaf1b992ababe1b575897e776ead3471a4fe68d9e70f7a, 0x246105558f45479e8cd5497d9240a6dd98d96e8111ed4e6fe8ae481cc221394b, 0x2994e4de23f47371c68cd1f602e71295a36a365b970704c70b22f8a816850b5f, 0x22c8d3bfbdf3637a9631e9d1b08506d60fee6945b0038eba8f2da85f10fef0c7, 0x281c2faf2a2c449bb40a4bc4738ea64efec118d34bdfb38652fc86e55297a33e, 0x18c045cddaab43389344b4efe95254dce7d25f7d392b05256c2b949e47caa3fd, 0xf89a7f1ac9fb37b2753c758ad0265c94effe7e7838c5f03696fbe1ea19cd62, 0x17aaaa6bc71b2d1aa0d884b00934f1283c599011e96efd46d4d602d95d869f8a, 0x2913457175241255d94f002ec50a51838616f2758d69723a91bf0adc46fad0eb, 0x12eba34c52c9376522f8008a66608ab4f08401aab85d16364791fdf91ba661fc, 0x135e9379693f4edbe9fc86844938a52518e89db9fe13e457591328728f15dc08],
    [0x2f6bb4e91820b1e1367f83134ed632830307065adf75aeee1666d3a59beaa76a, 0x13543a98e58b1b6df98247f452e000fe071ab3fcdb0b3e6b1a919ae352352818, 0x2fd81f7d844b99ac61e8f093dc65fe0cf45dc2a5cdebe96f00b0f43bd0b7d9ce, 0x2d5552222ced4e20cc80371a0210411e95180cc4b310eb66209c2a46681a7f07, 0x23c153388be12196bc1c97d88d9a18dedae099bcb0f1ffa576985379022a1b21, 0x7f0d269eb34dd69addd5def5902b9a7a96dcd173bfe460828ed398efb3a3afa, 0xd511691b6ef7b32d6b64bb70e219826d105c0e3dfb905a8b88164b8e33f2ddc, 0x287dc3609774096d2b9d98c6f2530946900d9dcd05f003de1d2f8b3cb8e7d1ae, 0x11531b14ddb49b066f1129808f043e3c9d3f32089e3aebcfe29ce49d93d0d759, 0x270c07fb85871f3017c468b3f4701c42c562bb79a2cb74a1b63f857090933181, 0x91cfd790d49049722d482129211f0aec3a10af3d1cbaff1acc674f598cfbd2a, 0x2e1f9b5465ea5e84c8cb259ba5cef63c7f78b04477beaf3b612774add6325cba, 0x64d5ae70d4b8574ff3077e835fee488017cc317ca8af262163fcf9f134868d8, 0x18dd9456a767449c657c3d5663eea71e54e5eb5b381d4e0158c71ca0e3a8fb29],
    [0x150f8b58e0635bca8e54452f3e31ff5979c2122e2ed6315c75e2e1efbf4d953, 0x19c1f822135fbb5932baeb862261d37f58613c1ac6ecc6d1a985a546a52e6142, 0x2ceb2ab2576b2b66de64c9a8c564869f79100a783d4aea41e74f436547cfd630, 0x289ef304a10023e4f2d4e47caf25766079103e5b7059fadcc41a475937ea47b7, 0x106455ac17ff5b1625135663f28627d919ebae910c697c940e967e917b66e3a9, 0x27e194161a1d0de454c9f47a47d86289a1324f3069e346a0a14a291ed1f50f78, 0x3ea3ace131a580c737ead77275aaab1fbbf35f957ba5ffa40e3190117ffbf19, 0x108e136f6c0a7016aa3c91140178668f8be92aea8bf22a58a60401bf037f38a6, 0x1384b56f69cae939300958285cead5cfeb1971f42bb735852d21f3f3ff2e6bd6, 0x17afc5bcc3ae14f0ddaaa0ad7f068785c2a88672ae2669ca68d553f4b5611da7, 0x2af2b4d6e48590cb6ab37260cd0628c305e9571a104aafc5a30086ed36eb739e, 0x4965fc8bb9707daaed207994c88d236a33cc0999c7e116512fc36c3f3c48516, 0x1aa274f939ae925bdac809179e60547ba9176d0cc4d3b66ec61ea59146278704, 0x2cbcff5d0b52769ee0fecfcef4cdd995e66417094e84c9479856780fb1d940e],
    [0x2513f2ad59b991b9015b8748901a37026d2e511ecaf12a716643810327bc2349, 0x23fe312e7bb6a30fed6cd00fa0d98a215e903b45603eec14ff921352d6944da6, 0xce352c15bb81b39fe0e7263846b9c0bad0f9adb2935c112a4ca4f58c10b4606, 0x1784a8e161be8cc852574a40c64862adf5ad640468f451ba11de3fdac35ecadd, 0x148af66b8d3a06d4da4bfd09121cab2045cfa1a96e89ee1e23dc61445366f1cc, 0xd28295b17753024395c50f80bec66890afbc458866858474f5765cfbe75af54, 0x9bc568aadf25c9a88404da27c73732817b6aa6c9bfbd4ce851e89aefd1499de, 0xb0ff5b9694dee9cec669862d49825b8934f73deae404c9e5a601652af8fd4f4, 0xe7fcee5bc529956fb4d31e98da1376276cae79503906dd5b3f987bf423ec0d6, 0x57903969900117c287b29cac4b315297d137b29ef2883e39f17edc318529a4a, 0x1dcd75635c831cf3cf5beaedd5450ed63ffb17dc35db44ebfa02078fc55c36df, 0xf235e7fc34780e8005c242cc8428764be6e488c8eb8604bdbbd7e0644361701, 0x1d84ffec4654dde04de9b0a09385d509cc2b2021624a59d274fd0e063b3899d, 0x802cf3684ec2646c535c018305bc1377b437590aad654951519c539c30d54de]]

/-- starky/src/poseidon_bn128_constants.rs L11914-12139 -/
def m14 : List (List Nat) := [
    [0xe30a774c353a2cbf244d3d014d1a0e5ff0bac5e242673ae33f1bb2030feff68, 0x12186bb22000ad84b6bf29179ade2d4e7e94ff07e51627e09580571061fa8ce8, 0x2399faa648aedf9024c6ac3ceafea248216e24a9e56caf5acd29ce2546a9f6b2, 0x3add29fe398ed2d44f233125ecd1509e3cede77e6be08b94af4fec87eb3e48e, 0x121af61f4dc5bb24890abeb9251e5cea94770ab062dc0c28bb8995dd8f183635, 0x2ca8ffee2d58f2945297b00cd0b511da167080d53949b3f1fceaca9616b6143d, 0x2c99ef5e064147da9782b914a294b6c14d21ea7eec1f72e8761671069d82a134, 0xd7d07cd3798f44d832a6571c21706758693e5e93684ce2d1a5e8a53e0cc6709, 0x29195117106623ffffb0af525c838686d0d97259fc73a5194609ac7b7b171313, 0x1b62d4b17de67375b58f248a88dbf707cc9d1491bce0095644ca0219a01e40a, 0x2e1681bc7c22d24c433f81dd3a326fd0242bfc7e2bdeb6307e4d2aca32adda1d, 0x65850d11d0eca87c3697b6f5e57f78ca86952bad1c9047dbd2eb6be9e9db30, 0x1a59b36b94f9d723577e504d600c493f2810f0e67112672c743abbb13abf43b8, 0x1a4b186b77cd53f961c8ccb7815d9781cef7a52af64d0bf746cb522512d3d0af],
    [0x12826e5b9be1c9b85f7c98aaca9ce28a870687d3628d60def0ab3072b57b09b8, 0x237e39980f9007bbf8699dbece054fea1f19766be6101885d421fa3ea46b5348, 0x540f5492497595e13080f02f6b1e653e2e51895160ffd5ca14d26aed93b8672, 0x12bbfbb110ec2971007ddac5f8e36f655465d05f2462996b2114efacac70afb5, 0x2f2ec51c48f8b73c51b264a70d2ba0b46bdb43f933de0faea8a7da2a97cb41f3, 0x26e36544d0b5952dde4007d11818465bde91c4dce65abc015e7556ba58b95ffa, 0x226bf94b86b177cfe7f03103d59e3f9ce2393821954708e7c723f8104a68c664, 0x25e311b37cee693545e2c2efc2043bc073552115b3a065cef13d36547b6b9dc5, 0xf2336e0eee4685741ca23828c34c24f073491f0e72c139610524a56f71aa405, 0xd9bb7dab4a189a3b6990a5526c82b0ae50ba7dd558f951bb9fd343cbb4b0e19, 0x2a4a6cc884cfd08af4b0dbe89b6d8e0e58113207aded8cbab2d075053efe998c, 0x1eb97819b3531ebb640ed6b42134335419101d1db60dd1a924ef9665f7a91af5, 0x226b91e352c65de4fcee112445bff20e4a67af0e110957319b2860d5087406bb, 0xac5b86128ee47944c12af531cf1458042c35adfcd9e5b6a7531973714559de7],
    [0x22fea1297a4a5f08904d555c2e15d016102a4ed29c32b4bb10809ef14af42c77, 0x1808cbe7ddf2a3684d8a164fe2d150df62206f6be33d577dc5798f193aeed7a1, 0x1c1ccb44ff8ab6da854e9271f4bef26d2ac26cd7441f1b69d16eee0d7a7b481b, 0x1b8d209d66b2c1acbaba435e304ae20662d336d10330beb3355cf801f194733f, 0x11738ced3933c4b27de13911db71ccd58b7b31344ed9153dbddddb91fbdbceab, 0x1e97ce013afaa6e9c993e9cfdc9aaec91b06787819830985a72e9f7c6e516ab7, 0x66ab8beadae7bebd26a33adbd6bb392d6825da37a679e8af9ae8bc4813c3168, 0x21b37be521835c32b673a31d71aed1bc7f3ea96fe1d4c23f14623a0a851a3cd8, 0x1e86ec086805bc7712b7510def651249ba1d491076241d99d00c692880f39a75, 0x75d1aa6cd2b8d181c9e0f42275c9884ae6fa09186fe227e5c4673e56e3acd28, 0x142a83206747200fdb02773e766f504c65af82b200c0e7fd942f92be23d586be, 0xee4683c8da536b6b50773a469bbbde2e417a1cf9be221520af1e755968d7ff6, 0x168e771e9f8f860c49367ef919a00d4f128bab01c13d7dd72ce8d36bc6d1d835, 0xc2a439067121449c1ef3dba6be1ff84f6ab7fac4bbd54ad7539e61826ca1971],
    [0x24cc6751894087b831598b5bc7f9db3cbb48ce294d9208e1aa436cb5fa2e80e1, 0x33cccef05b0bcf7b77aa5560a0f949c90be5cc2c57122f9885d24a117c63f98, 0xe8efc85cfebde295ce589de60aec0db43c81f4be7da44eb26fa4b71f7cb7ee9, 0xa9d7ee7ee91677affd3ca4fc674625be897df79f82ec438e80f1e000c8b1f70, 0x9175b1fafacdc0e62b5f95e6ca67c3ffc96a26e37cfc734795b92f1e46124d4, 0x3016b074c814225e2d5c1091a8303eee4be476b1458ad54c16b4e1691f6b4724, 0xc099861545e013a687cdd49a3a296a8d2c2e99691c2535da712d351d5e63c10, 0xb71a06bb75b0a10bfd28a3788bf54a8a144b3287df9c591a2643c4100fe388f, 0x14937879c4c7127644c765b6362f8b98cfd32f8572d7aad9cc329bed5b507a69, 0x28f9e0058ebcf1591bc007cb02ac3acde0851427db20c7358dbef9fa9c57c2ba, 0xdf653524fff92dde8ec1c9a51c1bec30bf36a4f01e9b3b62eb13f8ffdf7b8bf, 0x2dfcfb280a3d372dbc15639eace45c0bac562c44e292f1429bc916578fb0bfd, 0xb345890b33c23d167396c583d12e4f3d9efc904f261202512350190ab1961c5, 0x4f7f1fafee121bb811344f73f54f4a3583076739dd9dfc462b3ae6343c93cb0],
    [0x2cc3d0503a0e1da952b081ba5dc5b117e646bed572a645266c6ec3ce0a1474b9, 0x2854c82b4b5f5df6dd3872e3f371372de0d12e16e9108766920b5458105e76bd, 0xb1d810fcc721551e2a596e9009367fc6a924857ab29b703207b08c95ecd001d, 0xb6eb2254edfae1d7503c3518e64cf19f3443d6cd03b71cfbf1be5936da4e046, 0x210a4a80e6eaa799f7ce05752bbda4d4ff0520742c943e1efeeb12a91229a5af, 0x1c1b2cf11f0d3a3a121be7d0ddfb24dc71f54b9bef943aee32963966922a8399, 0x1574c9e5caaa8a6a7fb4894d2c45d1901d1c42b3214fe9a72fd3cc668e399f76, 0x26ed5fff06ef9e1942bd3d0d3ba6848e47ec045cd26f93049d80cbfa6bcc73b0, 0x59de873c59806f55114bc3f8309f9b64cfcba7434aae220447ea0e9c4a66da2, 0x17e39ccba3432a135c0075d720c649562ee4d31b6da2e9c90bd72a039765e73, 0x2ae7f1414f1443735318163e1bfb1e1bcf5c271f37f6abf1aa86766b2e59e049, 0x12ea921acf5b8adc6a4e36be85713576d658099230b0b1766c666f12d92ab142, 0x1815d4c2e6a18f4f3fa538a004146d7f540fbe80a4605857714fba2795615df9, 0x18f6c40e3ccf885804b374433af0a962b2963fb9aa01e8bae8cc834b3e17a31d],
    [0x11eedbe5a5969f33446503494b469a2b83f88d3aa477e5d6d7963a8333a61315, 0x9b63c75dfcab572d280b057fbc3640d35dd5f16244863ab8a31e0956da8802, 0x9fcacc3998065124de01bf7c0c8ba26ac4241f1f7deca1eefe5ef3d5015e3ad, 0x1a9ab3fc2059b0cff7e3cc431f7db45f59d8f7f724cd10a03f31a36638f8b52, 0x19bafd0d7942b839f36ad3d70d9c87b55674b9bdee02a7dc30e4f99ebcc1d94f, 0xc474824afd2a880c6a85a7b7a5a434ac422c7a63aaf8ddc7c4d9325edef40e, 0x3a65a91d35b6e877908d5c419e7850f645f62b1c913765a214bb0f7a2915b49, 0x137908baac2e35e13f86834abfe98d1b54b7c25d6c85fc6c05ec7cded9175517, 0x1662f26cf04f5b969cdd6b93e890ef2b5b1124f51822888dc2167bbecf7c31e7, 0xcd0a4c27de11aeb6460e32fa2bcb289cb83321723155304929eb0ca4eea03c9, 0x2030b7bc2a70905d031674efb420336fabb0769ac0125c35dfe2ff372c1aa4eb, 0xb5342503af446ef824df4df6a088195fb67276657d420e6f312b2628e922986, 0x282a555f9ad4fb57698faa1fc3279bb8c28c1f8dc8c693225bd8520db4313489, 0x174c1a1095e95d4f098c8d60826776c2f73691db37ec3b937835b65b01ba13d6],
    [0x189ae9e9b162ab1a19d599cedcef428bd1325c78740aaad6715b710bfac4c1e6, 0x28fd36f1c761ea7bce29e6f00067fa40b32e6b318f506b6c94bb847bf72b5b52, 0x5d2f0a3c223122ac01214250320b52ff5a3d242118e19778b2c8cd1a976c611, 0x23fba23ab4bc24d4880ba5a6ffd6eb5050dfb8d0f56476d3a30290eda372ac4, 0x26b8eab0dd0d95b7a8439e0ff7d3438a73a27b5993d81fcece729a824a3521b1, 0x19775ec781fd4089859f6b7f127c91eb83eeb7ec9eade14677b0a6b10b9e6e24, 0xc073eaddb5d3f79e5bf83bac00f37700bd64502d8bf7d5a099fb3eff7d3b03f, 0x143991e8386d62334ca0d87832a0845b48416ef5158c18e7b9db8cd6aee223aa, 0x5fb897d71edd8d8eb1f3b5c823a5882a06d964056afd532e6c88893a25f2615, 0x2745a059d0962f1bf0dde1e1b97e0bbf4c4143d10fd3fdeb8d2b295ee4d7a9dd, 0x12a710de6d17f91af890102226853bb64209f1b41331a1d17305bf5b7b52172d, 0x9265fb314a676b6b3f827f07283a1ed4f300e8d90f967b20ff61f455d2ab2fe, 0x148ab15972a6925b714602710fe9e64c0a015053acb838d0e876a46cb5653f59, 0x1f7f9704cab1cfea2b2471d579ef99d193b234af90e62ca09b5a671c2428a515],
    [0x1aad11449d6e2c6e1adcf9e89114c336c0145528f356ac049f52fd8cb084370a, 0x2b56c2e44f703a3b143da03c25749367f752b16817257e6d123b10bc85543432, 0xc7513f762b64022a151d62302099dffd51791d9afd3dcf96cbfcf6035a2c27c, 0xb26700fd4e950c25ad78fedb63fcb0d9ba73ecab858c071664866a9096f14d5, 0x173985fe17f3b0fb85de6104c02b46c3d79eee9dc28b567f02ab1a1c0ddec576, 0x20a9a6284cfc4381795e3b06837e9596815fd5b6f162bde02f97db687c8479fd, 0x217aa400b2b625bc36432a545e533124f99c1cb98eb85df747319e85d530470a, 0x148dc9335f621fff9c8d2fa72a9cf5b6febabe1f5ce77689c1a29e393185fba3, 0xecfacaad0c147e0b3c7e049771e6d4072b02ee4d171c0e53224214d17ade351, 0x1365a904c7f6721002dbce17077a89a92bb8038bd27af53333f447c4cf035a80, 0x1fba713b98742311dfb3fa356ff83eef234ce8bf2b0d4a52de7af4d2519f2f12, 0xab913f65e1ceb39ed8b83bd5d7fd900e78511edabcfe62314dd10d567858d8e, 0x8e13c2e61c446b53024d2116ab176c843600d00e676402c4641745158c243f8, 0x1fa02616024cd9bedf643ea36d262d1b24f38a557a77a82c686618c3c33edf9],
    [0xd7e1eae2cfec406402d34c259e5966f6e2eb261d4f08e29088325a6bb669a63, 0x184e5824689e4f81438567df435f39e1d35a819041d7eaf3af908429beb2bc2f, 0x18fde6451062016edeaa32e40a8fc30751e17e9bac192f8ca891c11f39ebff81, 0x4a572b86105dba5253d7ed1e76d35a126e6718551b976b208f593f08158dea9, 0x1d948e8774b180fa5e1a3932439dfe8c5f32a437657d21277e42614b4c9a3dc3, 0x20441aa5f4d5638e64d7ad9982b1bfcfde158f6a3cd6af62941e05cc8e533151, 0x178a58ff122d168cd4ff11a47280a4b8e5cdb313411b6f6e9a947c7fb577a51f, 0x256e145378d2604db8c509dda4552452b6c4a891fac5da199c7560768d948836, 0x25f64d42a750971afcb8023070f6ec97bb2362b196a5aae2af6a70f2e7b357af, 0x2f812121e2eaccc7d51bf266398d5ba8f601a2aa6d335eb69f7864642177667, 0xc8f8722892a2f06c5ab454e407bd557e9c2ea77ef807ee0e3d89c6785b0d33, 0x407d585a6a7efb561377e5f3972319a3e7285e146c5499ef6c8504a3d0b62e3, 0x11cb83e01ff5803b049a2b59ae9915b3e0045e1db694a6df9de9c4e7152d191d, 0x2e1c292e06b7f8a6e4344f10540675a63ca49e452f69565fcfbcd43bac0f3af4],
    [0x796a23ad6ed2ac995104a0d3e6c75e977ce29aba1d25e62a9a8a20364ea1be0, 0x1004c5ecbab6b7d12f6bb4caeab33dd56c1f829ee28f47c29fbfbb147e884654, 0x77559473737549dfb2016dfa72558bb2c1c816d7318763a5e4fd516b04914e8, 0x1bcbe67ed5fb7522adeafd1d9a150f8d57ada218db346915c86e6c00c00e38b8, 0x1b61a03e218362204fd20b67536e5e6ca7b96dbb53d53ed1602302988614876f, 0x2d3d269ee324e7c43c11aa84cd15bad65444ef8369df15749a8a6b2c8121e2b9, 0xea45d22479ef5773e58b0fe740868fc1e8b50bff76049d5b6ed5e723711867b, 0x2280250e212be2a48d293796a88ac62b05411012f46a66f87a0220a3dff3f79d, 0x20be703f86d7c0b9dad98ff8bb9fc92fe8ac0a84c6897a75d851146f74840b71, 0x21f8d854091ddb601dab1b01fb30c3d4f77cc3167fa3332c3b32377a07e6aac8, 0xdbd093dc16e73832bde62d05cbb06f8271fa47229470462d8c18cf8a124f9eb, 0x2ff5bbbc022d1b74fe184c064e58d967f1aad1f0926c906a5e356cfc3b81ad24, 0x119816862c8226e9e5dfabf3167b3b2bf7fb3d19063989b24a16d97c94bd53d7, 0x6fbced52576a913e6cdc5c5c96fdc8f9f4e931fa90beeb46d9b3c2d775e1e36],
    [0x299b8e8621d7d8c8d3d6286cb126b34ee53b2dc9a3697b8380c6e47f5711345c, 0xa973a665693ed09434edb2cb0a971ad277a82b3385788552349ae09e8bd0c85, 0x2de9ee6529e5abc7aee93b794c4eefdd517c4fe12fa56bce06a3708d86336bbe, 0x2ea6b7a7265c503fcb284c2bb19512dae71ef357125c3ac755c6bc6cc37bdb66, 0x1380beac7b062c6b89914a976a8d0b9d3276a13c82c23fa21f4fa4403e3267cd, 0x1a5718f4a92dd8d179b932b0820f65c7bb93eabce398f997324f98ac76323b92, 0x1c7cbf2448de7114eed701b041809034e07b946a0340b777268529d582c225aa, 0x9c89e06cad5430153dd52cc66ae4f521bf4145df048681beb2e06a385050117, 0x296f3a9c104222692a44ad24f0f6fd8190027e0755567e9a7009ec71ef440ea0, 0x18393505ea6230669a8030f6e76130a14c1070a901ba5b640b88ae80d7d30b5, 0x1dca3060a6bbc4c324f7efba22274fd8d1f2560a4eeba8c8b0d38997e0d9c46b, 0x6da6d88c233e3182c5fa5ccda1392c0f89f7c6bec4e60da8df8054807eb0922, 0xc61ec79b106e9dc6494a6359f175ff637839ca53ac8e7a13471c56646180390, 0x2cec67e62320bc6a0ca32518ec81c74363a4b6d259bd275a63425d6cede468d8],
    [0x20f11ee81d2ac9a9ed1cac61d9cfdf10bf1b49cdfbb6d232872a1df1427c1839, 0x125478c8973bc395b648c822091f8df469504a71ca4fdf1dab59a708d0fe4719, 0x12b591b7af35ffd997b3a613687e449225625dd5d101cef2d6f2af02d9dbd6d7, 0x30544eda9c322c6c872671d667fc5fcf09cfb8d34e8e5812b6e738e7ab40d8ef, 0x2110c105efb481b679ceb2f112d6ea704442763ae2ac65edf8f15cfd169c560d, 0x8fd4397aa8b3a84dd1ba4e2d0eb7c6d1c5eda1f764814b5ffe204c8ec735606, 0x2487df9d5e066b76ffcb2f0ca190abf5fc1e5872c4b6a36a46870e9159201010, 0xaad68c20fade1e3e2bf70fcef4b550ba00d6399e20d83402fe09b52ddcdf527, 0x6301679b6cdb17aa6c212ce342ecf681ab7cd96bf0bfb93350368004d97c353, 0x1e151fedfea11659c189a31ba27f2ccf6956084188eb2c4c99b827f645f1db61, 0x291bd9401de20916b9002a0066114b3bfae4d3c8308aba4afdccdf0aec12d66a, 0xaab27e6279952c7291f036918f0b279d3b1d9f8e4e8ac380da77ec2fc24ea0, 0x1e8ee641308ba6fe5600b2df492cf2f14f9892ba1025826c53c77aeb7bcdb04b, 0x276e2623828949e6a2fdc917e2ed45dce0ee503cdaffc9add815f6d1d3c4f9d5],
    [0xa403e979943b8d2f947f6eda6d41170881341bb5e4fbbb3b4fe3dd7dccdd777, 0x2b0696d45980020a2a421073440e3a4fd39edc5288e6900a5958e0cd81e0eee6, 0x2f9f88fe9be36457e8a546455aa00a0f5100a7f32580b78f26a77bd0b7612181, 0x206733e327a64b78d3c48b6f7580d0887c1778343b67768859e2532d7d1c46a7, 0xc272d10af2ef78a98dff7486c49d7505edd88c922e5672a3abb15cc49f4134, 0x1a327ff2c46f5969fcacb463506e102d682502381fc3f999b9ffbd4520ba4695, 0x2c0cbbe46422917152ca1906462bcb5a13ef536322a8715237da09b8c594cac5, 0x25f4103521e36d55e418162ef8ebfec6d45695520ef47b8548ba38b52a27fbf5, 0x7940eb04b61ec5341c1702f03993faed167db6fa2cea92290cd821b15fe4c2, 0x2ae1ec9e09577c82c97b4b09142ace51aaad1df7dc352cd4e5813d8cee9c98db, 0x1c97fc775f962fe05a7b66346b93c3260c8f6a90a7f5c63223a3386e19852ead, 0x27737fcd76dd296c28817646d30b1168c4d00e1f764c4565caa3276defd15c7e, 0x16b61b242d41e1975843309a01a36a14397d7c8e7beb4afbd9233b453aaccdba, 0xc75ba60f8e0f6afa126e75703b83d9908116147b8b2db45ef24f3156b8f1855],
    [0x4646253380f4bf642972ae81977779454aa0833fda36b1822cb9c09719e3dd1, 0x264625c74f2a3bbbdc19481b7866757e639c124b4eb560da531fcef99773903, 0x9714e717daa3ceb3e9794d24abcd172831cba18066c4c048b0995e9e6df1dec, 0x14dac9059c9e78d96c7ef807ba342b946870679782231d2af0f6e4ab76cbd101, 0x129dd677c1f8aa2d36d2a7d5340645dfac34a64ae456f91b97de9f8e91313615, 0x10879ceabc3ad045d76f6cd5b26b56dc47b512d6509458f9ffde8da79e6649cd, 0xf7c3f3cc96ceda039e43c86c1b680c77d6f49f50e94de23e4db42f8e9caf7d3, 0x10bd7824fc1b883b3da0072d2c6194c4a1e5957156594e908adbf6e6b1912b9b, 0x90da12e1595551d2500f90310b7701df97676404113c33e475b2e7749adb613, 0x24ceb0766de25fc22789286a09287be740310c41747320bdf2eb5c956e040356, 0x1c7dcecea59e6f7beb6d702e2fe74588415d30e5dc09970bb2d56acc8e08328f, 0x110a5e84de09209e9363c03c22b537ac6a7aaba2f6a9d1a1f6bfab71a960a583, 0x13822dcc3f6271b71549c2cd917b859cdac36af6848804d15a354d4de0f67ef9, 0x85e380905eb2cb7e753d0ab0ff4918b232c734418b6bfe1331de492fc76b21c]]

/-- the inverse of the matrix (not in the code) -/
def mInv14 : List (List Nat) := [
    [0x9e413115993d68922ba44d51c1287fbfd17f0bc594852261316677b9baccde4, 0x2027ac23b8e2efc4e558cb4662985b4eeb8799f4ca564ab2a8e29f3faa3089f0, 0x59787e8748dee6e6ab4cbea648ed3ff6a5ea7da83b528827d8d5343689a9197, 0x16c2e11a6c3041e71b4021762045c77e7c476f8b1242a8b4cfe646d4a8a5872, 0x13d9efca31e082f1dd4e22fb184c3b8cb0418ff410a0baf4b02ea1d5276916ff, 0x7d302a807550ebe8a9ba4d3f867e0c4e3f7fcc38f1e8d7919a26125b62359a, 0x20bc3b62d364c4bd65ca6467272eb41c7df89b69141666f80921f5f88cfc16a6, 0x27745960b839f42b8878927a026232312f5277f194cdfcbe9e1eca164243a484, 0x27367171b4cc8c4e26077f704819ad1ed9906182f80712242ee9bd0901857e06, 0x2d647fc14a8ca35756ca0a502920827631cb7ea7c9092e8243381ca521e0bbcb, 0x2e0812390a345e5411e0ee9e8aee28e18e5c195317e11c378a12f41a2ade5c96, 0x3888304aa02e2ff6bfc5ff1bfaf693c17ad9c3fddbc76bba762e87cf09276c7, 0x90fdf0efec6f2bd7d02b8c2b217e7eb520a613c4096d651db5090ddfd055255, 0x677295348831088bc388fc4f747c05fa0bdadb8e01c629afd368b7a6566bbeb],
    [0x258ecf6afad021dab6c3bd1e0fa9d68c247fcc8a892d4670921240dbf85d3d7d, 0x121692bc8b60202275c685866f50fe9e1fbd6818905877ae5cc8001ab498a415, 0x15c27b9d9d6039cbe83d974f596261a7029ea7e68aea7f8e566771f2dbea25c4, 0x2632bbd35ee2089b5092f74d510cc9d817db4a4bae92f98149e455fecd0ae14d, 0x13835cf39b3513d301cd3bef1eabb7a831243f7e39f221e4503d27844bac82d7, 0x1ca2c0dff2ab429b29c8138917cc3da46f6e70356a5c2816921d1d4b1cc3dcde, 0xee3c0ec1ae396a5648e50bc11bdd68c4349b2b30a3085742706eabcf8392b16, 0x1e7b32e43fd2c06eb28b886325cd01aa16075fa780e3158a63133bb58faf21d8, 0x514a7ba7c9deaa8a1280f12783701274e8eae4ce55bb3891d1e41c6c6939c17, 0x130a285a8f64132b7e0712672cc92c3acddbbb3e3837f808f3909be19373d2cc, 0x1a2c3fe6f8aa2ebdc658dc88fcf5b71ce551bb6f9b505bdaaf8093b495ca53ce, 0x28051a471daeddb41b81e86f4c89d1c21a95f384fd6d18e1753209e824a03aee, 0x196004f93cf7421ccf925473bbb3d96df57e843c1a615058e0bf24f5ef7e85bc, 0xf7a7e1c0e81ff8fa7b5be578c90c262664d27de5169926baee5bb5b9dc37388],
    [0x1a2a16bf42813dfa1ebf40e06405ef5ba1c53bd11954a440e638ccf9b35aea70, 0xa34a58482057ee6b31054a4f88e25eddb6b069fedd32d6bd72dbc884d980b49, 0x1ffd32663bdf111beafc3eec657f2500945de97731384e90f52a750ea2c9d2fb, 0x1bab09a72f36ace0494f3554963d37105c3666127bae499c9808f98bdd0cd641, 0x134f53cc4079febd6169d31958c1e7d5a5a4623b2b515941843185e777f0913f, 0x1e14aaeefad4c461e4f340119d398f2572217ecf033950f768fc99419b4ddac4, 0x2e12fcab82ddeaa344fafcc5bc8b1aa2fdb8645115da7ac14f9c109f684920d7, 0x149c666ea80388e8656c15be783bbd76d0097ac9305da50c1adee73612d850c6, 0x83736ea3a3158e5b7840ed6af325b88136bd606c1fdc7dd11944e16db588fcc, 0x244d6e76fa8d732257fd3571a9a381f763ecf1414c3ca1bea64299e8cdf6cf27, 0x26031aa710050528e937523a7ab3a16de7e9700707f65f2e8941e0c0bc4e0878, 0x641d0c7982ecb3ae17a8e237224c9c4ce1049fb489f490a1785e6cd1cd85f4d, 0x305aea78781d0235d2ee3f6f5910f467d7d9110e3b90b452afe8770c71157ac1, 0x204cc9746974ae0e22cac9a5e71c10480d0053048e330487ad6e9032b5160fca],
    [0x6b9e1076af6830cf84822a44bca96288acb364c82d9d8bd69c2a669c7b21e27, 0x414fa0c6e8fad54704b6d52bcb5325fd92eb8cf2fb3cad990176bbaf35269b2, 0x8375fa20e135608439cb6eae5213c9a90b04e831fa2f5985ffca02ae020c9d5, 0x1dd196e3eb08a349db06b4bed2c98adc53fa0248c92bf23dd9a3211dce4dd973, 0x9d468dcb7693a74eb7920012c5b7e575ff777dce6ba4faac0f85620be6cb3cf, 0x1bbb55b6dd359332739e6785be1b32877f2a96d39b5c8c38b09838e51638e695, 0x1eff7064134c6808d748c4904c2c2339c1ea760049a2a715a454c923921d2592, 0x2a24f71716ac09b208972dbdac32beee8b3a4f20d5b3668e673a49e5f036677c, 0x24d33624866de8cc444642b57e3cebf3e8b7eca119163187c30551e2eea48e03, 0x27ea8e13f5441826b908a1eb76c976d97ad98ff8f4fe653dcceb03e4e8145b6f, 0xb7e859fb40c828b681be092618810cb53c0c7ca6253b99e5de7699ea4e862d4, 0x2254ca9168d4c4fd7cf330cdb42dfdeafbb0bdcbe885b39a4a6f1fa4c2f2b975, 0x72a13a9f6fa43869cc609e09de8a23b22224240240b8356775e0e4d93aaab68, 0x24fb5532ef82c57df85459e06f644e8a033c4fb27944248fbd7aa6bb2ba65cd2],
    [0x450cce33960570fe6725ef7a2d1d8416e2dc9419d547dc4a34176836f6d2c8d, 0x2fa7765bc932687ea53a4e24cb2ab375f2c0bdc93f33095cec624ab4fbe01515, 0x27134e4457c35ada5e1f56e663eeeaeec95d7a6dfef00f0ead9349a451bd5b5d, 0xc5270601f534ca7665cb8c1ebd7c7612a63aa0acb0182ed8542a5010d41bae2, 0x11e4f89db832045b85ed0c5eaaeb458c81356424d435a2c9de9060bc0f7b54b8, 0xeb74beaad451032d97bd2d2c28c0d12bd7586e5fa02229dd88d752de9f2344e, 0xea8b7160e2f494a150a0141e20bd7530f65fe058cc14feaf541bab88c863660, 0x23677db2bc5979b71dc964ac1696da7fdbe897246394e0bf434f8c5a655ee4b2, 0x9bae6d3b9714d49c78ef81acfd2c8afb441799c52f406f20ca6b45ed802e5d5, 0xc35deb0219c08c87858f3856fb429acf42d26b93d97ae27dc5f8acbb0469c2f, 0x1a51db6c3b103cdcb080d77b80eec3fb5e612eb03b8157302b8d07bd297ee974, 0x85c463c976ad87011df109f3b83751fef1b10419d61aa2c6a673dc15db458ec, 0x28bf9f714bb2683a9b79cc2dc3875f7a6d3084e64d361b9f2537d589fcf925d3, 0x2471a0d9263e182dd719e4ddcd439920d334e9290d3504475a9a6f6e43f65dad],
    [0x29120b0813d8186295de0a140efbd30160283261564e369c0de122474c17bef8, 0x16823cc29ee04113ae0fcc7bad7e48c885da0deac00e4691695d1b2924bd8e26, 0x13bbdcd42f47e93104ddceab7f4fe7ebf951b653b00a824fd6c57e04e6313adb, 0x1edce7d106570e73847c654a2c79aea9543ceb1d69eaa26a96ccd8628e2add2a, 0x2cc7d9c2fbe841d6fdaf2e410f1098d324d3e1ad8dafa5a27537a67bf44f7a5d, 0x25fb66d7e7469fa1d775400a6b241643d364e8d6ad2b4ed98da67a906a5e16e4, 0x1c35143a7b3f96f0e54f323a18353aca32bb256241c70dec07922f00dce902b, 0x15180a2c05e8774e1d4f70acc13b439708c55ba6cec9b807601a98c9af6cef21, 0x255c02dc9438e29065d93b101c19c4de1ff128f7413fadea82741872ddcee793, 0x27ce4188346ef0b1794d653df43e5a3307eb2beb6abaf862651da2cf6f880ba2, 0x6cfa7294650ae1859744a64cead3562b2df011f79526c8ecbae73e0170cc7b1, 0x19a0b16ba2e9a7da8c9ddabb6fe1d0ada9426bfb5d0b65ba4265ae758d84a532, 0x1f867c981f8617e04407f25b1dbc0245b722dece313b10bd93278f0da50b7251, 0x2b80ca1d0da6f9a422569479799a3f37ef1ce78f6ff28ecdb4105a3450d37b11],
    [0x2f8318e9adf3d24c691429139c1a3a927c0343f6056451ff8799ae752f2716dc, 0x175d9361089a4722c43b6a93d73019460353b39e8c4aee14f70b90c6b84c56d3, 0xaa1150c3e889f016d10720ed6a0294fd406290b88c246c7aade47d762605d68, 0xbaca16cadce8f7bb3c2864663ff007d77b060871d2f94c5945d70bcae02d026, 0x16d962d90db71dbdab0ca76ddcd67f81ef2a032ad64faef5d3d00832125bae6, 0x2c32e2d62da436a4e560136cd86d4ce33daedfe414a418ce054fa476ceb2f063, 0x25d8ee687bc02cad8b29157cf7482c14137116dc50216bc558eddd1e9b12a402, 0x23ece61af1ca99e02cd11b754cbe79b889def9e659b8a73fd3125b73b07ccc8f, 0x20b3b84369daf392eb2348c048d9838bb45c67d938d2a302e594a1c79692370b, 0x1423415048d95f677fb72e185885bceb4b31c8b4b859def8a1155a664a89f48d, 0x11a897acd9ddb8e783667c410571121151710a91ac8ce7d73ef2b5c53ee1cf9e, 0x2b33efb4d78d355d12fd62583e298e41dc25a1b5b2ce486aa9feab2600998682, 0x11154a294182f6d1f03bfe019921d854ae35771d79374ec8c79c7b73a85b09f5, 0x3814f58da11e27d87edfe5535df239d3159a604e1adb46c72616f8c98b2a3df],
    [0x1a139de3e88e468ca7bd42584cafa60e1d1f62575559f66c1bfd4d34dd377f65, 0x26cec7f2d376642e6221702f929ca3d78c3642156b9c3768d69cadfd6c63cd99, 0x1a4e6a2abc8d92b5624f4a9832beb5d1ef30934fa761d1411e7ca2d9f6a4610b, 0x25053c289cddc65a77af79f1dd527137f99d1805fd9cc952abd5f0e2a2c792b4, 0x259ad96fa620c55cbb37b9866f24e0e6808a51d67ddd088c6d0d682f00ecb905, 0x151d05f4fed6293dbfc0a70017e156ac19bf0a70c8cdf16581a944806967f3d7, 0xe3e4281f6d578c3e839d957f1133f779964a75be846e665f65c3f67a790afd5, 0x15de8c8ac7ef30ffe9c8582a80b924f5a61243bd063d666c973aa38706935311, 0xb6923d2470262e98c46d07a61d2a7738e63da1f1b8596051d7ca2cb085be4b4, 0x1a99e0132861cc90bab8aaeaba59c5f0f81e33aaf446495fc5250ce9f595e503, 0x29b1a5f7a10352b2adb5fb08531ca72f7ec4548df44d4dbccf9dc4194cebab4d, 0x17156a7f1b82752cf4603b32f15ddc73f47a9aac581ca9787b1855a81bf573d2, 0xa61777b386fa83f341a8f637e9d8909ca2c74ac82316e0b4a658b80d43b1435, 0x2c62426f0684509440c8aa710ac11c55e89222ce75db78d27659b48229147c57],
    [0x10084bae75d8b2500a49e125d01d5bdc8d3f667f243207e397442f69daf9fe7, 0xa27b4badd084fa52c22974fc50b17d1f8d6d1c232025a7602a9f7915e571e1f, 0x2f2f739253a10d8da215d82b0d190c6b765cce7bd2b3700dae9088dc966d5c62, 0x14371346f74a118859700eb64afa2df10bb65cde8e0441e7d5559a163c8a3b2c, 0xac72684e5d8dd53cd6b59c659ae199181ba5ab016bc1ce9e99eabf3f32c1b76, 0x17be231334a56a54aa89cba024ecc553ffe81f33ca93cc03d1919b12e6491c61, 0x42ce419fe950c2e4ed8a065205ed8de3fe490a5069e04440459dabee8408bed, 0x1e43ce3c3d5bb32ce2fc94b270e3e17eb99c98cbc302093781d1c9f952fd2cb1, 0x58eac134d4859191224e81a7a6e718165d1ce8688c27f13028634831e56beb, 0xae8d0b8a6e8825f8b9b26cbe7cb2299dfa870db98fdd5aec7d74d55be500b46, 0x2874165b108a182d307008814a5908c23bb70cf43e95e39cf7afb5af0ab08f2a, 0x150756eddea6fa544883bcf3e6de1852d7aff3c22af0a1560a48e7d67123e647, 0x2ab18e665ab59bfc1df5e197297d02102417bf3c0ec6d697d7ae256a67fd7954, 0xc57aff602014fc1e0d897db03464d45ebdd581759dc0c2654c651db77149831],
    [0xff517a2750a37401a299fe8809734bd6afdd7290b455346f7d545aa1e14fcd5, 0xb8be15634ad62dde9961081cda1d6c93d126030809857c6757bb729fb42485d, 0x2dbf910db6b9710a35f84c437138dd85be255f436e5cbe1ab737955cd90e17cb, 0x29840209739fde9a1a4ece4b856a00e42115664aad31e9fb1448b8512243a3b0, 0x2bc38ecc72bdf3a1beef30c6aa7c7c692f2ce39404937b9e0c00ceaf724b52c2, 0x432ed78c2b0d5e39f6950e00313a826f605546aa978e021dd6de36ae0bb0858, 0x2785ade031f28f788b7f5dbd84c51320647fc746c0c4a56969418b4461a4e7fe, 0x15df2dfbd7ac39d70f2776e145f572f2e906eb049428dcceb54e9a28a9d8f610, 0x657b83279dace697065a84d922d2aef39d8e69108f7dc1e3343df082668e96c, 0x20b3b10f7e5fb3cf09b60f6de87acfd3cf9f852fc5d8336b7cfacb4eab60d221, 0xe4ea1bb41bf63e88aeaa3c2d6d0c9287feb27cabfab909735700d5970ca9b84, 0x7692543343ddda4f20cf536bb5db3bbe4e668e85604bb013a0d46da7062267f, 0x101e926365ef47ce7a5eb802798c6fe72bc4e7936c2543a078fe3f32f3487ca4, 0x2d6cad72d40126aaf037e2341d4b38b7fa01aad29af7c4e73e1cf06f6551ace6],
    [0x2106b41beac8e503b44e17343f97623c0006a45bbc964347082d87853e9ab299, 0x283e3dcd45a7017beada52e104952acf84d8e42a1853720ea330e58a98db4818, 0x17ad0bf85f22549ee3de53d6425c939f48cc5722c866931e9147b6158dc1c751, 0x112739e8a8f10db81c43c8022097ac3f082fd6cb3b7d895cf024bc8819faed2d, 0x1e8b8bdf62d6f727e6af9bc0c9f2d02b9fb52211152fa472a5971375cbac1df1, 0x25411b5a2be818fa8a717c6d883e9f96a4bc46af6f449d8d7a35d5f6b9fbba91, 0x1898b8419356535c52d98008c787147f44f0d7aa9b676b2e565543a3c561d224, 0xd575cad86cd9984795766ce96b3994278ed1363a0dc12dd181c37ee314dd346, 0x1b9513c0d47181343b6c6f7c1fdb07f1f7f9cb5fcbed7924392b5badb23051a0, 0x1fc457545ea461b2a5901058890a99179114ebde8204e6c1beb5fe060098f25, 0x998093fcfe0b98631da45056b98235ece7284005a998c66153a5d266dfe8626, 0x1c991d2a5d8ed691fa0eb519e8dcbe42d20399652c9174c32e0e96fab66e93c, 0x139945821871a33108b7a32d5ba13040563b4609302823155c264d98ccd1609, 0x174baf579f91ecb6e224f542648ac0727d0a48e6b93b903e4381520eda881f84],
    [0x15a50405a13a2dbffb664ddae408b6708bbf35a28ac1961e934b2fd9429710cc, 0x24436921c8951dfea100c12e79956c5cdca59386dd7932bbbe1a5f3c620a41c, 0x2e6e261d7bd6f5587b4f212b75f7bb309accbc0801d06f2eec5d010281a686fe, 0x18b915aca78d125af4ce37e5c5106b5c7c0a5862a2e40f2dc09ca592499eae7c, 0x58bda941ae0a69677e005d5f3dde7e119f80223a9d1cfc8d55e5e7add1f4949, 0x333efc2dd41eb27ce35e0d73ad8d8acb2c278c3798ab46a603df035e78794c3, 0x231c5382e5c4b865c1bea82caea75b7725b5af23d5ac5bc24fb6a097e47108dd, 0x213b5c78bfc6ce91f5a78fe041d6c47751b3b17a40a7f5dc895f32ad05dcc184, 0x1551bdfce141d39c1292e94f0a50792ff84617c590ffb84f310784cb27b5d6bc, 0xe73d303f5f77fa2b8aa4024d90e9da5ab49b3fd2c71eca3e807220cc364a70b, 0x1dfb48c20b6621e0d8266054f19f65f40ff8081e7a90b9ee16eeac2190dc2ccc, 0x2f09bffc5106e047a785b784d3b820c60a7bed7d5f207eea521fea47f2a801e5, 0x3aa1a16c1212c4384de4c85536966ca6c0a337c0e5b0fd5988edc18c54f1fc4, 0x2ad21bfff3e0480885eecccb364c6bff7b2598e1f00ea5d305d9e4a0a9474c2f],
    [0x2ec6fe15b78a9b20950da16fa09140f40f643ddd5206ca28c0f4bb58251889ef, 0x26ba284038130d2f6e5306ae0220c0acb6e95ede64a0547c2f74924f99ec43c8, 0x1e4d3fd9d8ec64f8e7534cd7d7988d87a1cd716362250fd9a4447faee5ccfa9d, 0x2b4848510f40301a21b87d1ae01bceccd2139cc571f7cb7407a2e4758a5b779e, 0x27aea8ab557ca861aa825c581f051993f1ff756eb557860893707effd3062fe, 0x8bb7b632515c91f49b429b1f42625135bfb05976806182218503de4b1bc52c5, 0x2bb12c2794335d698f07c05214810bc6bf0ccbc88e628ffa1a8db11ccdee3d06, 0x234d051643e277134c45863e901582da55da6bd23a751b698fcaaa0537bab375, 0x1ef75d9bec2249ee8c5e0f784c968419e5f813e5f578966d629f688003b720e, 0x1d0634fce93d8ae2bd196d4bca8a48cf9909b9c38a508618cc75f0d76c28d370, 0x19c78592a7bdaebfa90cbebe1dc731444de0d0395f6e5c6dd7a4a7d92aef96b0, 0x24d0a855c3456d7b0c4cbf4e22bbcc2cded5da5347fb096b10c57ca08f86717a, 0x14960359399f26cbc390ac6c51c9ba72117cf4e5c3cc3baa4e62dee52eba4d2d, 0x2da781491b1f4fab128c20c7adfd76e8c71013f1351990fff9e3a5c97dcb4d4f],
    [0x2bfcd368d7d3e326828653a8b59df4654cceffcf03ddd41ef6c41a26784e5bc5, 0x8e09d313d727c5403b2db96f7bd5de3e1f9ecdbabc105ba617bf2444505443e, 0x14f5dd1429126457a7008404e5afc684dd0a20c9d896d2d761c1be81c1e5b31c, 0x1776bc914bbb83bfa66c360a4c7c8ab85a57ed308ecb1aa56d35a8d48bb0d6cd, 0x7b6780d78f9922b791711bbfb08d6ecf396c9915fb3fffdbfe1985e764539bd, 0xf902dd276b14407d2b57a0ff9a570e1a304829aeba8531bd386a97bb8799261, 0x16e4ae2d468c50030c1fdd7478bbc0549907154d387e59f334455c4ebc1fbed5, 0x25e6e880a4f4f79df3151c115d0157111ab328f619eae3e0ce02e9f8f3a57b36, 0x10469652924fad19f997affca18ba02b998be4797b38936a3851294a5f6dc749, 0x23351cc064d24bb7eb2def2ad60fc349282cdea42698fed356fb1cedd82872e6, 0x2f2c46d053bca97f52bf925b196f0e30c119fc2b2a4e4225aebd5e9169c66ca8, 0x107dd5f9683bc5ad698314096c62eaf048a5b2aec1bbcb4c6e0a7a0bb36fab59, 0x43af14794cca914540e79eb0f779f83fadebd3c9157e741e80d0c115600cb0d, 0x13104f307d1f761dc8e0afde0fdb1e59c530ef38fbb770485d1a60d5bf7c78e9]]

/-- the tables have the sizes that the code reads and load without a panic -/
theorem sized14 : (opt14.sized 13 4 70 && opt14.below bnMod && c14.length == 78 && c14.all (·.all (· < bnMod)) && m14.all (·.all (· < bnMod))) = true := by decide +kernel

theorem ok14 : opt14.check bnMod 13 4 70 c14 m14 = true := by decide +kernel

theorem inv14 : invOk bnMod mInv14 13 opt14.m = true := by decide +kernel

end Verif.Poseidon.Bn128
