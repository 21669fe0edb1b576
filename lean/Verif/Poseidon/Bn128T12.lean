import Verif.Poseidon.Check
import Verif.Poseidon.Primes
import Verif.Poseidon.BlsT12 -- only so that the large tables are not checked at the same time (memory)

/-!
# Poseidon over BN254, 11 inputs (t = 12): the tables, copied verbatim, and their checks
-/
namespace Verif.Poseidon.Bn128

set_option maxRecDepth 1000000

/-- starky/src/poseidon_bn128_constants_opt.rs: C L1154-1311, M L2906-3075, P L5028-5197, S L13936-15317 -/
def opt12 : Table where
  cF := [
    [0x1512df0135b6692589f071140a60749cf775c642b300da2fb4ad5c6e23ad4e5f, 0x2b109ae037ed30361cf6544b2f4ce58f356589896d6a8849482ed3f9b66e1198, 0x2585bece06eff553d485478a19eb149e2111ae4e1ecb1d61fc10cfe1c077f34, 0x1ff896f4c0662f4b2ad926741b481d03b813a8cc343b9c2d2bc4819c70b2f3c, 0x1b0caf02f434fa3d4cd4fbb13d3116ac8b7386a5afd6c67076ecbc3704aa45dc, 0xfcb7c9f13c85517a7805894ac82b57c06f2f153a6f51f60f8e508684dfe5bcd, 0x2dc2bdf7f43812e39cef210e42e92b4968ad8bf554541182354504d32cbf9954, 0x5add9df20c1898da46bbf74594438beb07c9a65635c90f45c0a08febad13664, 0x21cada6641664daa997fd55ace8b88191cdc4194fbdbb6ca5895447c8a58859f, 0x19623504589a60f058b04489b153324d16ed66667a04df572b103590b848bf04, 0x1776442d850a436a005e02c6475b72fd2d5f84452890c444162848ee1d57dec2, 0x6c1691fd6d2ee98396610f3c868d70874f24eff853938d87face89234a09a98],
    [0x17f0d5cf360c354a57e7fb986dadb3aaeba094920e772cdd9abc75850400aff2, 0x3062c0db9c925c48cc2f80b698d9602642a84cfa30e1bd36408e2cf82ef3358a, 0x239ec7e4b4723c8ed35b987db03d62c2a07c447bdd6ef183b0647821f6874c2f, 0x2bd39ed7f4f6a72d02693e967740b5fa0314d9a1f8d9f8911c28dad3f15ffa6d, 0x20350e75bbd562e339269cf7fd221fb7c6ed2cacfcc9036568bb4ba5cb17bdc0, 0xe97bb9d9784920fb39abf35a433437ed6fb631525285dc3c126e24ef54e4b8f, 0xb12ccc871d3272e80a216461403559048e4a5b3af445eeebd8224a7edac685d, 0x1dfa3b05c202cd982e3d73cb81709d5d48b3cc105fa78ec8f0f216436826be2f, 0x8d9fbb0715c9bf131d6de70b288d94afc02d46960459fea30e0733ed3be6b, 0x292b7514248f1ae662e5437705ce49153e5be27c212e86107df1725ff465332e, 0x1d58b0684f64db621ab3ad0dc98263fd7285d6bcd86e07a145bdc6aa75c901ef, 0x4e7bbd68e9989a91190082f0b29b0b0adc2be282761c44d1ba687757514acc4],
    [0xd93a5374677c75bdc1b4071b1948e53a1b67308e70ead178725b08fd9ed8d22, 0x11eca18889e9f49b1f97d5998d235f97c163d1706b4d3d4c380d9ae1f3e79a28, 0x266b924e67a868a585b398c2e3f28e3218783237862bab3e925e6e7a9d659a60, 0xd2e26ad58eacea3b6a14c1c7803caca7ab3c5881bc6b5b274531c2d461867fc, 0xbccba4532b7eea6c3e40135655171fbd92713ef6e8218169591e5013a84bddf, 0x17a12ea9750405b3d59030af035c18e4f362e183da6b84e985808f320211d061, 0x76510bb9eb19070dca388a1d3a95aecc5de4a2c69c3181665f982b60e0183c2, 0x1b7034b3beb0680b858bc8f19528e8c122d6f68059b15c70599910c993b6bc00, 0xeacf7ac9862ff85658521517138795da59f4273f1d969f815baab2382b28bd9, 0x1344043beef1afc165d094c8c5da43e793bba98b579f2417a19fbfe538e2cb80, 0x566dca10a0b92ce177b6f7282493e6b31391e6edd3ff4563277e504c441b1fa, 0xc9c6b5c46b9877c2eeacd033f184fef497d2ed1a1ef276ba4548d05f3c78387],
    [0x1a5f92921d4f34a7445fef0618f1b1a21d68714b80b6850dfb9c834f988a96ca, 0x14d14e621cbe627022809f07ee078cb2b3fe4fa024715e3f7192a510f1d8e106, 0x1b6f67ca2ff07a2de58f7a0ac8607c92fe8c4133355938cc9812c32b12b8fc75, 0x4c3bb7f555a1a8747edde5fd33feec3ab52f53dbbe6ef23f7c26e62de26fa12, 0x1aca03a3d87c90e7a3ffbb8233149beb0b6809492d33ce3e507951aa38a66331, 0x2294ab2f143e49a23d279c6fe914d67ee878b3dc54f9d7ff107bbe78ac2ffaf1, 0x2fb43038c0b4433ac0c9809f4e7d7e688f5c1d3c08f66ac64397fae941e6aa43, 0x274479867a616c602e87c7521fffbaa85fbeb330128a3bc8c8b8360fb5a3296b, 0x18a3410d063b4e72016500228d8889dc623201b4c055dab660b65347fb4ef820, 0x2d6fe8d3d694ba5dadb904fd6904a251aa2d351f3cc11c6d1aa94ffeee452619, 0x1ec5182518d6d3490ab0b3ff899ef89b61119743188eddfebb254dcd2a787e20, 0x263a061f3ec9228bdf93eb93f2695fea629925d6dce82f18e6dba79b3be9ed0a],
    [0x2fe0300a8196b9a46eb1f7d529b4d4c09dbc58765a42a9f3b61ef7c107bcd226, 0x862f4486dc03350ea63843db9da09a5a3c3012c0854a7acb75ee18363dc0414, 0x9ecd01d7dd15316f2d3df72a9e731274dae116592adae8a81eece51a4453353, 0xfc127ceee377fedc0d2da69617739fe790bae028858dbe5db8a93e3254eb8f8, 0x15d224160265df8e5e4c1b61e7f9560b3dfc57649f3038f440b64e928bd32970, 0x110f785f7d04151a37b44935a1bbf4782afc72ad28e042c42fe63e6302550f50, 0x17fffee137039b42943e6f8d044ae87ce06d5fb1c3e2e51e3009a45fa1873f70, 0xacb1888950067efa97acad9291f63c05245cde116d7e0bedfa1dd90dac185a1, 0x22a4abaa581375452fc3b531bd4ed54fef9bbfee016e665e42493f09c393fed1, 0x25adecd63680d23f87be6226ec05a2bca8524963ddffaf863379d4c81fc793c4, 0x220ce90ed6442f459eca1fe1f2027e6377e7189e0f6ef43e1cd364e9ca1ceb9e, 0x2372d4e4009fed5ef65a3641db3c8d6ecb33040fc25989039394481a94b97195]]
  cP := [0x11926b0acd944afe2030cf0e8994d90daa535f465967b64ab0b6cf69e316a51f, 0x1229359753fb4a0dc741da84bc9758aa0a7662b314a31fe003474faad18e3800, 0x2b3a66d166c51a62bf6af2e54897c51e45fd08bda74d5857adfe8fe3e4bc3977, 0x1e7f4fa362bd86d6927781af2a4cac46a77a19b28c4ee55b2ba0881d2f7b8e2d, 0x91f7d66fc8ea2e7ea95ec1876a93d33688f9f9d47d3c8b07df92d1554e38cba, 0x2c17ae7d9af800bd393b5fa0f8b16293daf49e5afcada50847795b87e12b6bbe, 0x266e76891b0271bcad1644b852ef8de9d3c3e7a53e22f6cf096ef44fb35bbbc7, 0x24da30c34e49b417e6ce696fef7eb94e67b4d74db6d2d5cdaa4777c2602166c, 0x4c3d31703ffeea22ef8509edd468586bad669b74c25fc9ada49a185937c2c94, 0x2265314c66e182feca755f9a0cf7c5c7f7db6b501e010c283159f5fcc5bded33, 0x1aa1766643eb30f96329fa3eccb67964d510054db9599f5f2536d7c37f5c1149, 0x107e8da68896a4d3ab40eedf2fa75e025f787dd92799357218e823fabebc8947, 0x191aff44b7bf99027bb1d6954ca0901c950f7ba8f1e1549475f0f28ac6e72d60, 0x2d6a00ed5b8ab0055a4277b39d178918744ec5b4e5a392205dd4eae9b4f1f507, 0x8bddd13ce3e6d0add2babc5f0da3ed9c24e10aafb289d03e968163c44f4e669, 0x2f0575cf9b7deadb634320f90d84678d771833f9ac9d1b67c318973fcab18f13, 0x1366a05d3047d5b3452fcc62417343245ea727795fb0d05efb80a75e1e4d7cb0, 0x234dadc295579c62b1080fd64f340594eaf258b94225fcd6beb10e5efb4d6fe3, 0x1f78b1c152a40027a2c7b0ac19bff6ede3202ea1b95e5d0af43125a33cea7821, 0x1532e8db5fd0a6c2c785a0bca111741903fd089d9b73715bf0dd70c2e14df9b2, 0x9012747fffe05e8b4482f278d35a28c6f58e6d502d69a5f351225225aa0279, 0x105b192f778c42354f2a979d91b02fd33c52c59d542a128fc08e5d11c96fbd65, 0x24bcbd8a492f542d2e6faee6c503c9c6f7a67cfc7d8e756759e0bae679920b81, 0x13e55913295f26697ea8ce1aaffb07373dfbe24b8f41e789e05d8b96c2dc9e2b, 0xac524f2908d8e1292a18ee6d5ed583c29626eebd03a593db01a61599c286139, 0xdc402c7aebe3f023ca4b75dd5f69acf8af6607edad14bd806181077e41168a8, 0x6d687b70f200804cb3b39546609c1ac2309c4b59fc96c7673ebdf2c900d9400, 0x1e0c2662cdaa91336e10c7eb3c6eab12330a99da8a095e928f73a8b45accc8b3, 0x14be0cbdb25a5f84d36b415f71ff807f9df89dbe6a9850213a288abde6db6264, 0x2fc8c8938e2554d9d02e135eb0d2bd251390902e82d6ecb4ac37b8ab6d12233b, 0x2059f3ad1d4ffa2787fe0577dfbf12701689bb3359647219d84a000e95c62c95, 0x1e90ed09600b1ad7e5f927ba5e40d6fb87bb537c695d5ab6fef166da18fe7f4, 0x64fb597e3bb0a3fdb8ed25eefa943f6ca21150b4e029836fd31d63cb81223ce, 0x710644314ff7d6091eab77327421b8b18fbd64ab6f6756b61ba96d79854d6f2, 0x17491b622e2f47caf07a2abf0b623896e973647d02be011f099b84af45dfd1dd, 0x2c7aa4382c1cc1897988dd51243facdbb7d37e8cab2e27a26dd7fb0795d77712, 0x14695d28c7fa12ea6044e898a6d8a6592a5f111a293624a45dc24944f77bb711, 0x1602e77d6ee3a46b60aca6ba65c81457c4d36c8ee14b3559966cbea0ae32cef9, 0x1ab02e5bfaf9d4ceac75f53983bae994d12d0c44a280d7e2df3283ee1f429ad5, 0xd2b3a148b13d8a541e3cb82d624cb30209b4f58fef5121bb74e8eecacabd939, 0x2e682ed8f03c5e95d84007e89a92043c968111cffe9d18665258df0d3a6a9b8e, 0x1428a6b9c8cccc597a9eada39c3cfff0154fd9f5ce4878d9963b89c7a878cef5, 0x125dae4075bd6f83314ff7172c70f192173a2d4eaf09d887b942d45b7cf7ada5, 0x273aafea62ef6ad185bbfbe54a753e59f639ab2dff85b1f4c0a28e2136d4bec6, 0x179314705df4e0b530f1d37f9d02c3a88b66e2272edca161365615999b1cf404, 0xdc05aa8617d57fdbe30d76d7407add6a2e95fb73e9f942e4c242e2ed1016318, 0x18469f35a1ad56b258b1e60243c962ee6dc99faf274f02feb42a8a51182652c1, 0x2f79b79663182739a2fe0c607077163df7c0e9193143234337b9007cf472ff7a, 0x1bb4d4ae946d5ec7cfb22cea828d263b7e574ea777aa891cb0ba07cb412c2413, 0x27270b27dc8fb9ceb1c5aa5a49f97a795c1dc652f9012ea2110ac6877df6c20c, 0x14da35468739dc3ff0110c91ef540be904c73e5d71e5b0b5eda5ec6dcb2f6eaf, 0x2e90d9ee3e7c2164851b64afbcde004b6c0b82ae7ccdf6f78849fb981a35a2ee, 0x2b15612eb94247469bd9475ae4bde9780511cacabd566c1e74ba1761d60b6158, 0x121c521576ba4ae4a05ed2565651b2893d5f704e5c6f0a642c60e50df22c8ef9, 0x23863fd0801582ee9b9a4c83f3b6eaef83c59068c0b1d4b9e93ec5ec1a0c2938, 0x13a597a19307e90fb04778f82f2e6780a9e2c4e03cb0515e2cb960c51838693d, 0xfe4f11040f7ec803ba86cc6dcc6ba00ed7569a00cb4aaf5685d014beeca35a8, 0xc30eddac033e3f113894327db9763aafd747b32d1344b65ff7108177125de2f, 0x16449ebb71737c6513326b4636914fdc9f7864c7f10025a09734880d423cd1c2, 0x267f1aa1162b7284cec8df83403241884bf4a29547e2d0c470f6abc19fbc4e75]
  cL := [
    [0xffa65c12b20f5ac05ab035a3b9cf0983bcb4cd0075d9a9e5be77ff9b4f17bfc, 0xfe550d9e4e3eadc68883a977b6869a5887db153f6bdba49233f60bef77bf44a, 0x255002f14c45aecf8cbdccc25c25cf16c9c771c653dd213a2ce22e190d7df111, 0x160c6500540f89b145de5aa9fe944604eaacfcbf1c17550ec91da6078082ce1a, 0x1383faf37b866d99769fc32b68e45a753f803ea36e351bec34222729356c6393, 0x240b1af70af648da4ae6886dcad5c673e5b36aecfb7f2e58bd12564c5a77697c, 0xdf9f10587e99fc6280b6a84f0ab1dcb4eaadc8958518ea2bbd5e648cca49e1a, 0x26e4261f23f0856aef429a307bafdf1b57335d7a0f38ab992a77a5cca9b50ad0, 0x145b8482c15986fbc1a4085dab239bf2d5b524632baed39273551273ce1765a5, 0x25101aa4715ababd467f91767d0cd0e8037741883381e392c8521b08c6cf62dd, 0x2896258f1d13f8b556b92d0b5fe0684f67a8665bd97747eb0364ed9b41cb2b9d, 0xbfc25af60e375f1a7e09ec5c0411ee14b52346ede9837df5703420189fd877f],
    [0x29a042bd25d6f3aa5df99619a794de17432fbd1c75fa33a1010c1af30cbcd828, 0x1cd0de72b658cfa8975dce977ccc6b6cd06e4f8f49e620e72d7ea84ff2373c01, 0x2197c4469eecca78bd4629b5d53bde29a8d3222bbfffc5948052e039f18e3461, 0x59c6f40b2b1bb82739356c24e78eeb900d1d1057fa9d48289157af603d05dd0, 0x18ce307b89e3700870c70a6e9460f1aed5169f729d2e75f7e6c7e6d0298fc334, 0x27c70ab7d57ecf0b8348df89c42e3817450b3f018519673f9f508e5e1ddcae89, 0x1aad5aabf3751e7d413b8138c2769035e8591227395d0d1ce29d1c5b3b42a54f, 0x165634b54770542a49ff684eca304c99d9d06315412252bb82a2ce5efe24fde9, 0xbe7826f267e77ace74a4eb0e10e5268f07f52cefc1d7b74e7a5b82a08c85266, 0x263fdbeaa2840c05de52dd10fb42817361a189d2abd54ce145fec18cb11b7ed4, 0x2c1ddd2e896c9dab5533d8400df17eb353a0191b9b97282df18774113657b473, 0x894b90c18b05d7ea347b8dbe1471fe0020b9d0b1eb45a07b0f70d4b3bd90228],
    [0x3056b80856c9e6ca2d92a5bb3ba46c03de22785d58565aba508d2d898068d741, 0x1b3395901b0049172ec09a314e4a4183563727d32a87767a094d70535336be93, 0x143e65a2a879b7a35660da4fe2141be33c17ae0e6f1324fb3cd9a1d061a15757, 0x2f3f3a50c82372cac6815322698f09826210a571a9cd64c68dfec4711a5fe60b, 0xbcc338d5a9ad15519aa00e89fe52cc24491416e1ab69635a67d3246e58b12ac, 0x2a462fa9c4a682e118cced65a4aec9212496ddfb5de743729cb281ec3a76a8fc, 0x7391449ce7efe315f816f0c1c3ad33b520007106ef8d11c2a2463de270ab282, 0x8cc2bc080753c7730c57f179e38cbf95b95db1fdcabfae0a8d239342fc68c8b, 0x1ce160503379a007e38ab3cce61d6fa0d78ff6b19526e1546023cb6dde3551a5, 0x2fe5f53e6a16d7430ec9a765d640bd5de6587509be8bd773be71073e4e652975, 0x2b9d6359e3de7b25159b8d2fd42c96244ad92bcb54f26ad8a6a10b2713de4d73, 0x2f730a0fbf24810d49065521296809b50c5e96a6bdc4e3fe44d9d4517a259728]]
  m := [
    [0x2cb13179d6e8a4ad1b9fec37376253cf64386ad905e240575fca86539b272dc6, 0x1f930557a284998225f5f4e4dfbcf5ac211f1b12d91b0562ed3d63285d7a714a, 0x18e8222f6907da5745eeb9cd4a9e62f28b8b710aa85fe729f9ea73a3ef0099d, 0x180e924d757d0be4066feb146ed56212e38acf9df4957432653f370f905b8b07, 0x2f7d0715d1391190e7b14a1242b6799eac3142e21f08ca02c21755eae77a55bc, 0x2283ed8d5e6f9470b3f4f49a771061e4a4fc7dac683defcc0348a8862c6ce71, 0x21f60efb132b62909990b9f994f381a9c02abc3ccb54c5c8e8c9c5664c6913d6, 0x1cde82acee60b84424e9bcee49a5464ee05d1cf0b70469208a675635ac715495, 0x118a24510a2153f818f0a996c87de913587805f16cdb1939d9406941f958e8e1, 0x164567b0de16b7a5550fca229bac7cb0779524325e4ca5e78a86078881660264, 0x188ff303194112a7034527cc9dd0b4deb0960c9c106ce115178dd7087e4e8c02, 0x83d832adf9bb4a25f686abeda9f16ebf53263dcf9ef4311781d09920d094ead],
    [0xfd547840f3a30a533a994d1fdb3f60ae5073f4484f34be951ee16a276fdeb9a, 0x4c4061820cda9bf472df3f64d6afa004f1e8623d0a4f6142cca1f19a4c275fb, 0x107757eb0c0799f781308d83d2e057ef8106f6b656b45e7636181e113a2cdf32, 0x2acd39e3892ac429ed812863efa05eda746b55bb974694a4e77b9a19abb55001, 0x29788bb6cd947ea9efaeefd0eeb7fd563fcc2e40bd623ea2b2442b55d98dc5a6, 0x6ab8672c936070a10757adb45031a5e2922f0fb8b5fab3a4f5e3872fb582ed3, 0x1db98a562fcd1a5e4496e61264aad5ea3b455f46eabd8957ba671e9c31e5092b, 0x1c4dde07d0f94d1aaa832ac2f5712d438b4e1804b5209ce55942d7afb24c6401, 0x2cfc82712ed9d71ff4fdf63ee4ad116fac195794f8d910286c152efd9f959bee, 0x18b49b773f5799888e9abe3f6883d7063333835b6cdd333580b2b4bf48f3b27e, 0xb300de5b99c27d332091f8fb0d97cf04a86a51d4d2037788e0d4f38e8f4eab2, 0x541af6b96524662084d1208d71b6b2a8d66d91179745b213679c2a2bbc94968],
    [0x5019671bda026670c7ffa9081795105963f56ce327fcf78451fba2bdb3ac1c6, 0xdbc22c3e54c924a882c22000951239cc263755dfcb38b27ef4f880e202cb5fa, 0x966a21b9615af2b7563dfe41b8b9fc06039512dc9c8e1196891eb77f856b608, 0x17b18621dbd61df085da4cf8a03395e3700269c7df4d98ce4851f90abcbb3631, 0x12cc274647fc572bb79035bfc3332a4e566a28011f69dd0874f01c56bc44c3e2, 0x2c7d538b9e6d2b2e06e72f8aaab26dbddead1fef6a740a11e9953f8e8e9ee057, 0x2f30800c0ee461010569d36b60685a38b02912a020bc4708598854f65822f15c, 0x116c45e4d88ceae4565c0e94da844eaf2775d5f5b435d94d2d3d38b583fa7841, 0x2ffccbc40031ebafecfc3a97284bd0f6dc4d45eceb8b8998f1a667bee369ed62, 0x2007424b129ade2194c73e6e2c9d79360d1360c4fbb8c5f31330f938558b3ace, 0x2c53d6676d4d4c87d9eaf5d4da08d1e98d103a3388d59a7c0c3de51e2623aa3a, 0x2cf2c992c02a36334ff5dc851646ee7da04b44eb544ee3c0fadb8dc5eef2a585],
    [0x2952c18c15558f29b2ae77fc39e51a395f173a9097db404db765ab02906b27dc, 0x2fbb1c59e9e8999d91c40f4d44233122ab35ffc975edfb43c53ed07dbf0d9c76, 0x82046081498eee63c287c6fa3efcdefeba1b5272a77bba9cfddb56afa53c82d, 0x2a429c2d06dcf34d34730c3af8bc19b04abd652468de5a85b5d5cbfd9c23e6e, 0x2ef584c3aaeedbbe2b4b103a61e94ed40a97294156ad7ddf0de43b845249f534, 0x28e4620d210536bcaa42ee46b1cdcb21bf215933bae4eec639efbd51f4bb6557, 0x1e32b1e2e6b59273a113d609663af6b30c95b36884fe5faf371de3d564213c3b, 0x18820364804d22119347b728135b409956f7933defa1059d634b977d9d3abcde, 0x9b6c00a37df2770cec0f1bf62a6aac3bd380c6ce9f4f96e0f0879237ffa510b, 0x445e26e26f91707da2df5c188baf80ea2f48c703614980fa798971cd8ec60f5, 0x19f5101715162976766e2b57a58674bc58e1ba2be18a59b07a07e4a93e038075, 0x6c5df8fd61eca2fb4923f0a46dd4e416a3a3b48c10ded13133ffeab6fd153e3],
    [0x2353a60af6bd61e5eac2c9a4263d451fad07380654d4792378daf752e5cc33fa, 0xb8f40d2c4d28c472085203a0e460af73bbecec3b2b3a63f27028f2ca8a71251, 0x2c7ecbf14b2d6049a6439d0f29f10e26ec975acc3e3eddb77c831a509af59196, 0x197dfb64189c09aaef94a1f542d8c34aea27fffba704202d5286d62bd0eed372, 0x5f9a6a8d64cca12725dd15110f74aecf99dd30e57a7d99829cd8757b75b772f, 0xfe0def70bfba40679aef8d5a239b3a1b5a52fe8fd7edb754aee2b182d64b66, 0x1b1523463a45a2982889048681a422c02ea373f8b8c1bf16c74a375d5060c662, 0xc849d07b1d9e6ecbac517fc19237ff73424a0678f94699b23f76952afa4514c, 0x2c4036616c156006337771c1e355fc0f2f238e64cbd69d068aabb4b58116886f, 0x176804ec1cf85d35298351245d32236546838d9b98cf4242d601c7e8e501b49b, 0x2f5855a876a37f7bbbd6104accfcae507e9ddcd2a7219b487a76b17c525b50ca, 0x1a233c7cebfb0c6eb72dfd07aa2b537ccf291e84093aae36cc68002ffb83639b],
    [0xed6a3bd48174e370b4f264b37488b03a5e3f4c0f61cf32d3157ad3e3b86f6bd, 0x28c01a9f01601bb46417ed466be6008595052f782e46857d81229e64e6bda02, 0x144022e7e077ff22a2ce3dfe9923107d5aef046d0a1f2cb5f36191ab04eae4ed, 0xfd3bdb79cad913432b7d3828e072dadc26cf4903d56b8976200723846c6577e, 0x2979d1aeafdf97988560d4ebbacfa6e2b7f3d026946abbb9d5397645e6e81825, 0x22ae023520979741e5c58fb04fd25d12dc8f5fcb6ad15223a5da7e0f91c7b4f5, 0x5246ee7854b2e20e8612da021b30798e5f0d02a5bfd5e79d3f9ac6c79fa609b, 0x2b60a4d43d12cf31076e0690e931716c47a86e7728c34b2d3cb0cbcf95bbb74f, 0x41b909a658d136993b3f509a9e9d50138baca48f6b66399ac5c649e68dd3aa4, 0x25b6e65e90ffbf910d19fe3ae23d037f8f64da9fe3df483fc4f4977ca36a7b1c, 0x2c0de448a88dfeaacc9bcf2850b6ff4f701e1a538d69098bc94087cc35930966, 0x5f6d62f54518f039e79aa726bf15a5983583eca4062405400acca58ca9d2235],
    [0x21103a7aa20c8d15501be8c23504c6a912c6100c5d88085cc2e42a52302f4483, 0x23ce8e402939cccf36176a5bd83183a0d54a24ee6cabe4fc7f814dfbf26f85ea, 0x170403d414148f4681b8213550951e238edc009f46b00693ce3d9c5800fadd0a, 0x29b9ffe05db2c52ddd1bf0e5c532eefe70497c7df4b97db2f0624836576a6b29, 0x153891052fca1290fbf83240d334fd4ce05de78adfaa2c9686488e0c47ce1fc0, 0x105c0b246660c4bd8a6f1b36fc3cff86a2c432c0dc9321cb50abb98a10cd1bae, 0x6cdf8055439ac8424c435e7e9bea3f0ae93eab171ac383ed2cedb460fcb04c4, 0x3161d7b94e1b0411fc01dcfbd748a6df3156ff04536b3dd3101f7b2ebc3811b, 0x25c075b41ea2d827a4955b6469db9d41760faf885f2c6e9c09407ebb1c4dc274, 0x2fa2af7970e131f7efe3a7c788890ab860f76751e55b4ff634dd46cc4de660d8, 0xce587066eae0c345c3368c53dff2170cdb081bee52b243a1e6de6d4f82451d7, 0x2b09de93c6e3148cf7ff5731c8e144debb66ca896ecbe4089d2d22cbdb09777e],
    [0x2fb232573e85d68c536d100c3a6ea9172884451e677b0d1cd0fb4dc4c27536b7, 0xdb82abbcd3a1b56f7fc8d116cb54c54fe26243702bd3d57e71f7ce0d470a40f, 0x2997d92a5e9bc66c84f635e8cbf080eb720ecd4ca3e42c3ab8d088611880861a, 0xa2a006e3b086bf502c5b1540eaaec14b9c15bf88471cb6d479fb4563f016497, 0x1b8c7eb04d351aff4e76af7f9fa1114fe45aaedafdeb42c1c23503b122639c7b, 0x2a5aba3b45e79eb2606b2a5b47eb907584aecfbfc0b4cd50cda1ce4854338597, 0x2f9a5cdb79645e3454c617d77a774feaf24ef603454c02076fc4c9d7548cc455, 0x6438e8b0220464039a7b8022f06beaee502c5de269db82f91d88fe1b72834fa, 0x115a91867233cc75d1c906a42930e93cb9c16afced390cc14435e5cfefb4e96e, 0xc8fd4ece5c205190cf6c842d1683444079bf49835d5c8b8dfbb11af956ccaf3, 0x2cea98cc64abd926df963da57f2ef4c434141cb53ac6311b2566edb957982713, 0x239ecd92517825174f796345db296562223760fb1b81c091b74a6a4a82968a4],
    [0x302a085be040ff9a709ad0c73238b0d1e11e1d17409abaa34fc45de29b541535, 0x2e703ea9af99161acf9949da7afb18d462d85b671656d61c2cdee3a72390213f, 0x21427b3a9a2cdf1e2e6c628906b21e24271d72c18b0261be68cca44865dece11, 0x237a9e020908cd0edbd9eae8772350e0e731e3228b892fc5f64fdfa9b9daa670, 0x2d8125dbef602bd970d11fad7cfe06c3c64f5687b09b960ab92b14f69efbea57, 0x23a3b23d5edf5cb66160fd2523b3a383142291c0e0ee666682e946b1d57937d6, 0x1b1625d757786a19a93b37adf7f22ca8a502aa4462ca78f7da2d7c22b37d7f9, 0x14898babc8810cbc626688531511a8473ed89a22569d47ba586c284e45bd0ae0, 0x2f8fb37178b525758bf6aa527f25773e1ebcf8e1425379500c8245c741ba3fc4, 0xe992f44463e2dfd267e6a4a1c3303ea7a1186252efd6c9fae9e5f0c1f6d8266, 0x2c7ae475d90c475f73c0d29be8889d0c4b8536fee6c0389984bf9e4dbb1aae6d, 0x2945cb85e34532e3a22fc576703797893ce290d0156430a8dce61c9df89a8bd5],
    [0x683e640e6154ef73c3cd6b1d0f0fd86ebf7e292e63fa84cf0a883c2f1faa8ba, 0x16512c150c1d2fb7235efd2d4f0fad5fdd78f8d0cde53a66bc90206c82c4b597, 0x24bba58086a78541a8ebfd535c107c36946d78ba6cb26d227e615131f71d337d, 0x6d349d6182ec30d68c9be010587c707f7e1e175c0d324e6added6337a72c2b, 0x10924807f6fdc4e9e586792e3ace3001f16bc02e84ada5df51d7bd37243ee1ee, 0x26635f4df7172107dad6b7c3068d2d438bfbf486471039f9e65a9c8462a2c9c2, 0x28bf5488a525f5514400dce722430287fe8e4c810154056eb0f4d6fe61091cf5, 0x90dfcc0327a541672cfc26c7e1370583c5f9214177093010fd3fbf279aafd4, 0x29a14dc4bac0a4c52bf30aaf6b9b8e05453d0d797246b64732d50f176a7ca257, 0x2609ff97ef574fd68d16a3de0872c3b59a5b928258dd1469826a191dcbf5bd0, 0x23238fda1417302dd03ce54607749610292945bddbd587241714fd3964af5f10, 0xd3be6a5b12bcf1bc705c20c30f320b8881c6c2ec00e857685c0599262a3cf0],
    [0x1f09f3fb07f7f6476fac98946b7375095e014b28f23a07ac9fc7077144ac3979, 0x298aa5d5a44565b75ef68df902d791d01d98a75e822ef553b1761c58d6fdf32, 0x1fd5a6eba52e9ea1db389a1fc8dd3d0283d737c18eb06e090b6fd2dc88e0a14, 0xaabba39d220f30604d0c44dd47c3c70de3b79f5baa70a3a7a0ca02ae1b080c5, 0x230918919b6826faa7124c5bd15d10c036d565e100b696a3be7afaedb2abba6b, 0x2bb28ef42f5fadab6a6ffd5655b36580deb063ae3081d587bb1598878590f1cc, 0x21891bee31fb7bd89f0e4422b3c8f5b393299af0d9825db9be73e7b20097923c, 0x38e0c2e29c79ccf46b5ea1bc589276aec95b74e8bb82e4385c0585637c885f8, 0x2c89dc7562b91d8f2f7daa209b7560520b6bc62ec631db41cc5edac1fb142be4, 0x15dc57879cb41d6015da9881f948b40d20f0e03fad87746d8575af009c96033d, 0x1c674ff2ead27ce002f4befc7ad5f0f5123e59793c0fe21075e819ce56ce1e83, 0x11e7bc4a39d2730196b6c334f99750de5bb5e4fbca5d6a19eb7fe14abe845dbd],
    [0x598c38d2e2c78dfe4907c74e82325cb191d52608955b583e5826ebebd1857b5, 0x203fd2078ab2a8f88b7606543145ee34daeab2aefca31bc04a476065697cabf8, 0x1276442d9383c52d50fc9b5ac34442a4ec8e9cd7aee6d6ceacc1a6f521aae4a4, 0x16ee980a2c67de24fa1a34082f11c71b7c45966a6e8bc6aa1a1dbc7ef6a9bab2, 0x1db922b8c249ff7bf96121eae9d9555ef7770f3dd7b056191ae9ab38a5ccf6ed, 0x96dd43a832ab68e35e57c98d7b01f2a2e5936807704593ac72c74001383f7e2, 0x2282e86ade85855d4ea0657c4add20625c6daa90bc93943b59a92dbb77b63681, 0x28331d0d31ca8675ad4767c490261bbfe5b84adb4ca2c5599a87f331908130f4, 0x14972bfc85de037b07e55332e6bc5b4f08f39ed4eb8a9721dffc4a586dd9a1df, 0x6d039b64e82d7975dd21a37b5ee79308f20e82e23489382ec2d176190587896, 0x2627be68d9cd0ccda3828d51621ba409f9acf09f1a9cc503a29ec306f8606ae7, 0xc7c9db952865fb9470f8aa1402536cb3b82276d9e288082ac7f83b10bcb6d17]]
  p := [
    [0x2cb13179d6e8a4ad1b9fec37376253cf64386ad905e240575fca86539b272dc6, 0xc894a150b70154ed3c77c170df947769ac6fd8f4170d341613e7adaefc605c1, 0xf784c25d3497fb7f058d93af7ae1a182bea00ebc2806c19377ea19a77db346a, 0x1a4f48dbda22089500b402545867e341b6b6f14bcedd66ab59a1f1482e4f2d8c, 0xf61b0bc7dc5911ba7d353e201a1f480cff116ab06d9e735e01889b688078347, 0x15f5f8ed095948c58f2cb630b9b892b1289429c3c6169f26d4501cb4b24e7d72, 0x2644c801ffbcdb796abf1036e3a240514c45708f0bb0616dc9f5475ab7ddf80c, 0x15580d2d80baf18dd310bbce40e0447c78518aeabd02fc3d66bd0f573c1b7b4b, 0x2103a7704b61ecef423c74fc864f57077ae9e68fedf93c4c24b3191c05552e8e, 0x254310df353b2d1c72076f34db3ad823aa35b7fcea7124714bd5243d90c788af, 0x23c2a54a64588d3672e1e11e0449fca37349013eb30472982df8935a727808d7, 0xe25546d7af425b5954185a669c63c9fa25d3d269e036e2770451d2cbaeb887c],
    [0xfd547840f3a30a533a994d1fdb3f60ae5073f4484f34be951ee16a276fdeb9a, 0x39f5e3ba736458d66a7276a3f7fc143f4d2e10cce779a0288fa042477fa8111, 0x2834c6a4b3a7068b2959204bd9df5f9eb21582db300ac6cc9bc06188814e185, 0x365a1836d0c970acea6a65b34b4018ffbfd2334bfc29ea050300fbca592da7b, 0x7b2fe7cb2612a4b8ce45aadb192514490ad985b31686b75cb895938a99c35e9, 0x4c72c3e92bcf3c9450146921952051dd7b932e045c56d2b8d1225c557a02fa4, 0x18d459655484dea4af5de8922eb66fae69bf0b742ae678e6ac5ef937fd23f145, 0x28d575bf09788e6c9f404c4f2a4794c51393c9fd263cebc2aab4f575a88c1ddf, 0x15a78c5f1d6e0176ed4e931e25aa42576e7d172bc263bb5b22fbe2a1dd096b76, 0x253af96dc191b1ddcc7da399cf751f0531e2db5cfbacce3efccf23e9aee0635d, 0xbd6477a4e98ed1b6a052a7fe6a3d111fc2478b3817bd7c2dad8b1a813dd9445, 0x1c371f42917639fd59992e6dedb5a144b079a25f242578b21baa3fd6fe98b51a],
    [0x5019671bda026670c7ffa9081795105963f56ce327fcf78451fba2bdb3ac1c6, 0x1c9807d9b8968d8f620640d590f151e0914406af2136f902521b8f4da19cdf64, 0x10cbecac3303667992c537c54deaec58a34528a2fe041591a98e64a8d6da5588, 0x1bc32304ad49812a051886f8904e1af0a76149223fe72e96523937f339a5d9a, 0x15dc91d6fb987bbdca99c78dd90a57b386e9b9ff7e4a4faf70d5ae18f431edce, 0x22b26a76db2dafefccea7be76f0e139a0c568e92a447ad288257ef310794df28, 0x1c76650a0527fe929be54a7e8a47efc654b515547f9cdcd58c146a0bd11872f6, 0x23d3b9deecba2482b107832457fbbe5ff670a61069cdc34a6470d2293471231d, 0x2b9a6b170ff9ce22246aa0b5091a7f33ac5a1b39904b61f0a7360c435feaa593, 0x316258271c5c2be65d5e41b0bf6f9917c8c60944d1be7f60891236cde4c2676, 0x1c67cb4dc98d5f02eb96d20f1134177396cea0f4fe4c04f856b0e2dad8e1b56, 0x25a8f4490a5df4e1eb13e2e146e0deb4de3d633d11bc4a540c5a6a21934b94c9],
    [0x2952c18c15558f29b2ae77fc39e51a395f173a9097db404db765ab02906b27dc, 0x1e7fcf514768abb1800ff4f4884ff5bb6af1ee7581b96e2984c2b2c4033379cd, 0x21828d603ee0c7651c0a3bf6b18217e1fe33f283bfeaa1fa9ef9eea3b2c32fba, 0xde712fca9d7df5e0f67d3eb731a53dfc7d1a7cbdcc34411f6138d6de60fa369, 0xc58a3374648de30ed82a9ee0f4294d493710fe813edfa46b09aaf44b3ce6d86, 0x14be55982212ae54cb8f0ce42a162a7ecb440a4c0c4d73189528e4b12d34e5c8, 0x9da7079e3ff632329ed76acc28bcd293d69f9298fa25b9d5231f9611ece2c22, 0x2d865f77a39255aea1b29c483eb4a3acbe7fdd909cf17d91a0100143979a18bc, 0x2a39a308231582d0a1d003b5244fbb85588de1df3ac866dbc2fee6d1d8248c0f, 0x474c582c59ef66cb29b984f6e4bd97bfeb5a41c6485aca67dc0555ed1eea61a, 0x65cc505a691aefd234e572640f6c731993aadfdb529a9aba4bf6377ae28b69, 0x2aaef152c413b4ef991bc228242822e2a6377aaeadc7ac22e502def3d839f2d0],
    [0x2353a60af6bd61e5eac2c9a4263d451fad07380654d4792378daf752e5cc33fa, 0x28d0997942c3b3b0a4ae3b17ba382c8fa4e1809be0ec701d01501f142aa401f3, 0xecf00f71b1814ced4f6525c4765846440aa3d39e7ba0e4e4610b70b5a38209b, 0x1258d5a4d495bd4be6c704992ddc3e89f7ae5c6cbd7430014491fd234be89fc6, 0x30513cdc3149663999036b87af10c4a183f71722572b4d958cfea9e3dca618c4, 0xc658aba90de155384cd4d63e285ac2d004cd95a2e95da1540ef7f1237d851af, 0x13bf5098cc05b1035e2f22bd47ab4041d8adbeb53c40aba04a75fc5d2435df46, 0x2339c682b7084d04d3c9b6072b20b63b12003e5c52043c6336ba222397269a5a, 0x2cd36c4bd8257cf74834663fcc1e38be2c3fed64f7b568e1f0eb0c269b0e14ff, 0x37b5beeecf060cb73d6e08ebb984eb5d9075b31b128fa3e5234e969036ab5c0, 0x118fc51eea37540b35bc2ad77d91af14dacc152f86db157ff4c48db58e325225, 0x29efcd78bf5b6b7c9811b6e838f5563b349606a1959751d63d28fa4c1124b5bd],
    [0xed6a3bd48174e370b4f264b37488b03a5e3f4c0f61cf32d3157ad3e3b86f6bd, 0x287cd855b94877a396d39c336dacdb13452eff5917a877edce1412b7ab24ebb8, 0x4f06b7fdcc319605d038881cb47f61748f1e9f14d47dcf824abfad47a73bbca, 0x4eef0886e398163b9f0009c8204cf2d9b0a4a30fb019b3cc46cca6ab3ffe666, 0x2fb04567ad27a42a4ca2ea90a0f27660e1e10acefe62de96607aa26583695932, 0x1f1c7c6bbbdecb7ad8a2c8a91b983b075f4998fc620c36e28e2b59077ab57704, 0x78a3fd180d76eea922e4237fd65bb83ed4561b268751a20ec97d3e0d7460d27, 0x11ce8d6554294777e161cfd91ca86ac2fcf71bea4228f8aea857187d579b606d, 0x17607b33a1043bcf034c42feab79507a82488808f988fd0e13f2e2982ce55e0a, 0x2c90418c775ce44e34d9de72d06a7c2c9cb072518bda77828b1e82fd1d19525f, 0x1cfcedb53846d090e72523914eb33d6d2781bb18ff1a7c885eac1326e93f7a46, 0x2a4d8464358084800c89f6fbb98bf69d589164f9a648f48d3a42aac8c5cbf177],
    [0x21103a7aa20c8d15501be8c23504c6a912c6100c5d88085cc2e42a52302f4483, 0xc783dba69038bd1673bc3bed51afbf51ecde783af95067c14de12f49e49570f, 0x1cf80bf06f3525aa85416d6cacd0e8251bf1b3a771be49253b60ca83f49b2369, 0x1b6e663aa128709d83c7e5a86284927920043926cf55678bacd8ee0322178495, 0x6146f62b14c25c15ac08d1756f2302395505138a4ee1184000a38f4c7f53905, 0x1c5eea7863fca5bdfb2f4a3dad7e2a16572998329ab695adecd136fba4f4063d, 0x197b13f8af70f642e878063aec6e21ba8978ef2322f2d64bb512ebfc7bc2c7c2, 0xdfce2c65e220994dd2deaaef6e04537b35ee47eb92cdbbd7c61cc6189ad3f5e, 0xf4b71f3763666a3dfce7517b6746ac033b2392ef742470ff7365ee5976bcfcc, 0x6fa7b6308e448573f3fdd11a2ae8e44d33c3d3cf0d9ff8601df20c55c6aafa4, 0x2390d163c2c0b5d461be5ae1f2dcf4c38c2aa514cb22b4b5e104dbb6889f8a9b, 0x21c9120f90988cffd032feb1aac143901de9cf42ea3cbe83015e9275cb67907d],
    [0x2fb232573e85d68c536d100c3a6ea9172884451e677b0d1cd0fb4dc4c27536b7, 0x266913da539f40df5123e01fb748b241795f1aeedaf1f7ae3cef0e5728d23aaf, 0x2f6910e50cc8a14ddd99b667c6255bf66dfb3386e62bce0d74cbb47419c31572, 0x24fe05893f5e7aabb44d705fe83fb319d29b511eba00b2705561c6bb0afd7b37, 0x1ef5275b46a65f69edccb39f50fb90cc578ce4e519d54c8e61c31e6ae0710a45, 0x137569526eda65a31fefc352a005bd0b10fff52cc5692edcbf46cc5f03538ea0, 0x8552774a893c4dc375ee4efca4dbb742277f07d8980c54581b5d4d0dc1b7688, 0x2d9b07507a9df2a587056f988c7caa44693a118daae6660e160561d276c83482, 0x2c90b4ad79e2316e7986b75730418fe5d2b1f252e77817385d78ebfa34710afd, 0x275fbe17c666f61f6cf5484db2e52083e856c718ff2b8f4d4e17f130d2989e9d, 0x17f57c813764e728dd240398690408ce71dc8adf83e53f5257ac34b643a3ec15, 0x2700ff01dce092807c3f143418c11a2f9db6bee6f478edcf7145d69af66e13ef],
    [0x302a085be040ff9a709ad0c73238b0d1e11e1d17409abaa34fc45de29b541535, 0xf259a3b7e18add912cdcd8674b0f8fa910fdbbfad967bd816b33c778feda3b8, 0x1e43f0a896764c42eb93be791fe26928f91c7bdd278b7c810a2f588268314b95, 0x268094abd638ee0145279900f8755e55e1adeaf2dc222f402d1f08ea4953abb2, 0x2e1bfa1a1aea7b44c84b866d9e7445e4acac75f82e0ea8ab03326214c84faa0f, 0x2e1e2e2f2065961056bb63f04c175c1682eff3bd9073fd7fd76e7df0e8f12d47, 0x3a2adbca7945b9a6367799a20c37944597333320cd815d054a5794f68460c83, 0x2ba338308820d232cdd019154fc49774b0c884c7f82b9aebce6ea211db294991, 0xcfcb2e3744279efac866e0228c1b3464a4048f4910d17042ba1a6b8cd12c8e8, 0x24cb3811355775bf9bbe6431305ffeac61c7de7c629d9a5ef84d960cccb940df, 0x257540e571a74fbe3ec524ff58f183ee0560d506a8d10973d77e54c9d9061161, 0x2652e1e037bffec0d7be1355de11170b7f916d148a7c3ee3ba8fa44817d48fea],
    [0x683e640e6154ef73c3cd6b1d0f0fd86ebf7e292e63fa84cf0a883c2f1faa8ba, 0x10017188ff4a2e0e9b05536c8d07e27d0f194cf0689d834af2be2b93ecf20ab, 0x2afd3c4028b2ada5d194c593bb5e4e2710cc5c32edcd5865b59d4c7ec037e251, 0xebfe1c74eb49cc73b0f6c3f32f096c2fa6288b0a04823e290cd02dfb5e5dbc1, 0x2be96b6dc6b5dc0f78ebf844a52f6c1d50562238dbe7b95c47a2ba4ebc0e1c17, 0x2eeb27f0c5a205ead76c92eed0ac8a112c171711b1d12d1e066fe3527174f6bb, 0x131560b779c80ad8cdd22a9c3ba80290c76de761b1dc6e788f7f9493f84d413f, 0x7039d5dc74b4dd2f6a0701a3179b502b212c3a4503557e6e8af0193f07a5669, 0x16b1fa736396549a38076cdd9df36cc3385540ac1d7e42c79aa0c9cefc66a65f, 0xf5008caa5bdfda3401446482b3ce891ca497cfac4a24ca2571a02a8ecd6e78b, 0x427946475c0460b0fff4ad995eb4a9c608e260007589d7195b5cfb892bae4f5, 0xad2c3c083a08091a9566bf29eb7506952d2ed27eda2fc0f51894b5d2e28aedc],
    [0x1f09f3fb07f7f6476fac98946b7375095e014b28f23a07ac9fc7077144ac3979, 0x2bb007eb9685bfa373e688be53f5d6dafd6f87413c9805d20c579933c6ab1124, 0x2b22adee2ededd40c3dcc8e1b15d38081edf590a9a7ec2eb630cbfc5292f238a, 0x6ac8237c50116ad33685d84005ae724cc52e0ff4ade0d47b194f7923231d67f, 0x217cef9e11c01178da427e2b9f7fcbe4c1f1525d76d3ba7c8850191545e58295, 0x46e7d8895837a4a02894e5d6f3ea8d51adb0ad4897434ab0d0e8079253f2fcc, 0x1f478986f1820203e99247b23f9ae06526a085c84cd31655f82c17037b1de5ff, 0x3a1fee4f5ef14a50af278a0b62247a6669570858ac9b2074df28b0a4e9303ab, 0x188a23c2b448e79af34b9b4866c954e698a6163ab9326f25f2dd746cd1347d35, 0x1cb09fac676323645d322c13c676eb4645446638d83fadcb37c4f1788acc1252, 0x263d998161f060aee0e6bfb95f1974efe466f739715e92c278128c7f18ad5e7f, 0x2488b89af9d856ebc2f9053be37e13f9e1e546146198b764e0e0ed784115d94a],
    [0x598c38d2e2c78dfe4907c74e82325cb191d52608955b583e5826ebebd1857b5, 0x27fe7a3879727f44da5d035c1ee30fd12b4a6d37a488981b4903d9340b67b7dc, 0x11033939341c415cf31321211e351744c0831403f53a65832694b35adfea49cb, 0xf47bcf189e8e4ba1b486290d0c9ee89ead181850d2ff29b97bca91518d8c2f3, 0x53090370cc10eadfa09d586810cd0da5ed707080999f1211f0094108e1b3d57, 0x2e2c801404eebd30297f3ec0ddf5e0dd9c1e0aab055268e647c3fd4712dfc84, 0x203f12fe19f06faeaa77bc8baf4983c763081a7af43dc5e7bb83f789eaeee5b9, 0x18837bc92a8af3d37214cb2724b4c8b904e641660e5a48f79ae4a49a7bc37ff9, 0x9f0706eab57f151b23e4b968ba0b6bbd4fc82700acd601333382757a15de2ed, 0x1e7d6dc15eb4669f914899901e7deaa91d102a4e4d569b40b9a11d1241167ef1, 0xbc8d092c5d38d087f9f34faaecec3a55ee916469ff5e23e619b73468ee8eb57, 0x2bfb96f78ef7fe047373d118c0aaa0140ff43e5dcabda257cde23856a654b6fb]]
  s := [
    [0x2cb13179d6e8a4ad1b9fec37376253cf64386ad905e240575fca86539b272dc6, 0x2e57ee9089adcc51f2ec7d5fc42821e67fdf0a2f3d1add870823002a1e9ff4a9, 0x2346c226491dde21f38b9eb1be8c16084774e9dd941895eb362c2bf763050cbe, 0x2c294fa2466a0a9f1f89b1af5bab1ed3b86a0ea730770854684c754750efdcc9, 0x2519e073c3abea02f7784cd8c841ddcc10d65507cb4e85e8df3bf85a8e41a70a, 0x21ea0bdd27e0b8b71b91ab46798b907ee094cfaca4c68ad81f9c0c107e7a83a4, 0xda23ea74cc325d3922665cba17876a643c4f6ed46f9813ad0f403955757dd80, 0x1207beb18149148fb6f50f1090b05de32ec5d438fb30604f4c63c237a8cc1d55, 0x1c357f783a3df3f09e57ffb971a7dfc50c1145da9f3f67f323b4742ef3ad7f82, 0x234747b2d98835ee8b90f19b5ea03c13baeb410f21211383ddb20248608c5862, 0xb38e11da34730bc74b7f3add58779f2e0bc55734962a059306e4b950276725d, 0x14732e1bcc452fb9fa40e72910575640b674bb5f90353a52356a6133f26cbb9, 0x197d6117415de8855e11099ed6c9c4d76433d39fc7f4cc800d5beba27dc7b40e, 0x2b3a311741f8b94d8255d87810649ef6674c7a6c7711a83ff88f2ad9f7e23c53, 0xaff38c1f5500a4ee4949e5eef338372179779bb29c95142b3ad18efa9e673ec, 0xdd0c48ff292bc764e9fd84841939694a761178783ba99381df579cd3385d8dd, 0x723a053723b6cab73e72b36722bfc52c957f8c7fe0322d77348955575e841bd, 0x25ca5081fcbc5b5d8b808627af3c9494e0ef74245f9aa45419d3c400dde893f7, 0x2df552ff14232529c8216996f16bfab8d5555923d2e4a53706da66f4bb013969, 0x876f56eb6844dda9bf30ab548c8f0b3c4127ebe7fc31e1cb27e3ce62bb940b0, 0xa8f10d1b35ca9268bf4403635f76f1b9ac2e39ef1b5c9e6d8174f4bcf095df1, 0x1212b888592b16b273c55c09e887270a15efdef111fb3f0bbab6f34c4cc24d81, 0x5f5771bd30e0b5160466f322ecc23f28e563a44a80a3df85eb30b2a6da5681f],
    [0x2cb13179d6e8a4ad1b9fec37376253cf64386ad905e240575fca86539b272dc6, 0x26bf7fced0bbe938cd67479fa2f03e67cb8a775892e972ff4ad493655237bd8d, 0x10a49b9136eea6f2c3fc79d946f8b8fd64854ddc3a964c57462ce17262ad7d93, 0x5bc772beda5709a6fd33b3625682927678d5d7db7296f5703ccd7e40e0d8dc3, 0x15d73afa88e6fb1b74cdf3ea97c694ce695fd39695ff3b7266371d1870f610c4, 0x20656f69e483c5b05a2c5e26aeeb9f30d17b01054be5d002b4c312a32df35daf, 0x2629526c99e13dd1862ab8d125a34cc68db0f3bc297d974044668daec9e567de, 0x1e204bb473dc75bef5f17f5f828e521f657d8c58db1f4e096f5046589275609, 0x2a4fc3c7b54eebcd023dd0907ea97d73cefc2955a5a8347bfb5c41cdb10fb1cd, 0x374b0643d980373a12d798e8ce0f9e016a3b3d9c71e56e0b979534aabc3410a, 0x2d54f4a821cd3a86fbeaa914483d0fa23a7cc04a6be217b4144b668ae70770c9, 0x29fcf234a9344cc6a8541f6da7b2ec3b0cdf256408c362bd72048d808e72893f, 0x4254caca99daf3eb34030e734085eb2171f7346ca2e9f43ae8f61a4ee43c358, 0x2b4c8db3065c297d08b7f1cccb32a84a4bbe657c16ab0d9dee4bfe59465030ff, 0x1248ae908fd75fefc42b13be685cade6bc106684ae4a4513ad415029374ae02d, 0x1cbd111af62201c242a38f3a1bd792501cfdc5035c71961c29199a4a7167edbf, 0x2eeba2b31864903d017a3036f11985a8361caf73d4fdb215c5552d9e477a7a52, 0xd32eaed9cd5aba29a1f8cf029d022f77f5eb2011fbd7b8bcf442df70261c724, 0x20971ff3e27ffa9dc609a839e591d688d07dc636d2cc79ce570c2e5b79f63b6b, 0x2a8bdd4b9b1ef96bae00899ca737d2e1dca4917679af1c64f62677d2d626e314, 0x26cfb0174d91280bd05b4e9553c044886e8b8c8b30c36f4316eff726808ec638, 0x29f510be57ad8e8a7358c0697b8f2d761e7e6237c8aa2ee452d645c4fb5f3548, 0x1c1cbfacde1ca981ae5f91b44a95f4252aacf086637ee431dc81a89d4db6b41a],
    [0x2cb13179d6e8a4ad1b9fec37376253cf64386ad905e240575fca86539b272dc6, 0x2b7856136f545d69ebac3c459451f28a2a53aaa144ba679023b2161887ef1250, 0x250c047260e50160cd6586bcf0ea5180821fc71c3788567481a78e7c8b9514b1, 0xfbf82f8a52984b9d4153dd6e78c05163c8d4720915c19767cbfccd0c3973488, 0x6bbc95542ed85d6012d232b16d3d01deca662a0f61bcc164b6554b32e61f31b, 0x28186714392c789ae58ef7134248ad33a5f12470e416718a3354f34056fb12ff, 0x53afba658da76de92084f426da8b4c0330e7725be947aa266b8c2f9c0c55c4a, 0x1844872b8235f851728c66e0b29d5cbf1cd0a0ad5ea4885b2c9967508965c9b1, 0xb09ec5a6d9b68331f53ca5fed46443c6fadd52ea4d9c4640de3fc2940c0deb7, 0x638529db7cc2182751ea21241763d10d34cbc099c578b2603cb0d0c0fcd89cf, 0x5d066dcaccac1ac0448d43671f20833fae00c106de7fe28c9803d7715feee67, 0x65da2f374618a50e6fa3a0164160b1e6af42a76e9b187115b330d60a548b3af, 0x2e202380b8f6d90705a135c42066f1cfb905077d39e7a02231a740a3262c1e08, 0x14570c40a4e7ef1c096e9d8fcc0a46cbde32dbb57916695206ab03aac2e82f37, 0x2d87c245080329821da248b17456f9e7c106ce8a803d3d015a8bfbf952897c4f, 0xda8c6fc810ca1891938b417de296864f3af15c28d6cb1d59e2de28ebd010fc, 0x2018992835e00507a6f2d97c728ca059eb76a7fca5237a36e9aad99a61265cc0, 0x2d9099c975eb32f31f10f807baea25ddbff205c624a66a4966aa59bc8aaae718, 0x298dee77db6b29e44395264887603d287c45850a18582a8ac9bd09d292882344, 0xfcccb87f04870bca6382244b43a0f7f92d336e3bc4d7e7ddef48160e2de989f, 0x1297b03aae9b949e9a5186975613ff59bea3a058d34baad1b3c15178f19e7ffd, 0x893a222f29077408802aa74dc37c833df480b350eb1ae31eb1b9f9b20b3f02, 0x1231b1b0d91bc7687c3813b2da32e7c71fc9189641ea0dbaf1556ead8f36182],
    [0x2cb13179d6e8a4ad1b9fec37376253cf64386ad905e240575fca86539b272dc6, 0x2077a6155ab34ab05777651d0151e0320005731dc875986256e103209606fb1, 0x11a4f3347aa9f08e59856002487fe97a4ac16dcb9a7962d139a3b80ca952809a, 0x146016f8ce100f6cdc37afd22f00aa5359d531ce7179a2fc691fd12b00c12d3, 0x25045870f9da8f4c97e11825c52cf4ce40bca1271ddec4ed01b774fdab83886c, 0x156094487d4626cd97ecebbdcb8d41d7e70f28a6734dd3fc3382765ea111fd63, 0x24ade6dedeeb900110df4f92bd790ebe1514d4b24bc88062d6249eec85805471, 0x12ad265f80d855a7adcc2ab7b6bb9f49b50287cbd36e7d9e41860fc6596734ad, 0x2f16237203d13c693faa6da2d3162b25d0d1be895c8026cafdeedacec7d7c835, 0x1868f1766d3e2f9bb152b15a718ecbab287f6d9cd2e9bc5e66423b5bbc76e43d, 0x128e30bad26f11c3be9a689a10d093822b5d2b920a1b78ddcd7df1a8bfca5d60, 0x2e72c3b1f6bd3a793b27cd802532d2768deb9668ef00490a0716e95431abbc5f, 0xa3e8c07a5a634ea815e1f57afe9494515da623e363a408e505e01471c5a2bc4, 0x1a5c7a54a81fd93762ce79db6dc604f03bf519d683cb2702839662e69271bd6d, 0x13222674c9603db4a5e5a36398d24d77543ac79a4a31db13b48c9a1998046035, 0x333b7ef8d75e61e9f44ff11182db70311648a7b78addfe4f2144291ab5987a5, 0x231ef3a554066132798e544505b11d50106c4406a937c9702c7bde44457d4f47, 0x3016482ccd1ff28db55d6532420e95b9d3c66d1b8fdcee5b45fd94a4ad77088e, 0x284acbcd8d3b7c6e7e7fb246fa9b39811c045820eee55e57e68d7a6cbb7f165d, 0x17751244cbe20f816b7490b7346b8ddaeac1635588b765fc0e7cc337546999d5, 0xe3b27a81103dd231517acad6c69e41fbf488237d0fbee8f0d652ec72bf09a21, 0xaaeffcbd016b27891ec8c80384a7356211b9996a5cc9adebb24700a976d71b7, 0x118f45236c875283cde478df3bd4ccdfed53d087ecf8d85d24bdfdc78b4018ca],
    [0x2cb13179d6e8a4ad1b9fec37376253cf64386ad905e240575fca86539b272dc6, 0x2cb4a528ebaecb5ce5044e609a9ec5f36057185a88022e8340d74cf48579595d, 0xb4aeb2205324cf9c91474b3909faa82059ace7d53f4ece6e91971c11d212adf, 0x2e879ff17f31aa36666dcd42303d4aad9f55bc8d55ddcd7b8c54ef46fbc8e66, 0x1bf5f6555edef79bb094218b0980f27db57f9709b63a9c94b18552be085a62c5, 0x20a3689b70840d755fbf88c8fbe323fa7c7c5aad0e8923a165370511585f07ec, 0x10a50b432864883bf92a5fb77e6003514f43fe4a5a1c070a932dd8340eaee2f3, 0x6162a58c2fc725a6cd4746c8f229a99f9616dcfc54014a2c41e97b9ec1eb29c, 0xa12e5fbbbd66f0de0d49810e948220591fa478abfcdfa1ab0fc5fe861b2140c, 0xb899ccdc1131b112724493af11636d6421db516a59e8fc7f6e8240bd7581bfa, 0x12506c3ee2d15b082a2cf3111e9bca3d255a2aaa48e16eaf5130461f5d8820e0, 0x2135481566f8d976d6c776c65949849e7dc5a3097d8a7570240223569350397a, 0x227608e1587276aed4b92b8c602d81fc32bc957826e2c4c83d8e82a46d8ab68, 0x1f4fc5d8d275e923bd82f8f2fac04f63bba4fc9558326ac9ee895fcf682b158d, 0x1de5b21d942edc83d8c79bfea64f54e681143399bbcf58d4b31c8c9d671355f, 0xc8d9ae8381b7de88ac2894407c8158fe09fec7e372a4548cc0dba4d9283aeba, 0x28e6f24ef229a25016cfaa7e3007304951e75ca14e8eaf7b19c7e1df58033833, 0x16c93e94d5ec1faa31dbe2a105286d839588fd1517dca2e03d6b01d381adb9a4, 0x12c51f2640a3c05726d08197e01fabf7d5da91671d33e40e00f924027ab24ae7, 0x1ba9324d77e86ff6234db66d6183912bfe23527e2c056744231d99982d1cdedb, 0x6616e7b8b4f34595a4591bfac7429663b852e626d20bce6ee7805367987d67a, 0x2b291b00aada886311dbd8e92fa67673a2e9061f87b43a3d4570515dbe9656f, 0x24bc1c978fcf44441f251c075eee52c7b0b733edab05b4d2081a4b52ea798fa],
    [0x2cb13179d6e8a4ad1b9fec37376253cf64386ad905e240575fca86539b272dc6, 0x258a9d2af52b4fefcd409d763bd8e406c4355a9c488878a5a2c282adeafa297f, 0x2fd82f70d05f4bebd46634d329f317e76cff5149a81424d1da18580f5c1eefc2, 0xf4b503f7be48c09319c5a9b034ce2dbf3040873c284ac09f254f5ce86e88f63, 0x276d0381d413ba30b831d3fd4a292440091a1f7f4ff919fca4bb2b2c900c1115, 0x28e661e4cf942f9c9f95c503ad1d0a2d078ac4644c5dff369d5543aa7c48f798, 0x2173c6794694634cce267bc21991598f3debac70920c9d8775947bcbe3f51124, 0xa3fba241019270d5cd8bcb540899795fc593b5dea208cf016a8af970cf7cc2c, 0x20fcd9c08eea8de9d38dd10180e9622d5e7c7493d0f8c511a4d2f9e5da45fefb, 0xebc5296052433f86416ac17583ef06db0b6abd8d47110b6fc40bebbe02ac291, 0x1d76be7dd20256408dad6674c8d0e51d5a5a5cb8fac79067d3796456168d002c, 0xa94d77bf887daf01ce54f21c6891f3a9fe14faec2a1401fa3ee22a0244ed155, 0x1174fd29cb4654d093226766b105e7ce63f0016a0bf790d847522e906c357a86, 0xfc72bc5d051c4abd69d91c14cec4cdc87fb115049f1b08aa482f7ac7d7c4e2f, 0x845158555b18fab6a2be184849b6569c1530d836d9ec37f9e4e14c2067420cd, 0x28220c506fb21d1ff3ebbc47c2c8d766d427a30b53a3964ba575a21021d8b9d6, 0xf45897a8f2b5c4214db423321f9763aa25692e0c05d46e9a45e5253aa696a20, 0xf71e156500b67e356c98999c688c8b2a354d0537660e0852bfe74d038a4785d, 0x1b933d41cac25dfd0de679e86cafc7d13855e4871d9b61e119b04d5199c09f0b, 0x19287775fc90903925ac37f60e269bf68dc05675079d212bfc9faa6ff6a49821, 0x207b6ae3483a8ce2bc1b2f428c1ee240acf3e1ca010f5820b0655c9d8eb868ae, 0x25d71d41264bd75fd50528062bed8223a243f25d2768169b343334d708740ff9, 0x2eac8212fc2ad788f72ebe8710f3c6c98625e52894645f3d714ac951daf2031c],
    [0x2cb13179d6e8a4ad1b9fec37376253cf64386ad905e240575fca86539b272dc6, 0x172fd12d4e03af148aed931034e7060af7b8e8546e9e4e7935a32fe7727ae3fc, 0x154dd36eb45f530fd949b85233eb745aedb76297c33ab036bca6f2eecfa030, 0xd6fee6e12761c3832a48a89989abd5c6ac7a245be31dc258b03c12cc30818c9, 0x1be1815b17dc7aeca4440d5850f787c64f7b251ddb137da5319dad8d9025fa8a, 0x2be2edb8867a2c4cb3fe2653db4b526e7edabc44418341fb708a6620509b8bfc, 0x6c0fe57a444d90391ceb5a94ad1de1443bd026cef8763daace23a3b701a5cd2, 0x1544a456bd7e736ec88816982cbaeef38530e1c8480dc59bb74ce844de7ec438, 0x13dcec7c410c82a7cf03cdf661e4c477cda63b31d34274653980cf3f6f04fe70, 0x28832482d1891b799b37a9f34f26a72a8ba4cff953001ad0581cd4080d039492, 0x1453cd3bc8d13cfcfdb0ca235673e3fe47f91772a386b11b3108faaa8b04446d, 0x2948c35a60690dda3b5dfabbc2cc392c585671d64ba338f5112d4ac46720e3fe, 0x15bad7a6723fea31ca2cfb8b79a656a16e6020406193e22d51897bfa4f5a2d0c, 0x2a3eecdd1a4f9ba57ab6b9d31a359352c49dc129d68d9c509a74af0d1a27a25d, 0xd1a72d9a9f731b1988ba20f99d8b3d81572f27035d9288d8bbd3685b288f94b, 0x2099ac63775453e12762b57075cccfc6fd9574a65f15bac95091dd9475351a60, 0x60d681d211c02f7909fa329f6e05dbe7455ad5879ac8d3d191138b05d207b82, 0xb751b2674878344d13b251440475af9b37154209de0760456b1dadd1bf90288, 0x12c11a657f6024257b1d2e79e5a9b76a1efbc3c3fdfcf0392c063086ac58a01a, 0x17c91cad834837b9a48c46400d3e25e1a9a7154c8fcbe0115452d3d23d265b, 0x1fc3820af6ae6515fde45a315961e27549884e2b367ff88b4ed93ceb05de6154, 0x17a167b5b9014ca6330036496095ad717f6e37a4dc776aab1b82ea7fdf751ded, 0x46702f62b69daf94a105978608dd2c3a8daedbe7823e8f8275c8cbe16a97dc7],
    [0x2cb13179d6e8a4ad1b9fec37376253cf64386ad905e240575fca86539b272dc6, 0x1c44223b01de8fbda664ca95848b813295f013b8c208c88e9947d3fa8d244cf5, 0x25c7179c48928fee7e9caced6240b851052322c5820ba2bdc329868ffdcc17d6, 0x1958a68f02408107fa1e5de776901270181b3eecf421c6aeadc11866a64e2b55, 0x17ad9adfd56f8195f4cd55cc87a833e9d6a12e091b59529d00ce604e99307f4a, 0x5638e90a5883705652412ca5cf9fe315bbaa74743995b600072dd4be5f5ccf0, 0x2467cf163474afc71287ec56cd6d8c6f53479aeb3fa0dfe5f5129db4385e5ef7, 0x23427150e60b6fc48b7c8d5140c07d0f97f81f4397c0959fc851c88699c8f02f, 0x16f925f73e091b1749ba5560993157d7259fff13c2010e4734eb77e7ada60aa4, 0x2dfd7d6796e20ddac5fa12f1e533957c671fabff0c8c74bc5b8ea8ea4a4c87ec, 0x664c8b4ddb68209c1253e424883a0fc059fd49be46a468ffed7bbb2c8978eba, 0x1f3ce48c3ee2922ba46f2bf0ed51535e1d559d223b489bea2989116d48e7bd25, 0x84ae17ff7f684885a4f21d24613d733fa2de7c694722611fc1e86c144618455, 0xae2be5c975fc9c57eeb14791c5234c2f3e74c8ab151d4943fb98f4391888c11, 0x28ae3fb3896a81bbc583a2715c9e2193209c79be2a4e9a894ea265010fdff87f, 0x1a66346aedcb602f39974b69bde3c83fc72944ac6c2dd32a32ea5b3384b4173c, 0x224a43476e893bd20cae3950ebb698bc5594f0f70ec5be20708dc428b2aa0b05, 0x1d78ef43d9271f5718da099a5ad658993aa6cc4e263f0227433c1c0700be9a13, 0x1c2ade57dbe0afc29e9c116a8b52dc653e3b67e891ddd363e1dbcd515c7f07ba, 0xd3432e9b73c810f7b1b013cd2c9204574e75dce2c85d7279ba1ee5cfa912acd, 0x10c5edc9f4201dc2b0366ea68593aa279438745e4e98024b5da5300bbf594f95, 0x1424d5095a3ed3c98e8d59c21743e2ee18e6cd2fb87a4f8fb566a51d550747bd, 0x1ec3fdc3a02833039f3ef99f01c641c62f0f90af4e2d9a961048e9b87698f117],
    [0x2cb13179d6e8a4ad1b9fec37376253cf64386ad905e240575fca86539b272dc6, 0xd9abef260b1cb444cc28166a74e729a2833e12445aabcf151c1cd036d1cb5de, 0xed6cbbab2f8701da54b8b692304d8a4e8cb2e08f655c88924e27f4f15a9a52b, 0x2c637eacb602a657668bd513a7a1007d825cefd98444e38b021b2c1d950a76f1, 0x20fa81a9bf57087cf32bd01facb98697426792c6ebc73d02db7e5ae21b750d19, 0x4f1d239fee709de5b0b5e5d5de370404d7df82d22b08c30e38a7550738aef85, 0xa1de402ccd1aaafecbf31017e71429162b1c6d80579bfdc5b1eff7c48bfb810, 0x1c14d03118d712c8ec5c8fcdc25ec9f15bfe8857749a7d43df91232dd65f37b5, 0xc5e0c42722e6a74e7c9d75d128df4a564da3e0fb809cf7768615a2cfc0e9183, 0x78c4b7313d470130efab6d889ce7c18832e610f66981841824e6f1d812072bb, 0x3668b307c93ec14fd047713c1acdbb0b9248574ee5d6fa34fe883f1c22f3cba, 0x23d9be76930ec686660aeda8b0cf9753e10c87300ebc641ba98e09dd2f52fe4e, 0x29a3b2345ec04133c77316b42130de0131eb92263c4dde2ea07063c5c128680, 0x2094711a12812e287d245d3c3efef7c17f18aa907378ad5060d80712b195d4c4, 0x5c8d6aed39e2d9fa9a2eba112b4ca0aea1afac2c3a68622b50484a2c356a567, 0x15235ad2ec7319fc572119534453ceafc36bc0bc2e4507a2a8ef1f7fa9e3e856, 0x2a25158b0df94b0aa9db35f56bae7b9935418e9d6ae0d7004e23fcbd38de35e2, 0x12db88ed4056400b8f336eb2d50eefb47c8cb34c31708093cd4f7dc30a13e2d6, 0x10f2112348242ce97f64d304a108694283ae8959e5c91731b625900540bed1e9, 0xdeb481ab3456ccc232dfcd50eb82acb8feca59538be59659fbe39426181f3c4, 0x2bae45f1c2ff62e6048fb24ea8b3f732f6ca9620040285b5f89bc2d4db28e16c, 0x2b93089446d7130073970ca2059fb0c06102fc91a6288339b687470613fdbf77, 0xf0115aff5d6fc582b77c744e7a3310f569a0e786e12b526a741ad7e958e1052],
    [0x2cb13179d6e8a4ad1b9fec37376253cf64386ad905e240575fca86539b272dc6, 0x116ba64981344053dbb50022cf797b7cc2fdd015965ef309453d3f249d581b04, 0x15d813aa4208144a30d1b4509db1009a7eea4f4a8ba43145f72a0d9231a45553, 0x1347fc037b2b26fb2308cf417715a9cfe43c2c65f2c71c7bb6c5c40ebf730e8b, 0x153cbb5ae6b6d48a1360870cfd5f5e0f4c4ea591acd14df7a02b2edcc2eee347, 0x249ff166662ab43663e65ec0789c6ba6bf1b8594471a26162cafe6c32106a003, 0x72bc9e678fbc25cf9101f49cbcfc48cc0a51b86aa9d7e66c52897a5d3f5dcab, 0xa6577ae2a5cabf4c9f00eea76f9fc2196288f1f8b3c16d54c21fbcb28a1da20, 0x1c610a46a4eca6c1215870d8d35d92712544192b256de5f82ff6d3cd6eb327d1, 0x2b9a13cbeb3acc4a615f45dcaf18828c844a1d61be9b59201a8fbd9db0cb2640, 0x2ab0560dff6af3c0ff49de6b343eae05c665a0caf15792d3cbd8321119ce2b9b, 0x16de08dca0ad6de9eb247866b16cf89da11890bf1285318b92cf302d8fe144fc, 0xcf760300b2969518645ccbbc9d94ff315b966d828ce76e9e665fafe496dc979, 0x260d564df3dc0db676e22fa410e41794fdde75c4f19584b43650ba909b44ef55, 0x78c91572dd1477b07006fb1b5852ee50abd789a190db81c0c51de867ed1fc11, 0x2280039d47ad466e5af645f064e0c10cf12e92c3d40675008d4c4eb9e873807e, 0x57e2320efb4234e61691c9bb57aeda4fd11ab282b2cda1f69e91871700c81d, 0x22f771ba7d2d275cf543283250aea007432a03973c77a82744bac9fd942136bd, 0xf01220ddd07023709c7b55a1485f0a5443030435aa02d9ee677fe4d5ea0e62d, 0x2e1da930eaa52749c15bb6bcd34b131e7c33ea3ada98437dd9b7eebb22db48e3, 0x6d621c55789875af6fa6645af8da7331e54044a5ba01c54891ba11af10a36c6, 0x1ac30223485713604244857141dacd036ab088f29363eb51c3113eba8ef808d1, 0x24f06bb121eece3bc8c62e05fa6c0ebe28925e2a47a6d16e3269c5984682da4f],
    [0x2cb13179d6e8a4ad1b9fec37376253cf64386ad905e240575fca86539b272dc6, 0x146b2acd097033a165d7525b2ce6ccaab4d541d5ea58e215166d393cd5677dac, 0x1fb587e5904d58efa007310b9d86684fac658ed406c70d0e2af913ea416003b, 0x2ca7217280f3cb8744c3c3824e46c6de85b654c41b19f4b662f8250f742041ea, 0x1ae6ea2012fe1e87bca1988cefb126d63082cb3fa74a717b3008a4026a6eb28b, 0x2d80fe550d7a4f7f67d2b170a430270679f03d119839d9ca72efbb9982dabfc4, 0x137557593958b59bdbce0dc6594c99cb85c80f3e518e99179d8000b339492575, 0x1def05089b4444afbf11ff8fb6e10259ee3b837fd0dd3d9be17595ecb5480c92, 0x201b23b3cfb13fdb40deb239b3ece158fd8c67950c242ededb39540f9d71788a, 0x22d9d27ccfb5d874defd155bdb5e0f9255e7be972f912c44ada9b7a2831116bd, 0x239a279e55c2fd47d5872597cf2ce10ab41dba4cde5bf4cd7fd478342234b264, 0x137724d6aa363143908f50d990be5f70794e6b9fe17beea4dcfea9dc0b6073c4, 0x1dd6e3fde1b84a0b4a9fd1016d1c6d22fa80abedf000368d34d8c069be2fee72, 0x2c94522857162e4e67bfbd495e823aed177c8a5d87d237fc57e5355b177e73c7, 0x183022fedba6c78d0076bb2c2c6bb4722444fe77703e0a6f462dab5579dabded, 0x2252e07ab4d0fcf8dcda2fd18514f0314282297cc99819dfcf0a5a9f35544430, 0x719e632cee131b853c0824f527980bf00f18d8a16aa7f265480cd10ed3428fd, 0x302441b28d3b1cf39dda7be9eced59f318c188274c6adec584737856495fd875, 0x12692c7d7301e18bcff106c275cdd2dbc67001502b21aa890d6bd70e95a76934, 0x1eada016794439b4d460b47956301225601ba9273266a9e955fd3e3c347aa7df, 0x5cb3b0ddfcf2ea8552ef578139d19816d5c3ea7084f80c8cfcc43960ac2c980, 0x13b78f0215ed7f48f40363ea5640fb9a41bfe6ff5044ad3aff51d755d9bcfb15, 0x1b3a63d2f5d84163f48ff24f99ccba5ef05b29ca80019907e1c3a789296b22df],
    [0x2cb13179d6e8a4ad1b9fec37376253cf64386ad905e240575fca86539b272dc6, 0x2957ffc8d1b0a3f2dd026ad7b90fb7eeb555d3772d8f2c7f47e37e913a921fd5, 0x2a1c6c7b345e260cbe11154aa6a062d87725bb940dfe9798e794d551306f75f1, 0x300cad430463e7de043c54011a594b2e5aa9f0aaf6558a5194a68a3285bda986, 0xab63cd76eadd01e944a13e73f2f03afffc11b4823380c6d0f653cf2966b1eaa, 0x26227ae79cdec5b80aff802dbb9bf4e8659ae92bd8a83be6dcba8d5917c4d34f, 0xf30d1719ff31c8ac2175e5fd863b5b04516809e3c7ac6ec41a1a53d866a71e, 0x11c786871cc25ea48df5ad070b2fd3969a4841f05885a80028d910b7b6e6eab2, 0x2c7a714da7b75d6bb3eb16b8d1599f3729105bae675a1924f43c3239f9c1335b, 0x24b7026b296c245b47ddbc1e44492034c4b7a8d35b2887cd539513c5d0532403, 0x2c247c7290fbeec55bc8593b0f859b43451002df189238934b16bf1a20d3624a, 0xb94893f2502d38fdb691bfd23b211fac95d934cf913f4c52eac9999fc059e6d, 0x79b6b8524b8270e480562beac696afed88406015d4419a8ff123329050dd3b2, 0x27e2e1708fc82a7868b3a0fabf059d164ed3dc38f0e6220534928b1cdf59e26c, 0x3040afbc8482759cedf03abb41a1ee858cdf563190eecfb2a24424d4964911b5, 0x1741752784ea1fc7304aca0447b2878de168c87b78e2c3ec32d6805b4d2a41e3, 0x13445ec326f4aefaa2a84547767b65d8884679aeddb391598b219ae7ffd41830, 0x2b23df120933a79eb1feea325a521ba5d53372e29d279a8c32dec33a83dceac5, 0x2c6adf68e43f02f6721d9fd6d19e8934ce3a462ec543ff34210e828239177789, 0x2e9faaed5c26fecc4672723370623d6f563537c06d1e98292134f4ae26f1cae, 0x22c261e0c7bdfb933e808382fd75da681f46d90e703407326630768407e0c27, 0x15605ce70aa2918973c4bff136303580b51fb071d5224a1732c10424b1fc7a82, 0x21ecd0341474c3b4ce81101d267ca95d7cd2647fa4bfbc823956a9e348ddb877],
    [0x2cb13179d6e8a4ad1b9fec37376253cf64386ad905e240575fca86539b272dc6, 0x2932e8876d985ea09549df2c64e8097d85c3578aa46adf5eafac039999835c5, 0x2c1bf660a1dc8b26995b0e78875b0c28de9ef7b591fa2bc01a15ce7729b9ac5b, 0x1e88f3c4efa334fa5bf313a919c4de396bde82e124f0002f1c00229f8dbcb67b, 0xc774d6acb4fcc45b139d92323da82304fc4e29a919c9468746dd20a6e03fced, 0x17c11174c9104e2ea1a374b75bea6925ec45a1d9e5293741944e5359d4d34408, 0x221f6d3412048020aa832d764a5b5e80af3b014139b28f06920cd3a3d3c7b7b3, 0x2c0b403d133861410859b48131001ac956fe4c9e5a368d9c3f085560e5d37699, 0x1da9a5cdcc8d5c8e8390afe24b8d801bb87b9fb9eed429aae52aba17570c9d03, 0xc3e382527280ac6525b3922388b310dc9864d9fd11815a2c94f7378f3d52f53, 0x2e733c656ab7308a5f77b1747c7c7562f0b48d9bc42b4c1392632840dc67eb83, 0x5500ca3eb4bd08bd91997d4fc698fa050d5d80d881f634f84feaaac57b15b2d, 0x112aac301ad5ced619c2925c297d3387bd0690d0972aa21f88d7437f42bb5cf9, 0x273c9c5526da6130164e2360c9cf111e2a1fb2b5f02a5a463c6c64d55a6c4760, 0x5b30e5e7b01d8730fd549eef232bd3824b3a670604ccfa2407f2a63eab5f5f2, 0x26e905c3889e46597070e8b67d4ac9ed44f5a89d59efec7add002494da376c6c, 0x3a4bd09500b265238ee8fe2cc149e058d35559d4af804be07119815b5b98960, 0x301e86bf4790028b674b2497deb4370f32b2410defc6a4f3ef6e500a0f29827d, 0x86d71db143455444d99b9993964b827cadf4feafebddcf019c278f32c8114f5, 0x174ef177c132d7a3e91f02639d7dd88248435018525f095ef18cb846bb060e62, 0x57af114d2416184735fcff06d88e734f7d8d5dd412b7c407bb3a0f09bc2d44b, 0x2cd21076d55f5c9c8c3c3afbf7f0eb2faf05ff80d267eb692d93b8400c9b5fd6, 0x1ab2f05ede0b3e9790517712ef714568d570da3a0833f8e8317c1644264ce97e],
    [0x2cb13179d6e8a4ad1b9fec37376253cf64386ad905e240575fca86539b272dc6, 0x134ff00b65e9a214f19212b4750781ba3dd2e28511f61cda7a69553bafb44dc7, 0x144774a605bb8a7d11b2f8fbc2a0d05146812a9f1d03c4be608a544d18ad8f6d, 0x2f1de3b0835804059ddeb1d93bbb9821f6e2070365ff34da2c43dff65d3edf8d, 0x930a41a901ddf9dc66d27b2238016500aec43b06bac6e7113beaff39df69c74, 0x5ea98895839deeb637c0693c60994afe4950a088d1005946b20c25f48b1f4a9, 0x2b2ad0eb96fe5e5ca0062109b8c535d32ba984e38547f3d1050b72526884e14c, 0xea3a0fc0b46da189a9dca213c0288e3369573fa66b3d3379ae56df2a25262f8, 0x272ea64f54ab3526e4679a0d0982560233af7b7f2e85147a86298fe62afb073a, 0x281aa6e665287f9540fb2f6d13a077d52e145ed62b38c64899b92a123357c089, 0x2a432fcc6ed2fce50bf214a31f9546baa2fe8fb3d1d00145a7fca7482ae2c390, 0xa9809138f12435ad1150f8fc74d401d992c42439a44ebd122991bece3824ed3, 0x109adc1cf8528ec8f537cfe978e320e2a4027abba83a3781aee0b88444805154, 0x979b7716c8be6bc4091a376ffd1fc1313e19f3266095bc753da2cd4df883ed2, 0x163c946685c585d46b6eb8a3edaf018353549856ff6ec0a238f45a1f0d593af1, 0xd3d1890201c5bb1a7e40dd5575b4267fad63ae91f429efc5f57f52f498f4203, 0x1f4adf58a1ca1586815ac26a76d8d6a25c313e9b2b0ac7f830e6e1e0cee2dcc8, 0x2916cd6ca0ee56ce79345046ce1a91a231895fe24628a840852474b240b53459, 0x1390ae730e0297f1c7ef2e27b3c050d6713015a40370d6a281f1c985dbfe86f9, 0x2b747562e4956de74f4b115e082bd95c00a7e2a175255c7ebef7cdc70598de11, 0x26d57a5bdf2b1da9eda88e856c4909c4265ea86d8b7f630caf123aac328e0207, 0x24410235e3faacc2da4215b96ccc5228faf00709dac6542f589409ee5d833901, 0x2bb0d85f9daad9891a6ca76117c5912a19e2b959f03e59ac52ca61c6fc90bf32],
    [0x2cb13179d6e8a4ad1b9fec37376253cf64386ad905e240575fca86539b272dc6, 0x1c53d25cc30ee67b9ca5de92e574ae8e006378568883a35ec673078c5cffffa3, 0x15809370254e24135947fa4d4c9bb5366a809244c42e44d58ad51041ee0ac0a1, 0x1c7feb95c74dfad69a598a6569b5544b3138c293c78957c281e16178dd4d2ffc, 0x7160482689f59cfff868ce436b6135ce5b8d2e15aeddfad236cbbd174fceae6, 0x1e1716d8a49f0c324485bc3adc0f6a47ca4d7921e079fec272d79aa4d4f5036b, 0x2234e7ce1e40056deb62ede7b86c7f6482f7a253ce49aa78aa5c636a5f0f942a, 0x1134d89c4cc64ecb35202fc26b51689c745b812587ea60ae3e2636908b428a0e, 0x13c6c021a7904ddd8cbf3d0a7db61e044403812726e369bdb97ca31cd05142a4, 0x1c750f568881fa07bd9d06cf2c36356c5b824b71bf2060b763fb2895667b54af, 0x8170199a5b260bcb05638100428def3df9efdb5233441d14fc219c1bcfb0a7a, 0x1c0bf7af434ae20e594924e912515bbe260e21afd030f32eb7b0bf5cddbfb1e0, 0x1217414da7ee96629d16d8d7b906df0c15bb7bd5bfa5595974714aed8b3de96b, 0x19bcebdd18dd8cd827850f36a3f6849dc028bffcc10fd5864c0e37c50156964c, 0x67a8b7fce532eaaf198ef0fd1126b45f7d0aa8645e35b0331d7eefdc9c7b364, 0x2a92c17b2ba923484475d4bbf164caa1a8f16523b6a23b2dba260d7178530eae, 0x21bad2c773c7b349b2930be09781138a061c06f4f06fc38e71332b942ff2939f, 0x28d0786689c5a9bc8c7f2eb62f2fd0b21d776f3cd74725c0bc2aeec801048801, 0x222cc9d34695b0088ad166a5defde21377627fdd32b789575085363d6d5ef907, 0x2a54d465647c8ac5df86ec2bac782e9aa560977f7fb60b87ccf3cde01e40ac60, 0x13822f37a288f99d881dd1e6f6df9a8ffff482f84179be0924e7768d678a2a90, 0x1792175406aa3a9e7056233f4a70042e8226c943b7aba99805727ff7a9565071, 0x80bc46879014fd6b55a3e4d7698925b2a6710b7a5478a51292964f64de1d762],
    [0x2cb13179d6e8a4ad1b9fec37376253cf64386ad905e240575fca86539b272dc6, 0x8aeebda8fdf99667caaa1b7f570e579375edf7fb6438af9b689bfc12e2c8ba3, 0x4b0ff272995a13fede7f4465a2f0ad2134efef55626e1824c08ed67ad981bd7, 0x63c3f451fb64fd5e95d21c8eab8fb98523a716c8f83e0f764b41a8e731daeae, 0x1928de8cc64d6cf21107045a7fcc4e0cba4706e68cfe779044583f2aaf6e885d, 0x1ef2ec873dca7eb1092b1835b74cdb403726d8fab6cbef50b231df9ab87ce725, 0xae02db0ea401b8a1c747f50e885d087eea93fb3037870bd36b1440d88995031, 0xcb7ba6cb4e056aeb2bde61a38521aeadd877772701fa572fc77915050db758b, 0x18e89e7317025644f8043265ce00d61382467265fa055598066b9b19b47653f6, 0x167a003eddaa7d10f96e547b66cc2bd9f2ca99d267e011fc69669f71d0b71fbb, 0x573cbb272daa570f35256fd3826e34c3e2f35f300adea697a306f914db7a584, 0x7fc9b6fdf58ee181a0141cff89e34513e7b4d61e01786c176dca84b9664eaa1, 0x2b3af74c7a1c0f396429f7e2d70e68b014b3a268d92897330cb9fdb1615674c6, 0x22580eb83a854a817e4277e8cf1a05f663d198c0b2b6458fa4cc45120b48883c, 0xc03a653e7e2061d62e638a0931b767a550722b318ebfc8bd924b22c8a009b40, 0x1f0f1d34546815b4410f8ddf67bec129e8ae08fe617497a70e85b80802e0557b, 0x1dc998a827321537333b22cdf7bcf0a5fd9a72cf9ed9d9e05ca82df4105c02f3, 0x21305fbed36a0b611ccd7139a48b7d36985041687c4b76483eef93d98e28debe, 0x19caf75550855e1b4d0e580444a73db1d86d507b72031d11925f33fbcf7e9f10, 0xfdea1098aa89298d72ddfdc5a47c8f9141955ff5a612b4c52ad3ea0461f3df7, 0x15e15542d8176284cb1b007f4655236b1f6795f045634ec815fbb5f842bb3c64, 0x24b51f84f0737f35c038d3801de3102fc32dbe223491c5367af7baca0e933482, 0x22231a672bfb82faf7b867475382c2fc174937b53ce765f4b6fb9737177a0ecb],
    [0x2cb13179d6e8a4ad1b9fec37376253cf64386ad905e240575fca86539b272dc6, 0x2020cec5cf125567b97756ed7174259dec539b4c40bba51bb64779221b4bca9d, 0x16b7ffb1a4af4b1dae8d82824c542e81b7380efebf3183208dd87f3368f2cd73, 0x29474e7fba2de80bedfa9f2f8bcaa38e6b154ba2da3454fd1436fd5bacaf2bf0, 0x29f55a4fd3170647fad71cf38c80c4cf8af0b1039acbd193732ff1bdcb049368, 0x2383d1015508e17fa9ff282c175ea5ed655f74bd5793bae4700459b5600cceed, 0xb21347d3f2e1ed0ed02262545a6aeb4209b1809b132f7f1036af67f9ecc114a, 0x1c3b4d79046a0030b73e4ed03746ef2898778560012f14b8c151f4166e0c9cfe, 0x2bbdcab9bc95ec1509f2aec2af8b117c34d8d8079173cc099e658c863088aad5, 0x32c3e39a7299f29c816d761fbc2abda28743e917547eea1eeaa75975b22b7cd, 0x2402ee3c6cfac01e1fb6551c34b1591e2b419d4ec69a0a9f1331cb546c31dfb1, 0xffbdb63b86161ab9648a7bb7e5c25d1541847070efa58c6240937eabd05acd, 0x2dd50132157285954cbfc6ec6f2e73b0d1218c699a07fb09984690d0fc8719bc, 0x116fcfd48ab31fc4b622f442566be132d688edf27d5337fd8afb80932769151c, 0x2c3c7ae7989bf23c86279e146798a3ecdd80898acbb6c2ec1f716eb7a91b017b, 0x2b7e60fcbeef2020823e799448da1cb0b866d776c8f74c031de2f5452010186c, 0x2b4a3e4a2db9c0cba63a23100fe5b9ad29b63e1e004b40a16fc00e20a83b7d0b, 0xd1527b252bfd505f375cf86b9fc95dc55fe1ca65dcf37409ec48da8b1207735, 0x1b0a396a158fa717511114766ffadeafc6cd82b72390aa908e1c5b496eaa2ed, 0x25b7181ae26411c1705d3adb389716b615f7c1bb3051ab9b9af4df76cca672a5, 0x1ce6e261ad4d6353538814957c5184ff343521f18ed1e8ac24dd380978f1b1ff, 0x2114b703153c05d8a458b86daacb8a1180a0e0e06313c69f0319885218d57254, 0xbba93da8fd45f0232aac88e242f83553799a5dd893a27697169d9ff3f628dbf],
    [0x2cb13179d6e8a4ad1b9fec37376253cf64386ad905e240575fca86539b272dc6, 0x234620365d9e508d8b7a01a20c8b84cfe78734bdd7a480a6f3c0270be6c9e031, 0x18773402938384bdcf3ed2931a34af760d3401e10cca02854081209ca5bf9c71, 0x12f489609e827ee3dd6a53036f1f8fb80243c0ba7ac2720ed6997504f7f50d3e, 0x98af099212892af46e34cedbb21e88b9184ab2fccb8b8665a5324601d8c5909, 0x229c5955c3b6f26373956d4e3ddbce6c4c97dbd1382ed1c141c6c6b8cbcfa95f, 0x204c3dd1c157600ceb1cb55072ee278292a3003a7777febb080a33168f4fd9f6, 0xfe2cb3ac38a35f9d943e20a4cd370598e5c1b128edfb9cb877f2d424cba56a7, 0x2ae0af8492610bc178f36cf8887b6bc86f02da15b1dffb674706df0d9b62e9ee, 0x1ed1520997dc0364683540a32fe3e4368385d140b61b09672ff0e0bc2b398115, 0x25a0c2f522b7f27667a93c435c2bdc67d575da8a808bfdf2a43558b1eb12d9fd, 0x24d9bf46734bea252329879adfb65782fa5c6809a1520a3656d7f67331348d3e, 0x2b5277817669cc8df0c6b82feb1587ed59210f1414ae609f40def4c314d96e05, 0x724f33acc2c20822fe7f8d3d1f0ac39b2fa1025dc18dccaa4b258a2654e705b, 0x173f609ce483747dc7ead26598dd2227107af0521fcaac5efc2bdc3f48c07c99, 0xcf0b2b3f0ab40d718173aad7993e6213ee48804e3e563f0e531e2c937abdf9e, 0x17ce34f45aafd638238ac5846997636b58aa04d76b4b0bb46aa0cd078ae14f8d, 0xaf51c9e93fa5991104504bba90149228d64eece560e4c8bc2ccf1b943cfa761, 0x67a323bab4f3d03df325818a393ba5dfabd66405cf74e65e9dd52ee2d8fb197, 0xc3d3445a27d7a042fa2b4c5e2b5d03c1332d38bf26a781449325896df57ebaf, 0x1b5b3c710b37f195824a623712b2104d821ec8d859940bf0d27a3c50faa2e886, 0x16fbcb1c414031ba771845e6f67151fa983a4e32972031ef813e5f43ff3a8cb7, 0x2dbb1e93d3cdcff3ec3bb01debd9211951fab454e9a019fa4658a98f148cc8ff],
    [0x2cb13179d6e8a4ad1b9fec37376253cf64386ad905e240575fca86539b272dc6, 0x1f580786a86e622d9ea1bfd87c2d7a3a5f19f25105f0247f08b0e1ed89bd9dbb, 0xe2debc6417cbce9356f75fb55b7ef0347205dfb84b5b0de2c02f4e130453c16, 0x286b399e2ca189612a8d7dbbe938a61a273025779047f72ac5fc902847dfc0fd, 0x13144b54692e577de4598ca0783dde7af2a3a81cc5f0030b6c3bd92d3bf76dee, 0xaf7247e59389d0f9509b168845f46a72b4474d9ef66dd7e35f58450fdafe9ab, 0x18b3c1a2e20476cef58aeb4b8ec1820d80c28a5309d85f974fa62a19d262f5b9, 0x22d6ca5d958faf4940b74e3f50fe6eef888799302c7c99399331a9db0a9dde32, 0x28ebcdb416210c7ea0a9c44cdcc1763bfeed08267cc7a17a935f0e75dd6beb6b, 0x264522a85698bf1cd24c21e937f975faa4cbfb3534cdbaff55a89a17f947aedd, 0x170ca38dff04f179223dcbf96e15609225436e47f6aad10c21059b549b8ace87, 0x1980e8052c47daa2a7eceb160ba3cb93291acf7b84c3a1b83977766d78e7ca83, 0x2ef55e77f32308739f0831d0a98f7a6961e4822e53027d86a46aa9c9ad39b64a, 0x284ac526379b614a14c7ea0567aba7a459c269c32fd5af192240c11103a308c1, 0x1d5a978ae2de2380a458d23f2c2c1f7bc1791d4fbeb38b6c7a356b6f033e6dc9, 0x1fdd8752355eee4ecb1e8924b6541942da0c3f56e2f6c12e2ab75eebfcd1bd98, 0x274b47507df843c5fd2f4c823c4c22057b76336affc6631035f28e57f6a6d387, 0x2d46b1ea87a9f2ed6d8665f43aa1b4f6fe399bed08d9c77bd98e82350be3f379, 0x21e50a36ee2e6ed562fd73013bb2d34724b4ef34525c51931610076b81d49eca, 0x2f0a7fda21c19ae55233db913f1dd886bf71e9a0fe12f425d479f462f1cf4b06, 0x2dc7e716c1b4d182cdb078f38ee7148f0ff45a65f7f6360a66d6a29fe78172a4, 0xa24d8de1362fe9f8f23609dee59bbb4230f39236e6729ffdd95bedcf8f404dd, 0x2b1c087ce01523c9e0f97d81c67a77014e6f791a656f8edca33133fe9206bbbf],
    [0x2cb13179d6e8a4ad1b9fec37376253cf64386ad905e240575fca86539b272dc6, 0x243ab6d29d356d147b7915a7a11f6ef485a0f3ef8d003ac239c0a926df820271, 0x10f0ea299cfd16da7c54cf4315a4bf993f6c8ed21e1f1b629258655bb569f3b4, 0x1057e97ac983fedfa508de5e9055c24629b7faa279f1e483a2927e621a45a16f, 0x13ecb96925a985173e792bcadd76dbf62657e8aee6e732e1fef9ceb1d86688be, 0xe6f9b2c64d9d97e1dcd59691a2944c4e610f2c9361a93284853c335ef448b93, 0xf5130dfaac7698c83247ab7d37384c6f4fdea4c423691dbc0466cc847d22240, 0x719c66d510d88d51a80f22c9ee06cab506ed395847532f0b0aef79e94ff5c37, 0x19fe7de3a53de3d0cbfbbe226c6d9799cac73c343bb7f652246d3314de2cd748, 0x1fb5113860f9c3717742da8ac8dc02d3d750447ae00236789ac400ab7b0a4a5a, 0x28637c9718b8c1053ac27e6ccb68a14daced5c24c3932460d23aa40fe066611f, 0x1049f5f885c559fe26f7d811c660cc9c6ffdb5103dd3217111b99808a28a10ca, 0x11ec2b02d176c222bc479f6fba4e427738b96aca1b7c3aa11db89b27ae10f0e3, 0x194af56781953f69e1b00c8040eae1bd59b4861dfbb3969d8161d77552233c16, 0xe752eda03c9dc685060d7d0625d4882ee9ccf2748929286db03f0a453d8c21c, 0x1440c319ce47daf613542b6085053ac22ace7246863f49df6488292e7bc72a2c, 0x10cd79d6139155e4208ddc71ac9646aeb4ac61a3eadfaf337ff97ed9109e0971, 0x2ef23590604b7f057aaa0583333f5766d25a43366d99ab87f9e290600b3f749, 0x2ef2c45fc47b175cb8c6e23c2cd7d26332ee65470759893d167772f18b799f97, 0x1e769953c74901e1cd39e0a9d7ea12db105fa2a0c3fe40cbe36965e11152482c, 0x2713a7060c9901b904ee4efd31cbe1bb0ac6efee3756d59392e8b594db57a617, 0x15b3bc638f4556ac765e5c60678b18ecc5a7aac5bcabef247da9cf116cf4249a, 0x1df44e6b43f51e3a708b7b6f7a05c67e7817d8fe6f36e357e266265e3183535d],
    [0x2cb13179d6e8a4ad1b9fec37376253cf64386ad905e240575fca86539b272dc6, 0xda3ee283edb0e4256891ac9f4166ba14c17436c1ff8b6870f6dea7962f36c3c, 0x2eed5fb764a1fa6cd387d19322790c87a6b6a0b13f832f24f0fa54f36aadc0d5, 0xcb9fce02c3f2f82704477407a46991cab311db6e12f14e388c2a4b6093de75a, 0x2eeba73653edce41cef62722997e5df9d2f76d799cf112d29bb5706a6eadad08, 0x4318c41475504dce0c6bbd1e76fed829f7c8a71f1b02f45eedf5c3a71e63909, 0x2a094657153ecc1710c0583c1c3b7e7966e67057c8faedd408e505127a78605e, 0xf40aee2532a088cda6d1b13c48569022dea6023f85231a5544a9e6cc4edcce2, 0xd97ae723214277576911235bc25ed81063fcd21b59e6279275f11f57c054459, 0x82f1e5e8e5087c1aefd0f4fc62167bca4b73b8009e3a67e07cefaef1e475cee, 0x284f24d43d09bf31c1b59d84a8f2ffd8b1b903a2b88827fba8b02468ff57a971, 0x2b6538eb36991fc2429f8c38483f7d4ae728b7e105b4ac6bb449258eb89d3aa8, 0x82e7991093e92b53c575b9f51f8bb8d1d2a405bb94359544a3106e033b3f2a4, 0x288593b3cdd201b3f6ee7d9ff217e0badc9dde2bb6ca2a63359ceca59ed12d81, 0x2762b0c05f66a7d3a2c4b46f6da9e207194c32a91a15d0c8c7a8601874649bd0, 0x20851ccb233ef814435570f9435eaf7cd22baf2a89720b4b09d035dd42d0305, 0x1e17e4ac7afb5980903d9faaa355d2d4bc00f661cea435cd563a0c08d89f52d7, 0x11c64762f6e40528ef5f60c4905cd442e137348737ff11ef9fe186e85d88cc81, 0x135a7893f0df31bdb093e2f1936efde3bf6c80cded53bbf23842d5cfa739c10d, 0x670c942b19efe0e24ae667f88cf25482988d4fd289852b59c7400bb291fd22a, 0x2feb899196016827ef03dffaae29bd9f7df66f312f728ac0398d2be90a10c46d, 0x23bb8acfb809bdb5ed2b2306e5870465cd881e8517cf8d60b6eacb23993ec19d, 0xa2f66d3d56165a8357ad4ede386e8bd3d2c1a6a51ec4a928d02aa9cf2c94025],
    [0x2cb13179d6e8a4ad1b9fec37376253cf64386ad905e240575fca86539b272dc6, 0x2621d53d90f51a97a82455d448359f1f876b08ee77917e55298b4a4f7f2c80c3, 0x2e1713aa13a1ed2a7b57ece72d5599b6e239d5fa53866e407444290254f10515, 0xb0e3135b9a9bb3900a312bce8cbfaa6bf7176bf09974e9224d63f81eeb9cdde, 0x1b37ec261be552d7f9cacbdc0d0f22ebefd7c123cdcd54a0b493db30a65359fd, 0x100051565c2e4d9fed118b55fbef6f060608dfe4555e486a44e6971696042dd1, 0x298819bac61778b218142e4fb26533f0ab1f8f40c8d8070fe2f1d4170d93c58b, 0x2cbb90e508952c4b5ed26079f85f11f3bd728140e3b8cb91c1da9152c8a82560, 0x18e9de503cef0ae3f8901d7d9004170e4661e3792b464e8d7e1a7c7f8bb17091, 0x240a6c59aa72438261cb26070ca93ef35db217770a207e7cd9af3a4df60768af, 0x1c5c0274172befaeca201df876ee39b582fa848a0bc9454f6834b073c4ed7f73, 0x1dd2fcb227876523c5d075aeaad2df556ca76939be98462768f94940ca73028d, 0x1e0ebffd9567e4222b322bd16275af85e3a09c6db8f053a7027827bcfba8a0ce, 0x549e3fd2d8b4c8f5e1f6e5ada4adc3125ece6af1041e4f297d14cc80bd7a865, 0xa43a7e3ba83061b5379f61580f17fdb5068f57a18cf3d8f4431ef14a7fd8bbd, 0x2a8c713fa0bf5e002dbde544aff988ed8b347afe2b3641a08eab979bddd4d2c9, 0x307b423ad05a7c6c5a7feac041de1c236cf3db8e0da46368ab0a5113dcfd4d0, 0x1202dca5513d8609b3e911ffc3c1f8da4138f56287f2837bc1f8820469bd5839, 0xa109d2e7176796406f7fc25caf837f5c8d2306962baca62457fd49673b0e48d, 0x2158fe72a1672fc1b0aeb56bdeceff410de2a404c9f4d7a2e39c4cf0800264d3, 0x5e83a4f3ed30f863a148e66c1771a4634ed52e73dc1f9c35e479744dacb7c2e, 0x15146f0169d0dcb2e678a62443c00442cc342091a6d18a293a17882adaf6f146, 0xe27f3790482529695293a0defd1f44495f0adae815cdee0d3ce9f91512c1be5],
    [0x2cb13179d6e8a4ad1b9fec37376253cf64386ad905e240575fca86539b272dc6, 0x216bf6d0d240ce8a0b430f85259b74084cf9f998823dbf13091042a32b4ea56a, 0x177227662dcc7ef354ef41fdb3f234ad93e7b70a6550e09be2c947ea462597b0, 0x1864bb94cc95e4e33b7673809909ee3a156c892cea648f047f2864db12278e4a, 0x2eba9c8ba56d6b800654a1e805d403bbaf22af7ff1aad92ab7cf420c129a2616, 0x24133306f286c04d2c2e174c0cce34c64c21f81e0df67c2593de5b422dc1eb20, 0xa1aeba71ae73f2846cbd57f9dda3c3e24b82291d22108a6a05a9c06e002b8d5, 0xd2d0af3b16bd738a5e01bb7af549f842a2a9f847063845d36d7424e1d2bfeac, 0x8e4a4d4fb97473cfd880c9285028c2883d6d08164ae7db26e6900b532e848d5, 0x2b2ae02b9d6d53220998acbb749c29f4476c9f2cd34b74c66e4f2c4abaab6520, 0x1fd0ca0b29e63609c2f6a3150ef62616a5fe2160266382030e48b29806298756, 0x11e7f1f91826d815902e2d9d79e027c44e78197f4450cbf14128d704c2dd46d7, 0x25ae141d31ff22370a99693adb350858a307e1fcfb60fe175a3279d99879e2dc, 0x13047c24823af0bdf17ccaeda371552e8834990abeb7ee7a9a646aa7bb9f4753, 0x266358e11e5081dc2944990007644733445e90ddab20cd50912c06cf1388e92a, 0x1247a2077d577a1ef6f0aefe8a7a2df21828f69c44bb89b6ae70fe9c3ee1af91, 0x2c338524f33f321e6f2e5e420edd47f14caca5bfdb7d3e065073b7b20d2814fc, 0x2ced7c9cfc6cb9727179bfeaf0ffc028a759aa44e97257f72c3467f9a0974c26, 0xe633982a359333b017dc5b4e683bfa274e74153f4f99d639e48de02fe239c9c, 0x2ea0bf1ed70f15fc196a395ac836e6a579d4923fd13be32b1416d351a05afaf6, 0x238f38e3b7a1d517e00c666c6670c099cd2bd7d8418c55facd6e511ea37c64e0, 0x2da765692bbfefabcaeb0dab3ee18797ec0032c1feb257983ce753a8f286a75a, 0x2cab9bc1d925ca3f6473d56a4c57ec136f52fcf02c9ee0e25ad07fe24dc281d1],
    [0x2cb13179d6e8a4ad1b9fec37376253cf64386ad905e240575fca86539b272dc6, 0x1210303a7705212e81f926482699c6d6b6aa13ba342f4576c873ce976435efe, 0x2e1fe52ad49d5b2cf4c43c7fd551fd05bb0cad132226c92b47e4bd24bde2852b, 0x16e6198e30d06c12d5535709100d47d0ab174704e4953b696bdcb8318c78d80f, 0x11087fc4daf5c010f9ea8b66e2f01e9032597965c811afb9ca9c7004e01a7eb8, 0x268cc3c909fbb19b2d737b0feb4aaafd6a2c0f0da4f6b391ead88673c187e8bd, 0x1200152bacfbb5e21565b19d0e6b47ae2714cf2bd9ae7038fe9132879d4b4688, 0x28db252e756f0ffa83fd845fa7d06ebaa301d37edf474a3b71f60539a630f59b, 0x184e95906f85e4e36b0b77e9d862fc27a56ec38c3178f8904851700c703c9db5, 0x14d66e67decb7a7f74926f2d5ec6497b965b4de941bddbd77371a3da470e5d96, 0x12a5b346904fd63b6c52f603e8a0c351d2284ec345e50518492ba935b07ba7b9, 0x269094e291d79246bb735d3c4a3df2ec9fb60a6b2f2340e63c91cc6d5dfb083b, 0x13929b4087a818cd5f602ee40afecbc30ad8ecb2b7677530094d09309808ece0, 0x14f878c52f6d09cc1b32f3ceb6f2459a5fd6668860b945b74457d819a6d18757, 0x2d91fc38379e50d8addc35fdfb88d27e100837e513f329afc4fc9cbc6fa0140a, 0x27b4dd2629f029c1ec11bb5f235252371947313993a0111e4f5cd14d47b505b8, 0xfcf71b4f58f1e845394800f32015de09e4107ce8a7bc786810e3cabb67d5d5e, 0xdb4f212a8d9f8036174d995937618dc8074ca32f5ca1bb537fbab6898dc679c, 0xfa6cd0c9a74c1973656d44ae21323b5d29ee26065906f0747bc3364d9fa8ff9, 0x2f5d612a89e3ff0157b8c05eb81cdb030b3aa80728ee5f2b484e027e9d7b587, 0x12bc2f8ea309d0aae7cf1fd15767dbe97c288b2d72e1ea489a383169d7e5cf07, 0x20e5a78984a6e437e16aafd2e43f119233b4bb35cfb628aebcca0ab3b102b4c5, 0x155ec9570cd3e503fc1c73fabd38c4ae24d31e5a38bc56c992b5817c9a58c18d],
    [0x2cb13179d6e8a4ad1b9fec37376253cf64386ad905e240575fca86539b272dc6, 0x6a4859991b82108283b6091195b9244714a1997a97833c55c4e15c00747f5fa, 0x1a17c910b931d2fa7fbf8d41a1ce86a3496148f0a62cbb541a94310c3bb931d6, 0x13c27123ab15ac6f964022f94aefaa51f07391afc1095d7480acffec7e9cd6e1, 0x171c742bb0ca2a0282f5fd7628191e6ccaf3e32c38305a00f6593b4fd7527f9d, 0x16cf4b06cbdd21c5afd1ec787847f6956fc45cec34e95739af5ca67c27da7729, 0x11e51d4503b1aedbfe993befc9c8078b70d4db75556da4942846d22f217dc694, 0x8afd62076c7f946b4dd61967b32a6d09e794888c2702acfacead811a4fb4846, 0x4158c5f8f1b10efa12aab63546ffc8f065ade0bb494a31a58391c41f62fa841, 0x2f87837b6f5f2807659ec7565173893f91a4ac26b6c2e26e22d09a417309dd32, 0x7c728d2e8d95bc8842ddf8db4c76412aefae425c2774ebdba4317ea783345f5, 0x1455d8963d76e99083c896bf0f68f63db992b86a913f3b123a98889fd61a3b0d, 0x8b4bf22aa0e03b5f857a51c0e04b64565f59c87efb6859f8c7169dec09e2841, 0xed823b8b9d0f2e0b0c6aaaf3e5621308414d4be94ca3ccbc6c8aa0ce8e1b4b9, 0x1642b64b6547c137ea9d16920d1d4273ec49148369a457cd28f73cd9098ee6a2, 0xc9d91924e007af49ba20f16356373ae9cdd408bda9255583e41c1079c5c06ba, 0x2f1518b8bcf463362e1e927f733dedbe8817de8dff121a6a5527b33e70778ce5, 0x2114e089d96c5a4b64b2a6ad154fc6880bcad9eb3e8cd1d3ef980efda445281, 0x1abc25ed5c0fae93b3813bd8fda0cf773df41cced07a8ab762fb36b6564922f7, 0x2a5eddd216f0eadc4c50a2618f44a4dffd68ec6af8f7c0bce1a45894e6cbc010, 0x75e0d34b920790fbbd21418ecb62663464bcfa06db3581dbec635c8cf864ec9, 0x27b7beb430a31d0967dd287dea9fe9d0a16def46efb5518aba65fa025d82579b, 0x270bcb008b10d32d8b92753219422002494e30327ee71b2379b09d5a8e519b9a],
    [0x2cb13179d6e8a4ad1b9fec37376253cf64386ad905e240575fca86539b272dc6, 0x26c4a3b0ff9b7f29c97c01b4fdc65d8ed1a07717da9b297d3d2a855fda54bee0, 0x2c6dfb52d9648d18f5ff9db4e213c6c94f2fb8151aeddd80a1cf95df1ab4862e, 0x2f7b7e795fd4f392f9810877d44523a6fd9ca59bf9f6f15502f4449b6fda8c85, 0x5722aaa2080e70ce91c67932130feac2c7ce93eff67e453c4a10c7923d8282b, 0x305247769dc2fc18b8f32cff8b1a08ebe60b0ce5179bc0fef9e41893007050db, 0x25c0007547961e0f368c5bd7bcd2335c7d35c1dcd4e04b169ea6676a2713ebf, 0xaf75b019c88a07fb24d01cbbb2ea86e75ce904560f06eaabd617cc627ab0cec, 0x4707e08232d55d9c5a37b7378d94cfd74933b1f483a6db89a7f7cc83d17a228, 0x1cb2bc2b494b4a6f9e502992730dcc6b94aada6d0a04a350087b3c9866c448cc, 0x292295bf6257bde873af036dd6932b623fea12bb31928bdfc800d1a6bdb7dc5f, 0x235b612e67013ebf3b74fa41157682a4169a17315695f54c73f290afc4574a3a, 0x1f412dc0da42db6a648c19e9e9119b157483bdbc7ad3936efb9dcb3e72e12114, 0x1402bde219d915bbc5f2958edd28a107072ce6cbf62346462754c21d6d5c9d16, 0x265eef82382e05522d8c113ab42ab0b09da4c166e107b2fd0cfa47aaee5f4756, 0x2b329efeaf663ff307ee9a682f883da59ea63242aacb620b61ef85c0110fde26, 0x6004617ad663a46e41d79103d1de6e8364d2fa582271da3e8b39c01adc8aee2, 0x1a10c1c3bdcd43ffa6ea4d58f408cd7d0e74a5ea38656a1b6fa88e2013025d55, 0x9c705ca1ee96783e0530b69117d99337fa1aaf04c5fd26e5309c0118f4bdb32, 0x978aa5435db1ee6896c737ba36d79120681758793e1a1d56718f6cde533dc5a, 0x1934fc546cb215a23bef42d7124ceff70e1d469081c2cca343a9ebbcef1ffa60, 0x1ea452043466f1c5d8f26fa48267014833214842b2d204fb253b97c9b3deed6a, 0x876bcc65ef05f89d90f3a96070a57d48d6a2a09de2aaba161fd6b9e80cd6ccb],
    [0x2cb13179d6e8a4ad1b9fec37376253cf64386ad905e240575fca86539b272dc6, 0x1c9f9742d4bbbb6c9dec076b4b9c7ebec120c5740e04e3c62d0c786af006a303, 0x18d9f9aee0ce3ea08d9164a5473ac114ae755c25b4f9566aee1c90d0a06e7029, 0x22476bc02607cc745322595d63b98eb70db2782762e548e023837c9fb06021ac, 0x22d83381d8f8800abdb2cced36e1c1d1c2f552594bfd9990abe06d0757eacae2, 0x16382c1df41e7d0a3a4958656a42e3f1f314b21ff463c5f959b51d1a6c40118c, 0x9e76815d09daa33a324f5d1d2404b3ee419b8e9b8833db59110c8d38f1373cf, 0x1b0d5ae4cde6fed3fdef9312557d22f7da589e71e8712ba7d2986b4bdda6206d, 0x2940f972586e13b6af08d49b838fbcdf24fb2a8a03f069ba612b0535ef94bf6e, 0x19edcab2af3f18321eacf5fc4f3a933383d26aa37b1e3049d3c36c11c25f60e5, 0x2deca7587b2175d50de4645fb5601b2599f5eb15ffdca763f0a24dd1dd4e735d, 0x1f816bee20400357b01555222cbab8bdb2b5a6ff8aadc19f911042092e96a26a, 0x2e950640b9cb8d14e70f81b06a9dbd4f5e01b81c448cedf2c2ea0b753d550e9e, 0x6797a59fb805d4ccc041166d71d077763b50b1fac685126c84402f02f565179, 0xad20de820c01db5e4c800abd15e3239b53a390d4a4a60348efc2dec244f81d8, 0x174a6b87cea8f7dc3a7aea08317bcde182eb2aa39c927d46bb9b0dcd70954da3, 0x2cdb547394356c92605c7b43aba9aeed3ec33a6ad515e55d8df4e678487186df, 0x2d001f86169c7feec284389e39745c1a64345f978bdefa862e8c73f7fe610d98, 0x2e40bd1d9e8c6b483f91eeea0e7f4f210aa786503d225e1fcf41166735737b44, 0x149aa5d1015e9f2c509e36e547de312d41fa3d5d4a8062b05aacda70ea3923ce, 0x284295e910196398945ebc9090400de8e5c509dd18ab3f4743a5eb521bda7d66, 0x1a1f21bdf16296101dbcba94854f7c4b05d206a1d08b8796e6830077ddf99070, 0x257f8d5e69aeed2ff7e194f398daf84d053941bfc75fea450fbca498389b2218],
    [0x2cb13179d6e8a4ad1b9fec37376253cf64386ad905e240575fca86539b272dc6, 0x215c6089e0a9a6256c901e33e306ac9c415abc1875a49add4de6d0429fde8234, 0x2cbbb480fa68f33316f0d301f3cbcaa7eaea71e2784a0fabdccff2aeba9f718a, 0x143619ab2212d1911a586be0f6acb6b8381e47b5a3e34b91eed83ff54937a34d, 0x2385e3c9ae95a0459e974d29cf0e35f283144cb2ba13aa914b4e17ae5c988557, 0x2bbe7e909fde4390a7cd944e0f309103447e91f3fad40b752733063fcea07054, 0x24303758e4ea42a45a0419d88e426c95c68ca5811974c5b0c3abadd9c29d2b5, 0x260bb40c5f1b22fb87dedda1706c608f78fde0e5b9735ad1fde63459244d4674, 0x21f27302db4f5b28fe8845806f38ff1f0a04e28434a3e0043bcb57e65f6f75fc, 0x16c95bed15dfc954a1a4ba25327ee14c5b0dcf76fd8dcc529027230e9c4a0d97, 0x20996392773e30c8e64d792b010907d8848f28f691e8b2de13ea8226baea34d8, 0xe20275c14333df445b794b515bd07b8bf90bd8035cf43cfd845976af63519a0, 0x16422819af615c4a947afa3e272275b5d5bcd75d494042bdc81d84cec30f7f1a, 0x16329eed1887886307c5a94706efe31795136ede8e9511bc42c77ffbdf22276f, 0x1e9f59aa3535d598e32de9a4a370c6f4e5f8e6090a9efb2181560fea28519269, 0x303df7dae20bb862e852232d75fb4f6468ab85a1d36472c3dcf567cbb233dbe, 0x103c4294a67544648daeda2ec0a2bf81ec40e4c01d75d35be0a04fec32907b03, 0xd9fb810fe920a795ae2c3dc1b9bac0ec25aa7df2e3628241ace688bbf78fa7a, 0x235f2eded2c0024a03e1f050c1a32820b3c33f03445a830bd06bedc4654bd320, 0x27fe4a10ee48d2ced432a47a2a6dd4083e4fdb9d9cf44ce4889b9c7d581ba529, 0x5c97d4fec77f242636ebf0933f378eeb74467faab3477d6b8230966db1e9e56, 0x17b0b7d570dc76bdbf3cf5d3def37e0a005c9b4e0b39803490c012b453ed60b7, 0x4013b73ca35eb02837465c016ae8bd13994c335fa05de42835003ac53ce46c1],
    [0x2cb13179d6e8a4ad1b9fec37376253cf64386ad905e240575fca86539b272dc6, 0x4ed491d2af18388da53711df4d29318125bdaec68f9134c1b3f5e3bd7b831b9, 0x16e1f43d878d2cfc40e58b5e77386d360cd3937828d8630ac2e736de89b0d118, 0x45f7d97cd4d95f8e4e65c183869d4c15d354db95e5334ea1a5f3a0c34ad3bbb, 0x242af80de0ae9607f5aad4250667e1cd450995afaa5293ceb1f184cc97ef25e2, 0x2d149e6319f8dfea1e2c1893f5afd8325013eb9fe57e79b3655d626e748d931d, 0x78a606fb0fae37d1e1a6fe99977001472cb272a670901f0da8e5126b3ef0899, 0x1548a537c3810897af4f919f5e48b512eb727f3c47c53cd3ffcd5e3a559640df, 0x1e3e9d29194598291365b7b7deff55f05a137b343cdb74c00037051b96cdc202, 0x2ae46fd5b2a10a6908761a50c2f71e5f944abf11b568e0a070fb4a4cde0e9d74, 0x1d5dbbfd82c2f3704059a5e3bf3db7b7f4dcfe27bde2786ea26063cd0921cd0a, 0x221089932e5ffb0d72b8d896bb8243ce3d6adebcf7bae4ee56967e2b34a63946, 0x2a5ba9e0c62d377751d13b5fcf5d8e7ba1087e74cf277212405440b3a8fa55ab, 0x1ed96d07a94876906d0828524563f987414b2a45b4891092481659e053c7294c, 0x1619ca922cd3654f97cba5f102327d7d6a0695bb3af22e94e33607f545c24641, 0x93f881501a90112f530fd9185176fd85475f3427ec133cb5bccc6f277a16adb, 0x2417824b008ac5a7e819ea42ac2e1bf2becb58661528bdc20ef63cea2e355a7d, 0x1efb091123948573d0c0e6b95a628a617567971c5807c5d3e08bf566a3dc874a, 0x1f2fc25f030934b6115600b1453820c4c70f8b454da461bc03cf773d033c0fe4, 0x263a77c0aa2edd316947006fbbf4b3cebf660809da89166c7041c52169764b61, 0x15d37f58a9589edadb9923907f947842ef6fb4b61251f8373b973dd422a1b940, 0x76d6d847fcb997548c2b12beaa6a39876569f53e881ce861d85d9c41ce40820, 0x1e220162696cbe1575cc2f4dd2fed5117c116d52a9965b434ddd7913272c5c6],
    [0x2cb13179d6e8a4ad1b9fec37376253cf64386ad905e240575fca86539b272dc6, 0x12eedc290453cd77c01e543e57d4d7ae0f6e7a76b576e880e852ea8b8e98bdc6, 0xbdc3d78a5d0f3a92fd690b227d948ae6ca94d4342ece41593514efad7086439, 0x2207296649856f043e2d7158f68f5b758b354cd022cfc04e811e1bbb4d3468d0, 0x21430ade4c0144f819a79b2b6f849a968fb758f76a30f3e20b5f7999110f35f9, 0x1a70bdca6f11701536dbe4d9926b6bea87a08f6f0efa754b1132dd4e123f7c0b, 0x285d8e90abc1496915dfdb9e2a4c4d8c42126a3f15f4bcc1d8dc721fd813fae, 0xe57676068d4b4e3a856f2cb7b22531f5e51bf1c6f09e35a645aa8953bc45ede, 0x1053abdbffbfcdaabe5b794ee6bef5dfa367d198e7644962afc90f37590c025e, 0x11660d7d44db731012b02f55c5a19e4b1a10041e0085aff26ff088797f54a057, 0x2bbee9db0a412ba731979594cea45cdea2a1ea40c90bea1f3ace29d4df767920, 0x119c59a67e312da970edca383f4e1cc1752e7fec6bde83e437acd6136e4dd63c, 0x2a861198a0bdb354abc6d273b4f13854cd31d745e627c21ea107620242a8d233, 0x1a8ac82f57894230abc7f3d010003d5914170d820095f3bbd01e977142351f12, 0x3548b5e02d4f1f988144421ba37cf75fa0963b14c2ac961ac494828c1e655d0, 0x2cfe3bafce8aea2bcb3c145ae29dedeb9ec7123b4f3295bfa5d05681c366709, 0x274f38fbc034b51b94982df30832c69961d65637f808541c50a395c8e0dcd32f, 0x1154c2e042ce659dfe447ef58e09e4514726945cc5abde427500fc5411a8a365, 0x2b6203e305e19b7730ed2731f994303777fc1c2a52422d929ba6488c2c164c3, 0x51917b944afa399ea1e621ee2ad62ea629a35d29387be06c077b79b9569e2aa, 0x7cf3b4f4f274f711a4bba652eae5fcf6c950fcdaf92e77c118dddfb738d9ba7, 0x1184568d03c28368300bf5724d6958355470e629221f5221676f69e22b717352, 0x1857839c2d8b0d6d08c21279cb8a2cfe6138df1eaf6649888cf540965ab3c168],
    [0x2cb13179d6e8a4ad1b9fec37376253cf64386ad905e240575fca86539b272dc6, 0x26518ee75c590976af8e213b42e5988a7185438e593c9635a28ee89c60bac357, 0x23645455ddb929ee2b596cabbd5f40df59e219b4efd8c1fcd4fcb67ae42bb5b9, 0x16d0126c2df72ad69f419c74741165bf6e9f6c2abbe95a022efc903b62d25ebd, 0x195050200adcbdb5e72bd63ed3e1d4d3d54e4cffe5a5fecd932e9c5684021dde, 0x23c26b8f07749697bf6982f2e715c91f541b173fa0a3e8dfcb6bca01499134ce, 0xffacbd7cec2233ce5a4b911dbcc61f87d759ba6e46780179e75f91ae5a720e9, 0x231a2beac360f4917f433d7ea9eaf185e270778902e6e090ee5e207fbd0575a3, 0x208cee18da850a2625d1500f835a216ecce022c8b08235c387b8cb1865ed8a59, 0x2df938f310cedf2df8530cc3ea5ef1254ed966674bc08ab3f1ea148057b6c9, 0x5cc71f44f496cfe8d69850022a141852f7dac001fdecce67de6265b69dde3ef, 0x1e04cf375796f4714e6b51552107036d16f71fd0b77e357b61a2014449ef845b, 0x177060e5eea7e3b800aee099735b074d3bee92ac18918a1be042ad000f861c17, 0x27f7183ac04ef3b5307e450873f5a4cbd1ff709677de1a3de89476a7562127fa, 0x272c4143f3f48b711d9e78964d27fde0614c2844861b23c1ba5ef6321fe64877, 0x17c29df44b208e4d5b70aa3b57c92d0c65e0c4d780793000ab5b3ce79e90ac48, 0x8426585ef062b24b9c4de439e0dba038e9d539a54ae8c4fa6554924c0f6b03, 0xafaddc71d356bb01e344c03336f6c97fcf6c0ed9822cff5114e85b7fb18f3c3, 0x27de3d9113a625f578e74566a25e54bb1d311364887d455699d89e65379e11e5, 0xe8ae5a0eca1465645dc6b31f66d8356d6fcf434daf1cfba59ab08a91417e81d, 0x1e41011401e99e5e548f813eb6c091f1ed7d03c1005affd1984e0149a2e59836, 0x2fdde0adafb47ce46bd4e5d31bb8e840e8b2edded884c6c0522a0a323b078403, 0x6d047a14724da146ae1314d38a559303e53808f6ffa90af4f2db3c52d2946b2],
    [0x2cb13179d6e8a4ad1b9fec37376253cf64386ad905e240575fca86539b272dc6, 0x27e98739b0e44313ce32f7c5b552a0814abeb32da96cd82de769b4d0f5c94c25, 0x96c0e16b0dbf141e6bcfdbc0e2f49d013f35cac3e4235db39c5cb35f96a5e83, 0xa5a4adbd74977d24c7cee2d6421ee7cf5e0534388e5f9e09b811a0544d1ee3, 0x17939f4a2fe98de1c4f37b079b35e28f9fd918492317fe59311ee844fc3e773, 0x2fad1489f14f53e5380db86b119e1fc4ab02fa84ec4b0f283bc28cde6b738aa1, 0x2765769537137039a892f1c38aeb083dc07de1b728a580fff63f9bcaaf455bc1, 0x1e31bc0fe231bae89cdd1ee8c3df3d8b06da2f88825e635df9bc7ad5c128f2da, 0x1e516c3b9ae36f836ab9824f1c10b86a622b2f49f081cd7a50ae5192d296eabd, 0x47cc90a4be717883e0189e898fa7d9f1dc998f91d255553a394b6b798326043, 0x1c56d70a6472d972e35698eacd7ba8d40c9fe9fc9b04927d06404ae10ba35f53, 0x205c05088541f74e95a23f5c7ee1d9913978e98fa759b621d0d2e3b0d57c5807, 0x16874f1578735735add0540440cb042a966b8ddf3e51b4d812c673776bbc47c9, 0x240f602afd2d97888bf4b64b23d6e44cec734a2746cf4580c430f72e46feb453, 0x1abe8b11e0bfa0a5829568b66934e5da83b778ecfa452ee2a6b7140e191e7b98, 0xc276760c90c65c9f228140185e42f3a7806840c8825bce562d0766a06dacddc, 0xab7dd18d0804d394424f2b9e37439eb4bf3324198c44e7acc78d2e595d7dddf, 0x74abe46b34d1daba12f1e78e3cfbe69a30dcc2b090897c040564f023ef7b9e8, 0x2f240ffafdd27616a2eac36181dd8e9d9ff82f62b54537c48d497609858280bd, 0x1009c918f84e7180e4864c0e20912026c62699bd562ee5bb24a00fd69a30332e, 0x9e29496159b70b34f9707a8de9ec2cad82369b2d16885e98bada319d69e4512, 0x21afdfa37d1b9218daef0b7abbb26e4d623f8ee412934fe8ebca9d9fcc2c6672, 0x1ba7bae9ba2546ab2fa904877151066a9c5cdd44107d8aa829ba8ea0610b18b3],
    [0x2cb13179d6e8a4ad1b9fec37376253cf64386ad905e240575fca86539b272dc6, 0x2048256f57c9c8c24337bbfbd097c2627dcc0c2ae00ff560c3e82d32a55a4d4a, 0x882758c559a9a38ed60d1113da22600ac3de62a8cc88e904342dfbd81f58058, 0x54f6c1185a58025ca382d00657cea60c9667682c060fb5f2fad74f3d070d5a8, 0x18da33071f0ebc4b2962d4b061144009608aae89e8285a326c0ba8eb0c370153, 0x27102a58751c96a0afc1846801937ece25f59ff76675758d5388cce403ab4af3, 0x234028cc85b8345eda398be9f3fefbd6d59973ded29c6ee52fca866a07b1f7a8, 0xc3762675631dd7b529256732681b5b48ba5fad34019a65b1ef191b9211bbcc5, 0xdb907e69984fa1f803f9f19d603391ec580bb3dc8357d170e3d4dbd9c107e6e, 0x1c5a1126b94c62d06a2b2ec580e5e4a165deaa7cd1bfb0872440de9606900dfe, 0x2e3aa301ead4fdcb606e9aee72ba7a2cb90ddfd72162ad9478e94699f776f6c6, 0x279d20b786fb6a7ac5d4fc5d78faf9c47a3090bd561b2fa430c5db64a552396, 0xa951ccbe5d7d13404cce3fe60751477ce1088102dfa3732e323d055cf38340d, 0x26a8d4b18704a5aa8e41ea652ce2f60e7975c0b7eb478abc55ba0ccbaf8149e9, 0x787247335760468918257e7dbb38f97dfadb60256f603d51104f62e4e662953, 0xb0a7b524cb7c7519436167aeb4b5b185d16c110c2b36f162abfca872b3f489b, 0x1efceec837f27a592824f15644f3889165bb1bc56d5566179a951333b255398, 0x2ffa74a07ef6aa2579a1f68f1de64b58eec51380c7dce9b8966c789b4777fe01, 0x304582e03ea48dbf3043bbaf216ea5970d49e23aeae55b774ffc615ae80d1be3, 0x1fede6f02a4595564cd768fd400cb5eaa28b2ba191240030e1d757d6a019537d, 0x1e33187373750a7f284427194876c8ff05ee7aa94d5b3514f6083990d4ad0561, 0x1c5a22361e914dfae231d634ad2c502b20e84feda4d506a1b7955128e9b24bb7, 0x1310273c02734e60e3b1f4c7607a48961c3ab97ed9690c2b26c38e36cf56361b],
    [0x2cb13179d6e8a4ad1b9fec37376253cf64386ad905e240575fca86539b272dc6, 0x2eace5036bbf892b106d6ad25bf3acdc3c94834e60cd380a1815cc4620e79dcc, 0x2cf399b03624f2fe3ddbf48c2fa326e788f3b6e4b4469ef0d3e6c0cc241b7ba9, 0x22d41054830f4b29ce6882b49839e9942ae7a1ae84b6d366a98f42f7baf9e188, 0x15ae7d83075b047fd367659fb588806f23b6be3b4690cfc3ca92c61e71f5c765, 0x2825fd5f33d362703d2fc902578dab75ca7076ecbbf7cc916d4ed3dc43b3a0e6, 0x12d12504ba541ca2b28129a673acf96d4f246e340574ffcdf24dbad99bd572cd, 0x29653490a05368030d3690d4497e930fd4370b0c89d5996b75b420ec803189d6, 0x21188ecfc9b8a96b6dcf99b67bdf3866314046229ec07c8767cc26ac6d2bc169, 0x4ca521fed16e4c8271f4101514280093d189d84bb4129d2e54bbb1508b72908, 0x27d867a046afbb0c3cd2eebda088e476752b08c462fa1a91effa16d22403e4a8, 0x1e754e7744482f6d43e6990f631a35d9564f0485a116ab971d7c1ba0fc6ad629, 0x1dff12c679a235887e6c896304b46e3833f216398da1338be75ddfba2d77bcec, 0x1029ffd3ca881002e4f00872e7af3299d9ae979a0d9e0236d8bc4a6dc36dac09, 0x2099a9d66b52f0ff88a110bf3247146dc2a39777bc01bae0ca27f3b3ba3f1f5b, 0x212ed3e424ee90af48f2dfc1828a78e4c50fab366f51ce3fa716164c89787e85, 0x3fe48adcb5e56246e6cc8968bc0a62eba94984a1472b01f5a4475628aa38cca, 0x2d726e790f68ce53fee0841e1a8b8fe36b8a756b3a0444ea08af369ab6ff809e, 0x168de57f2f5a7a31b7b9c96ccb8fb7b33fc545cc19452cc7a5342b70cff74ba8, 0x1bcf256686de35f672d4e52cee81f74c552e08099b3ecb8c8e8348cd3f36f2e5, 0x6f7d1f39f8bc8fa314984d88fe0283e64b452e260d4745f9514a012c31cc946, 0x267158ac0a27dd2e94f422285ee979565877516c414630ca5911efee1a8e311, 0xc4d16ebd4cb046bf8e0e7fe3218a3f23551c79e8388e65b1c7a557e2034f957],
    [0x2cb13179d6e8a4ad1b9fec37376253cf64386ad905e240575fca86539b272dc6, 0x22e7f291772140723c33a8ebfe15373f0468e295d1b724f6e94d522abfd5f535, 0x2c5cfb9974cb2299069f8e21329d54e5ec4f6b837f1727daf66a21af858b56a8, 0x27a1b5dc716f8f70f18e6eef36ca15ba5df295f9b6023d0c8b860ff0948ae9cd, 0x1510814b5e9ea61f47e924bf9b21496b391e2efd97554b057bd9d6905eaf28f9, 0x21ce0a7da429a54515927fcc1791f25c658766ce48934cc1937dea204f64996e, 0x2e2617468ade83de353a5a7cf3ffb4aadad12b05bcb65cd570c7200059956b87, 0x284052fe9e822298ea89afab784617fd413448012b8a713d8b8db7db9d111f, 0x2f1299ecb664233c145d53e9ac62772c9f917ef5fd354f595fd151a739610f2, 0x2a89d81e36b4e71698dd2968fe86c8bf4acbeaec381985f3a5e67a5ea1318d1f, 0x1bd908426f44f80f02514742b4860a72c00ae90ded7aa472090e5c1062c3e764, 0x1a43e9dac11dc11ac20f3cf1edc5eb8a25dab4389d675d9322237a05cfc6b95c, 0x2692699c30d2cfceb23d589df2a5aed5a8219ba6c436d0d920033b2254ca6a28, 0x28857f7da86b117cefcc105f4e504eff5f11dc71e1e3718d7ab027ef6383aba9, 0xdb4febade50738b1ab87405bfd46d20cbd4a222a1f1f8627752cf1b9a76c6e3, 0x18724360a40cc50d7046eab1f3ccd6ded2edafc5cb4cbffdb9bf734c1dff33a1, 0x2187d4118b5f752636e205eb4982247b95dab037310349ddde471c782e60fb2d, 0x709ba7ecd374680134ef58e9403582339e3a55166f7f3943f281c57a275e588, 0x202fd3f05d2bd8e2dbcf6e44d3ee0db6cf72ed53b00b7f0785605d89d139ce0, 0x9a760b6af4b4eed3ab69ecb0498a75fc71b815b6bde4a569d39b6086096898d, 0x2218e6abd4e31c4e2c4e21dfc8a266e946c599fe44b9813f282ef3ac6d24ece1, 0x3fce74af211c178898a2bbbde84568bc09b8c2228481f7ad87e7b1dcde6bf8b, 0x2201d6ae9382dc02c5345b141db249c120b288860ec8f99d504eabe8e7f23573],
    [0x2cb13179d6e8a4ad1b9fec37376253cf64386ad905e240575fca86539b272dc6, 0x17b549a98305619700b722d1392e3f22f3515c947ca97bde2cd79a761dd9a7c, 0x1321911b787b6c29f58b50a53d66c5f436848103f333aaeba5589e43db1208e0, 0x9ba5765272979602f4c59c7d7ce1516f48137e61938e30460d262b22efe1fe2, 0x1705b7f07f5aabec51703713714785de6f86c899d97f3d89ab53459801ad77e6, 0x18ac4517cd9c3d9b13dd398e5ce614022042b3ccc82fc8bbabeae938af1e896a, 0x2d2dcf4a755c21bb49b4028fb3dd8bfb641a08f00d045285c0ca64180234a26f, 0x2420e764bc7ba63b706b6b39a10c092ade7b1873fc1ae1bcecb8374934383116, 0x10eaafb36f88f19fdaa78ae39af01dd9dd5c3126eb87df41aa55ac344e440b2c, 0x1adb582c6692385a8cefd33e6ed3c7f23a3252dbf4ce0ea80b2cb5d957844a53, 0x17b3f1bf0717764c2f01570716b665e2ab308ec61b511dd3e65d6bfca9030a1b, 0x27953c6c48de10d405e8225bbcc73ea9fbfdfcccaf0a3eda80ce4d7e5ec27214, 0x15e794fec75f7c4f7e63dec570cffae247d8bbb1d0114270d44bd7ddb5ab3c80, 0x40632b4454c59b282560f814afb01e9f60c4f24013cb1a8d450f2e23bce9d5f, 0x1e9c0e04247d8e1f43b71350d991413eefb67c273a3ada726e15d81737717a6a, 0x2f8dc731a366ddd2b76c0bd1418bc03b207d7065556f4796cb325b8dd1db30e, 0x24463e539fa612ef3028038bdadfcdade3c8475e0637fa4b1dd3ce10b0aacbbc, 0x28762b41feb35e6509ad33ea77bd88983e6fa85ca2f6738a1a1653d3bf54d52, 0x247c44be326d67af902022444d80ea90776936a81592baa6702002b27d6b0737, 0xa8ffb6524fac8a3820378ee0c9adb2345fea97112c2bdb9a57dd3b04be7f63f, 0x264d334f14801fe44177ccf924d22e91f3d98e1cdf5c6388b735d60fa32c7000, 0x1a96bd9bfc5432ea29a24ae3c46b126769d2d8f05cca70dbab11711117f2ed6f, 0x16542734a0c4983f8b8203a8e67f1c2290f7de67a02b2e4285bf5d1c3049eb14],
    [0x2cb13179d6e8a4ad1b9fec37376253cf64386ad905e240575fca86539b272dc6, 0x46208656464d4ae0a420f4aebf63b775d2974ee08535ef11014d4400cca822c, 0x15f6a9ef383741e16882272bbeb9ab135f295272ad7e45a26e063aaf656094ab, 0x40a8985a8323dd3b2ad3c285159f2f158db48b9fdef72c8c859a462d7f117f9, 0xb9b4c7ded97f1a7fbb1dbccb8fad09ada8183cfedb790e2f11c77074634a80e, 0x10700446bc61701c9dd17bc4354ad727247a997ec9e541ee42d9d0d2acc376e4, 0x98a404fdb1c37a38842752a31bb1d2bb5112fb422bab40a1b546b97c719d923, 0x1843b850d5cef8871bfd1e31525996416a8550b748cc9fd13fe42aa1f7193bf6, 0x279c28f81499a1d819fb67132c84220d124b668cc206dbdccefe9478358a97e, 0x1d6fa109f9d33d9e144c5b25fd5b2f189273545fdadf88af3c4a7ef1f7189e35, 0x1e89c2383d920c8a80837bcaabc2ae9060bba4a520fc7eaa7fa5dd3dfc18d5ec, 0x180670edb0cc070ca05eaa724cafb4ed020561150ba343ac5877fd8585edcdb, 0x44a14d1f731de503ecf2a6438ed17ff8a552a01d9fb66a36fbd08aee8a27a6b, 0x1391644b83aba3c7c86a81f240efb147fe4c1c53e08ae3d3b0aa02fc1033b02, 0x1a9373fa92867334ec17aedf833ef19fe6f67a68d031f7a088091730b2d5bc91, 0x1c5c46a6852eefafee39b8f31935c3325f450000caddbb35538f8dfa02b3feb, 0x185b3aa7a434a7225057c6bcc8e68180dd404e58e3f0a8733fe64a0c1d534102, 0xb562eca994127ec94b90e76255955551cc1d6e8412918f9aaed138e19cb903d, 0x1ab2db0ae479301dee234d231988298fd46bdcf3d1ad8cc11389ee780c0af1f4, 0x2ec8c3feb4e03afb11402d5929fbc332b5bb7109fe326a5af8613dabe9a6a94, 0x4dc3fb12329b17a70b760ae75d620133889283cbf88035505ffc97ce4641bc9, 0x1297d2ec92df98f1ac1a318dc100557237dd9c4a96685f1d58d0fb61ffc4c094, 0xa84c5d2f491a40654df4992df98f681f157bc9fb4a0a6ac1aad9e0e994cddf9],
    [0x2cb13179d6e8a4ad1b9fec37376253cf64386ad905e240575fca86539b272dc6, 0x1be6b03ffb55eaa0fcfa4ec007ad655c776ddcd62e7184dde03b1c90b1af001, 0x2910d31a4ab9e0aca79eddd220c56905bcaa2dbd29b6d7bf389a4c50666219a3, 0x2839abe3d67b01e69ced2af2ca20db9b2bf359230d7bf3c6bbb79232624a57f4, 0x2d0c50609fd4832ac428bc6ed4606dc5e5cc48e9965c600c81325a8d4ef87ae7, 0xa9180406884b203bb35bafbcf2f4abd0ffe90aa9e3e1a82ceaff556d2e22dcb, 0xd5e3761475ba3a3d55133eb45a945042ee26b747e3eb42a077749f4f3676e4d, 0x811919e5bf03ee004979e2164e244f1ec510eaf5fe6e5107e5e6f4bd123f77b, 0x23d92b35fed4accbdc074695f6d1393c5c2bf6f2167fe239b2029d56579405b0, 0x100576c563ad00ccd2b07afd817dd2f8dba2535b5c38de7bafd08691b04933e7, 0x24cd184d143196317be3f594f8ea091f3442abcf3647c50be545e510994dd90a, 0x128748993a58cefd65bafc84f486488896bcc8088006a3f7afacc28afd6fa380, 0x126980393d9f697cfeca3c8cf5aa466cf7699c7b24ed1fe2bcdcb3d98e01eda, 0x3d53b1b0659c95cef35a515696e13d67643790564a80ee3fbe3c5b2ff7dbb69, 0xb1cbc1218a01ccaf22711fcaff805b05bffc45d21458e41527f06dbf423fb10, 0x2d2b944d4f9dfd80472bab4f0ce520fca635f74c8b9f1e1ca0fd52ec8af49ee0, 0x286ea70600778faee3383939faead69a24821fb400920778c7529a1b1c90f54e, 0x1238e08378044550a836bcfb7129f0f0d6253eba654e96035de06513f6ee738d, 0x20d38b283f1f0abbbd99af81d226cc6503ad86ea1a2ea8e9419ef15a74f8ad57, 0x25f5d1c94a4423c994f81d1f5726c8133c5d2419fa58f226a94c09b61815c2cf, 0x1ba4948c72f33685df0f9eb2f6678fa6bdde0ee261faab0a63917fdc30f0973c, 0x2a306087a9453e96d0007ac70600c3f1e08b4fb5cef04232b64fe8c0598674cf, 0x9e528bcade9d9b1e99ed53a6ca87dd8dc46140d57d0699a8f120e0c77af65bd],
    [0x2cb13179d6e8a4ad1b9fec37376253cf64386ad905e240575fca86539b272dc6, 0x2a779727d7ab06dbd553a840294589296f3aabb6a314afb5b083f650e39db967, 0x11aa7127dce97c6f4beee5dbdde1d5c7de812e27376e249f41a52171c108324c, 0x2e6df565cac73a4a04c2cb1fe541d9e3df002054622c790a6c8c778e484da06b, 0x224c4dec007432ecea73e548cabf60846d0e6b72ed2f4c907dd9e03dcb381e92, 0x2095194e2ecab4e0e731ec6e1cbb0aefb3bf646f6e6c804be5971167ebc58f76, 0x2ef057063be57233d59137db76c7252f1d2cbf5f3c4c6c8ccb22203c98d6e2c7, 0x15185ba1b9b8060768c5af0f70636dc62fc29ca5100d76fd4f9c4767e8f87fb4, 0x1ba274d2184bfef2d0be986fc2d41617f43d29a30b328b6ce3fe41a406669532, 0x27528f734c66543901cb1afad7414892ae14cdb75ed5fc59fedcfaa399fe74c0, 0x1185229ce9c183d7dce8a64999623a469392ca6d2e4f72bc2b6c4772a6b04896, 0xb36b20c33f83d20c1c49c00c65ba85deee8345f8563df448993a99bebbef6d6, 0x1ee843386b3aa0c38471fe7c60b638218ef9266b542a9b1526deb8dc9aa3c559, 0x107972f77e0382e5d3cff5b6858e85fe6ca29cfe95b60159a9dba68cf55ea21, 0x2fc46021b9841db9dd3cde3ce58785eb5f5b9600c8d5c0f4086130cbfb261f5c, 0x22b8c705b7b675b691343c7f19f68e23745e55aedf5eb931c37bd89563f14a8f, 0x1db0aae1de8a581770c890de5e66c763301cc6d522ae042db366f330e87013cf, 0x2b17c19b2ff64a3d9a5bd5cd0d4a21cae7b7d7c899228050f593b2da46652d3, 0x1e3a4c2c9686927495d6cc3c6e90b519deff0b55ee3124d69ce5161c91119baa, 0x384603dcc8e7748739a4f85462cee5fbc25345e02db231f40e50a851758452d, 0xe842866ee1599809910ecde3d7ca9f1d867f96459985ba119b51066866224aa, 0x19c09d8567e90a622516fd1973ce27ad5fcb66aba8b248d06de9ea306a6fb2c0, 0x134176d3a40f1bcad9f536bb92b8aeb9a4c3d424b14cdec9beed77bffbe754cd],
    [0x2cb13179d6e8a4ad1b9fec37376253cf64386ad905e240575fca86539b272dc6, 0x1918c06693a26c41f0025c99e93ab46213ddac227215fbe5d1972dcdb6265afa, 0x2c2d3ad00fcce75da6a5f510d5952918f446016a8fb4b1dc41af9321803468f2, 0x18ff4731631733dd9f048503b481b9b7abd2ad7dde5a002d8e0ffc425f574c09, 0xd14a3159cb458b4c5d65765b15c56653be2cde202d8b285f5c2cac7e01d57eb, 0xaf7d40dbf6a9d2e138095f1499e6505c326422282f1bd30fe98d19590298e96, 0x1f728b62200f84d56fd916f1033868066c5ff9eaf81726ac8f43f08f311bd806, 0x2f1509a804a1e612847578f49ef3d4cf0067adf3c3575dbab3632f6e6e3dd5c, 0x41c67e015b3770721ce4b96ae6219e6813ccffb152dbfa13fd37d25ba812f06, 0xc336783fc41679f67e808e2eed1be9cda3fcee2b04394812df95f9febd467a2, 0x1e34badeb3d92a88aa84decc7b70ea344c8852c9a17d3e0dcfcfd49f9d103548, 0x2539fed64ca5f8bbd4016404921a292c7652ee3a7fba314d675e02ef29f01095, 0xa83942d60d14f46c3c9cdaa90390faccc4fcd2e9c3ec8cc06604cd51ac820d6, 0x2724f8dfd70e0094d613f65f6b48d42e22a961d06f589ca1a64b74e0ba9af8a5, 0x226e101fcd7f365ac33c608817ee6a4c143504927affab95f4d7f95da55983c5, 0x295d81ade71715f0c9071986b3771fa8621bf634006463df3b53dee9bf37b189, 0x14aaf0e78ca5884fbdd6282dc2a2008a1b6165adffa6e9160a9e36190eb81afb, 0x2652e6b66e323877eacdc4e0f32dc9f72d692ae7501d7fed6c96154529f45a39, 0xfaa22bf6ee7ed51ebb087c35bd33ed34bd4474073349a80e9c9654883091a95, 0x12bd1d8d922cb20e1d0e02d066b120f26a1979f4374bf0fae43cdcc0e5a366f3, 0x158c1a5307ed0d18b58986c274968b23e404084a78aba5687e2e2c4f009606e6, 0x28b5ba99540925c874c6b815bd7303dfbf774c5e1012ef2b305ca47559f597b3, 0x2b845d95e442fcc4bb8a49be773609957b578e19ee28baa880226e3f911d26ef],
    [0x2cb13179d6e8a4ad1b9fec37376253cf64386ad905e240575fca86539b272dc6, 0x1b66e79c663bec66bf23b5cbbcbe9bac308c47817c3f242d3f66b6d565be3b9b, 0x79f775f411c9c90149e59e6a34d6f6f47947db4337d9d3c18bc4b51d4cad270, 0x3009d6cbb50dc688b7404cf82d589fbad43d0742333927bc049e48da6913e606, 0x1fc70661054fdb2111e49907222387ad311058d73c0befd6314478175e356942, 0x1ee04e8ba0265fce330585518894029b62d9bd50c9d0a6f87f1280e82859e9fe, 0x644f526b432da58421456fd00e0e29291e8d0df2ed27626c42d503c62e4fc9, 0x27e99dd0f8fe2ca6883ea897815b333de616c56c483c0c9e45283067dff3c4b8, 0x581ac976cadd2b1dfc14d8b3cc604f1e8e79dcfef24b8f67032c18b90c17e9c, 0x6750f648570d1eea536bc3842e8a9673cc564c9784e57793475bcdb399457fd, 0x15822b758ce9dd864fa21222839e7eea4132d1b800819ea095a6465d9ce6044f, 0xd9ee290eeb8ccad8fc7bd054d7e10ff3eb0e3615f770151fe6a276d53da7738, 0x2aff79aa26d195d6001c0805b35a8c05a08b59a0e819c7689f176ab29deb33fe, 0x237fa4d9fa2fa84b58ea68d75927afee778a5e476073a9b30d6328ad62f2d807, 0x5d20936e308b6eb8373a899e602831ae0cb091abea22cf044de6f0cbfe6723c, 0x20470a9f2d2a3cad5d2f92c333444b429333625d0e07e064fde8454fbee764af, 0x2e5ee062393b836f391171b5c738e5d731de49e833031ce97055486def2d6a1b, 0x15066a745e56deeb113b9dfa9e92ec1fc4003f8dacebb4f2f0a591e9491a96fc, 0x15af3f3747ee7d63738b4b137be08c44f0c90448307d1d2d97788fdcaf30238a, 0xa9db2ebd67bcfd0c5c2e2baf93fa206537a0be5e295da9334c19515018d4dec, 0x9d819663eeedf9ce5b97d71abcaa195f6ac0ffca2e4a99d89510bd29da37cc8, 0x43e45a7ab55e8ed770c8bb140c5cf98a079f0a286c76abd11486adec2b9a69a, 0x267390f339be917c18588ec7f9b53eddda42bbad0e44351d1cd46421389b06d7],
    [0x2cb13179d6e8a4ad1b9fec37376253cf64386ad905e240575fca86539b272dc6, 0xdd2adfb2aa3b4128b087b5250d5e754672ef02ca8495a5b8f9c2e51d12fe27f, 0xe44bb76a256740fe47a818596b6dcf40b9db85c744d3701bfb808a00f7ccbe1, 0x68a25d2e27da4305caea7b47ed35d9712720f654d72d094e4d9b3796ce88a27, 0xa6624b2e2d3551843723976c9168b1acd3ff196804a6cfe61555ed0048c3554, 0x2830c3937da98493bda628849823e656aea96f309f417ee6a4907009a4957fe3, 0x1dbfab542ad1a8d1b064c18f2da82b6e5320e8285d33d524229aed44da0fcfcf, 0x12f049967453bf43dacf198aaac17d184f44850bf49820b37f36df953e57b08b, 0x2ff0b4f794179f6cd4d0431d7aeca0e320270aa3b0e3f63d832f1830ced770f3, 0x287045969073b1ba8007b65f351ee152d9bbb0e68c75fcf8a3a3e0dc9cb9935d, 0x88750a390f67a5b19a63ee69e6055949015e796d41a2150f8b83f58c1086b4e, 0x2a1b684b9357c3b9b675c9a56d3690d3b101ff4c50d5b7f97d68d6a247ad6e3f, 0x924a953beb10fdabf6088068bc42d18c47a292d33fb12b1dd11c0942051a5f6, 0x5fb81ee2e1ac5e198c62ea767270d3b52af1e24d4d6857f82c2ef4b94f39740, 0x1afe1a783a2d68ce8f79cacb2bc57502c6c5ec9ac0bbe35f55b34bd4d944e15a, 0x128e66b9d177d588af9f9a10ebd195f03030cb2806560ccec1c0469ece8ab9b9, 0x2a89bbfccffb647312f31a2b0b68d731f65279273447021b716f8d7d1b9eddbf, 0x2d2c1cc8346008effbe81b219d8dbec37bbf2a6f6dfeeac3b979b761663404ed, 0x2a10df4948ebb56a6d1edf6b2d7bc7d7bc3b3a6085565a90bccaf53739093eb6, 0x29f0a91579b0418cddeb5fe403d13c929178124713655833284ce4386673625d, 0x2d60032c705ab2c8e457ee0d225acb206a5cabbd75b088d97656de6df83db165, 0x1adc61e3889546408f21d1e1cd9533415a7cc177598464799da86e31778ea854, 0x15d24ec281355e28a085dd996ea0c90aac7efb5d87f9bd70a2a6b9db6b50b7ba],
    [0x2cb13179d6e8a4ad1b9fec37376253cf64386ad905e240575fca86539b272dc6, 0x1be40669c4305af08dd9cfeb05bc7fcfa40b998bc74ffe11302c4f5b0553a38b, 0xde0e333621fcd0fb11e36805f9722b7d5b53bc39cec2c63a02ff853f30c04fa, 0x20f0930ce2a982f6372e84ab5310be3beae1b0b7f90b8e562c26c2e757702d47, 0x299a425dac7d3a4c877808a7459597fda5984c422b6a994d81e195f30385f8dc, 0x2f3b6c085ecf99a58b7507dde8971a225c511bd6f802ee3a6cacc0530e8a33d2, 0x1dbfd1be6281a5c77b4fb2c7dc937a25dece301dd371ff67769ec907ff76c72, 0x2057718828a717820912bf7aabe85d74d0e759d3357db223cfa111b82ef48f32, 0x2634e710d328db82ab3d5c000a6e16e4cab4cf0b5c10975bf684488df5d7767, 0x1508d73e31efd2a02b601a7151ca176fc79f3721fa686f737d66b4a43c1597d3, 0xab1c757a2930fe704ad42fd54b19104397077d5e52947a92f810b0ef5d87871, 0x9da497dd64c5e3273900635d09193df06c1d2426a0fd73d7dddc99c18daddf2, 0x2381572e35bbe9d3fbdb3bb1f1963bdccc535817b1d3c077e51d7fa9cd9a6cab, 0x1435a49f928494a49e2a67e4028810e23b7f26843d1e22e2d737b40f01da11ac, 0xa41cdb54589156aab59180023dd35374103e5a4bbe746ed8f2fc3ddb26f8e25, 0x14c484fdbe36491934a1eda09b63b86d803e7059cd8e3314e8d774b7910a7cfc, 0x2a77a4002da2b4e2ab43232ac86e8fab1586b84ef60705d4f5aef26aa5421749, 0xf63b8eebf3c4535bda0b094c007bec3bf0ebb888ceeb957858bfd41e3b33a49, 0x1277d3fe5619089508669b1a53372f2f10ea0acfd07e684219b7526be3566d69, 0x242bed90744413a413be2f93566487aecf7ed35f2f6886e79b95fced93648d2f, 0x2f421f7536d6fe02069b4a2be1adef885983ef7ff87af5bdbb73904f96cc7044, 0xdcb8d37d53a5df0f9ff37d9f8e111e005d70c93bc23557f6041711a167e62a4, 0x2b8d52018de42ae27a896a6100b02cbb428bcef7fc95c21e0631a0edd273ecf8],
    [0x2cb13179d6e8a4ad1b9fec37376253cf64386ad905e240575fca86539b272dc6, 0x20ffc046123c9e7c161ec2fc0033671938b1bdbbb51504bb48a6bb7691f867c4, 0x37fff4149f4439e438ce162d27ada4858d0292fdd5cba6ad88b72e73e552b2d, 0x1de8c8e615fa608fe89f596053f7f2aa3b21158cf1116eb6bf12e98bdc5cd339, 0xbe3251cdac6825fe72f5f701c19215869c21db3e146faec1b7d83e291deea6e, 0x25cc68e0156fb406fe6a1d01bf926214705937bbb2dd5af7d2feb70cda04b273, 0x1e6d41a49f875455a20e395c2f5466ac44d906c5b77e21cab176934d6ec92fc5, 0x2e67c91faaf0d61303858bdce074a2f61220d62977a4d6963640808413273f31, 0xd12fb42faa45cee5774d38145639dc1393ec43ceec5d54b8d81f8ce3d74cb49, 0x23e70a4146133f0a77a4e1d743720692125531e4b83edaf6cac156afc870df9c, 0x2df6f710ec27c2d652198613afc234f4c6d65ce1cf6b5488b3984e0976f75cb6, 0x195ce59e69ed9141b51479ba07aebb50eda0d40c16335c1dc3371581b006b9d8, 0x210f8fd97f1707c4ff9610daf5bece6fd2a7e0b4c61801662ba3aa177decc92c, 0x25f1b7680e11f44ff74657d2d3bd43aab044798def28b435e75686606d12aa67, 0xb2c75ac5a5fb6d2b4fd51256d3aa84daf97cd4611e54b1ce9aec26e298bbf88, 0x78398cda47317311211740262c08710b86d61c54ae55636a4d15220da5b85e4, 0x166af5abc6ac2210fc2e48e17a3426b597bdcaf849cfb535d3a4a83a16fabd84, 0x27194ca79ac4773ec964accb35e09bfaf60f65fec69f6c53a45ab6a7720410d6, 0x10c46d3c254d57f49a985c74732f27a402232da4419eee8d59c39fe0d25674ff, 0x1621881967985ae3b969ef554ded7e95027c80a3fd24ac8233b7204c46b67b15, 0x28e893994343597be2f4993da693ab68a1b6530fa187e0708e6dddd65e19f65d, 0x5b240574850357b93cf99c2a4fa39529f34cd568be5b51fd6bbac19d66a13ce, 0x2a3e91c0f5583245a4519e6d5fd37530ea97eabdcd9e0d2655ac4709a88e6b58],
    [0x2cb13179d6e8a4ad1b9fec37376253cf64386ad905e240575fca86539b272dc6, 0xbc9156ea781bb2f4a48a6971a1463c341447af7640c0dca22fee678aaafa67f, 0x216532d67a620605bc236aa3d9967bba132c18ed4dc9fb1c7d0b6e414b69ed68, 0x22ddb91daa4a4545901d12772b1442f5ba4e85eee6a77637fc31bf513fb116ed, 0x2683cdb3a1a277aef9c2b9cc42d9835ac8731f42ee8c1d97c91843e330cc797e, 0x2be49377140f55de27dd9605e7ae0438bea87e1027be1ccbd27547bb1882a71e, 0x3aca5d3892e4e23a82e32970ae06cf7944979744108cd4014495820f3f3cafb, 0x67c57ee42c925a4fd7f0b70805e871b1dea5c0c64eecf286f01a7f82496d0e, 0xae7cee32928e8bb4b2e5428f6ed56733a955dbb415961e58bda4537603370eb, 0x270c6be726a888900c325fce8361fee0766b4178288e29892e43ac4bc5a7a53b, 0x2dc8ef31b5b489de3a0218cca5215bcd23860891d4be8eae01bd6b6a9fd89e0e, 0x19643edd20d71982a49a09cb1e0db7d981d928413f5aed74a20b339a45cb3a1a, 0xcac86cfd70c7bd0f964e2186efa830356866dad5402655391b164da07230607, 0x1e28a98366dc2b5a1dd651c8cc239f7d6a65784260e4f99d5f22d3acbf089df3, 0x65e579467ee3caf9abf6427ee70e3f04350efd4f240a721ecd614bf510a6d15, 0x625a0ed5662a51dd09f1b361ee979a3d90999de6544dd012e0a3d0ca7f54290, 0x14ca160eca3dcf16f63e65745c1fc7da76bd228af16cf74d2a322a02c2e63e9a, 0x174e5a80b5654227609644c29b2ae1f7346475075b95bcf09781b29dca6da8b5, 0x159f373903a0a9fa1b30f1e77887b7f4a13c034eee827f0bdce9efc244d50300, 0x1e6a451f0965435e18b8c68ed523a5f5700731fee946b446a4a56d697a65e136, 0x292002d89878ccb5914c5d7951b45952eb8a48c0d4b8ca78af9db15c0fffd2b0, 0xcc6c8b2dc526673c038b258a850a754ad3da11b01690ed359b1073e37ace2ba, 0x2abfd63285e9ac80fb865ff2fda5da230f278f9020001f8172727bd6f257059a],
    [0x2cb13179d6e8a4ad1b9fec37376253cf64386ad905e240575fca86539b272dc6, 0x2854b5984bd6b9e733809dfce1d7fe5ba63fa8d58d57e4cd9f540c2368db0dd3, 0x2e88865414f2b4557548e383c7f525f471c9fe0d8d64f0b8001e630ea88ae41e, 0x23790eec3f5a240f8398eca3719dd949c4e1b4c483a16aeb268afaebdda79a0e, 0x2fcc8669dfcf04fa06c75b022b77b84d090df3b822dbbaad1fb8e3ee948e86ee, 0x67fef650a45711037a1f204eac29045803fa922ccf8ad518334c03a29178838, 0x248f8c46bb3f0bd3aaf83f0c410c0e56d9dec620820ae91d41c03c288c0d998d, 0xd3b6a0004a85b63a85061b171d87480cb262b1fe4ccdb71be2114f4a8b13fa0, 0x7b065a9ccab6b970669bc32838db4c48147f0661f53929f561a7a835fb9d567, 0xe02b6d12d48362677df07056afc1bf5eee55cdeea65044de0648a0c7c0a7894, 0x2fab90c9d26772010fe914e4b88a71e32f5563f4d4a138855f7ab4247252b84e, 0x1989c2e54741cdcb6cd94407dc6ed84e7817384af807ba6ef8b85d4bcd313c5d, 0x28de889080866bde3f19d84b253477607071c34e59569f2fb0aa180b44df1418, 0x2804b79f457cbb808d034036efba0011bd3ab0419c39b094a7341eed26a322e4, 0x24eb9b802012e11386b4ed5ac52da70957cefac5d3911ec1f042917e479bfa80, 0x1666ca210112c32bb19b256acbacc96f58cc0fb7dd93874d50021fbc631b80c9, 0x20799de358137dbfbc623c6e4acadc25845bd214d4073f52b8024ca43d99cd34, 0x1bc10c44525f82f98f44fe8951d669c8bd1087ec8fb25d08c5da11ef1117e052, 0x1d8dd037d73544d78d4811ce0d6b48264449172217cfcf67186eee425e18cbd8, 0x2fbb2fcd6bbca136c183d5f94582c61f194aab068f915bfe0d85cc5d4b82bc08, 0x1eeaaa5f7e1834a19655d80bf2daa1d2cf50d73d18e1973e6a74c487030474e2, 0x1f7eb06d961fede066bfc2773ce8f36dd7aa35a727a60780719f0b9a627f56fe, 0x2981fa5e6672d977bb169d70e070e73ab9d7c3f20950b3242e9295b45390f46f],
    [0x2cb13179d6e8a4ad1b9fec37376253cf64386ad905e240575fca86539b272dc6, 0x28776c75f54ae00f3190d1e711194bc03ff39d248d96027523b166f942920a86, 0xa4ab73336b833957012f0e7bcc36899849b2db78f8fd707b692578e14b80328, 0x21ebae99beab3aff541833d68c75fe506d857d8919a97e07e3902b919d3e143b, 0x3029aa9bc55b8d1ae128f45ba368cfb20896feeabf39b966d0c12742bbd28bd7, 0x239128973757a7e9c8d29d5336d1a53b277387b48afa946628f45d03eba49de, 0x10a0435f8e32fcd6cd5d8ceb3a3c078227b5cbb69966a76d7f1d751e594479d6, 0x2f5d49c2ab9c95d09cb160a6ddf47a0763fe11fc3504478e45d1d07e641ab29a, 0x1181af9db194b4bdd65f61e51a4f7d562307f5745522e265198b320ae649556c, 0x1b9d2c4a0df2bc6d9d56c76317180d89b9660b0e3ac54e2e7ee83868ac39a621, 0x1f5c2501487912b1ef65f072a108f1e6cd640b1eeb0dc7dc0d579032000b8570, 0x72c3f6dc95aebfeabd7b79bff8d0073670c5fca43b5b067caa4828e67bfee02, 0x2328cc21742ae15efdbbba3067e95d0134f49ca25303ae9872315e29eaaf3d1e, 0x1a2d67aba6dedc8f6838af4f2318ef7575a0de251cd8bd4b9944c0a96d703b20, 0x2eaf6ca068bbcffdf36dbd475ae928d10a2055dc10da29f77ccff5204c506876, 0x233188598d95df9ea9c86b38db0027051e6a4bbf4bf27711ed16489783187d5a, 0x7b462ddad87175e51fe8bad7cb756973ce7763ea732b3f64dfa38a0a0cbde51, 0x14bbd08ca052562716a460cd30d0c3d20a21db0742da1e4021feaac3a8da738c, 0x17bab12d3266540f45d4ee8beb4e4f01267e296fc291ed54d0f4181a87e0a53a, 0x2a168a263170030f88743436b706dfe82da391914f492e7c48a2f62d56cc9d40, 0x233927efe170a047d3d309380bcdd2d2c7bba7541dac277c6cfcf3d1bb16571d, 0x10b9e5f24f1f4ef89886d8ad3f571f8f3e8633eb6a3ce7a00551d123a1de0548, 0x2767b7f7b872770da90c9b9fa57bbcd766b878f7bf6db0a1249ef4dab08c56d8],
    [0x2cb13179d6e8a4ad1b9fec37376253cf64386ad905e240575fca86539b272dc6, 0xded85a7aa57678558da049aadb3f84b88357510e6424702731b6f39e9824eb5, 0x66bffbba5403655a7eff0286ea82797fb1b78ad448612d5e5ffdd513979fe8d, 0x2be44851213461736ad1c62746a446b9b9ea157f592c1d54f3bdbca0e81b1d28, 0x13c7aff223c351a0136cd825f10e41da937896c3eb153e712cabbdc0dafd01a9, 0x1e1295fede0148bb32d784c659938de19d63cd8f070b793f4af6987d4b0a2ca1, 0x108e731bd672ffd58f3bfb3d66c3281da9a79214ff667756c3193331f15ec2ca, 0x28ee2087caa404a7b9c88d871ea969073c05aa2d7f8c8afaa372fbbd29fec908, 0x1929e70c3df9677a16e6bc3ca6c8f45435f1781bc7d3fab5c2d9f21836bca492, 0xb328f15c14da87621bf2b7b1482557b0e1e4b62ed771ef0b5c0dc2839391a9b, 0x2463924e854fc278f78d41ac3ba4c82e9ae33933c1f673d8fb988f5257ea48cb, 0x206b2c50fbd93e4ab16f20b5e1dd4e31b40b410bbba02146d1a7e7120a0bde78, 0x22a8169f4dc83f66b725c9db0aeaf6944c49f7f59e084741b74dc75f17a2d582, 0x131beaf6c38d2a148c91b01285e728d83c5b40309f89f2ee1d69ccac916cf9cd, 0x1f2f76bc23a46c9ed5441b8e0e91058e2eb16165ae943eba8b61f7629f38708e, 0x350963d2c0aa84941005b7fc8747fc61365ae03a600af938753c62384223d64, 0x1f43a719acb173edf3cef4ff57b3e3b54434997e03bca2ac3164d6d206298ce3, 0x2ff2c8be1964373563d96804dcba6db4f2004109e4d73abe431271981c9c8004, 0xc8aa745ddf7f419258d9f829ce7abbde1f5be1343ff89d90a597b8101cf3317, 0x8ec029d60cddffc7b81dc89586a6afc233826c1641ccad7dce7da7a0d552002, 0xaf6f27d2211b12aee10a405ba1959fba32e4da7012c94dfa822b683857685e1, 0x23cc9f4ca99d30fe0d7780397d7281775e7359c3be70471bc6482193ca3b318c, 0x5de7e88f631488d23cddebbab25e128f8cdfb524acbbfeaa7d2d0bf47c2e7f3],
    [0x2cb13179d6e8a4ad1b9fec37376253cf64386ad905e240575fca86539b272dc6, 0x2ef97e821dcfca90bccc266cd3b7cfe86037c961414b970511a845251204cdf9, 0x1e74c0e015eedebe75a4d569561ce744107d8f4f5406e65685a60f97c00c0c77, 0xb9e7e57a6287f13cbf8760fcbd1bfb988e1dea2f70bb4352fe9acfc560d3a4a, 0x1daceec3e24e703f54a27a8804d960d841af5a0a10b4ed8f2d5aca46b61ebdb4, 0x14add4559507a7ff29e4e915a30bcbc79787408a6cc31c071199e81f03ed1b12, 0x214af846405e33b9747a25b176edcd7c1934c101d36a2abb81c958a8be7c06d7, 0x8f62c1e4c1e9fb62f1ffa5b262df316e32b769414445444c4e345b6e6a8e3d1, 0x281cfbcfd9fe3fba3329b1e3d6da6ac72e3d401483efa9946cab0ab530342c59, 0xc4930b204d10bf30ac793f21dd5cf84cf084aff28fbea40474f34056c4b81b8, 0x75717917a0d4e210ed37f81df652af88c78224d99d13d46dad5a3d040907c65, 0x10236e639476d565e1de655b0f816e859b5b3b38897ffea9ccdc9d95580dd0fa, 0x16535568d792d43083a2c8a155e09645cb214c088e40b70589a610675f2b9bdf, 0x209b82d2cbe5617f7cf4b7ca05f0bb1dd80dc2a652b50a23e68de856334edd78, 0x10d0843c37e9ffcc0692fe6018d480df45f96e2ad41bf9539197ebb12ae5dcb5, 0x175f7935e1d6d289b963b039c85cb1a3ffcba2f681cb27a6364566acf5ff2d1b, 0x12f9631f7d9cba5b34733142a23a76a4e9bd76fc838bbb865a72aec17a3ba09e, 0xa27aaf6ad1953f49c5240425b509144c9998735a59e27906e98518f7bcbcdf6, 0x339c108d3ddd07caeedccf45ba3a1729cec3387338d45fb0b7b896faf618118, 0x1c7eb764b1b6372c8a7f18549edb2dec9e713ec618365f169f0633181ed21da1, 0x2d06b5cc446ac8715cd21b1c8889728aab4d3b5e7f4eed7faef3530fe3766440, 0x183445f90535b07b08b20073ba06950f500eff3d0962ef609a221fc0df504b0b, 0xe05fc0656468b85eab718ee19bcd04d0154edc633843570adc6e7d10592445b],
    [0x2cb13179d6e8a4ad1b9fec37376253cf64386ad905e240575fca86539b272dc6, 0x6941082d94398eebb54a701966a9cc45b303a0989725381645fbd0ff97d9d66, 0x22ea9d22606530112502f8e40f9277e1a334e8eeb307a03e3924ab8c6701f186, 0x16ce67e884bfd1782872fcd65b18b3f27af8c1edfc8ddefcda53f3669651df33, 0x11fc35853f485f0ae0902c650b9749b481e336c553fdd90f9767d8bfd52c63a9, 0xf04c0f3525c56f533b23a4dd4deeb7b31938dfb1531863ef1c2066e8758dde0, 0x2e15668ff3beca65235e7912fed8b7ccad0928136db06090fb6938ace207f363, 0x2fafbe916d3af6fd0924cd2973e1e2474b10be1db252cf038fc32e732484bf7f, 0x9749b2bb5e6668839c8be56fa468598f7292780e294e47b155c12322e34a0be, 0xc81643458c5af368b81dcb405aaeb3000b4c0ba29c376855470cfbf2c35e3dd, 0x2f7745d6f815dd3cbe2c529c63f07d4a646015842c6678456406a248252d0f78, 0x2540261ae5b2a3becfe0ccde660cf756cfdfbe8fce0713c061da7eae6e5bffcd, 0x1af533c9109087f14eaf413f798f4f0e8d9453e7cba136d9f5b2e680e80ac911, 0x27115fa52689f8b86f2966af42504d25dcb23d541dd6a1f5d328b37b9f982352, 0x1f955bcb282c2c0e74b4169a61a510d4fa506ec8a905051cd4fbdc9ef1130654, 0xf13fc20a68d983add2992ef921aa7d9294e574b8a0c697c5d56622a585ef6b6, 0xe480c1fd8e61a5ed800036d9110caa9a55309bc46a4fb1d7756b7e96ebd2768, 0x208a8b0cabc7890d78e18028768a0a37120ff1e0d81cb9541bbd781d3fb5a679, 0xa4bd40c175726b644c3dad0e29d158fa1b1753a4a59a1606738c57026eac391, 0x859bd87fb95504fae2c58816724777f1c93a172de0b231da82c08935a950dfb, 0x1572f4f0f2f44e7ab54f3d0ee208d13bd9f4a16a2be71600d10651b35483ccc4, 0x2595802b887ba581a6463dc3dd4e29be1b0977c87a724078d84fa16da9b8adad, 0x28290084f5f35de74591e06a61e7a1d696a79b2fb8db90d5a3deebdccd483987],
    [0x2cb13179d6e8a4ad1b9fec37376253cf64386ad905e240575fca86539b272dc6, 0xdd61a5489d4bb7be05223e75e80040cffa4469bbc1d2ecee02d0d5d99412e85, 0x6c52f4f90d713744ace66a17d3171c6d83f5abea58367a3aec7d538736ae17e, 0x284ce8cd77c9caeb5222618bc77d4c3d299b41cc74812489591bb1f23a5e8a14, 0x1e914c2446466051f961f69baa9b00c56f018232a1cae8c6933a1a54efdcf1aa, 0x1f9f1d5d61c22831aa9647a5b81bc92666882640968d63c03a338173c0fc392, 0x1381629462428cc21dea769021a08fb83f68960303ac1368cba88b871865f06a, 0xb272b9552f9201b03d7ebe1a1887c7f8271ebab08e81ed125a70c8f7764e1e9, 0x7b4d12c7e949d4ee6e2e0ea93dc105afbfa277b9373af2d12a6ff64e45356a6, 0x1b38520ba1c4589fd42014d6e8049acbe95daf2c4c2d910c44ab141a86e21ac8, 0x1f9ad110bf1bbcba3edb9173790599a653793009ec8ab285cb9567a868e41952, 0x2e5b599ea8d25fc97e621eae08d130909178d450803edf6e853584304f3bb0ed, 0x1b15f498744dd45c644224cbc078e921f7c1b3e1af764a8467257d6c069fa18f, 0x1d4cec7d699719620437c0a48f205caa856cbfee94146fb0d1d8dc66c465f4a4, 0x173543ba0e2d1b252191c8b9392abd96810103fa3057903aa1697429a9bb9185, 0x1b9df3514d0b3177ea22b6d61bbba61e6ecc5ef8766404333fcf6f91da0127cb, 0x2befa98a6a5c83888ab8f22f9504c9db9faee563278a894ce253b34980873ec8, 0x295db1d483a66191171deb6a0b95d08b843827b02f5e691aaedb0845baa64d77, 0x16fce7e0da0af20b730d87e50ff3b8153e377304d9d262bc3c1e2b4438d0e189, 0x1660401c207ebb47773a099e512b117987bc8d102a2ca0a7cff9947e2f2cbd4, 0x1bde105e9ebf2795607de216e544e9638fb23ef1f598ccc6066a5b1acbbdc1db, 0x5ff2966cc2aeebb42f6cabc2aff4ba67881a3653168b1da8919ea64188d4a4c, 0x1de18595180cdece76bc7a389c725303f8114625785e4f8e7cb987366b7d8b50],
    [0x2cb13179d6e8a4ad1b9fec37376253cf64386ad905e240575fca86539b272dc6, 0xb75306c52e9faa2532157457ca751484e5de2cbea41a357481e6be641c4feb1, 0x4c7855c4b3a6e6db0595c294ad58c4c3a41ab7a671608e04eadf389a77d5dcf, 0x2596ff7a33d026067f427e76dee78cb0cc93819ab599c3bdf93191bb9797a3c8, 0x8aa0063dc5903d4aee032268c89e865b3269d7545ddb1084af2479f55225ade, 0x1548a8bb67459d26258983882563f449a56c01e3df7a608d086eaab22f93708e, 0xd5ce47fb827e13d9eafa9befefd32eb089ccf1c0275c85946e2dfe1f43e8cc9, 0x1b5f4423b16a0cb4af1f7bcbdcaffdf51b021924dfab1be7fd33a56647a51999, 0x18d535b7160e89968c9633cc71fb2d97df3139814c12fdadc1e5a6f7622a7c00, 0x16a0d6cd63bb6b5ff4c2808707201602da7d6b0f44b701e8393f98db43c24fc7, 0x232c12d6ce6ac0ab8eaf31cf01f9f8d2cf50d24b18ed216c6292672c8d5b490e, 0x27fb96c5c58c40aaf14a9cef49cef5a5c0b60471fca8e907c4d56c092d8ba385, 0x21ad1bddeb6296215e8e20714f3c301769cbb0436139ebe0db55fb961cf97738, 0x19b16870babade7b8ac30c9e62817064ae98a876c93675b2398533783343e63, 0x16fdcef57ba6577e0c963d013271e70215c8a3bf9e4a0d6f93be6a4e9faf2d00, 0x830ce701a93a0d7f92677aa65d53ff28af57c823098c256fc1470b3005f546e, 0x2295d7c8b14f2ad4cbb0f762a54c58383fb6a8feaf9d4e9bde35b95fe58ca05f, 0x9b1e43bce3e52d112b238e8f72d93493f41a8620de6e4dc9b52cb5a2a1f3dbf, 0x87c2f1fe382f705024d1bdcb8fe8adb33b82361d8cb931ddee3f9fafca2e4a2, 0xb17d752334a51d02c091a68034489d30b3b4c7e7659422e50b32d07a17a10a6, 0x18d4520269ba2bb7428758e1c74bdbcedf8f058f696da3bd8fafddc3f2543e88, 0x6d0e15f1f1c2b037bfdcaf6b1e724b26ef28d76640e68110d50e426cafe5688, 0x29b7bc033acd92ae8a6df93def58d498b79d1de519f6aed8de984fa296d8d9f3],
    [0x2cb13179d6e8a4ad1b9fec37376253cf64386ad905e240575fca86539b272dc6, 0x186d603bc6d93626732b1f85ea4ccac141cc8f45799dd48af4123a4f2e7a13ed, 0x1e9fb44d51ec4915ed9a5809c50dd0bfe11b4edc69e99befd9ec30604445abc5, 0xb48f62bf60c1124bd7be4e0b9ee6c66a642918a465fa1a50e1ab500d677cf85, 0x247318154581bff6dc6333cbc14ae74202b1d419241b047dc891c0f60e68abe3, 0xb26cbe5ceca89934bce5543f84e42bc739f25f298e556225742d987b0e6c269, 0xc60ad9c62b74abf92a69f3f0c2559630ac51bc8f84c426130401b7890278a30, 0x1b0470a9e3485e6cae2769f6a9b7aa5e3b56f101d7be6bb7c91178d594560e44, 0x264d68f9e933b7f8263a465260aa839011aaa117eb02358945fcce72e0c93e2f, 0xd93de8429c70415df7229fa233e610689e3145d5346511eaf5b8de2543517d6, 0x24a99012c1ed7a1245f507ad4a9c8534658a4d1ae47ad653903dfccf66b4403e, 0x7da99b57c2bfc56693da809691737e832191a765a51a276971f167c3a82ccb6, 0x1cea1b13af00acb6c1f1596831afbd4be16fc313d954baa221204eb1035a8a1e, 0x123bfb0630e8aaf56cd3744661919b2a88c0dff13bb0a571aab5253f98bb4762, 0x1af132231252bfc602eb9d982d46f7981470c1f81d33bc2d50764daa4d0c33d4, 0x2dba0bc37236d5b612363efeec5db5c4b8dabe365af1de7eabc4307d5d13a0e0, 0x221ca65c9a1d3b45b69170b26e5a64921485f342c9d1796042a9d691dfa2b626, 0x497f939c6b45ccc29d57e1291021d7fe4186becb765967766b7ef50e5f2af6f, 0x20b8117d0bc5b325f5a6985deb0ea6c119add748d4432aaf52f1f18100c4c4cf, 0x1fa73e129c14d72a4e3d45e1044b4e0237b38cd5f7a44284bc0e35fdce08e666, 0x19f24a1c686e20b06039e60a1d522f8d521491a40698ea48a43219d401615c11, 0x21f4738cd989617c3e28dfb8072f349b44fadd5bde90f169420bec4a0a89655e, 0x14d1cea4227f6d369bc6015328bec36f0dd3cf1d9d2d088b5fe413ea7faef3a2],
    [0x2cb13179d6e8a4ad1b9fec37376253cf64386ad905e240575fca86539b272dc6, 0x985ccba651570f4575a0ed92fc815c4d262c6bf7b880a4a2e9a6f062e0539b7, 0x21370081514ca3496f035319fa817e42c182855c938b09f5737bd5e0b040d387, 0x28d51de160b191dfe5213005f019a3873bb60f2b9679a3df65617502d21538d4, 0x1ccdc75e435b8deeaa4b0c8b715f0831dc225c7538266e90609f6a6285a2bd48, 0x15ed8a603516e1f5617875a6146dc9c8d511cd100f9ee41a1fbdfd5810408c6b, 0x1cc5e7a4d7ecbf4bcd15e2c0d54532f2c6f367980d5afe4e148b7bd8137373a4, 0x2289679ed75bf564bd924ff42f14a4f63663e95822eba74b35f6c58d6ff54ecf, 0x28a844dce08ee0b8fb55e7df9630e357928dbef92ee9be0c0163b51cd555503a, 0x2521735424459701359a4c27c2cd0d55baa5380e4f4a06ef897b2ca89bdec56d, 0x225abd618e11689670409cdb1a66ab70d077cdc0f5efc2b387258f280a24c36c, 0x4d7a23e3eb7a46679ac5fc1d8a13d1670dbb5f00343cbb20893fc5576120b65, 0x166f7e2b14c9b1776ef74e4dea3147b014234f58ad5ca5a41f5cc40775185157, 0x12681987c944d15c132a93d6dfecbe502b5b7ae4daced230eafdb89d3e8d4ee6, 0xaa7558052b83cea0ddba30060b4b443b3a4f00ef388d98aa6081641e7ab58e3, 0x2c817b2fd2e5ec32c6bc84f11b3c63197aa4ae8c2f372952bd016162c5d71cb0, 0x11962159a017e25334049df13f2bd013d77cf18b3decc7f66ff81041dcf354a5, 0x1d63c9e5c4b133a0511c8624795f54474b2e6e465afd90330f50a44eee9e57b9, 0x2d82e29c044d1096b8c16734a6f9c726ac5c5b47a199dbd7b1aa0792a16141e2, 0x1b28d232a19693543110917b0ac82983b78b48fad53f25fa007748f630d524af, 0x147ba0f7c38d875d1eeee53ee9112b75fb0ae91010332de8f9325aeb85e2e22a, 0x1ccf269bf476fecbc12491a10b7a031a43c6df180a74fd76340546abe205a7a1, 0xfe407a56ba91ac174fd49efbb61e8730a4397e8df24abef0666c46e1696f27a],
    [0x2cb13179d6e8a4ad1b9fec37376253cf64386ad905e240575fca86539b272dc6, 0x53ab7883a6bb37977a9f6c04b7430e1f23259c71bb63dbe2bf0fc296793b2b2, 0xe791a7097b6e2ee5dc314d57432975400f92d69d4ffa60d7c9a004e8a8326c, 0x4074d5f47b8529c9d8c79f8869dd7e53944046be065d4cf1d9e400cd30e005a, 0x105b47899898ce40b7b74ce948c42b1a7f1c064c17a5588cab02b9f593b55744, 0x2514168dc134c9550d7d4c5dd03dd3b6fa0f4c10fc363137f17a1cb71b8dc451, 0xaf1d61be25cc6a191184e77234542f4946de687cbb08aa8cea91a61ada0548f, 0x1dd5bea55d34b381ebdc842200ecaa4ffb28b9edc96025a7025da4d28af0c053, 0x1c39e9f8a25300f88afc1d5aeca648517719f5c2f8977865deddc3da451f739f, 0x3adf474709643e45b573ffe296c0cf64b0bce9705b91f83fc1092121474942, 0x2e2bd30c5a414e196095e3e2e7acdf0762c6a54ea74dd82ded60f8e6343c44ef, 0x2b53a13cc27545adbed481418cbf2bc4db7ac6aecda56492735ea2e9c828e876, 0xd90f7595963d4c470a559f222fa2b6e9588660c9ab42474fbd3502b14cffc96, 0x263b73e3488bf2c208876b22bee8e28aefac9d3a4b76768e9ec0b8395d2fcedb, 0x2a0dbef5edad1d5b0146a0630de8e8588c6e9f8e343ceaeb1e90f1163e93e477, 0x18c06136a1e2c542dd4cabafbb9232a98301c91bdb294072cef62ea4944b1f78, 0x1652c71884fab33b816d894c62c6c773cc63179ee35cb7e73a568533547d323e, 0x24c895fe21900e49b6c1e90825ecacb474a9e919a9d3451e170ef22189f5ab17, 0xdf80fd4f963e8fec47fd44bc51d94d1a0489477b2963ea46739a99a3ebe343, 0x1f03fdd86ee29e48309c79e90e0c1225a1ffb47ba0ca25e4e261e17e82567266, 0x27ce3b368152a24912d9493bd7f75d54666d1633a7f95ad94ef9cb63b72b73ad, 0x75d95500a93ba86bb52fde581cbbbd7ae1d288b85e9862fdb6a8460cd9a4d04, 0x2987891ed79215bfdb0513344a736a5faef636e4dc1aafb953a27e60763bff4f],
    [0x2cb13179d6e8a4ad1b9fec37376253cf64386ad905e240575fca86539b272dc6, 0x2fcf686a3213ddf2ab8630b29d271f1c038040c01d6d40917e7665f59c0f411a, 0x261ea88ea2119c8ee660600c1c26964559b0345f3360be71685620821638be7a, 0xfe04a27aa636785c583c247067d0fe0328b8732b173b20171573497967d8a02, 0x2cf0912ac2237a5091ec27db0a7d5284f13bd4630fb6b58f221a68f5f4fe3232, 0x3041569dd972c73b88e73eccc715d7043f36ce79412db0df57ed902957facf9c, 0x2a4f9b5c59b09834c07365f58f63ed64038366bd9d17c7016f04505abb878b3c, 0x1fc17fccc2b1f4d051595c0e4151406c29d2eb02537696aebfb7b85e98371718, 0x16fc002eaeadbc610d53818fb1a72c47f07e7834b9433e0276eedf4e0cc779c, 0x2fe0f6bc3242cdc940d4ad67a40328a51da22100cea8628892a20d3680e6d9dc, 0x43423406385c4db5ea885da5766246096064fc77dda460fe8d8deb97d34ba44, 0x90ee6fd231f2b7fa73ff9baf6db0a47a0057e62664ddfd9355924242d050e02, 0x3005c2f73ab58a8cadfadc4dda1e3422d7c0f6ad0fe7a752045ac72001c6d445, 0xef228d7667c66faed8d7e3c7bbe5925a55d7451df7f51a6afa3bbe0747c1ba9, 0x2161f7618113ba7d7842db94ad2ef24f21f8a31b4c1124688a2e4dfac810f01, 0x20f085669bf228d7ba11d93866cb3c268b2e031ddb9697d80cf62628686938e, 0x294372804d6e2359003c9cdd1677565423edf025a9933d0b25faae3947171bc7, 0x15d37890f0af5bba4b3abb37bfa5d5e115ef5a4e805505e2cd021c4807ac901b, 0x287ef1d880b317586e978d5fc8ea277aaa451ee6be1bbb8de5cb447b7db251cd, 0x5d0ffe0d01c752afbfbc3e2c49f0d34d35ee5198603300d727a11b8e7eed593, 0x42e5fb819552fb66da7667d664838b4bf65a50c422ab1e9a85b1ff6e92d30d8, 0x1fce9b344a773117d21974d9c3a070368065377845171e46936cb95a3d38051c, 0x217e2377d39a2d534ef281f973ae22fe8ec4f87500899431cece3c75c410248],
    [0x2cb13179d6e8a4ad1b9fec37376253cf64386ad905e240575fca86539b272dc6, 0x30073c53bd5375c642148a247e4260a05b56613dcdce4a093e85e10d296999e7, 0x237c0bac139ca6595c3dbe7f8130d399906ec0710818ff44c05774b479d54fd8, 0x1f2e23fcd2259faa7cb33a243bd212e89baaead143a7edbe6c6b1c295690db9c, 0x2ec7439229a284f2c48edbe15599d462b1d073b3a6037e8f7c8020777f26ee4f, 0x23c268b84e8c118733c2adb6b3b0935ff631f3b47843b112e80cd9ec5b5acc5e, 0x136b39ab04af56cfda16f3f99411b1c3cbd3ef198b5f056e65718f52fabc7c9, 0x29358a02315a9f5180f23577b3336be58d4039e6ce4fa251c4cf8618a955d9a4, 0x29139674f1ed5967476c8dd777624e49bc90890a5c99750922a4725c81105775, 0x2fce35cabeac14beb49bab9ade7e3811bba9f32b99a78e3ad655b77c473aa32e, 0x2d0fbcf9cb5fb78fa20bd878ee7e6bdccc2eab0eb7d232741932c0e785301f0c, 0x2ca38f6f88d6a37b8e126f72a82237850d9f26edc5b577558da58c2e55b0767b, 0x19e38d09cdb939e187bfb8822e5c2297a897da1f16555a191157bb8a5af115a0, 0xf61a58b977b2fd7323b48941cc010140e9b7da31271dbf3e4691b767dee7f9, 0x22b5299787050ae04bf9fb86cfde9589253870bed1a0213b143b33eba1153df4, 0x2becfc510eced53a873daa537c21d79a1d5071aa734f60553ee809520a9e22a6, 0x14d5be5c690883ea5b406c10b0120725bf1e4c5de2177267d9e38e9c792bba8b, 0xdcdc68aaff548dcc7842f194b1b30b604e4df04bca89830c0bc367e7703ddf8, 0x1b0aa07f9f3f5aedc37e1f7266bdb1ade79a62db3714cdb833d1af86cb89d9d5, 0x1e7b9c8adc9bee22f859972a13e0213314d43e1829f4f99fbf019de8ef79f3a2, 0x3d090fdc48ebc009b4cc7ed3546d69ec87dedbc67970dcea6052642e517fe39, 0x2fedb8119885c38398860a6e6c5db18431e4f0d981a2fa274a36d5c31f9cefaa, 0xfa5fa0299ea7aeff8d357bd332f13abd6935460588e15adcd0ec76c8dd6750e],
    [0x2cb13179d6e8a4ad1b9fec37376253cf64386ad905e240575fca86539b272dc6, 0x12342a1391a6b59ff25a5c84f352a01a24422046622625d79588a43c40f4ea8f, 0xe21849b6b4969714a121558331c18a2a8969004cd750c3fec6bdda6384f5a30, 0x143fa84e95c7893e11c17306bcb7c7a64e395e3fd9f1f4f086ce3594728931d2, 0x216b7f99cfbd8ab9e124fd7ff4b172c853cf23a2ac95cb41b3a42190f035b144, 0x18bad0594a462f033d2be7d2151cddabc6cf21ed59510c1e56d080872fb95490, 0x2c5b49fce206c612947ff5f4a12cf1e4763a3a1f7b9407c328e30b3497d69f3a, 0x13fbbb66309924fea1153a649786a33fcd8dfb3e4222a3d59393b40ccb39b9a5, 0x3b44f905e3c8a2b3e7487e0ff0e1277d5abe5e1301c165ed1c9258829622f7c, 0x56c2fe32c1944e7c9400d0a6ec21aa54cc056562006c48458386c8d92f565ea, 0x29c47e53143446f7bfc43afb3ee84548b5caa25f4987796415d68e318889ab19, 0x2e43c52d27448282177163200168574de40c584fe61d4fae5dcae495890217d, 0x2fcce12507cd0630f06a2992a515f45c2b469f2742e328e07555d22c75e51e40, 0x1d2e6d9c5e8c220f9402b82ba4ebf641b2173e94ae76eaf7ee5559d43dec7611, 0xb1d1a4591f233e710a8f245cff5cf759fe0b4e55f46307bbbbf5d4573a860f9, 0x163aeadf9697fd15898344233a5a30236499b728c6fe54b2534c7c9fc648bb99, 0x2e3345617de88523b5d09b27c9669fdcb2472c6cc832ae304ff960c0d4a5a348, 0x1859a9bfd50b4bf8d40885c992654775ce35ec41a77b896206df0ef2281efc08, 0x1232a777b5141ee4296798cb37ffeca708d0eab3142357e4e917b65e424ec478, 0x10c4ce967cef015fa466bcf69079f8f23bb2826cfea14c78a3b4509ab2aebd8c, 0xb980e8a923bd3a2a9d5e9192337f070f18c11a16c809440f426126ac390b7c6, 0x2b1d91f4222d2984db754e4133fd4060d12c1dbe6158eb34fc1c1fd0f6327b99, 0x19ca1b4e01a1671c771897b741b03ca691c2df986c339c6f2c6b24663fae3129],
    [0x2cb13179d6e8a4ad1b9fec37376253cf64386ad905e240575fca86539b272dc6, 0x15e4fc48c95a30a9b34e39c7e2e5b23cf96e72dca78d25cbf1d07f6bd1f35269, 0x2d23fdc4c0c81c5cd12440066758541d7e4b9c6bc29cabaa7bb3217fe5580c65, 0x1e1db0902c0b9743d3e60f71c53bdbccbb995466f39a9e044074a32086f519a1, 0x24b7c98c30ccfbd3b3c87479bccd71122f3a41e0eac0c5a82916ad9e1c77ae80, 0x22ac75fca4d3bb5bf0f9f25bee0293c50901c2d45f4c2e1d19d7433b2771cf91, 0x2d0777b0c575fc2be9b13118b4bac03bdc856c03c9b7236f61670dac5da95b1b, 0x2252fa35e811593e627c8d6ffedaa4503728b6d6d9676f2e3270545cd190be5b, 0x20b37b4ed7445a96acb5891bfe84d9a5b96e8c5a67dd111cc4dcaa8269f4f0a8, 0x2347986652295db79f804ba06d9551d3e2a6b5a1ae358d94a1d71c34f36fe0c5, 0x19384ebe245dce94d5e68070e3114b1c5be9123e2a3728ac3af9d340058a35e7, 0x1fc74a00232310ce6af9e233a4934550b0f3ef063f221a3dab64c2d907138a35, 0x104721a9a6568d9e67db56ecc61ee18623e89e26a47b9e9e44f8977da8a7c16c, 0x16d9fd4e5dcf75863f3ab7971dd72de63e09cf77787931b0868a5c15be47c163, 0x392be8203347a51c9157a219aaa6787f54494b61e62c54e1c91bd995addd474, 0x1728a3905a9130b0f570af0165bd2d00dea61d61f7d103ff7c13172b179099c7, 0x145f03cb3abe12eb5f0cac73c11dba2bbcf94c72f2e30e22193a33906507934, 0x87ae2a368db5f3d666730029fa0ae971b6f50432881c9c0d86f5f3aa716b842, 0xe386543bef330d6c3cc14294ad86e2408894da265fcc041225196ab8064c737, 0x1faaf3ab79da2b30406f111cd42aa6fcf187b19448b18f4617712bb95aea6ab2, 0x1c68410bc6f75d9d773c5cc57af29ab138e98480e1a0de15195e64afdec8c525, 0x5b529d09da83d895ddf1aaa9849f98955d81280eb9f4b71cb7694b2a21ecc0b, 0x5b8ef58138e7c3284d9afc4541e7f291d87b2e26b50b7feeb75cd859e3ddcc7],
    [0x2cb13179d6e8a4ad1b9fec37376253cf64386ad905e240575fca86539b272dc6, 0xd2abe6bb0c097deeeb3f2162b41f9e969035ad6ca31e71eaaebaa590edae407, 0x1909ae6f86d6d43332fd32caf83152de39aac3f2701441302012d3b4349c458, 0x2f0ee3a8676b72e7e5ef4794aedc88051f0911ae43d036449d7c07fcf2f5dfe1, 0x1e378a1fb4fb0b0e168121f86be8de342265f0d9443de37ff6e24a8f31c63003, 0x2583b1b0912cdf162a046daec4856ba80ec6df1f1fa080101ccfd225176a0e8b, 0x11d9e38aabbe2391dcb7dd17706edc894dea224f6cbccef182edae298800e746, 0x1d486e5b90e3f3c789830bee968e6d544b54031477fdc8c9d002d6f9cefd598f, 0x234434965f05028a4f5330a590ab06619914476348aeb87a1ebbafa1e568eb18, 0x3eb55944fa1e36fd16239f7b3ddf108ff5f27955e2f386139493ea05c1bf509, 0x22d683ecc91253d08e6e535a4b62627738c2cb877d2b125aa9b190b3ed2ed9a, 0xff142864b0e14d2734c2ed0642a474fc1f0116d7e1c5dec18bdceacb2721958, 0x1f930557a284998225f5f4e4dfbcf5ac211f1b12d91b0562ed3d63285d7a714a, 0x18e8222f6907da5745eeb9cd4a9e62f28b8b710aa85fe729f9ea73a3ef0099d, 0x180e924d757d0be4066feb146ed56212e38acf9df4957432653f370f905b8b07, 0x2f7d0715d1391190e7b14a1242b6799eac3142e21f08ca02c21755eae77a55bc, 0x2283ed8d5e6f9470b3f4f49a771061e4a4fc7dac683defcc0348a8862c6ce71, 0x21f60efb132b62909990b9f994f381a9c02abc3ccb54c5c8e8c9c5664c6913d6, 0x1cde82acee60b84424e9bcee49a5464ee05d1cf0b70469208a675635ac715495, 0x118a24510a2153f818f0a996c87de913587805f16cdb1939d9406941f958e8e1, 0x164567b0de16b7a5550fca229bac7cb0779524325e4ca5e78a86078881660264, 0x188ff303194112a7034527cc9dd0b4deb0960c9c106ce115178dd7087e4e8c02, 0x83d832adf9bb4a25f686abeda9f16ebf53263dcf9ef4311781d09920d094ead]]

/-- starky/src/poseidon_bn128_constants.rs L4556-5373, one round per line -/
def c12 : List (List Nat) := [
    [0x1512df0135b6692589f071140a60749cf775c642b300da2fb4ad5c6e23ad4e5f, 0x2b109ae037ed30361cf6544b2f4ce58f356589896d6a8849482ed3f9b66e1198, 0x2585bece06eff553d485478a19eb149e2111ae4e1ecb1d61fc10cfe1c077f34, 0x1ff896f4c0662f4b2ad926741b481d03b813a8cc343b9c2d2bc4819c70b2f3c, 0x1b0caf02f434fa3d4cd4fbb13d3116ac8b7386a5afd6c67076ecbc3704aa45dc, 0xfcb7c9f13c85517a7805894ac82b57c06f2f153a6f51f60f8e508684dfe5bcd, 0x2dc2bdf7f43812e39cef210e42e92b4968ad8bf554541182354504d32cbf9954, 0x5add9df20c1898da46bbf74594438beb07c9a65635c90f45c0a08febad13664, 0x21cada6641664daa997fd55ace8b88191cdc4194fbdbb6ca5895447c8a58859f, 0x19623504589a60f058b04489b153324d16ed66667a04df572b103590b848bf04, 0x1776442d850a436a005e02c6475b72fd2d5f84452890c444162848ee1d57dec2, 0x6c1691fd6d2ee98396610f3c868d70874f24eff853938d87face89234a09a98],
    [0x22c3aba15f3a170a1bd11761cc21794a7afb348a45d85e30bc5227881493f45b, 0x1f77b18f06e1458877c2b18cae4e92c196c0be0f779b9e63b06c48e90b0274fa, 0x226c3dfe7a6a67319c1dadda1b4ef04e45f6b80a78ddb0bd67e363e63b85c546, 0x56efbe3aade68e6886ab92e98a3d28a68ca89d2fb75706f6946a0081f01f621, 0x296406451f201c0d09587b7f4e00a7d0e1940260d48313de807fc2df0f755d7f, 0x2000e0b6012b20f09df8eed25b095bf22e75e2a9c87e478287700b593356f84b, 0x227f3766b6642d44c6d836a17c30cecff654b544ae8636818db8e27db124ad31, 0x2404641b2f5dad9722542bf151d497e9199807249b886c975f26385dfb254a74, 0x37493ac64d1deb34b9b83490f35170c4212d2c30926d4e4efee57baa652ba7f, 0x18ea07488f02c6925f4b01d01b809c9a6325ecc7d9c790922b68ce5e7941595d, 0x11952bfcba06442b3c1ebd959f1d4c51f982f21f994e105c2578fc4afff91c91, 0x12be2a32f27a4e203517ab2028e65b949f896c5becfe57e24c0af04fac720544],
    [0x23e8097f69bbe45f02faec5e26dc523a02153b9ef9e8bb9c5f179dfe3036c358, 0x763fc4b7da94badbd97ba933613c3534ef21536ae7085e123c8d3e23235136e, 0x27a4fbd1c43e0ac15eac974e0ce2e25344c46c3232ee713141938cb019b3f907, 0x2dee4ada593d756654dec12b86bfb041ad785a56707611fc4845f4d849e7f86d, 0xb5151d0ddf61b2291772eb93a4e3e211f52124338cc70f3d1ed95b0e9da3355, 0x2116e26c7086e70c806605a1671397d7c073bd016d370ab3cce7c695a7eef96b, 0x941849147ab2cd8d189c4f8b17b5a9731e55f2d143f0a76d00023a38e4efe5e, 0x2ba07a6f84d2d2dc2f1b17e2352deabdb5d1e3b92e424cd6597c77d9fe672e91, 0x1aafef7a2d2f0516b4ef8cee33b4e8fa3a1776fd2955a878ef5d227d215a8071, 0x19434cc86e2f53e5db3cebfd2db52b402fa26e29c13bc13f315786d10ea01dad, 0x75519c0bd7a6e6fe4bfbdf61addde94db8427580193e2ac8517349805b6623b, 0x12165d475cf1c4baf662bc6cd8744f9aa4914a1d9e53477b211e853eefbde02f],
    [0xbaf434f56cb6bbd08a0a58713b949b54c441ede53eeb0c4f9a6a4047bdae7c2, 0x2e295b06bbef75a6d76dd10edba1eb93b287261bc8456ed91c2bbd0998444ead, 0x146567927180cac0a771d5830f1431d14cd2445f5da16cf934442e7365847e4f, 0x231d26e7d3ed945791a52013f46d02f5f4e46c17c3047acafeabe4ad02cbc44c, 0x1a2f5ce4406246fbd42a57e6d5ae3b2219261e364cfc1f2a392948fafae1e76, 0x661cc8a39d60be9b3c8bcd81d91fa8ebf9aebf9829c253385cf9f0e3e76b39, 0x1f565da70f04f96f26b3b36265f977dda09b43bcc8988930dbb2079fb291fcb3, 0x12fd46d935d45a5c8489ae0cb02c2fc0214b40d2d0f3ce442a28d764a9fb0821, 0x2924153dcf47a15be1fa67f8ddf00ec5c816868c8e91b029f4afbd45fc52ed0f, 0x1d4e61f8c6455809e19b563d168b4bbb87a92674346f9fd628ea5d20eba0ff4c, 0x2c4e7acecaca8e2ea9fd849be562d4d5d955864d152ff339f2b2c7cccb4ec3eb, 0x80300849f022b572d62fa787583b6c9b1ea7520f3cc4250abfa8b4b600ac986],
    [0x193a37fbfd3671dbfe759399d018df64cde45f75b17733294e87596a304878ce, 0x25e2563688957cf61178a5f0073ab7dd28c6bcd12ebbb9a3f0656ea0ebb87c98, 0x1e0d91980c59a652465ce702e4e8de73f9eb4217eae2514566a39db44a09d516, 0x1391b258dafec594799dfa817544e8a907fa794af4a411f89bf5752f36561fb9, 0x12c30d5f593d4b0b80fc8c967c2a50c44828a4175195e47a97cbead60d026925, 0x209ac8a2abb70eb33f20d5ee2b44ef71f2fb317a4cbf004c89e55a9e37aa9ade, 0xbc7ad09a98b59dd1677ab30302fdf0c90e54506b5084c5c89691a364d268ea9, 0x1a7462cd2353a35701592a1c54fd363747d3022cd8548ab8c838c8c163401a64, 0xe251dc6fdd76bdbebebf70808d052504204fab54c4ef63159d064d68ec5f36d, 0x2aaa85771e835599b13e6c43c0228167fcccb380aaf7c8e89b4610e586f8f9fc, 0x2c429c35219ac033ca9ff5436fffc49c3ba01a4eb270259f6e9a3f1c3fb61414, 0x11a5a9e38934a5912bbee49d509564c994be9d2e3eb615468b22a72fc324daa],
    [0x22a724029f009c75b8a4358aa7636d13eaebd37cc79587497be8ffd58b4b6c0e, 0x229236c15bb19327d244457a311d69f07027cd95fc152a84b6e003b841c337bf, 0x304e4b8a0950a39ab2943c3b68eb6f16850a8cee4582fe4a8828296356811696, 0x834178a75d083a131ead09424b3e3e969de53bb2d20f94010883f837c99f9e4, 0x105cc405ecb40ae3f79cf5b9bd76a7f97a03f9a076f8a1a22c10f4492063049f, 0x2a37b4b65f08c8addb53e8f024c07e47b2885a065a352a46a361549e1f8fa288, 0x1078c0ee085dd1bd24fe71fae426d7d6b9697d94e17a7258757927a864cfc9ba, 0x1be49bbab70ef67a5d4e1706624a22860cda286dec7c3a2c99c0b5f235ed7e2d, 0x68ca82d18b3e7dbbc769a29559b1d87edd0822384d2d4ce9b0efe2c63316f3f, 0x2d8989373a556639e33f298fb049824969a1a284b60053edb972a059136ad71d, 0xd3e416c0ae12aff59d8dd5cd5dc509addd3f6390db216742c517f2df71581df, 0x14b2a67181fbd9c813c7babc9d1f7a7f1febf9f512c12abd0df3466a29b49bbd],
    [0x22cfe9304894cf79a84cbb1b6e0b577d683b024f0d5a855d0c86a1bcb432bd8d, 0x1adfe9a64e8029331ebd2fa3def2961f5c955f5956d61b34c02d0b062bdd2a8f, 0x2751b2da7db871ba5fdb40e0bcda7cab5b157b5555168220cf3b7969d613cf76, 0x57f90a4c08130418250b790236f23f3209e88ffe2bdc6a240a812f3b571aba1, 0xad74ef09771099c040c2c546719783c39ebafd5ec2a55fc8399b04ab922839e, 0xb00c2fa7613b52e25e4a6cf633a33355badea435cbbfef67523e3b3b1b73ef3, 0x2795381be694e0991a369e8e6ce75e7df18d38c43af1bc588cdc65ed8e877b84, 0x9177d18cbff59ce67ee76d3d10d7df12fa0bb1dea660c3ceb006a6a3021de2b, 0x1bc77e5718826efce52a86b8610d9480074647bf4b3b9fa3707b681c1a855a43, 0x2f2d128b42d32102d05761240817ecbbcaa03d2fa45c5cb2f82c1a0c048cebb1, 0x215bfd258ebc79352a7a4faabacb30840f7eb357edd21699d5b3261b5762880b, 0xe6b332b4ae5b95d518e6aebb7a07fb4fc09235d37a4133a51be17fbe9f8274b],
    [0x272936773fc1a38aa82f7d3172a2477b601e1015ac0198dc2880a21bbac65420, 0x26bc4d42a17a0ffc93798bfbf2e2b561c15a7460e1afd9c23af7ac2a6de03427, 0x2d093621fd40ab76ef16fdf49a7923d2d12c0228f8edb9b86959684611367ffd, 0x275ba0e2a2a4c3b1f5d718b5b8cb8dcc4bbfba1b7064b6b38330d950cba0e84, 0x1ed6384ca9de788c235c7fbf0c31a59b861a52bff2847af2ab22592487879daa, 0x2c337c808bfe0d2cab544bd9af01f08f916d94b7ce0729a08cc4efb9eeef98ec, 0x2d3e0934a4371484c958df1e97e7f0f3984b5667539fd10c3e8e71246adad09a, 0x54e425aa02adacfeb729cae9df1907e4161302289467c9327ed08e35755cc13, 0x24957fa9d48f942073ef90a54cb0632c89a433ecb236d18f57dac5aff85ef96, 0x194b561a91334bd0dd4eaecfb94f03ebab927fe5787f1723c2535944b2fe6971, 0x1f5f3bb77a487905e3d39b2656b91e0a8223226a3cc0c7a473cfc4a52c74ac03, 0x1b3a3afed7a0821a684fc0d0f9ad9dfa3b557c6542bf7bbc5cf01bd3369cba06],
    [0x2b96619ddc3b2a292fceb07e2aa80c86ad636ea7d6d4babe8d2947e069390736, 0xba31e2d1e807374a710cdbf81f05af4faadce88ead0a1658b0b481406613177, 0x25d7d5bdcb74b92b74a604d6fab3b2f3a228ad23360e4def3919146e8c44fa52, 0x1ca9f911f0b08d1a6205925cde7aa5fd38b061095621152e8abd01654380fadb, 0x1a90d4e090aaabf652053435e3cdea5dea64527e5c841ea9358825e2191b48b7, 0xcaaf3b76909b0b1e1c7f4ec493f27501f5e6f08369e8a36eac406f29c7854e4, 0x1c8f94286e329069d1e80b45787cb308ce214b04999b3b99531d103fd2577cd9, 0x1acd43271d4b04976db5ec42700e83fb151359f9f260a5b9770873e3cb98a900, 0x46cbdd4dfe88c67791bb0c5ac749b5cdf44a3a87e85fc7bbc19b7839647a704, 0x2b4b03cfb4487c1a19d7c05ca15133be29c9d3f3051e4b01fa4dc573eeebc2af, 0x1a9a01f0040a3bea6124946a77e67fd3aa4fc6ff21ff5fb49c852ac59b65e5c7, 0x9eb5e077a7d0110673a617e59369830acdfee50de5823ae0688e60714292b6f],
    [0xd006ce7c187ec6472562d212dfc29f615c5d119057ce0c721620af6e4666fa4, 0x54bc8d659b31001a2a529f45640a998dcaaf2ecf1ff8fd3f206fe34fa84722e, 0x1ca1ff244c5106ea88045116081c201c6323698c6b68738166af8e7f3f8dd9bb, 0x4f254de8093f3fb3330dd7423d9d9e17357ccb34a3c18e94019627610cab1db, 0x18fa6af934100cda0123fee0b5636b693692d91cc832f87c76c04bb20950153d, 0xbc175cd6a0ad546d33298d27d2ce18ffc6995f153f6bf05c59c09a4eeeab142, 0x2e2b792abb6b6310e2cd5b188fdccf53028d6ca70604e36568b15f3408eea618, 0x1216fc0f6e7ac8f0ea59bf7840fc720b37848e6dcb0c77f253e2cd6833aa3af6, 0x15381275074173542cd250ba7cda6d1be6c12c44af2a00a11fcf0787421d8a02, 0x25aa562c4dfb0a38dd92e020b4d6f9b2769341f381de9c27af0eda1453183bcf, 0x19ac9e3549ff20909488ab728a6e88d10a0f634f771742a517e00bc2cc7cbe3c, 0x13c02339462d082f13ecc8ded6b2bcb26a8005a9ab55ef69a91f847e760bf302],
    [0x1fef0dcd8f5858f240c8986003e577a276a3526c6b45f75403e814a0bc620a1d, 0x31d9be212424a643c6c9bf144d81a06e6fc9d68637a093889cf3c7fee5e3ea6, 0x1a6cca07ef30d34314047214f1a8729728b8dfe8c0e55bea3564928b07de42f1, 0x2d3b9eda96cf186f8e0b5e1446543281931b260a3ff043c66cf232f4909c12a6, 0x7da58325965bec24b4d12d606fb4563a23a130e98eee7f7766a4a3558b5d6af, 0x2655571c23f7f1cd1be67bb24d4c4e7cc674b884b9c58ea8165d2934930d6ffc, 0x2e5ba95e4a2ce5c433f15ab0a026b1abc2b2cba256c61706b6997feb577a42d2, 0x3000c7959df31ee4bfd1118c7ae22906da8d802d9c47855050117926342bca87, 0x10e13d0881d27b08cf5b64ceef72c428ef1084679b539b058c81a17006abe053, 0x2be2a93b372be664eebf809dd873c74122acb3cf5abaa6c215871601b888f489, 0x21310218217a726cc850c0a7dc919d29ffa8b61ff606390b2eb0eca95d4465ac, 0x14d907f470707542205bfd78df274bdf24d8978959b44dbe9df7a7e52114a7e5],
    [0x5acfa1e857d8001ce311fd3b5d9eb3a1c92fc6e5dac2466c0af0b277816a3de, 0x123ffe61d17cbd6623ed486af0eb8e76d04de3a77a483c662b0b5cb98cd449da, 0x26368aa29474645edda1e155a5cf0df1eec95f4e895650810aa77f4ba7027af7, 0x21050e2060dceeb56367512af3fa11f3d2e6be9b72731255b05be5fee793f880, 0x22ee0d90c7d715326a0383c7abf6824b9d936af296756129574bc79af2fef0a4, 0xe457467bae8c132f687fc06235fa92a0bb2c3fde1ebbbee6ef83729f25f3c2c, 0x1dfb9cb0002a56e38b73913636fa56e26a3b4de751939d5eb09a3432a3e29638, 0x6c5f60480c00ca60c016f34a8ae166b6934319b81ab4b27beb44a133839dc16, 0x1284904157c07148e61e56297ff04fdad394a6990d4e47a614a00999e4b8e78, 0x13d10300ac391c78f9c215dbc5d2d461b62cfa5a3ac70a69bd470be5d82cf32d, 0x63d65844b8805daa8fd771b07c278404c728b665eb17202297266c422a96188, 0x15e3bf17c52830ed3255cd5c1149f3618641d6e7fedf468c305d08220dbc8a38],
    [0x12bf5dd5c3caad12e0875e57e19b10752d9651e3a5dda05c0f66e5bf8faa3df0, 0x243c3b797e831a55046ae8916158fe53648e21e939400f9f5eb67d6c0cc094c7, 0x1e28fa9b34c2c6155b8421edd4de58c99d1e5e81e92345f62319ab96df03e5, 0x2ad1dba5506ee064064963527bdecd823cce0494a86ea452d9b4033623f386bc, 0x23137879a024cbc1b4810ee54c7f9b85046734145f334a7cc1e4a57c740c8d82, 0x74f6fa62972968e22189384563d6752e30235da2275481bc6c3b056937c773c, 0x22b10a5253716d165a670736ee243de0627619378edbf751b46bda0b12dcccf5, 0xc190040f1e4eaa11b4fc7046995989680849177ece7bfef7b446513f9ebe112, 0x301875852c9ad256211b7f9f31ced8e2256188d32c3072c519d7069b0d10db76, 0x1c0f67d05ebfd650d22dead7a11130322bc1272efae98b85c815db6b318dda42, 0x286e9a17364f36946a3d2c7ba0612fef3fac60b0daeb6e973aabebce587a78f9, 0x2b729468126eaa101f4233baaa099d02db14fe35c48580eb3165c61ddbceb52f],
    [0x1f30f71406a5da98e929062cb48e0a34e473e832fc0ce811c28f09a31d5416fa, 0x259546f8419fa15978ab360084fe0a13229fc11dc698db8bb81c822e2c832173, 0x6e36124121afaca19887a7ca428e12c0ec8faaaf5d733ecc6960bd7aa5d7deb, 0x10f1ce0bf57c0778bf4de60a1e2bac8892de6b7b6ef2f8de911f731494260be2, 0x177fc951f639fcc274b4ee28f3f7ff560d6ca0d9f930f53d3abb55e6d75ad103, 0x1f34032aa46cc08d68555bbc2469a66a2efba23c56ec3dddc5836e2e919cd610, 0x269cd0b774f8625f5de7519be61857cc9ebe06d10610dc91d9f4cc57111eab41, 0x74f437828140fcfb1ae00b38c29a5080f0d0feeb99d4688ff8871f6349f3c66, 0x396f2fce8cd5ab3d2601d37f80fd9775aa5e9f56b406f015d9b095fe1905945, 0x2e03afbff73fb05f32f50239907f48aae1aba810a6312480cce343ec663f210f, 0x2ae899455a6a7c49997c82bbe36066ef1d6c22d8426af54d2c74970b33ad2a90, 0x2bfedee3eaf7340a10fc0971ef0003dc87cb997cd687ef9f7f88b30c3def2690],
    [0x2b50b39a43cf9f1d9feaf04a1f100311e78932a68051e792c23a99ff95139a00, 0x24d16eb1fc9ee39362dc66338ea0d275147f8a7ab4b62ceb26dc3e2b16c3bbbe, 0x1539d4f6178da10200463590c6efb1ca7305bbba935e5a7dec940e236dba2f71, 0x9e85ddcb02bfe0709021dc9b9f4efba2ca7a04075a78c1bfd29dddbc7be7528, 0x1fe7f77ba2c018282073ab4d222959351f7cc16cac7e1c6794611eed06a3813, 0x1d3220cf7ceba197899e792fd2b5165807a83782df55438cc8fcee6ae75659f9, 0x1364bb46fe7c79bc9156a13a8c86b77d3425391f7ed124a035b94133404517d8, 0xb70eea0fa95971c52b4c91fd9cf6ffb5de97e63e364028f0c0b1904b075b06e, 0x2a9ab96b4de33f8ccfdccd8e86510e8cc731fe673eb289d15a374eb0d055d217, 0x2ec7ab4d439e22d1d97eff2501e94577691d28698440e7b41190a8b8e0c98525, 0x1c1b59ff9212224422968e7616ceae71573b05c99e4bcb26213126fe4dbb5de4, 0x1fdfaa4da540e50d2bcd1a2a0975350f969e3492584085f7dd3fff9d8814cd49],
    [0xcc8ef6a3dc250d7a4c94bb890be797b91f08869a99391caf70e2effdf7f0866, 0x9e595faec8506700a42a5a41190cb6b9f79fae9b601cc6567569e8ee9e24813, 0x6047cdc0ff8bd94c6ab60e3ffea21912f0101a60bf6c2e96371be54e63d7346, 0x2e40288a4a681e1ff5318fbfb796e8b7f0b2facfa5c9e691a1c4924fffba4950, 0x12616992bf6faf5144c8ce58355ec2b6e20a7d25c7dfb13460b0722681596807, 0xa78425d56372af995d8930d48cd645a6e6b45485b4c06fc38e052818b5b3caf, 0xfe9c60a64dce8b45b53462ca6e68be325d8174d067471295a983cebb1c9a0fa, 0x2e7aa9cee7624f71fa4902971d07cd303319bf41007bdc4ea0fea40ef97cba1d, 0x104690cf04a0666f4921a4ef9f808fb9a3bee6192df0e6cdb15b6f302f476c8d, 0x2e63c4212a402284deddf9ef260bcfe7a395002e22c9a6155930533b29959471, 0x23de0c9527d4ede516b956c9200315866378510615815351bc58d3b5d6ad7826, 0x25439ed1737440d79e4be009403949ec9d32a0ba6ccd7fc5158ec97c9d32c447],
    [0x14e35080e8da90b17e72b6fbfffe126b09ddf0c0cbd0b226df54958e680afe90, 0x2e0e87ca0a2090d9ae1824cec8a389e001b3c0aff73e81bd25847ff0a45d1fa6, 0x1319e0f608a12fa01b7740a8e14066b880f0b650831d8f424b6af3fb361c6deb, 0x262b82f1d1d07bb18b9920597c3925a41c0a61436b71d24ee7723c7fb8875af9, 0x27773d7ae7ed008296a572adb64f4fb5c229735b259c03d4c439ec2ae468b77f, 0x5a65188ac6d6467e028dbe4b941bac5a81240e80837a519152d6542a5f4074c, 0xa2a8b07719ecfb2c94e90f8e045b18ec455f67325324c45119c0329195efce, 0x12cc316a669ced0290bec967576e8e2a9e9b6081bb09bfda6456dcd3fd8025a2, 0x25a05ba9a3f7dcc29a43df45efc404bed408749b7d2165038d702b303ebf1037, 0x6bd45d9b13af28e309348d1c06cf153b061e0db126ec59a8af095a310c284d8, 0x2f55fdda2dc8faf2cf83086758c7bc77a1a382934e7168c30a1e9daad2b96fbb, 0x1a468a18b185dc342ac6b8ebe53ef265c69191759e553eebbe674ee9763b1900],
    [0x31b0f9b6ffcb451f2617ee915cd6dafe17ac99689417b1d92698607ee005142, 0x28f95d6eb7547e7abe25d2484193bbfaa36c6576b19c36fbe06b4455ecd20f37, 0x4f70c340b166e834080afc44ae444ea1ef56aa8d084b2301e62f08e0777420b, 0xfd721d14305b2fd9b20975775f54e6c4e8069e2c71fd663a9c9cd0d13086165, 0xe79eb513eabd8ca3fc610965050510879c0d2c755b7e59da7726d0d54943783, 0x2e3636a0f8c3014fd963ff1cfefcc844a1763bfb2de23352ea55aa5dd7bb8f5d, 0xedeaf35f44f339dafb57e3080c99c74c107f61e3e0de9b8b4c234a321a75589, 0x20e4391350654d0463b6ea16cc68d2c411bf8c97daf1dafc4ae6106ebb347643, 0x1aa0b9abab5c77259b24ba6df035bf864c7e6d573480ab4b2d85926e95b0b9d6, 0x2b582ae7e00f3c6dd5163f3e44f8ae1f8eaa9324e6347ae9fca7c2a3af2b95af, 0x1107e912d26d0c4253496352f14b263a30a09b20adb31dbd4fcbfac0e4ca93b5, 0x131dec28abb0eba0e9821ffce7980bcca06046c12f01413ad00a19b8457f804c],
    [0x300ed80f4915fcb5dc8d420adacdc6b5417c8ce35d907d95376756d23236bb66, 0x188e211e215ded9c861d3a21f43f1578977938a5335be74325e0669e7edb551d, 0x17d321855d1ca0303dc7b0b2807c43de1880bb66fd6b3abfe5cc2c3a8e6a227c, 0x1528e096fbd27e0e0900460be22a69b7f82ca1aa08a6def3f35256914b050210, 0x271672fbb529a7df27dd20e888bf331f5ddef5c07ff4e720604754739fd56381, 0x2d7d508df128fa96da79116c1491d6d4d4d87a8aedf97b24de2f32e86855f5d1, 0x2c12ae06490344d658455338a0ba557e2a1dadbd8c9915ac402f2378994b3ee, 0x1ef7f571d7daac5ada2f5b94de137402be8a81f9c9fdef9428ff3f46bed81b70, 0x186213e6d9a5ecc85192d790388eafed5535dc3634d8359e730685a1d7eb8666, 0x370eb6d2e98282ce7eabd8dfadbc46b74beea0f05abaaf67af1698ab3d025e5, 0x104ffffbff2258b1d4a2c661d2d0cbf7896e05398ef373088bc86327b37bc103, 0x206d39d5af5e1e50b477e46c62534200bc043ca985cee17f0bfd3e68bc897ae4],
    [0x1aaa20931d5de5931734e80546c966b8baf8ad6c279558de1696b2e8b2907df, 0x1f4aa1784a2403f3c0b312e20fffc29f77e4d01e712d43a35b9f542d649488f9, 0x2701a0b09e785acd9711e5e6ff6232bc6497ea97a6ceb82d3947508bbb5202e6, 0x7e99ad5f3317c1ace19b4a7cb94b50900319f645b2b956a34056355d3b30047, 0x2250455670deae50875f75ae9779a6008c9fcfe530b417de4d423aa02ca98f59, 0x260d62893e254abd10f0e4f8be37b5221d15292ff00a8684f5e28b5f2495979e, 0x15abbcd2e0c442449275eca5e4911d157cb6dc045a595417834bf39c558f9f26, 0x9751f79321823f4bfb93804919c64e5cac1907d031085ff8daa9efda95e419a, 0x8b3d82cfbec8cc13f75f77c3a61848aa0cbc0dce4cef8d72ce3a59407b2e25a, 0x1976bc0dbbd83a1a26f9e14aa431e24a728af4e8f5cdfd7d29943dfc29a7b2c5, 0x4f59d201dbb263dd04d2c2fa396b12ba08a48989dc2464b3bd5976534eb38e9, 0x2bb23243e841c564e7add2d7b528d9af03fe75880e9ab76eb4d46a020ca6e30d],
    [0x2f66b96144ef6c5cae5bfd2511dd2456a1d6e3548569abec7d7a49e1e0474983, 0x29b569f2f67f1c0363f604936cd59c3299453d8233e796a25075c41fa7e19d43, 0x1aab6103104bd50f3a65eb42bbf901792e79eb39d44756caef259268a06d274e, 0x100955f3e56bd17a4eaff6f79b697742d0655371859bc704dcea5ecfc885ea23, 0x271b363c4f44f4faafa02db2752dcc192f4edf5c39c17ad5a7b8f479052711ea, 0x1021eaa8fa200bb0d3d7ef502c5d7eedf2a6ca36e63a37b5cedd98a318a7fb76, 0x13c6a203321170c046d7d44e25f21c4708f58404df6c2b578462f4ac181c5e1a, 0x66691a02754dbd02ada281da41893feebe687083f4ec299600c84657ef2bc9f, 0x16379af37c274e663b7e3c04ad065ee30999c30a05fbddf1a43037a8dbd4f199, 0x2e01cf9813252a5171624a4963d572e1b6e65a2b93a9c990f6a53ba7d5775696, 0x5a4ec77a21ca15f804aed87b98dc3d5fc92aed79c3724b3e9cfcf5c8d35bf77, 0x32f3bab069abd4a66aa9845e84a3ea1d390a3c2b094197a5591c6b0c29b4b2],
    [0x56416328cf6d47d3d291cd7259481443215b7d2904c7c5631bb4b72e83de7d9, 0x16c0689d4828c935eafdaafac08e4d909da7bc8776c76c5dcc6b4bd49c7217fd, 0x1d8d23ed1dd6a53d2c18f91537564eb706ec1139ba2240b733ad3acb847f7992, 0x1aa1a21e3784b97843ec620ca8961e8c62d5e12b8e3effbab2a4eed9b8a58de4, 0xbb54439d4c6f812a70581ab7c1da56d98a08916048d6b48f9540b451b7e66dc, 0x24421b73eeaf63134b46c29646c2b24dd7acb860a188b08a6ed1d00cb90b3c3e, 0x3045c2012f7445890f79f1567060c3c935965acd0ea551a671f1b625e684d7d4, 0x8ec863991a053feedaa5281098afc031b75551065d6d01f6deb04c63102c9bd, 0x250cb2ab9d5579a24a57faaa87f7c828c94952cfb248cc46d92ee60b8c4c95af, 0xf25b63b5eebc3198122c606b0a5b2de15e6f5fd2cd0f493f96265369642f93d, 0x2ef6abc5ab02c8431de8f7a64ba3699c79e1df0c8f2d9d5e8d65b792dbc36d0d, 0x1e84897766aa9de056bb5d97c6797bde93c3b0592512340206635332b5c22b11],
    [0x8923f05b050e6e0fec0efef4dea500ff3aec3054d4b2b0a1fbaeb356384d70e, 0x11687ac05e24f50db06335e1875db73d8f379db3a5c1c3b9f57b725b1fd8437a, 0x2755837b80549adaba47e0980907591229f5a6971ee0f33ac930f5be13b154a6, 0x9f80c8230bc5a78138f9952ba6b64ce623e12da019460363a49f5e5efc076c5, 0x104009746d61c0bb6643e64ddfeaa2d4f30872a92416552a1dfb4b75d4092d4b, 0x196e821f653863b14b72b19a068aac434a6013598bf73b28eeb36c41e76fc54a, 0x2c8a8a85e2618452a8d0a9ea592bc495a50672522536ec7663869f758ac720c7, 0x7bd4de2aec5a7acfa66678754ef95eea840dc97fd1679e653d5fa32b8ad6195, 0x2464a17f4353a76d911cc8349f5dd02cbf2b2c58a1b7dea25f000eb9adca396f, 0x26831294e338f44440adcf5dd1ca4d1412a5cc41c93a2037985eecf4c2fbe4a5, 0x16d69ee3ae6b20ddd62dd1a13d279d4d7da74b207bc57a15ac9ac92cae2ecfab, 0x16b55a792f1b19dcce6b9f4c9b61be0e0457a9980e6050da2500a409415f207b],
    [0xd49e31e27e1c71c16d524b2a8adb0a64843aea5da2fa4e686f183be95d4170a, 0x1affb8fd8b243d62d5d4a7b07b624f9a0452793d1d1a11ead3bb8284eb65f97a, 0x27da7ba10cb86c06758c55e7e8ac76dc9aba2e863c2deb8fae7525e42c96cebb, 0x27e1be0db1fdd736d218443f56d06987443704d18c42a96f3fdcb7c4536fba09, 0x2fb1dd1f7461d75fa3c1e25df670c1442b001b9275e670d73c81eb61fe028322, 0xf5f0cc9a3d4d3066c99194feb229f0e31831dcf080bff42ff1d14974f82ffe6, 0x2bcd23585401b0f7fe33fe366ce92e3acd8818a23550f3753decb1ec24405ffe, 0x5c552a02e2a39af0e21c8944b9c4f56e15b438cf346516ba2147356904f01d, 0x362a8a2865a2b2fe902831c8044c54b0ca94b95fcb79b65f14753c58222b4ac, 0x29bb183a6a291b93f0989746105e33cc669907250fd7064868fd313810faa29, 0x608f62214871578ed58a12dcc4d1c152af970e6e5045f7913cf4c40ca6df18c, 0x1f8a4cf532f5e835704ed7ca83effb517579006ca22ecd7422511c0391b5c4ee],
    [0x213882bb31291dbc346cae58fbfdcf03978152e15b344892a94c44e2f0b1b338, 0x297125f6728b65f189fab61c3896016beb0a972dd34764910f059508d7e8622c, 0xf76029cc3ff0861e048a601eb52a11cf1bfc69f2dd6ee1516a46e4865b7c7ae, 0x5a506ed7382db51851c224d5213c7ce6a22b19c7ff7a7fccc6237af1142bb17, 0x157ddb6fb6d427b97ba69e8798f3950d6888e44c60dfec0a98b7262a977744a1, 0x277aa399e55c3e5cb49c4bd8789f6551351da540cae037eba37543b045e91eaf, 0x1499091ae8dc567f8d050a0835eaecf4b995b5341d29c548da08391e6f1453a5, 0x200bdae3ef70a75a12979041cde33a178ec02b110abd379c2d26cbea9167b6f8, 0x2e6835de44957130dd724a0ac6335b7c35e8afad6acbba6aab16f455939dc77a, 0x9e302222c01cdb2c45e5c3a920edd82da3cba855e15ff634893209bbfe55d3a, 0xa5b412cccce0a371617dada267bc783ca19cec068f155d6954d279f3959cd99, 0x2ffb034bf2ba629ead6f8a6022e2339779e68ef2c8bf39efda1a0332e63debc4],
    [0x1f3ab3fbf5fd24859380ab59a8f72cc52dc1ab2479a10f33d7c5b7121c58176b, 0x8303d8ea6c4af050a906aebae492e32010ece609b5b2c6eb137ef5dc2769b28, 0x19f0945d9f71950f6c2b298ad3c646e4fb9e99939dc170c735f407148c792532, 0x1a621a5b24758bb036344639e427c03f33d25af7f7711c3ed99995d983c4c3a4, 0x218a7b745f35f497b4428e61c3b79563752ea6f8c876361d327329579339928b, 0x16ecebebe58dff59a7b0ba40693aa431b899ca7769b445a7387db118088963fb, 0x1daee46cfcbbd63435fa6f8791b36a4fc659f5236e896a4d447ab3da68280fac, 0x260875ca1e98e895c635db3bed500d393940b5654d369c61156db2927de5ed18, 0x1cbf71e0ebebc2d151966acc2be11116788815614bec66f68735914c3b8ade35, 0x3b2a320eaddf48ea570e643f89ef2272bbebdb1caef32aadadb22a918a8a99f, 0x72f534bf07ba555426152c37e210cc1d36d8b7cc42e1dd64a83081357189f6f, 0x17fe62a93a9efb1236012e2ca1064b1b93d867b0daa30dd334ee5ca08d304b07],
    [0x2ed3b5db7ad2fc083734fb61471629463d4696ddd8c8dcdb1d2fdd460ab4cd1d, 0x26e83b9a8a7c7bd6929f22021fea78088037c25c7209425ba83e998115335c19, 0x1758fde5e2d8b8886ae2134943407d8beceba4be517a01e51a51a9c11c1510ab, 0x233e22ff85bffcb57cf35077fc6c81963590f67e3484a67d846bc1cff2cbe1d5, 0x2bdd734a2d8a75f5e1cda7114a8c418bf5064398045dc7a9a8f31669282ce92e, 0x21c2e28d54733906bd138386d7f05b1cc42f6604df893509a629c351f57b95d9, 0x3ec3db419b789b9a13811dfa2c51840d3a01961e5f884148ab3f6afbecca3f9, 0x4452cebb0cd94f7163266aab365b3666d2a329d634ec53db009dfbe331062fa, 0x2374e7cd3492dde40a21a4111b32313df5a4d1d483ff38c4b0cd49214b12ee2a, 0x18aace16399c7fd6e9d2197c5d7879598d2b72bd508e05d6f8bceb7f3fc668a3, 0x41d469f85bfadec96c07f7756a6735f417bd7a882e46ba06ba075731f56b563, 0x10b3c1cea302fb6b1aeefe7a701890cee0358bb45dfcd6db64f90df964cb92e5],
    [0x86dff039d2271895d0a8cdf944d75ba54284897d14b2eaa009400a8d77a4beb, 0x72e72d8677f6a51f4c2386e2e830d6648c4533a72851fdba34a5083f00802ef, 0x13dedd574590f362b835c05151d6d7c1a721062c50f14453fbfce12812dec477, 0xf7b730b9f5abc35b874b224ebf120d469bcb883d4b4e757e8eb52bc26958084, 0x23f2dfd0242e0dd9ddf76b575563e69868e13c2cf3982c52777e6c5339472083, 0x264032c844dabcb025545315588b4509e27717b8e964f60404d2a98e8c4408ed, 0x2a505c683ed009b84ea09e705b1c9256187a48ee96064d3f094d15a931c09d65, 0x12195fb5314e5dca6dbb5301a0bab3741522aacd9262c5503deca09ed3b5bfa5, 0x2b96748cbb6147ef4860f0d7d93c21e42a84da2a5d24c07f2e6990175e362138, 0x168dc4dfaf6fecd4884881fd5f0feb2799adb041c6e16707f9f8701ca3535bde, 0x293fdf5e9741851b6efdd21641894eabaae4e7bd4b4b91d727a80ce850585439, 0x108d4122ffa4a9bed486d89bf9ce7188e53e0161b2337bc5bfbd81c668144e60],
    [0x1d34ef90f1f5eb9be9a718c2f5893fe4dd422203a306f961707b4a179e8a8096, 0x2d6db62f91949f12dd7df0846c7d73de9d13f571edd32a1a3b1e57efc7967049, 0x18ba73783f66e8f96616221f4959a5a6df06ceb5bd3d362fac4b106111ee2d52, 0xa17603d2299bbf990ee1a95b5acc089aed11646ffe696ee065bc2ea650cf6e9, 0xfc9ee6b510c00bf2cfaa5e6122b6e68ca866fce11dfadf427fb770d8c25d2fc, 0x28222e08995c93e38c8389bd32f39dbcc203d0efc4011447c543d051656122cc, 0x7d27a8bba7349dd716d1cf2a9595740dd41313b93989de7e5e9faab97ce9b46, 0x14498b47c4b8f2663e422f7171b4a3c073d3aa17895b331bccd09f1892788a8c, 0xbd8e776f3ba7553933619f60711184e85c1c6b596b72abbcbd0d1ef0f067fcd, 0x20fadf38540e1e46da22ae56b75324b4983031b9c8f5198d32c50d5f25b03a01, 0x269997eeaebbe58b6ea9f9e7fd79d185bac71585073928a74ea6f594dd2ea05c, 0x287d91c8eb0d2d0882fc5764dab5404c8a8fff1685e7ddf656debc7b3b6190d5],
    [0x878d3344a7d147ffb4c047b7d6dfa85a864deaa4c16a6753c1e72454c2c630a, 0x2e3c4acca0611112c29b18e0f9b59357f7c5dcab7a8d5f9abe92d7b2b2aa67ea, 0x1e288d37cca3d0ba558ade49cc5220ef629ef5436799594edcad6055c5bc6943, 0x1a1d7f65598460c079f75ba724389d5118d1420f958be0348fed76ec4f705786, 0xf1a6c587f154cb9e0922c5c4d8d277e66679ac37eab5b27ddff668615ccad88, 0x2d782792e3cfa8411cf6233e5be30dec0df22d36c9d207da85ddbca5ec747197, 0x1bf4dc59b31c01ca9dd2d9a70520ac09d1b863b4e76471da01544f06d78a9be0, 0x29abe14d44a7721ffeb528360662842162b170818106e544ef147291047c3fc5, 0x2f4b020edf60204c8dc75abcfb07605173cbc68c4d935d0f7e654f104696fa8, 0x1c692a1214bb6ae2c5b3482b96ec4678c2f7956a82819e3a9c853df4606b9a9e, 0x25cb9034345fd345c79824069a5b9a05b77b94fbdc24eb5782d55622db5afd20, 0x15ba65b32365befa2f7cb0c5210eb901aa409689c9c74bfdd2538d78025a632c],
    [0x301a02d45faba3c161f8250a2e7e280d56090f4cec023448ae1199fcbc58aa88, 0x2e95c6f2a67a136f5124345e3a43ef22edcfa806abd731c91a4c3003fa20f355, 0xa1dc1da90f177ad3abccb3513e1bb7440d8e695f2cf080fbb83e61ed285e871, 0x26feb10533a8b990dcce9ec02e87b7cd30753750d1156a52207b82ce63a92c51, 0x190eaf914232f96cdd1de4bbde137a2b8aa7ba817d6d4b1dce5dd3f03a841d4b, 0x1d441c3fc47fe77a1883e06966c8980e5846878e97071ee0e99e560efff58b23, 0x27028a819695508e70882dd56a022e912e386db46dbe0d8064e11c8ae74a2122, 0xa26bbfd50a68ff9f1622e344e20bf890c2a198b6a58bd822c722f7e42ee2c53, 0x2551e3511c114035df498e07d8354c042df31b0bd3ee502c8c20ab8bca826fd7, 0x17c6203deb0a803272043d5ba927b5984c078c00a29002e6553a625efcf0b0ac, 0xdea4d4c52bdec214ee4e0b88bcef03e062ee2dddab6d050b1450c0b95a51c7e, 0x5e660b1552d34ff3f62dbc5b1ab67e8e1156df506c39c0ab1d6dab1f6f9a62c],
    [0xb9870c2d17bcb2bb8b2259ecb2e54ee162362cf9b18243c886421a90a646c30, 0xd83ef93bf551550434dc0763cfeb5c0ab614d47cb0cb3c79180ce551849993a, 0x2bd44845898d89a005f5c1bbbf5f5b8e985d48e916285a64e676a811d5733ba0, 0x255721e12fbc82235e64a106731c12910920c71bfeb39be6bc82291d322e7f34, 0x11b41910ed33ae016c7d059a373657f56ab1ed3afa884f6aeaac3e8657b52d6f, 0x1634afe1bbae1766b7ff7b11b011ef9f88ff0dfd8834fcb085968a35870c96cd, 0x17e992284359e923536eed41bd61e308285399a12b6c1df22f6570bd00e5a237, 0x19808c7e543688ca243719dfc2da130147127b0d441d88dff53443d3d7db9d90, 0x2aa19c14548a4fcee170c0196d363e8865064bfc982225d5946c7ebff7945979, 0x2e6a2b023ac766e7485bd83cbaba016a130c00a731134bf66692cd5d7460616d, 0x4e13213097cb24a2a8b3819019a0b676bcbc81d2ff49af4da8c7cb0ce8d5125, 0x436db88b4f66de384baea73c505b871c79c2352600f5859b30e218f07326ad8],
    [0xc97e95688ee07ffa790567816e31d6ab7bb0e6e8f9d3e9cd09a9b1b16a9094, 0x2f04c8c72c8a00180ae6d0c29f2dfabd83d0d660ebeb5e7af3c6024d3e577747, 0x15070cdd99b9b5cdc0694685bdb06489c56f2c99961e1ae996608516cfd08791, 0x134e38e18c1f42b857ba214be75ce4b5d33155ba10f9834e95f3a96e25e2f70e, 0x1711629053d5021bafa111ac20ac85161cdec854fc170a064be745471ab5deee, 0xd072e1c8ff17213b27848557a426701aad8bf3501c6a55ef01dd4b21acf017e, 0xd6cba818cc9b0f4e2323a073869c4d4b4e5dd95fd04610ffe27a99687fa98a0, 0x1bb7ec720107065b5d75fc4539b3b91af0d95eec0b51ce06f6ae3b40f10a54de, 0xf4b198af2aae4c1f15035affbdd30647ad04861de3e653a767efa5036bc59a5, 0x26bd5d4e6a15ed6e2ad4caf87762a8e2533158c689ed2e6b14f537f7f8af4891, 0x1db762c3e18bc6c00dae8124eb13921357a9cdb2a7d8d5af899ce5c8a304ef4b, 0x2421f2e7882947e068b590493df453dd22a3ac41f9a81e048fd5c80119ff62d8],
    [0xbd9d71697d6c92e376850493ba687283e8483b529a57bd6b8f3240947310cdc, 0x264e510e5a7eb58fe37c891194e7228737e2c0ac2fd9e7ec416e84bb44835025, 0x1a28efe15e5ba6bc2ee602ea858829d54b1ab7154cf94bb948171ff092f084a5, 0x14a206642fa9a6cbe78d6994d4472aec2d66e9bdcfeca4cfc133855662a0ae15, 0x29195f6f5eb29605ebb51348adb72b86e184d5af2a55979e85d8c37d5fa377c3, 0x2becbd1aa2fc1d6a0cb87a7432ba18070d4d8d87c7c5085cc57a36872cdcf496, 0x2eb311c7d96af1bbbeedc811dcd0cf3b0f3a0b932daab80580ef19f2eca4dc7e, 0x6b13b0ec69efec0dda80dde05a22982e450da4b719eadc02e8e6f0ae8a9c8be, 0x2951569586c452e57a16deffed6643b907327ab830fa43c7616c6bbd7b337fa5, 0xf80913d6a98d68e7d203149083421598790bd17fb71aba3be68235da31fae9a, 0xf6c6ebc152c7142355f365056108ca2752a939343f52d4cfaa1ad0f9ea80627, 0x2651a3545d55a179b95c1d5ec9f4790094ccefe991b43482d3accc1a5e6bc41b],
    [0x19ffed697be990bd22c33a3152f1b61d924a88f25a682a604814ab0f83fdda64, 0x514f51112b2131ff7446bdc8e6035f8a15633041e31caccdae57a2cf2e6e30f, 0x27b250eedea12787b0e74c67fd29ee3d6f3103204b0ec153bde1b310ad8ab960, 0x34e3b092aeeecf9fcbe012250071b7d86f50ddfc68b5bf59e57c5f93c71e1c9, 0x1453aabd4ab309ce11df060b36906f221e34ec457f3e1186e1ea3369be4b923a, 0x11680b19c0f622c3aece37013d9d9c6b094dcb5e74c08e22f170fda744ee17c6, 0x25121ba4a0ade9a8b4ddabdc337b09645ee6c42c3fbb6c30ba0fb457bca33d99, 0x3010c1d25cce64f6dd36355891cfa681dc6e2eed6daeb368f6678ccb41b08350, 0x1d50c97e2fc85017040cc192d199ce96cacfa54189b6d66af5d759fcb6bda79e, 0x15cdcbb1c5317192281df60267008a9ce8db866fef3ecdcccc3cfad29e7ab2aa, 0xbae86292d004b61dea91dab5addecd8452e4dc0f664cc600d2cb6963b7df87c, 0x966e0ae7b6e52fd18185266c449aca139d76048361592d38632a20c8d0246f7],
    [0x1cae92fe86f9a7ef83ba0419a261dc83aa12a12656250bf6cdb92909a8510867, 0xa2cb83a054988cee1a7a847c228c8006686ea62a6f13dd9535dba248fcbd47, 0x1417d0b749fda05bc8a36f41f3f714025f2e4acf02f6f6160714bb4d86d8a7c4, 0x52c5a70723442134e3532806e57d283a142046d2a83291da792cfa54b234782, 0x22a8c9d3df25905c7bf99c0697e139882609c08276a171c88dc02e85db49aecd, 0x1c388261e076a0643d5479187cb6ed2431b5e1f531f91cdb5127baf89c83c73c, 0xab262c3215d90263f02d9cf1a2350d9d5ab0114a1ac7826460f34635a55c7b1, 0x21aa865cd024cd02104da176215444188f992aec9b53b65b9cff6390b28ac2cc, 0xb048e05aefa0fb2c192ec55690d16ea6a969d2475762b9d21fdff8ada4a0bce, 0x1cfb664fac48b01372f86f107860398c013c2361dc5671b98f13855c15732ae6, 0x1c63978d82984a8f5b105d597d65a437c8298fb4074ee140622e9cbdf39cb479, 0x68727ddec782a2d0c02028fca3757fa85e61f33afcf5cd35986732216509c77],
    [0xd890582cc215340d3476b50bd8d22261dbcb63ee7c6ce19a411e809b731a563, 0x184cd8e67d3346b0b1ed513225df4f8811f22b25219ac6cadc08bd27444c59f5, 0x11aedcd490fc770af451bb54a698ddbd4a3ce266715ea85b990f01027910000f, 0x296da6e5e32c20aedc69a743f6a45e4bb8d5f6604897b1cc751bc426ace0de83, 0xba576970da392c54477158abd25968b60387158cacf5f08288954e11133f8bb, 0x197e9d5129d713e382ae5ce666cd1276f88ddaae7dd50dbfab07019bc425f6df, 0x298529230c8efca126f2e5f127eb577c1f8dfde4f6132e61b26933726cd7162e, 0x97ec32e1e10cb019fa5ba87a78e31b4f56387df2dcf210639c9d9623efb5041, 0xa696ad199a61dffa5210f5a67ef797951b25960efdd13ae477852993d9743fb, 0x20e69110246861565203f2b3fefffe68667893cd881bbd0adbb07306bddf4ed6, 0x27890f322bfd0fabc9682bf60620d1fc0434475394ec120d77088043513a10b0, 0x19df61b7b8dbe8152c57a8d9524609ad5fc58b95d9dcbc6aae0fe50e5a3f0671],
    [0x1f159a0092e8e13753d9a47082ccfd4e9ce23388fa7f48d0341e184beed4df69, 0x3ef8afb36ddbabdcefa9b43d1e5557e89159576e54c7b1a177fea5a093bbfcb, 0x1ccdffa3a8f918cd338b85146b057f87f8616a32159842f55744cced8fb463b0, 0x10c6ce580770b491e04cf22221cece5ec710f9dc7048a98063fbca9b0e9ee3a1, 0x155154344c44bbae48882ab681e1e402f7265858a6a499924f961e4241d7ea1c, 0x168f28d28a2797945e7b4e7b585dcab192b1fc073f6b0e62afa8cc9161748c0a, 0x25d99c080a836ecf0aa7e1299a757cf7c5d0a96b5812547969b3f09073d33a6d, 0x955ad1ab1074db1280c78753ea4343ad05eee42d0bafbf3212c656c305ec55f, 0x8d466d64b8949e4bd175392e4219922973eafcbfbd965cb2455ed3f2186f33c, 0x1349923426749433b7e0014e827b3540c03c3a7323e7a25a4f8abfc14d492b68, 0x15792bbe2a6f84147f008f84b591b583e6465cb6238ef540189f5e69412dd9c9, 0x61a685b4ed05b65843a41c24b236a2a7b72ffd0602030b63b783c1e23923096],
    [0x25d7f0dc3e0a9e71090c72b48b051b8d8fbeda393d95bd8e9cfbeaa19efeb642, 0x2301c0c319cfd5520bc7f972b6646661135b2ac6cd82b0e8fbf7c814a9f38af8, 0x2d6992f2df7b56bc9fa14e65d0070763dfa5c6d70bf2fd88e428ad1df73fb523, 0x1e6621a98c65ef7ebeb275f696d11110d83ca8031014576baa10ecfd8411024, 0x690e58eda24665799a2a1566986f05b3c342340a2855ae746a9aa6d7d0be2e8, 0x282924ad2ab431d50d479c2d43940b471352850f32fc7b75647a537189e981e7, 0x3983afede48f8107d3c43d8ef20050071e693e14f75835e7ce3aafcf2099d72, 0x2d3e2cf3dd17405faa9cabdac559cab5c4b88c053ccf888161a702d9d08314d7, 0xa4118cb11e35af09c80a762b665cfd915fb9cc105a6439859e8d09c6aae3b32, 0x1f4f2acbf7868a099c0cf30ecfcf254210c0a9b6dd952090027f65aed87c2701, 0x127456c9cf4b04c64ea3280f18b4ab9e1b9640762704c9343c5c93ca26dbfe2f, 0x22f606187ade91dcd38f9cc7ffbcd51753713d431c32f26bb50f1a068d92b70e],
    [0x231cc62f25f6169d570976385132724cd5aafda34f955f2fb5578c8eb6fad2e9, 0xfc97d0e65f7aeab397cafc36966abdea922157d67dccdead1b2315d1f008cb2, 0x2a07cc4343ea1b38982820bc9f3d8df014bd2be58b9f9d556aa1b75511cc8b7a, 0x205612cbc125d00b4a26d5a2c748cb7b67f7f74e5c1a3af99d2b53b21f904527, 0x113b94fa0bb37a7ce20e747694e19c4e197af3feb03e27e55ce1b6da8c7f8151, 0x135f57c88890b109164b1f19934b0e3077001aa3c399b46cbe4b3d45584aecb6, 0x12fec523a77be075ac0c47862f2b18cc5e5f5caa1dbef3d907c92625252e2702, 0x24f864be35ef6057de078a85d1e96a6b6d65f5f76042fe46c8a028016c99163e, 0x32a288d270185bc167bbc21bf43bd695578cfc4dac4f59ad26adff03b41df3, 0x12a7a229b6de329cf40d61de15118d6050b9b235d6074565c93938cf9b5e564, 0x58b63645e3963bebdb6eb639106c4e16c0fdef2be8263e23b8603fe2004241a, 0x19a5af0c2b00b1da07b9d4b535bbbbddf052fdd09033541683fc54fa7cecdfcd],
    [0xa2512fff94ebd00571d056704d5cd4a3d8b024c36eb2f29a03d0a6a69d472fa, 0x17775fe72d1785abe11b76379bdb3541c88dfd6bbeca37d2c1e6acf28a00e5a5, 0x144777351320b13697917dbba1c252315ff85fcb9e5c10f642c41f906c8c2cb4, 0xcce87088d369ea25cf20315db73239b31df897915b70b38009d083111edefb6, 0x1c83604318f78c187a80c78b8e2ef66b48882a091380583f3c14a5797c3ebfbd, 0x195b1051102ed693e26286faef407469f0c233ea68fb74be5b8b801df4fe3972, 0x2454f53ba4ff1c09b2a650cdfcc32735105c03116b254c20bd8a196285cf6ee3, 0x2d0fe154a855bd683d4676c3607774c505ae33b0656425e2dd21a61045c4aa9, 0x1a9c1aa65d05e90763237b686a59f2d738ac1eebf433993e27376bcdc6da398f, 0x380c6ffec35d91b268052e8575072da510b5fa976400221113df0adc2283e0a, 0x2f4835b7c8938e6e3d5a8d853cda5e24c879a5e0e7a79b63a8af8e3c02359769, 0x1278111dbbaa46ab94479485683e473efdf45be249083c3f65762dadedb5dab7],
    [0x2f6d0e205916919cd7c5381ab9263e9bfd975aa7cfa45ce9eb4b6799ff903538, 0x987b79561d0d24c5fcd6c6bf1189b13f13aa0aafefb98a6c11305e7068f9a15, 0x20a1f94ea39d9674beb0e237b74d92706b8f1beff58f420feb1a0629938ea44a, 0x46624944f67281a6082d30e31a2d78225dea00bfa55ff2ebd6b4b6a4bbcfa0d, 0xec86df4e2404b4d4c5c1c7f2b7cf4ffcae2baaec96f1c93b5718c46e32f4b5e, 0x17a988b62f34331bc23c5c66fe5555dc2af680f9175c4e95269ff265641a7c28, 0x2f933a4009c38406c103874cde91ec02d622067c7cac56890403c74408a1efc3, 0x29c60a6ee7e22c0b8d8a51cf87215d4e3dd52c23c8c513a8c85c21205adaf4e2, 0x1e2e3cdd712c6ac039aeb3d4dca4e92de5124a1a92893a8f1b8b6dd17dd020d5, 0x1cc0cf1b5a677bb56afa928d7084c9e31d4f54691a9b90a2f48220fb26fb534e, 0x3f5f53cb34ca5b6476f61d4b4cc01e1d123b90dff98e0447c801007e6404865, 0x264f523407a076b04f72e26834ce8bd45b8c90dc4a915fa551f3ae56d50db503],
    [0x1790319745f7932afc826f8c296f92b2c0f7f6b3cfdb4bfdc763d0a1f28f370b, 0x3099a72a9c353b329a1bc4baabb784501c9037ba736c49806f1da48291041b5, 0x1604aaa41bce072f44b6adbcc0757542e4caabcaf109eaf7af718ebacb090fe5, 0x10eeb59a16fa139267e3c45cef01b53ce7dca8f8808ccc248fdb5728a799db67, 0x12eab8cffcc06cef8d112bbe5dfba7e75534f64c4461d162fcb3ba06715947e5, 0xc58e04653d88bba71e9f539b5030b937dad2405d225a30b5a75da8ae19c23b0, 0x1b157f2ed740cdbf798af092aae5833bf52e391b113985ca6a30eed588cba4f9, 0xd0837d097cee0020345d038d3656de14ee4c2833bb9cd0da1aff2399da436e6, 0xa4225a5d367e0ce78a1255c9a69aa626ed22248763d190ed9dd0f3d35934154, 0x1f6a2819a67e201a2576f0affcb09496ed7feca0b85058411d09a6e756ffe8e4, 0x1c674a9b9fdb49fc966e064ba3da32c1ac2d4b6a1b4d06b96f75e31605c38cb3, 0x20844cd477a2921e8ecb26eec231d8c6d9b846dba93db5eff2200acce3dc5312],
    [0xa8fa6b656ac797be797f42e294b3ac4d9ea7d3d52125b9fd77f8d44cb729864, 0x265947fe0877c73e0c65af54f643b0f3844a4b74de709fdf77156f4c338c8007, 0x1f04e4663f2f9937cf07d3c2fe5f06e85414b960dc77a19e8d6e38c5bced7d48, 0x6d020f03d9dd918c985f1e7d5cd39fad63f6459055f85e1b8d65c257ad64046, 0xf4fb8263bc813190c44c383d548741b244d213df4344c3dcbce797969873951, 0xe3b1e6adfa05450afba7cfbe8e8a08bbff6bbec099c68d5755f096075c21025, 0x22fb7c00042e5e4ba4b512efb900224bc6bcd53cb1224f3cccd425331fd6f831, 0x19375dd909e5ec26e7274bfb8b402c5d58ca19317505bd446ae80dda553ac71d, 0x11d0952461edb9d24c6bb08afd369692173a72dec287f6b19353c3bb540dd34e, 0x1da0872acf3b35eda099ccc9e9a5ff2477889bfa122b5bc54b4be05e898702a8, 0x1a74a3b2de9a16c14c026b9c511152cc11740b9b9d99b6bef9f44cbf757b7376, 0x221b345ba4b49dcbaad49fe51917d928c533cdebb44b095080064a93e6ceecc3],
    [0xde529ef32404116fc0dd6041c8a9d3f7980963143c3e275f29ec6386c9c2bdb, 0x1df03417e70bc8a58129a73f2bfed475f59cf6940ba48757c860e4d5afe912bc, 0x1a6a6c5e41dd7ca162312935ffa4caa6e1681769b10291fa65fbc362c57f7c4, 0x26be4ab855efa2c395a0bad51338e24283883973d0dfeb2d8584bb3941f7b92d, 0x1f1c7d227986e5a9a329bac19a23fc7df52609360d366e0afce5913a809f932, 0x75852ae085011a3420eef6fc4d51c8810d40f57ce4c54569e0349bdde64f25f, 0x2e69ca1551e48a93009319aef40fccd78b8ab0eb3e6a75aa3a7cdc2ea9510e18, 0x21d1d8183e5430aeb1be773620504ba994c1df4ed550a87505fd6889bbc70940, 0x11866d8bbb8cf8fe585de19d816f444097b0d5eb88071c2785ac3a757ea5a973, 0x18eb3fd0f6793a01b4e4a35050555a79fd43c7d9b305f42e9b676ed7855086fe, 0x2874e162935850eb2b1e7a99847dbe48b39726bf75a18a99892b2bb6dbb141ae, 0x43164e5c0d618af751f9458ad6107cc2c18b4e24968614daa909f3a664fc898],
    [0x1c7fad75476d7966314daa926e188ac033bc3c0e9d754db747659d9845285f15, 0x1cafa60986645969073ad8c0e29d8d46c4911b3336bd15a3895e10d0a39378, 0x59b39a84beaab3bd16e649114d507aca8b49740ddbc4c7e709af251f7e5c002, 0x2ef7ed14755d43e71ea6eba6d478e4197c5368cc9d7ff7c427e3c97adceafaa5, 0x7e262f43947c3e4380bed5989b35368f6ee10185e911e2991845730df2acd78, 0xf54ef80d9664876e7b9e9cf8ce300b9fd82929274f8ef4ba503096752083517, 0x17b19a0cd7597c0b95a9d1b1f3aa38fede0565e34ebaee7c9957696f92a3fae3, 0x23724db078fd410f494e5381886a2848618ffd4a8c088fd51133b0be784417db, 0x87f6029159cf77cf228c9cf137d25fa4d842a084fea42fcdb2d0a16dc4cb3a9, 0x2c91b436e22203f5cdf3b1c2188626007312b7e80ffc2c70264ff06560f3f52d, 0x8b9793cf23fb5b0eebd2647d2bc7d4cc901d7074715b445b14fb64a55e43bce, 0x214143f8421174ad70d3431efe9d40bed361820633e27b91cf0505a8950b3bed],
    [0x1d5b88560517176724a85325f6279ebd9130a2ffa28cd00b07286fe3a982214d, 0x14c9577c063d4dfaabc8eed7c32b99a187028d866e2b991974e6e63b0f838fa4, 0x46273375bf435bedde590cb2bac88efee89adae8c6e27b01f7792493074bb34, 0x1fd89f063226990387b017ebe985f55d4f6b1e5ba5a2bfd6f2273d2d6bb6a81b, 0x502081f3b1250555aef587cb5b4b307d730c1bcd151adecaa53302fc2ee7bfd, 0x10baa6c318c7e6a3a3628756ad42eca66a92be51f475eb386f96c026772e1cb5, 0x1dfe4501e8b2ef4184e1a4d0f0c9cc76a8949766636308b02c66ac9823edc65, 0x1a72d320faeaf05e0cf44db930bdbd8eed25a09bc14754665e7fb5f28ea3fcbd, 0x266b33340a8bf66136e7999ba473455bd90f8aa53f455343339ed5b5320b0691, 0x2448e52e069c6b44402d59573822c3b5703090216d607de4bfb678e1357b958, 0x2aa25e459065532b65ab2780b63cf6f03d872ea7596647bf9517ac628b79a226, 0xb1d54e7898b63a3adafee6e3a36b2aab81e39bf3a15a9b1f479b7499b2efd7],
    [0x246f7f7d8e5ee80022d45348a5aedba8612c3cf4623a6260ddc931952512c4cf, 0x27907ad369fc4b8372c78e6ab39d4a3faa44551f00b83d24a9e33e01df07ba0, 0x2b67bd277bdc4c08c7908bb15ad397256efc62e0325327f8190c7ad9b09ea5e8, 0x8a5e948d1db145e20bf0abfd419e70708b2017e8f8b1170459c2c767a7ee354, 0x491c93811381bbf080cddda20357bbd01755d50eb869ac50ebfb775b49599fd, 0xbbe5810c339505f191659c51feeac4d6dd8bc8396f30c1e4b3d89884035946c, 0x3b065bd291e288a177f161e35c3652c57ef70e46e1742ef750ce63d22b24810, 0x11f25b85db841ff7648ff0e35ac0b6c463c714fb2bc5f288970608ab353a6aed, 0x2f14f75123210cf69d38f2f32b833cae0aa310e763486126d0d36c29e68014ae, 0x267179f1f050aa24d1777e348a99dace45aadbf16420d828e91f7d8ba5d6b6ab, 0x2d760a9ccd958f723e082c804dfc2906860767cc3aba88b35d47d95551a1283, 0x42540133fc254876967d2739f1014934695761da4647d330b180728d9db97c1],
    [0xd4fcd586135326975e12057cde193244cad1504c4e147115610c3affb06557, 0x27a2352f8c5f88f643d6dea7251b027cd3aa04364fae60e3e714f684d05a8966, 0x1c7e955c7dea3de14499e1b00c64512b1d0df603c5492f1d75747161c2112ecf, 0x50e7bcbfd9fa9c1c4d29415b03c0d00a51c2bccef5b1c441d8301fdc7335956, 0x1abb6a8eadef0940704d611503c9f295715c3c4ebe023abc608a8ff3704413cb, 0x656203914995f78f4a1d5f2546387ef7e8b51497f5796521999bf0e0d1e80a4, 0x1a2a69c7673f072aeb2ecc5e750c81bd0af565c71cbd0d3367efa7779eadecb5, 0x1599622b5b0b75fc66ccd9ef20ec559bbf3f51a4a4ace856d8f687f6845c8926, 0xeb54dfc23710746af102dc417a3645f5b1b87d888bf8db5c8cfb4b45eb03a22, 0x19e1a6f91e97deb1adf0d25cbaab09a1f72006ee92a36eb59f32cf304d889864, 0x201081529413a6f1f49f3d52dcddfc74acf146c6b32f85beb35149479c891d4a, 0x20c393584e2857f57c23efeb7820186a50440c935bd34a4a17f2a5bbff287f1b],
    [0x179cf0461c98a99f70c433f74f60fba50e7c2fc9bfdbe500a0a512f6be936934, 0x138cb76d3780d42942bfe0043d625bdd4d6e91c83be4cec3da085bf250c18d81, 0xe70444af01939c62a8ca5ff3ddce46e29b1e45ac6aab7d37297decf2063fdce, 0x142b10f58204bef4cb15113136fee579513c126a168488c376c21adb62827961, 0x124c8c607612b5fbd2af84ac37bee103eee11a4eb711e11fae7700ebc6387fb0, 0x143fde70dd6bde8b26a0859cda512daf557c452fa5f76b542426b9fbc94f7446, 0x24694de53a139a6435ecf716b4139ebd01cb403a2d386d58ec733736cc21692c, 0x168618466211f05e88a1b771ac8959fce3a6352cb647d47346014bc486f9c0f2, 0x1b9be7105266245e707a46e2ba3de8322d4a8e7bdca43448ab05a7275e74e43e, 0xfc2c8e1f54e166049d5ff37f6b5fad79ae76d7f069f98f8fcf8f367c0fb3b88, 0xc6f5833230640ce8e70af4dca674821cee720690bd349e645f0d8f59684ac48, 0x24560e4af49ff08a2226a7f095e44890519c9b9976aefa3514c0b065a052e340],
    [0xd61f061762684231c5f469ee0ac33f41d314add6a79d553c642dcee363ea047, 0x1adfa57f4ec443e497de3046f64d189a7cdbe086d98c94cb1d003a59265d40de, 0x9fc22885ab01975ba9aa4c8692a04d75e50971f7dcb7738629505532272651a, 0x1c01bf8f85c8bcc035cce929aeae20e5bc95e1d36160e286f5a373032cbb49f8, 0x2dfbcc48d7241a6674803aa64253bcb3210db37af2e9c036c47978c9842ae7a9, 0x27b945d4398db7c68d13576a8928aac99aca88a180b31be985b85fa89d0abd49, 0x277572bf0b290106380c4bf58959da217f9e689940d9db0fdbe79c1a154a7f89, 0x831d1b88af8561c0eee6964bd720c377d04361f9af65ced7f0329e7deb715a1, 0x119459ca339e5c8a1b36593a8a091bbe9de7c8619ff83a8d32a566c2b15336a4, 0x27e8489bc8ced6a9f209bfe83f6e664fd2553ae84632a8dde85774f86a714f94, 0x10fb6c8fab6b135d7a50c54f8b1fb574eb0542c05b9bd84aaf4ae89328d6f53d, 0x1dad3864816666ca3a5d1fcb0dff07bf12d352f08aadd1d4a14b9fa9b2ac057a],
    [0x2439afd2542a9c564b85fa68fec6f9fd48d54c398cdfe14eecb7ed7d9e09642f, 0x2bea4058794d8bd725705e650875da2153b829dc245970082770a03546636a4d, 0x292712ecd08d349bc03fe610ec2a0e7d9b8383e3df3c13af7e57365b48d985dc, 0x241c1f77219d178d4d61f50838a69b6d7029ca1b36d3eb348a0b1a0b64c43530, 0x21919178d0ca9874c90f875407e6de742fd647a7679689972cf02c2863db6e00, 0x303d796d52867e994221af51b2120ff3822cd8a0637c9096efe2e9aa3d2c7b53, 0x1f0f30243212eb4bec6bf9e8b794989abaddaf1357f7d81b79f227314e9aa843, 0xc12581aed963a169ff1c33716c8bafc6be9a8b6db13a25889218223f850de7a, 0x11459ddfc0f592b264269706501c04ce7bd998547979253ecdcbccaa3f54007c, 0xf2b37146a0a04ac53e7b630871db252a1dd84331a8d39ea02961f938b5efa1a, 0x21efcae659790676b5d9114b81d60490eb551d6b21f65f362f08208eafbe4d3d, 0x1e1b56c6f76e3cc26284b04a42b5a02c5b9db9b842272100245dbbe7c876184d],
    [0x1087be4d0c47bcf20a815f60ce803d5fb9216f1d0b474a781c85e8ed1478eca6, 0x20c7a2c101e34270fc18b4f05d2b2f5a5a1298a2592dbf3f9b698e4a791d9311, 0x2d4886f200b99c57f4f09c0c362fd3535ae906a11cf011e261faf48734a3b07e, 0x2de6da1551b5f1d178de4dd889d03aeee464024fc2936097215c05ee14924f5c, 0xd90348bd745e5cd779a6a6b5c4b625e1b86559d71c55a13b4a92aba2187aa4, 0x141c3084044d2bcfe9594da6bf8175b950ab36b4433a7e61b815b6101a5bb703, 0x67c3241799e3c89402d1048ba30030283b507553a06ca6b37a3872000412e28, 0x148f39fd35a56bc7d20ba1c8922e4ad5c215660dad8d446b0f597edc42a1fe07, 0x1dd1fd608be4764ee1dce05067899de53fffc6b00fbe475a2e0222a63c68c54f, 0x15bb0f86dd0a37802b115a81d4e3f68f9a1d3fe589e5848bbbc5f5a5d77beef4, 0x2642fdf5df1faf7aa6a2f37b33a665f163a7df70c86adaad87dfab06493ec72b, 0x25c726bb20a1ba08c73808e00f829bd3fd95381e78c88bb1d3f347dc7dc543aa],
    [0x1ca5808c3d68b51afc586ed44f44189a4f4d0e56cb496cd10f5de368966b867b, 0x1cdaaea17a2d78385a56e99849637edd7e75d8556bfd8f241a11fd903af4fa87, 0x255b06d48523f97d2d30bdcae93ce9803256a0723ec161b987cef062877948af, 0x1cb3ff20f743a845c435fd3e2d10e9312f61da413743c4a79e67ab6c32dbafc6, 0x47a32238532a7a734ddabb15024b8a154455fc2481d31c3548d1e725488651e, 0x995b210131910f01df8976ae742e95e0a5ab490a4abeb30fce348e54dcc4e78, 0x1bf16ee530c9c94a408f2ffd49ace7dde635099bcfddc1ee41def1d86adadc98, 0x13107a5ea2a3406acdb6563a5e3f0809a1c6b7ea9a04928533266275fa6f521f, 0x2d562cc0650028df6e30c07bdbec07f73eebe766a192d130a6c737fc9ce3db39, 0x2efd12b5e4fa102fbd60bedc120b1dc022f8c43a2fce8642893698df53c23529, 0x110098c916b523211e18b985f8fcc7e8a804bcbc762bfeb6c25c810ced552162, 0x20a9d5216caac17db5ab45fcb6b45dfecd60a708291f5c86ab84da22ca596ad3],
    [0x48c825409094d056259dd3ca7e15a08594be82f488d66f91b43af660dcf38b6, 0x1984479ffca6b64a3b950372747c1b926ac36a7dd4f70e47e188bf7b410ded20, 0x209cec7ee37d47a8a56f8484b94f5db20535b552c11d5fdacc80305fd825c8f8, 0x2da9a692b08915b7b61930f011f76b09beb7edcfd6a19c48cde742e99cd49308, 0x302f50ece4afa17d552370a4e12c25a3b0151a43e3982ef5e71a38c74c36ef59, 0x1b46e081e756c42c783153f73a64054ff4985073b9a732153ab69c929470283e, 0x15103e3988d0baf626bf9de54d75b0301a2d3927c65d70b72391b062df7cb4f4, 0x1564e70062ed6c3b3ff272dea80ff3dc57ca1de688b1de481e7c0726376aeed2, 0x1e545f388b9e05a46dee5160c8706da80cf807c6c10260c85ce04ac3d41efc5e, 0x88cd407f0657fc8b6e8acf3ee2b0473e50e72bf58f54ea91eca40df80173dc6, 0x8b8e42fa1c4104467d67c7a3e384a3c0043e1c1d537d06beed997e0b52abcc5, 0x14f1b3f9e72031ba74e2e032804da7868d37bdec65c7b4c33133dce2b1990846],
    [0x1619c0ecca142ed142f88a2fe0b0381220b10d3ff5c20fb67a66badabeef018a, 0x10f620a862c7ec986c3ee7e92ee431caa4e8d3182bef22175d29542796c99925, 0x2f2f73f3953af6ecea86f5ef29075fc4e01bdc083c03fe6ef89842cb81f57936, 0x124ae93fdb1b32754036196428519c8350e699c10ae783b8efec04f6d0e4d40f, 0x23bba8fd9c1d888cc9f3268fc54eefdf5e18d60b41f5794117c800ea9564f579, 0x1da248f4d90e0056b683e2a892876fdd8efe474fb511f46955ad3145341e0d33, 0x2fd8234511e54966d00f3ea4a65dfcf0a6aa07d09323f994339b43bcd98ee670, 0x1cf83450d23c5fd64ea5ed6003ed6503737dfe249efbff2d05f6cc285b4adbbf, 0x730028703b63880fa47aa0b948a2a956590f9d2de022298c0350636586dd7b0, 0x2aee39a51669c14763094fb8c42d649064985ff1e175d8828f4e0252e908110d, 0x236a48fec7f4871e2a0fc6305b4ed35169b942f9e8029734dc9a5f450b0a40bc, 0x26917d74db7165800ebb0bb05afd8cdc79b470c1d54a5eb1dedad874a4a77acb],
    [0x217279c9d9ad568bfde19952276e8a757021985b2c6c1967dcd8c3a4198a38aa, 0x1f84a26602f83970a38afdfa335e740e24b8fb974dd9d8b0319c7cf6d3491e12, 0x1429fc9a53a6937f151562283326d9f9954a2ad824285e563b67d2838e5dc265, 0x253264e5b4725993807f799d6b066d3850232ecd10dbbc01e9a0d52f81bbb7a3, 0x1f193de050e1e6fc55939e38c86903ea03252b489120d0a74ee2aa203b587f23, 0xb179e9fcf3598400ce988278421f7a5eb6d5adc36917fa51649537396bdf99a, 0xdd3cfd2e74ac6443f1089c4c0884a890801c608c1a53b503eba6153819f9016, 0x11e4f43e73c18df506683d89a511b493fafbc4fee14c34a8343eb03d1c1978ce, 0x7e9613f5cf6551a97ecdcc24d8810e378c9b542bb59d79461a4c25493571eec, 0x8f250aabaf2b7bb58a09c6cd958e13c0b86c806c33e60f4cdf06789cd0241c3, 0x1076a7855f3b7d1ecd5bdc7c0860391c57ae1ead3508ea994c31530e29c5a242, 0x1b57606bfd71ab8e3b2ea9cd32a78569d00e8a836b8a2f94e165149005a2204b],
    [0x16a0fec8e2bd755596396f1d1cfb79210796b85bd3bded82bcc2b8e6d4a61c5f, 0x2fa939b78fd3589160bb09b35aedddeb43c10dd40c2ac6471598c4ad136889ac, 0x2fec4aa75563f7b8ce369ac2d239486a7e2e593c4cbf7474fc20e5154227d91e, 0xe1158e63c9b7df32d7c3f32a97e8e415343f54c62977e28f6be301418d8c3de, 0xe11893c32e63b42a74bed81dd71e6348a9bcb55bf5835335580be1eaab2fee4, 0xfc0701b9435b305b610c7fe0c667b33de7bbd330ca940d71d5ccdb7332452d0, 0xfee4aa70a97580a7395d67a37f55330b908470fb803fd004d434ae664765fc4, 0x146742f4531fa49c48480406498c6541600d2a303dd8dac971b7b920714ee131, 0x26f145dc528340cb9335cbb6fb1e70d0c871849e7475e7f9c0890b907f9f6bd7, 0xe307a3d20bd16381e2cb9d0b802046f3d33026535f1b2b7c03ab075b681cfb9, 0x37518e3a0fd47c9a1e33a918c30fe9fdce4dd04dc0e938162d2c3a541394e5c, 0x520c4f6bdc375ba8ef5e4f4d55ee73949386a813c60718db08ca3e8aae680b7],
    [0x1a5ee091b74dcc7c3962590d3042486bb4399107600c5f6664b145b7eb8c9a2f, 0x1986256424084fb797529cfab403b2cbf0b6626d4930abce17b1a64dae036314, 0x3867c71d3cfa8039ab6407ab46053ab4b7405276f483dc98319047b951a156e, 0x6d563050f5097774e456405b8c40d1f65b8a0a9de14e2b052039700bdba23fb, 0x10767e56882be4809328a58d747c6d3ff85de6513d50d09c2e337d22eb11c20b, 0x1017176674f93d48207e239674d99ee39b6cd893ebfb903a2a41f28ff0b56332, 0xee7e6ce359254247932f4e03d3113c2ea26e51a83313e4c1649cce22366b3cf, 0x26ff82c65be4374fccd75b3238534dfa544cb04228b8b17fde68bf54a791d63d, 0x7e88a6fce601c48d5cd2ec5945e24080fb840c5ac75084146d4ba1a6a6fd617, 0x129b8c69e8518bd16636ab0f1a3d7e39ada28a5de79ea5fba1b6a7d13550b85d, 0xd794f086bc4e45eea6337cd1e65391049d5c3d3fee8947032c40069aeeff68a, 0x2622b4fa8fb07226532b779e904eea44f6f909488cf516056bd81dafcfd60a07],
    [0x25630c8d104693e7a5fe41ae65db35fd3f4c63f8f51ef9d0948ea2595f158a26, 0x29023fc4f33c9028cdfa300500337f668de2a543847a619b6a6dcf7c64711b5a, 0x2c05672e9a763ea209baa0f7c31ec56ebabb34c45b24b7097c841bb3cbdab46d, 0x1f501c00c1ba8aaed173524be2f2b217d6b6ba00ac262ee58ff6220167ba201f, 0x19ba085b36795a55dbf040e54c356e70321b81fae29be0d71d777d49c4f4bb8d, 0x19b51d2fe788314270e14d1bc248c090da8605a40f7559216fb86482fe69022d, 0x135565fdd6d3e651191d7ed1ab010433782f9b07a41dbe14629bab713c229635, 0x22461ed7ba44596bf3a7402dcaed5c247b09835c534a81ab365148e148fd1327, 0xe09c39935650773975a411bc093718dac77e8d7877666a85ac3da15805cdf8a, 0x84ab85314402a0b68cd3021e1ae6790b27686c6b0ff2e4948aae4ee6cb5077e, 0x143b5de83814814bc1553bc7ec9bc4756bbddb9d31843a9dafbc2936fc8cbf69, 0x2a9b9ce26f0b8721be06da85ee1474727580b0237cdb08135baeee610a460522],
    [0xaab3ea72f43d0064b776a4746ea6e2b189b7e06fe8d49ebf452ca4627a387d7, 0x1656ffa30c037ac4573b8a0726888d99228ad832454abefca598c2318a3ec653, 0x14a2aa2a598b2e2370d14210dab5c5eb758b0c9178ceb7ff3fa681da5c9bcdd, 0x153c93de24e01c07ccd75236e4ec929b6efa0da96c687b5dc125f681850567eb, 0x141707bdc7698398e59f4ad04ec44fab8b7f4f7b20096f78020e948778a90f55, 0x21381259d9cd18a837dc34fb95017a3f32785bd91cc918589dae4212af7b979, 0x1d5d10c13222b1716d7a1def6b384d727948b0fdeb19e723b2bfa1292d97547f, 0x136ff9edb9c0568cd585b259aaa562ce3e24b30a6c4660acc0b5290d30a0da80, 0x2f3ab4418bb0cb7b859675b9ffce8c488f16cdd8cea44c14de0432e6e2881464, 0x2f03727d0894a74dc97e60cbfe74c7c7311b05d020ca878718dbf561db8bea39, 0x4ddf88beb916a6628e60a7da981781dfb0a5e1076285b24357f229128fe25ad, 0x818519ea2b71fbec6c6bfff87c978af4427e7bcc576dfa5c15bc4fc9fed263b],
    [0x1154d1aa344585c4ecf9ee9390c84668dce99231c0f427e8629ac905234e9eb5, 0x304298c6b5e2144ae9a508cd4c9f4c8160c37afa477b3829afd49d6a49fcb00, 0x13650a58dca9fdae806e76454c94a2198bed24df36d694a7a533147548ad0234, 0x7ccf19c8b8714b18d280a4c0ca0e8cc68e217516d1c54db6ff73582bf4d3263, 0x1b28476e34df146b4f9d530b6f59cd03abe281be29b3246a50feded647083d32, 0x1c58347a64fd5be62d478ca9d8fe383abeb3fa30d876bd5025ecf0701257b73f, 0x1cc9002d4119596aff974310da5bc62721915092504126a6ff3b684383f9eaae, 0x13d99de748b4fed4476bb2d6e9a4ec72b8b0488487d65822895a5267b35a5772, 0x21a780abb2efafce61f4d67da7b8bdfac494839e8c384f090605a94e7b396da8, 0xd9dc88bf3861f705b9aaf1f82df9d53870a0d3f8de4fd8b8c965cdaf6571886, 0x78f3af2d13ebf855e840a8c858a3f2f14316ae520ab12fe61381c0d2d4a0469, 0x62f5b577804a423ff3a473952caf7f052f22c8b438f00c32ac888d00c99713b],
    [0x25a8c33d7adb7ddd6a19dd8307a935d9148f2e962475f241ed67051bec38bc7b, 0x431652b03c94333a0ed76c36f1968d509ac73b8910df407b0343b9dd03fb56c, 0x22123ad39910862a3a25397329e3dc149b50289f9095e7224a81d5f2d39987c0, 0x2b43334743fc38c1bdcc7cc7d36ce441ab3be01674de449b15349a75cb937b3f, 0x2d0a0bc92e109c5fd70afbdb871bcec178a69fd1e244195e2ddaeaef5ca10dd0, 0x299db5f9e49f4aceb760a4aac36abc37af72e509ad6d21f6af1a267d2fefc6b3, 0xc813f6de081bf25808656d58811a88b8ebd5fda5b1365a54f793ac2bd4dc0f8, 0xe32673a68ba96aa959b25e655b9422d9871c6d5b615d14da978d104132fa938, 0x1a9e9dc3dec2e712da952fb4ce7f64e991cc590a0a3fcf2463dcef92b5edc389, 0x159ae72e80b1b65f43b5074ddc6642379e09c46769d7028b9d68e979abf59442, 0x2479b211ad9e81f8180fa2d44d0675f8de36046df216e254dda9c043b34d076b, 0x62f8b312f39bb2e5f11a786ea6bb051e5373763329dd904c5199ea19e3547dd],
    [0x22963c036561dcec8e1dcfed6ce50a7270acb2e415fb343cddcfccb77906da55, 0x4440fb323547f46c673d0de5a4fb198cfc8b94b64e0c776442fb1f189ad23b4, 0x2bd6e08f96c7801d3ec73c04ec706e3a56e10e90904c29a5a09654d56cc39f88, 0x531d0d6dca62ed2cb479cc2490208473ce78e2d63a2c1d6deb6a15f7eef493b, 0x1611c38d07cbce2b51577b64073338f50af6af8a7d4e99928942b6a687340edc, 0x148604fd234d2f542477c7a0c73a59fd9a19c5527e9feb4165e4f711d04d84af, 0xffb01eb4752741b05b51b6331c2b1a03bcafad4adbf57fb621f8ffe3eec8e02, 0x14af647ed36be4e16593f8a81335300459721d7dc9ebaeb1c9de2450bc7d2199, 0x11e2a2bf16b4b70d91546fe3e9741518f14e2b6ee75d59640fd62f0606d6c98, 0x1fc2fdde6c5ac257f4052f0120335407e533730d927809879de0d023726fe4f4, 0x49e892045b8d924d757eecef66602987c317ba55b7909b5fbaa4adf56a9a075, 0x18b84c59e8b5bdc9e4c55ae91457be4a66332b5869a9bf4928124e170eaa6c1],
    [0x263c7be5644463e12efe717157993fd58751cd755ad31a3a75b7f52420208b1d, 0xcb27cd239ea5d6f988acfb4b7de9a95b0eaab0ad0cec96c9bba0e6a2e459af7, 0x3634831e8b0e73bb4578749a7875f57643914df478aec0c457f62e8d1550027, 0x221ca9a31e8a11788017591eb067b1f87bc35b362e1047386378d85c24d26a4b, 0x8d5dccfd2d2164c0086fbdab916a75527156b82ab4536120ab6548dc99adefa, 0x1ea22f826469f0434f9dfe6749427fd15781564361adeea254850458ad482560, 0x16259979de9e13b79aaac6ab8a02ec0ef26b0b1690e682ecaa548867fd161a27, 0x25616133ee91e772b020d4c4c5953c05a8cea208b0162c82b57f9d07a5b6bcdd, 0x109451ff7ee8fbfd9563b8c2e7df834f72422cdd68f9372759c3a31b514d8704, 0x29e9eb61d0ce33c89954b0530ba55771f3b650a9ca00d0b52b6120da4bd97885, 0x176b236b779aa963de6e283bc06f4d40b2119fdf226bbcc4d56f9337ee940df8, 0x16a033d6c26609b062f9c369b06ebe1edac366e8534a33b62d0ec919855520c3],
    [0x27cd66a32dd969ba9fdb038201742c8062507ecad62e8947658f466f2acbbbc2, 0xf90038779e72e988033ffcb1fecab087f302ef61751a6a84946c997e634375d, 0x205f70b96d6e7fed7449ff0f70be698cb5b805c7573d7708e2c68e4bdde851fc, 0x1ba89c27c091cf85f997ba0e3dfbb84ba95d463d1a589826f993bf60d8670061, 0x182ea2d905630567136f83ae671ac63158db9efaae71b5bd3ee0a3de9a9f9eec, 0x6509a885fe116b967ad2cc9999d442106b2f0967bbfff02c849c5272a100481, 0x2283f7d31bc75e8ec3c8f1db4cd383c04c02dafe42a6cc83205c0c1653aa855, 0x17faf24d23b240bc3a43066d218db8a1d8928714641e72b41b74febff037d4ec, 0xa03a9fc7aa508da326142e62c7d4818f593dfc50e14b8b834ab893431a2a620, 0x71cdad090dd06cea45044f25a6adb52971594f3e161f62f4129e0b72a7a9407, 0x11f176589b8244f55560096a18423ec43451d6e99de165a29775f1e056bae3b4, 0x259f50c13a176f8513da7744fc31afecae0e9a4102a6bbf893178bee26a53d08],
    [0x268070c17f66e82a1219f144e97ac1a9f6f926d8d606bbe66c2bc7c051ea538a, 0x2feb1ea6480d6caaad0a25a3b660d0163b701931b7f73751d5e86a48f0aef56c, 0x267a8004c0a4a65b4ac33b8658b1b683579ed784647b378772b4b66cc4c189f9, 0x25d67a760f2a17a9435e5ba4d7486bce7a0010f771e909dc38cb40117e401308, 0x1e14c2d3209d43e73f72524efda3960e16c8d16dac6dfbae73c7e75189f20d11, 0x1c12410d09b3364340ac571b40bc1d74a9b42ab1001f9eb89cdc83a32656b448, 0x2797b79c67a48c4e5210e93402f7f739d1e4f443664e6981df1b4232a9916f55, 0x2f6fee780ac5a58cdafb653ff250ac96e02c6713fdc53ee530111131afd2dca3, 0x96d875d77642579ca91708c5bccef61acd69fc941ce2e126c3ac394ca5b1a3, 0x9c918b1f1284e123af4a4279598dae5c44e5c201475ab083daaa270e43599a0, 0x14c0b0619695bf075a237947bc425adf17c35be75d444e54288a3cdc85b8ed19, 0x26d8f29cc41aac3e0e39e354547c53b30627ec26e4fba33bd8d60979be27cb74],
    [0x9d9f04394b4b2f5ba5c2e4f83e4f0f63e4c1791ef011148cb2196901dec70cf, 0x1704c408583e92deb63655c36b90cba6a9a2c403261fa2201b4fe6ba10dcdcb0, 0x30702b64d0a76cb0c9e651eb579263718b35cfe62e136472e08616938ff0ec7, 0x19decf83dece35005309897a3eb81d5e25cbce4eb5e2fefec5cf68d90383297f, 0x38c625f54e4d2ec49c3811c37063a1d108c0d5376cf97944ca1074964f7ea95, 0xcd726d0859a55c8063056d8356ad29b410b1e1dd1ed0e282ae484d6b94c33ea, 0xe9a0db14a18282d439947ef7412fe1e6aeefcc96b4ac50e7f430d980b47fbd2, 0x1d3b00e67012591f3fe5bddc1eb36574de7a0357a1be28359c1518d07d5cf985, 0x9745ec5d24cf1837696f5a867c3c6129a0d44c037d96612e99b82eef3dbd87c, 0x2dd5e2ea41588db7b01cc611528850114adfc8513b37b17fb2a46f2b09bf6b1b, 0xb3dad731b91ed4c2aeeb10410c51a6e925360cbcab20c3ddecf83dbaa7e4c97, 0x49998b294f8aebbbf2fbbec695e4d2d56a9904ee051c84b0ee1fec9798cfb42]]

/-- starky/src/poseidon_bn128_constants.rs L11547-11716 -/
def m12 : List (List Nat) := [
    [0x2cb13179d6e8a4ad1b9fec37376253cf64386ad905e240575fca86539b272dc6, 0xfd547840f3a30a533a994d1fdb3f60ae5073f4484f34be951ee16a276fdeb9a, 0x5019671bda026670c7ffa9081795105963f56ce327fcf78451fba2bdb3ac1c6, 0x2952c18c15558f29b2ae77fc39e51a395f173a9097db404db765ab02906b27dc, 0x2353a60af6bd61e5eac2c9a4263d451fad07380654d4792378daf752e5cc33fa, 0xed6a3bd48174e370b4f264b37488b03a5e3f4c0f61cf32d3157ad3e3b86f6bd, 0x21103a7aa20c8d15501be8c23504c6a912c6100c5d88085cc2e42a52302f4483, 0x2fb232573e85d68c536d100c3a6ea9172884451e677b0d1cd0fb4dc4c27536b7, 0x302a085be040ff9a709ad0c73238b0d1e11e1d17409abaa34fc45de29b541535, 0x683e640e6154ef73c3cd6b1d0f0fd86ebf7e292e63fa84cf0a883c2f1faa8ba, 0x1f09f3fb07f7f6476fac98946b7375095e014b28f23a07ac9fc7077144ac3979, 0x598c38d2e2c78dfe4907c74e82325cb191d52608955b583e5826ebebd1857b5],
    [0x1f930557a284998225f5f4e4dfbcf5ac211f1b12d91b0562ed3d63285d7a714a, 0x4c4061820cda9bf472df3f64d6afa004f1e8623d0a4f6142cca1f19a4c275fb, 0xdbc22c3e54c924a882c22000951239cc263755dfcb38b27ef4f880e202cb5fa, 0x2fbb1c59e9e8999d91c40f4d44233122ab35ffc975edfb43c53ed07dbf0d9c76, 0xb8f40d2c4d28c472085203a0e460af73bbecec3b2b3a63f27028f2ca8a71251, 0x28c01a9f01601bb46417ed466be6008595052f782e46857d81229e64e6bda02, 0x23ce8e402939cccf36176a5bd83183a0d54a24ee6cabe4fc7f814dfbf26f85ea, 0xdb82abbcd3a1b56f7fc8d116cb54c54fe26243702bd3d57e71f7ce0d470a40f, 0x2e703ea9af99161acf9949da7afb18d462d85b671656d61c2cdee3a72390213f, 0x16512c150c1d2fb7235efd2d4f0fad5fdd78f8d0cde53a66bc90206c82c4b597, 0x298aa5d5a44565b75ef68df902d791d01d98a75e822ef553b1761c58d6fdf32, 0x203fd2078ab2a8f88b7606543145ee34daeab2aefca31bc04a476065697cabf8],
    [0x18e8222f6907da5745eeb9cd4a9e62f28b8b710aa85fe729f9ea73a3ef0099d, 0x107757eb0c0799f781308d83d2e057ef8106f6b656b45e7636181e113a2cdf32, 0x966a21b9615af2b7563dfe41b8b9fc06039512dc9c8e1196891eb77f856b608, 0x82046081498eee63c287c6fa3efcdefeba1b5272a77bba9cfddb56afa53c82d, 0x2c7ecbf14b2d6049a6439d0f29f10e26ec975acc3e3eddb77c831a509af59196, 0x144022e7e077ff22a2ce3dfe9923107d5aef046d0a1f2cb5f36191ab04eae4ed, 0x170403d414148f4681b8213550951e238edc009f46b00693ce3d9c5800fadd0a, 0x2997d92a5e9bc66c84f635e8cbf080eb720ecd4ca3e42c3ab8d088611880861a, 0x21427b3a9a2cdf1e2e6c628906b21e24271d72c18b0261be68cca44865dece11, 0x24bba58086a78541a8ebfd535c107c36946d78ba6cb26d227e615131f71d337d, 0x1fd5a6eba52e9ea1db389a1fc8dd3d0283d737c18eb06e090b6fd2dc88e0a14, 0x1276442d9383c52d50fc9b5ac34442a4ec8e9cd7aee6d6ceacc1a6f521aae4a4],
    [0x180e924d757d0be4066feb146ed56212e38acf9df4957432653f370f905b8b07, 0x2acd39e3892ac429ed812863efa05eda746b55bb974694a4e77b9a19abb55001, 0x17b18621dbd61df085da4cf8a03395e3700269c7df4d98ce4851f90abcbb3631, 0x2a429c2d06dcf34d34730c3af8bc19b04abd652468de5a85b5d5cbfd9c23e6e, 0x197dfb64189c09aaef94a1f542d8c34aea27fffba704202d5286d62bd0eed372, 0xfd3bdb79cad913432b7d3828e072dadc26cf4903d56b8976200723846c6577e, 0x29b9ffe05db2c52ddd1bf0e5c532eefe70497c7df4b97db2f0624836576a6b29, 0xa2a006e3b086bf502c5b1540eaaec14b9c15bf88471cb6d479fb4563f016497, 0x237a9e020908cd0edbd9eae8772350e0e731e3228b892fc5f64fdfa9b9daa670, 0x6d349d6182ec30d68c9be010587c707f7e1e175c0d324e6added6337a72c2b, 0xaabba39d220f30604d0c44dd47c3c70de3b79f5baa70a3a7a0ca02ae1b080c5, 0x16ee980a2c67de24fa1a34082f11c71b7c45966a6e8bc6aa1a1dbc7ef6a9bab2],
    [0x2f7d0715d1391190e7b14a1242b6799eac3142e21f08ca02c21755eae77a55bc, 0x29788bb6cd947ea9efaeefd0eeb7fd563fcc2e40bd623ea2b2442b55d98dc5a6, 0x12cc274647fc572bb79035bfc3332a4e566a28011f69dd0874f01c56bc44c3e2, 0x2ef584c3aaeedbbe2b4b103a61e94ed40a97294156ad7ddf0de43b845249f534, 0x5f9a6a8d64cca12725dd15110f74aecf99dd30e57a7d99829cd8757b75b772f, 0x2979d1aeafdf97988560d4ebbacfa6e2b7f3d026946abbb9d5397645e6e81825, 0x153891052fca1290fbf83240d334fd4ce05de78adfaa2c9686488e0c47ce1fc0, 0x1b8c7eb04d351aff4e76af7f9fa1114fe45aaedafdeb42c1c23503b122639c7b, 0x2d8125dbef602bd970d11fad7cfe06c3c64f5687b09b960ab92b14f69efbea57, 0x10924807f6fdc4e9e586792e3ace3001f16bc02e84ada5df51d7bd37243ee1ee, 0x230918919b6826faa7124c5bd15d10c036d565e100b696a3be7afaedb2abba6b, 0x1db922b8c249ff7bf96121eae9d9555ef7770f3dd7b056191ae9ab38a5ccf6ed],
    [0x2283ed8d5e6f9470b3f4f49a771061e4a4fc7dac683defcc0348a8862c6ce71, 0x6ab8672c936070a10757adb45031a5e2922f0fb8b5fab3a4f5e3872fb582ed3, 0x2c7d538b9e6d2b2e06e72f8aaab26dbddead1fef6a740a11e9953f8e8e9ee057, 0x28e4620d210536bcaa42ee46b1cdcb21bf215933bae4eec639efbd51f4bb6557, 0xfe0def70bfba40679aef8d5a239b3a1b5a52fe8fd7edb754aee2b182d64b66, 0x22ae023520979741e5c58fb04fd25d12dc8f5fcb6ad15223a5da7e0f91c7b4f5, 0x105c0b246660c4bd8a6f1b36fc3cff86a2c432c0dc9321cb50abb98a10cd1bae, 0x2a5aba3b45e79eb2606b2a5b47eb907584aecfbfc0b4cd50cda1ce4854338597, 0x23a3b23d5edf5cb66160fd2523b3a383142291c0e0ee666682e946b1d57937d6, 0x26635f4df7172107dad6b7c3068d2d438bfbf486471039f9e65a9c8462a2c9c2, 0x2bb28ef42f5fadab6a6ffd5655b36580deb063ae3081d587bb1598878590f1cc, 0x96dd43a832ab68e35e57c98d7b01f2a2e5936807704593ac72c74001383f7e2],
    [0x21f60efb132b62909990b9f994f381a9c02abc3ccb54c5c8e8c9c5664c6913d6, 0x1db98a562fcd1a5e4496e61264aad5ea3b455f46eabd8957ba671e9c31e5092b, 0x2f30800c0ee461010569d36b60685a38b02912a020bc4708598854f65822f15c, 0x1e32b1e2e6b59273a113d609663af6b30c95b36884fe5faf371de3d564213c3b, 0x1b1523463a45a2982889048681a422c02ea373f8b8c1bf16c74a375d5060c662, 0x5246ee7854b2e20e8612da021b30798e5f0d02a5bfd5e79d3f9ac6c79fa609b, 0x6cdf8055439ac8424c435e7e9bea3f0ae93eab171ac383ed2cedb460fcb04c4, 0x2f9a5cdb79645e3454c617d77a774feaf24ef603454c02076fc4c9d7548cc455, 0x1b1625d757786a19a93b37adf7f22ca8a502aa4462ca78f7da2d7c22b37d7f9, 0x28bf5488a525f5514400dce722430287fe8e4c810154056eb0f4d6fe61091cf5, 0x21891bee31fb7bd89f0e4422b3c8f5b393299af0d9825db9be73e7b20097923c, 0x2282e86ade85855d4ea0657c4add20625c6daa90bc93943b59a92dbb77b63681],
    [0x1cde82acee60b84424e9bcee49a5464ee05d1cf0b70469208a675635ac715495, 0x1c4dde07d0f94d1aaa832ac2f5712d438b4e1804b5209ce55942d7afb24c6401, 0x116c45e4d88ceae4565c0e94da844eaf2775d5f5b435d94d2d3d38b583fa7841, 0x18820364804d22119347b728135b409956f7933defa1059d634b977d9d3abcde, 0xc849d07b1d9e6ecbac517fc19237ff73424a0678f94699b23f76952afa4514c, 0x2b60a4d43d12cf31076e0690e931716c47a86e7728c34b2d3cb0cbcf95bbb74f, 0x3161d7b94e1b0411fc01dcfbd748a6df3156ff04536b3dd3101f7b2ebc3811b, 0x6438e8b0220464039a7b8022f06beaee502c5de269db82f91d88fe1b72834fa, 0x14898babc8810cbc626688531511a8473ed89a22569d47ba586c284e45bd0ae0, 0x90dfcc0327a541672cfc26c7e1370583c5f9214177093010fd3fbf279aafd4, 0x38e0c2e29c79ccf46b5ea1bc589276aec95b74e8bb82e4385c0585637c885f8, 0x28331d0d31ca8675ad4767c490261bbfe5b84adb4ca2c5599a87f331908130f4],
    [0x118a24510a2153f818f0a996c87de913587805f16cdb1939d9406941f958e8e1, 0x2cfc82712ed9d71ff4fdf63ee4ad116fac195794f8d910286c152efd9f959bee, 0x2ffccbc40031ebafecfc3a97284bd0f6dc4d45eceb8b8998f1a667bee369ed62, 0x9b6c00a37df2770cec0f1bf62a6aac3bd380c6ce9f4f96e0f0879237ffa510b, 0x2c4036616c156006337771c1e355fc0f2f238e64cbd69d068aabb4b58116886f, 0x41b909a658d136993b3f509a9e9d50138baca48f6b66399ac5c649e68dd3aa4, 0x25c075b41ea2d827a4955b6469db9d41760faf885f2c6e9c09407ebb1c4dc274, 0x115a91867233cc75d1c906a42930e93cb9c16afced390cc14435e5cfefb4e96e, 0x2f8fb37178b525758bf6aa527f25773e1ebcf8e1425379500c8245c741ba3fc4, 0x29a14dc4bac0a4c52bf30aaf6b9b8e05453d0d797246b64732d50f176a7ca257, 0x2c89dc7562b91d8f2f7daa209b7560520b6bc62ec631db41cc5edac1fb142be4, 0x14972bfc85de037b07e55332e6bc5b4f08f39ed4eb8a9721dffc4a586dd9a1df],
    [0x164567b0de16b7a5550fca229bac7cb0779524325e4ca5e78a86078881660264, 0x18b49b773f5799888e9abe3f6883d7063333835b6cdd333580b2b4bf48f3b27e, 0x2007424b129ade2194c73e6e2c9d79360d1360c4fbb8c5f31330f938558b3ace, 0x445e26e26f91707da2df5c188baf80ea2f48c703614980fa798971cd8ec60f5, 0x176804ec1cf85d35298351245d32236546838d9b98cf4242d601c7e8e501b49b, 0x25b6e65e90ffbf910d19fe3ae23d037f8f64da9fe3df483fc4f4977ca36a7b1c, 0x2fa2af7970e131f7efe3a7c788890ab860f76751e55b4ff634dd46cc4de660d8, 0xc8fd4ece5c205190cf6c842d1683444079bf49835d5c8b8dfbb11af956ccaf3, 0xe992f44463e2dfd267e6a4a1c3303ea7a1186252efd6c9fae9e5f0c1f6d8266, 0x2609ff97ef574fd68d16a3de0872c3b59a5b928258dd1469826a191dcbf5bd0, 0x15dc57879cb41d6015da9881f948b40d20f0e03fad87746d8575af009c96033d, 0x6d039b64e82d7975dd21a37b5ee79308f20e82e23489382ec2d176190587896],
    [0x188ff303194112a7034527cc9dd0b4deb0960c9c106ce115178dd7087e4e8c02, 0xb300de5b99c27d332091f8fb0d97cf04a86a51d4d2037788e0d4f38e8f4eab2, 0x2c53d6676d4d4c87d9eaf5d4da08d1e98d103a3388d59a7c0c3de51e2623aa3a, 0x19f5101715162976766e2b57a58674bc58e1ba2be18a59b07a07e4a93e038075, 0x2f5855a876a37f7bbbd6104accfcae507e9ddcd2a7219b487a76b17c525b50ca, 0x2c0de448a88dfeaacc9bcf2850b6ff4f701e1a538d69098bc94087cc35930966, 0xce587066eae0c345c3368c53dff2170cdb081bee52b243a1e6de6d4f82451d7, 0x2cea98cc64abd926df963da57f2ef4c434141cb53ac6311b2566edb957982713, 0x2c7ae475d90c475f73c0d29be8889d0c4b8536fee6c0389984bf9e4dbb1aae6d, 0x23238fda1417302dd03ce54607749610292945bddbd587241714fd3964af5f10, 0x1c674ff2ead27ce002f4befc7ad5f0f5123e59793c0fe21075e819ce56ce1e83, 0x2627be68d9cd0ccda3828d51621ba409f9acf09f1a9cc503a29ec306f8606ae7],
    [0x83d832adf9bb4a25f686abeda9f16ebf53263dcf9ef4311781d09920d094ead, 0x541af6b96524662084d1208d71b6b2a8d66d91179745b213679c2a2bbc94968, 0x2cf2c992c02a36334ff5dc851646ee7da04b44eb544ee3c0fadb8dc5eef2a585, 0x6c5df8fd61eca2fb4923f0a46dd4e416a3a3b48c10ded13133ffeab6fd153e3, 0x1a233c7cebfb0c6eb72dfd07aa2b537ccf291e84093aae36cc68002ffb83639b, 0x5f6d62f54518f039e79aa726bf15a5983583eca4062405400acca58ca9d2235, 0x2b09de93c6e3148cf7ff5731c8e144debb66ca896ecbe4089d2d22cbdb09777e, 0x239ecd92517825174f796345db296562223760fb1b81c091b74a6a4a82968a4, 0x2945cb85e34532e3a22fc576703797893ce290d0156430a8dce61c9df89a8bd5, 0xd3be6a5b12bcf1bc705c20c30f320b8881c6c2ec00e857685c0599262a3cf0, 0x11e7bc4a39d2730196b6c334f99750de5bb5e4fbca5d6a19eb7fe14abe845dbd, 0xc7c9db952865fb9470f8aa1402536cb3b82276d9e288082ac7f83b10bcb6d17]]

/-- the inverse of the matrix (not in the code) -/
def mInv12 : List (List Nat) := [
    [0xb90fea8eb3e77a6b43b53f9bfc847b1f879e5333374cf684948d5e6711bfaf, 0x17116cd67c5480d1bebe947d16ca640df105977b71b6d8a2e66e36278071da2d, 0x2585fb6ccb66f01fb41cd6edabf82bcdf92b2ed152610c4596d431c20375dc24, 0x9866f0685f77fbc6cbd547d87a6e11b94146f17ed74e590f6a2d3ba0f7cb0c3, 0x49e4c41dc1321e9e39e0001077883985772b4c0c5f83700b0a3b9ea733000b9, 0x26e57b51234e3ebffb9001305406f87854d60370d1523943dffb7c590ae104fe, 0x2dffbcd1aad7908694d25b9e15beda10050e56663cb7334b6f31ce79e72a61c8, 0xf55baffc2f400985d37a5c554b21b92e1990ca39147e8f456b41a471af6900b, 0x6c0edcdd2ae7fd4bb665b0955307eb9a5a067db3babd549df7bda01ae0df27f, 0xe4077f845e5df1f89e3b702ca1d43f506ff952997b00dfb61ee4465ed20000, 0xa5425eba4aca6c5156b7f72d94bb58630171a37c28af204d5ef71168dac2871, 0x10edacd7ffedf49f8e903f4ba2ea181e4c773ba1261b8df2d0d2c06fc9a80904],
    [0x1015facc05f86bc6d0907eae117fc85993757e1a3130a53f0778c430d36b6bf0, 0x1de50713211af06e22d960fda5f69a2b01b60480adbdc4ccf4ddf75d645cc2af, 0xb4f32c3f26eb04a12094d0969d37d652aee91419d1e9992d60e80a3ddb494b2, 0x64faa7469c6f7372ce9de7a3e03b1e1714b778ca611553b5dd4dcdcceb5ffb1, 0x55501f6e09d0cf728509bbc0db7b0ae27120caa83cfb78f99ef74ba612ba96f, 0x18746b4ffe780e84ace3b92f8121d9b4117ab94e9f2b18809838a7898fac0dda, 0x2a6fb26f96371cd78fe4abb0ea6dd3631b593f8b7027b72c91b159af95830541, 0x1ff31033b461edb19fd12bfafd70d6e5f249368cf3c1a7342ed5a9f5a8446d4e, 0x20dd2b21eb0f94fa7d89f507a49fa019e57c3d8c4fc510e855eed1229e751dd, 0x9bc22b995c432ded1d2e9363097ea92f6924f707f75fb8f225e0d3b1be12a99, 0xd1712d7e81243b657977cd7e0ecdcd270fc157c8ccc337ada06efe3c5ce68ac, 0x268387660f34bee92b6a3282a75c0601ee104ab189894bf03f24909add7cf985],
    [0x3569020e2eb153fd42c8f52f7b017c53381ef32b45ab5936a0e1fd5d4e0f1d4, 0x112e8aba11380fcc971a4af6dd1e16008c38a1a9ea978f878ed39b7cd15672a0, 0x1b956a2c01c5f7baa4d165506488104213872814445a7c5016a4d49476037791, 0x1bc67fa4ce0fec9cb19195c680f37f6d743ca51ae2ab893585950311f3e576b6, 0x139d4027f53a4ca25d102b44218a2ec2343b1900563ce7b95c9230e842f8ba09, 0x12fa1ad26eb7ff8ecc09ab33721b65f1864be9a57d1eab9c277fd6db6f8644ce, 0x14e0e1d0f346b56ef67308c7d46aafe40a45fb12ab4a21b89fd23c312c28c7d8, 0x67e57ea21dd3cad3f7828bdbd2b6efa6b86885811ee4c7fbfb8a5a2ffbeea24, 0xdea600ff2121592fc7268e5c1e21be29d6fc3ad3a73d57b3c6ba7b7f9667d22, 0x1f13604c925805ee92b483ce717debb3fb162ad56e92f9b61d72fa6c7cdc1c90, 0x15c659b6d639fc1ffe92e00b78272beed7da500a260bd833092cdd5978b494a0, 0x1d1e56f4c4f1285bdbd63cd123723bd7e4ab9b57c5cab8bcae11f86b63b7ef99],
    [0x182ae824dee67f937ddea11885c05276d874652515f40452cbc6e255f0f3201, 0x83bef90888b8f3a75f000daf79f701c5d50986d3eacee4b258142c107bfe29, 0x17054342f1d09652ad7ba0f4f4dcfcdfff00cc59d0e280383d8b1da7a774b4b2, 0x2516f1d701696f87e3dc76b272599bf7a1936ea080ae23f377aa964808aa803f, 0x1516abfb875858cd9ca3964ed7902d5dac45bff80bf539869e6b686c1e159d8b, 0x9d2a97f130063c60b2ece42f06dc1086101bffd7e4ea062f3201aa2c18e46c7, 0x1dfc884a0640951f25ad301f44ba29527d021c48a6a62d5bd72564ece2adcafd, 0x2927bab394d8056451ee7dce74a8017b556a90dce83988f282638f1ebcabe184, 0x97b7478f5dd77ce73dbcd82c72dd65bbffa68d5e66d9ebc579817c34cce52d2, 0x6dacc4d7ac60cb0dec0dff54b59a22494b85a9afb719a7e0a498f435a76cd34, 0x23e416868a99209ecdd469f0661b535d2e8e631fcc237f1e36386a22414d728c, 0xdffd4a059fda68581add32a17252c83957a36a57b68c8d227207a201824d97],
    [0x1c3d18d698faa4e19b8c92ce7e614c112b9a594b176f820bb8f7ba139c2ed049, 0x2050e4320a3fa8371befa492311042484b9652860bf2d3cfe4f4debce785e4a5, 0x206d7fabc7fb8e8ffc188c11cd44d0364f17ddc4ce3f58b452c57d38901a11fc, 0x1af2d69ac3ec3e1a6c70ffb6b4a9a18bcecd9dab1b38a3e5231246203ea57cad, 0x238f67bde81ddef14d4dfef0261b3faa51c6f606174dfc58eedcc0f17a1da9f7, 0x1dcdb71b11ee6ba859b266c1ada3e27364f2d41b8d5866716ddc726cf8c96396, 0x1e02b64f61517acdcea1477691c08f81d4a88dd0700002472928acc86a73407, 0x19f955f588a573cdc33737d881bfe1f44c77c6e94540f3c96e7deb69630d8811, 0x1361093bf1f7be988fabbfdb17b85e66ba0e02ca8595245eecd50e2079dfb362, 0x28e219e2af66181ac356d24caff069852bba6e14d584cd07ac475474b0766bac, 0x9af5e06b044a10493d29cd1dfb0a6ed51a569aeda8dba27dd21d1f56045b213, 0x17e2fca676ab91803edcb75910646d52910382b43bafaa6a564c08820692afda],
    [0x64ca1b2cb7dde4ffcecce7418a6a5aa3591bd97bb89212e77fb5c0979a1bfc2, 0x21fffa8f386b0e98cc7b6010b247b6baf1c0408f2b70afe4702ad1fecd469ddd, 0x74ab7eb6a7e76437492ea963753032a30e35f973071f2200635b7f76c394654, 0x1743127e7e4ba9e8d02d9a380ac8a9fe3eb22e298334184ee1949292ce3cc60e, 0x1d26f2ac720ef83005ea0d04df03610fcd49feb70856ba78b9c45ab38021bf34, 0x1d12ed65fceb781443e2a701df827c31367f434f69b915bf2a38de922e1847a5, 0x2e9de7f453b6932c5a536768938ceb754c06809f647e9189289c35061484002a, 0x2bd1c2494e167d315ad0fba08700421549a6854d15784e8add92d1e2f75505c, 0x254e9100cc1ead1f7a7122c79bf68994dd191f6c0f96f1d0d7ff75bbc47ae9c1, 0x202832dd2b241bf6320d14bb589399cc22299bc6e0463f509e88ab904cad383d, 0xa5bb80cbe534af9a09aef9b3d3b14063cefa007a8761f5c62a29f64c8e094e3, 0x145ccbb1255328768d309de1d4d842192741594590eaa082f9c03624c9c2f6d4],
    [0x2e43b740a92fcd260769310a47a983d32551e3de4f5eec3b490221f3e47d359f, 0x1999b3555291f7a7b567a63a9f8394b711b301c94fdb9f680fcd25ec9d7d39f5, 0xf32ebb7cbb7f1099f5a7444cb00013cf0bf4abf84e08756b4c4620088628329, 0x369629ab87bf61df43d9461de60f5a7d7333e0e43cdec2507e0a8ab9543d963, 0x2e5c128ebd832181ef8d904247cca17dcc8382278a75f5a2ab34c4af33fad2f, 0x14dc43eb8cb21fd4ee2069a7dccef11a0a4f27ada9dbc5ec0adb499a3e209fad, 0x2fcdeeef74f21ff993b52db7b5ef53367abc34b76b5bcccfcc1e9c75c0a20c79, 0x282c1e057297a900ae22c369fd17a759e644f5117aafd79e944378a9f919f849, 0x106018e1f5187902cd7e25a8187ef94d447e577691935d0d1cacb675afc59c51, 0x2b66d475b464a99575453d8e2109a7d626fba1cf68e9af7c593970e44f1bf6e2, 0x1126aaf187f89cd5e51e72966704a03b06d5a30a532a938a263c33eec5dbe632, 0x2597da86b6ccc6ae1df2ff1f8c7dce66d800ba6291d2dbc4cf7d3dabab253b11],
    [0x160e10bdde1cfc8c63c32da67202b2b66981231e992e2e99018fa4219f014939, 0x2833f615565dd4d8f5469f0aef640996fdfd99fd8c5bb179a0c4155c3f09550a, 0x1ef26bb3f8db83ae3d0dcab214f95ef536b1ac2a27f62efbcbb1b2fe24778339, 0x28f0b7140d9991641791e3a3c92aa3b11b0ab9119f44402c18194dcb5fc605d, 0x2b397f73bd79fd85452eab5b50c0053dac0da696ab6b52d5d80308d937cd673, 0x14e79413615870d900114d6940c724d608019d972b8c3a383a5828ea9ff44ae8, 0x1240807313f4cf606b342e73572a681d8a3b557546e365c9e23b39dbce40ee73, 0xbb23aff9e5a299e3d44624b2f0b1902de74f5631846cc0512ef82b256ed6bd9, 0x1693abea311acbf35353742cd636df5f2a4e27e6ca47b3c637c0b814394bacef, 0xa44d68fc205ad763211744501018df80138e59535e6ee3ffa3cab2e8504f3ae, 0x169de0b0706740ceef26ae634fe5b6250e9fff01ddd8606b829059a51e2aa1bd, 0x2e3cf8734410d46693a27f5ad53623dd821d0daf1f6f15759bd298f1c4601d0e],
    [0x1587823329319573c69ac1b554faafb22dc85b6f8186853b3e634df14eb25325, 0x41981f40d96b0eba0910b2cdcd61137be2a01f260683f55a98f61d29ecf052a, 0x1b9152648671a716c64fc98e91bd7f1764cee67bb0239c3ae2b499e391af29c, 0x143f82ce603dc217dcc340b18c075d4510c3c885b720eb11b0330c3c9c6b4de6, 0x12f83a8cd998938b626e70b19de01320e253d758db8cb452d524d1db28b9f376, 0x17e4bea2af763e20eacd1524c1fd4f339fcc248a481eeed87c834f6338ae2dc8, 0x2a4824410839efd3d27cdd21e82af9e0c09605ecef9ac7c52f8cf5eb190b9619, 0x214f15589dd618b3add99980428ead8f1ad68a402a9220b66eb7ccbfaba93dd8, 0x1a3259dc922dddd48cf683ff432a8ca910806a803064f03229f0398b3bae3b3b, 0x1f760ef1e5d7c234af082ac0118f4f3a6ee43135249105408e342a9576559034, 0x202204822dd9c45da9ca21387071a1983e7345d1df3a20f83841dbe755609485, 0x267e67b3c7aa56728087773bb7d76b10ece93596c676c90a988b5261b70a62a5],
    [0x110593f9bea035a651376fdfc59103c822bd97fc18f6b3ba8c166486599e8a5b, 0x1e3fb4b7c7bda32e723c56cb2bfdba8138375674cc5ce32491a72d4be52785dc, 0x6c64b7e37c6c3136ecbf3a297bb496b7a08cac49e428fd3c503413d191e867a, 0x1c67a8b696a07371963895d05f62b165a40db656791778f41d2371f4076d3b36, 0xa9bfcd3a04bea74a071ee11cfc402cd4776d04090ec57c684d49a2b585a2f02, 0x251b0562d8cb87050ebd0c8a495420b1fb23ea9b89731ee960459c28f1e38d6c, 0x2b2ac360d4c44ed4a927c50365c5d0cb2acca1dd0b40798181be55f25ca68b11, 0x1844b47d25fa9ae20b2300d0e57da4be69348620b3c80b7198d2c43c932b8d2f, 0x17d25e10dd7d9503c3acfa9889e1fa0130b7d25394d6c8340030d266ca37d10c, 0x289c303fd2249bc053e52e00979eaa52a8c229a8b4fb7a3b393b016c8d10d79d, 0x255a41c75638035d6c6785b7c17d668213aa2dbe989202bbab44247bde50db23, 0x2fd07dabe7d19dc9b2fc4ca2ee359d76682cc82062ef2a7e311dff9950c0bb9b],
    [0x41d7780bc5e40a855a7335171458a7fb284d60e12663b086949e49249414f0e, 0x1028eb9c6bb68724502956fbf7dab51776ef6b5b82f6197e8d1714a9973e11ef, 0x25147b8ed5e97d00eaf741739497d28f674bb85235114504f36f2e56bbfb65b6, 0x1c6e44f33066b438165c5e4ee1a22ee833470f9791cffc4be29a629c02f08b70, 0x13f2a7fb1f0a5b249519a77e866096197c5c82127027f2a787e038013b2a6d91, 0x1f7259eba696833e1429b2dfa685c890951450d48f7a46bedfbd9f8a1aa3cd1d, 0x3f168f96de3be0a867c60fcda97e88af17ae9c219703ac04e7a77e073f831d9, 0x1ba5743f4ca42ef022bf6e65fa06a1af3bf40c0175529e197e6e2f1a8946e590, 0x29711870dcf80ce6bb57220849454d9b17b7b991baddaa8c65b6f0dc089b6dee, 0x2e5fb0df2e9c83ad5f65fee0fe7ac3c92991b7bbee3a35c48ca47d2869faf1b6, 0x1f07536fd2adcef160c00052be5873323ae1cc338f1652b1ee64e1bbff9a525b, 0x191e98021455abc2486532b09eba753d8d456d9cd1a9068e9f453b79bda840d],
    [0x130fb20621b905b621d51fb541dc32a9dd8f7232f45a370bdb2feae057461657, 0x2edf7c8cd3a8f553966a966568f9932811fadf19f4286c72126ad86a2f1b67f6, 0x11d3abd8072bc23160a801efedac52b7fe4e39d44190a0bcc77e052ba811ec83, 0x2d23f080c59812181455a37d655288344391ed619ba69ca6f5ff46e01557f774, 0x1e3f5873bea265e7b57958af2ea64065194d92a935a89b1f926188e054162758, 0x14da308687c2c4b693c17a9a497e27e06bfedef0fa99007e94719cda0d9edf6b, 0x5232429dbf2c0a225cf5ca779699dabc92cfa4ba4653376665847aee7f3f5ff, 0x2b58883df7b80d3882a4141fda3ad2ede79d1efb7265b80fcfa386ee622d6558, 0x107dd3cf48ea8444f6dfda5081bcccb1eb4f5c6a03ae342f7d99ef7736953c1c, 0x20bff810c857e948be09f01e8a9a9b2a2b6d070829c557c20c9def97bbc6065c, 0x23dfe2793641810c388db1d03d94a2b8c02eef0728c0b605083c39fd411cd79f, 0x125f71525925adfce2dcd5151d30cbe2a6e56185a165bb2bf0a3dc20cefe3fb4]]

/-- the tables have the sizes that the code reads and load without a panic -/
theorem sized12 : (opt12.sized 11 4 60 && opt12.below bnMod && c12.length == 68 && c12.all (·.all (· < bnMod)) && m12.all (·.all (· < bnMod))) = true := by decide +kernel

theorem ok12 : opt12.check bnMod 11 4 60 c12 m12 = true := by decide +kernel

theorem inv12 : invOk bnMod mInv12 11 opt12.m = true := by decide +kernel

end Verif.Poseidon.Bn128
