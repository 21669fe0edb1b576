import Verif.Poseidon.Check
import Verif.Poseidon.Primes
import Verif.Poseidon.BlsT17 -- only so that the large tables are not checked at the same time (memory)

/-!
# Poseidon over BN254, 16 inputs (t = 17): the tables, copied verbatim, and their checks
-/
namespace Verif.Poseidon.Bn128

set_option maxRecDepth 1000000

/-- starky/src/poseidon_bn128_constants_opt.rs: C L2043-2248, M L4046-4370, P L6168-6492, S L22565-24810 -/
def opt17 : Table where
  cF := [
    [0x2fb583762b37592c6c5a95eb1d06694b6c6f9dc4f1ad4862dd8f5e67cb7a3f5c, 0x12e9f46cd8231bb03d4028bf7a11d7c0e331dc05c088e6dc3d1d001da58b85a5, 0x1275cd70326f52f816a7c53fe62e323efe61a5b8d3747f6dec5837a825873afc, 0x6e7d165b57b0299d23e750a75ea2e12c9c7a16954c40a4d10904a61e8773541, 0x2f67f23a93ef1e215a4add2ecb41bef4b9d85ef9135065d992800e34fa98108b, 0x169eb9952e2a8623ef38de57e15e242df388019489e01b7c84fa839d864dcd1a, 0xf4cd404b4024ca13a513ba3156d4de9cb3aa240c683b3e0eb7253bc98c8b5f6, 0x1c486bfae3ab032ff519e8dca6dc41ea060b0ef9083127bd7c2c4e089fd45aca, 0x102e745864251ce940c67b1e2f4bc4d27fd3851571ce6813baac665e8cc0c79d, 0x1e6a6d620433d22293044ffe36a5f2a729c129cce3eeb0bdafdcd0d52bc3bab5, 0x8f3abf97ad8d01cfd8651ff2d576e3d68ecc47aad82b4188d92138bae603b6d, 0x283da3f1cf8477d9821ee60378b1c39c72428511a1b9d6683c0302938c248ce6, 0x2d99cd8d88e49e0babc84cbd58adbc143a75a26ba16f96466a2e41629734437d, 0x171edd6a7456a4c25fef8aa6d8b748ead869369f72a4e502861fd037dda8f779, 0x2fab64694369e3a2bd573c0cc383695c02a381e785792a3fabd6e1ca8df2d3a1, 0xc6155944f64f7694fc8ecd2a2b9a2370568c3c898db9531dc18c72474f9afe7, 0x1ee0e5cfae030622249210cdcda71437f28f0b1730653c0915efbfc08607c3c7],
    [0x1c15154895ebfcbade12f0e02f0cf65f87351b1972358beb0eae6b6976cadabc, 0x467fedd16f9e87b3069ae697d185c9c884ed5d9e64bb814bd11f71885754083, 0x2b5565852f65969bb087fcb51626b4754b69136d92546fff44b7048b2f9ef8a2, 0x2250acc27d5ef8d0f4ae8ede77510a7ffb897d45d9c93fb2ece4fe4c9a520f97, 0x2c0abe26ff8bd475ef727815bab8a81d154d2c1e36eecd07574222782b02a8c0, 0x19b0bd9e0c5fa1f56885be00fe97cd4ce8e107e95a10838b70dff34051188a69, 0x2342fa805eeb2b237633942aef80bafd3af387ec8d472f5d12e8f9834d32eaaa, 0xed57663a2a64c73b2870af0065ceb8cdea397599ccd9823747f884cdcd8faf9, 0x2c8da824719f86bbe3e601b19d3ee2a9fb766e7537aac2ea9f44ce4896e64bfc, 0x242fba876b16361e11c677d62c6aac73930683c0c40bc11938247d2c244a4474, 0x180cfd0b1cd3af7d5903e1e638bddc6711876fff6d5b12607290debd5e409b3, 0xfe8ce1b265d657e790bb82e6881b2da774713b724b9a88ec36373fa66f915b, 0xe8701cb0f031d03a5d81fcf949230dd38dec12218ed937cb31d58cc4640809, 0x7ed575f9154b12b0fbc12bff4350c6a4d38859d10f557d38c513b37469f47be, 0x22e9f46e17dda4066a4af81a4be19c94de4b12e0921f819030f8352aad050b91, 0x2b21049f7b8e6e767d633dcbf2acb264dadc7a85a39b937458c134f652a6ea5d, 0x216c5a5bff445ac3a3da1eeb706898437840905b9ff27dafbf38efa470bd0bd3],
    [0x2e14bd4f01462ffd0c83929aa97706ac772f66a3a0a0326c00eac11f9d5a485b, 0xf28e51e2f777239205f13ea21e8f33172ae538b21fb69bcfcd82ac51500eeae, 0x2c2295ecbad9cf1b3f6a773c69714eb4663a01827044169e7f1edd5838106eea, 0x1afe7b1d8ac438739d488ef003f9c3c679e7fe2f0918bbcf93ad1f127f2281e, 0x2e0833dafe87279685cd5b5a0105f8b98774b3083833bef43608bca8451b210d, 0xbbf4266fca0861341c7196fc15592fa22dce6141935e01fc6077c774cbb967c, 0x530c66b07d2db8dee36ab00f91c5aa0a26b48d8940f0b72735a65481e5e781e, 0x2ecabeec31877a68058a22f773e92d483867c01df7d050c3fa953ccce90acb51, 0x1e379c0d2f9d0b659bc732b57689e48c0262a976379959e12b95cb5d45820f28, 0x27767756606bf727b8e5361002c613d6c3a20df9c1788c9c122d3a7736a6b340, 0x1be3d832de2196443062c3b42321ae05779368ff46eb68fe57d835d8d656ae25, 0xe9b839700b18ef3eba297cb68ad992b3bece0cd5bec65e6e40712425447dc59, 0x2760900970a34d2051ae587ec18f502d246070d70c2c3d7fedeeb51bdcb785d, 0x370ec3f70286f496692cd5f50f6b06e21c5cd89fa28f9c8b71d42b4ba277906, 0xba8f86362e1f301baeebb2333893f7fba2ea082d75969a97ee3095baabb10a8, 0x2d683c3cd7b4f544bbe4a6baa9aaf78614434a5915299ffb37f92abcb4a4dd6a, 0x25544ccf600d8604bf3e11aeebbed37b77cfb1b22f3b110a930c91e9e7951f82],
    [0x1c583675e423f947344328315280966833f05f91a2a24aeec1ab6ed37376f959, 0xcb752efd07c8400d50a06f3e1baba3cb35b0ba28b262f8526f5eb0ab5bc79d8, 0x14cf442b6f22ca3f4c16974e2eb56ca084d05eb93ae1049275b8bcbe4dc238f0, 0x1af1b935bdb5607897f4ff0745ab08140d6e80878652855b1947576fcfee4fa7, 0x2499ad4b7965230d4dd5d1c41e00699c40433e22c2745807eff395a13e6f1f0e, 0x2b582ea1669028196e62e62271a36f532b14c0a8109d34ce53df9b75b81d63aa, 0x1c335a347abda047c4b5ad93dbb2e9412d526049fe1fabe1b5fee25ee99e0bef, 0x1e3451c495c60dcd443730401ef329d70571e3644dd7b5664cea26daf8a70aa4, 0x2d96286e6d9eadd63e393335f1217710746ccb928834e73105823acbd2da005c, 0xc1033de21891ecce9bd0afe313334f7e65977994e545204d616ae0ec4c1bd8a, 0xf0f51cf6db73e970a6b8efc8823bc82cac8403ec369c02a14affe5fb40eee36, 0x8ed2dcec016b8eedc067a6da7b562484c010234d84821780662acf9d281b348, 0x19a5ec3b7882ec910bf7590e9774b63ff37909995a6d695611d5532d6b81a5, 0x23feec5d6235a405f0d53fc16c955fa0214cbb54fe973948a1dd39263607c33d, 0x85438dd42c1d74fb0407e48ab1b44e0e42aa3f54b8d7d4f6efb87102c6a00e9, 0x1916f1d621aaaf4f9072bfc4e41b4b78e82b595d7510d507591414c005fd0327, 0xfc2435156d4ee76e9a85ac6aec2fbb50b0b77795c370c2183fca9bcbbd07693],
    [0x26cf4d12199003f6978f80761784de0919d3a14887a57d4a28b4ff3ad39bd969, 0x2c480375d8dbd4ac4f039f452fe1a9f074c811d48dc2b214d3f5de827a1a2025, 0x219b5f8126784340f278b77b765dc4c697937b3d81ba2691f8979839f02cc0eb, 0x14adc2f2733f55d49fb628c3ba41110e16946214996d1f93262b9347cfe69a21, 0x230a5fe366e0aa4dfae1dc35e0206959781a64f22d5c684e53ffaa6614b1df31, 0x1279f8d2e2d43a9eb3b7e4149d16451b78c65118b5a80f86678f5ee6fdcacbde, 0x2be4cb4144aa4b8e705c37da42b8819f0165ef3476fbc327a3a3deb0a0e8d751, 0x283b18f7a149cf2f2c8cc446513b5a03a06022cd859f16da1149e7dc7c60a45a, 0x2d5baf88887aebe22d5d9096dd6c45e941f6a67369af01c75479e707803378ac, 0x1cd9a6ffdd0daf7ca9890868d9ab398e0546335bf29623aded76e4f7afa5ad55, 0x160767c1cb457de2acb400781d8cdd25b99f75af301e749cc46049c8db5563f7, 0x1bbbb19bf384f9812aa63685729e0dfe06f3454c12139454707c1789c39fca6f, 0xad3beb75c91ceb0b2bb8aba2a1c73c95e7de57b8d5a7984e9f4d010f15a1755, 0x1841eb6cc35a1dd64feba1d8ad6cfecd65063e1e6c2cad4fd5bff1b4614e0b06, 0x2356eedec4882d9032ce821d611b98779bd344e2abe0a57de4de06b72be6b447, 0x10fede6245a9c78b391e69db91108306bee130faf298432d60a4944ee6ed6479, 0x2b4f28161c7a843692b07410223d8b5db762ff16ac0cded416c3594de6a53443]]
  cP := [0x1f0846b1b26aa3db14ac0d69972c9118051183ed1d1633876b44c92f022e011b, 0x28ff7a7752e51734e1f568c6aa3dde3009c22ed210503d5dcd7dc25f7f6767da, 0x1a3acbdd739794d252150399c6a8b3d114d97d643d4ce83fe8f64f41d8c34e93, 0x290ba46b38179a447cc81d0031d18e9baa34da9a60ba7df3cb2c7654bef3f412, 0xb9876589637ee3628c3a08500d67363a1a01da7a1ac81f528c450e9b050c6ea, 0x35b7b33a1e17c6d1674cc229068e03d3d1767bc950d68a2e376f0c793a896df, 0x7e6b30a0d3c2526be65920e6b873de72db1d761f7935202fce088538741b347, 0xe5ed87393495c2a7f3b877578c6bc09653755179159351d8e67470abe9cc690, 0x2824873ab7526115957736a5cdae583bfcee10b9d418ef8e17795de3386f21f, 0x1db49ff47ea6ae80c26654ff5714e69cf3a1ff7b31b1fa7a3b9e64618305d582, 0x1be421809f80b11a626a0eeb927a39c2413e7205d25c89276bf5633565038941, 0x3b7c7629b535df5b487211f4e789b9a287abe7c453632ef7d42623c2d2c377e, 0x12a9f7f6e0c65acdf8c9fd354f7ec84d6e41638465e347f3063adc04e00e809e, 0x1df5905e387f8ec81128c20ffd995fad5402096e3cc6d2e229a23709b6859ac6, 0x2d39da8ade615636070e6734fd848368d58428aa3b2aed784d8429f2075d122f, 0x327c1d1f0dd35b08df840db2579623243c13d9c073b9d70984bcfc97c9beb7f, 0x18a10f3e452a08076aeb6b825004322a48a6fb0f51956f50250a41a49454b6c1, 0x1e94dfa0b21f7b3e6047d599b3ad491a693fe458add2a56c5ed16155fac59ea6, 0xfe2016941461beb0f0bed25bf31e8c9a36f21fd61cf70095d2da2bb93bf3b2f, 0xceb82937c84923d76bf855a1bbe412dd3e35d0378007404477883d885b425b4, 0x16985b2ee64b42bf9ba0673beb0e47580763c527f4792fe994c23e3046621a9a, 0x10e6ff96c5dad8a34d7af2e3c6ab2e1eb6ef57849233d2945fc0aabd404e5b6d, 0x192fdbc53b382b45aa3020d21665ddd656bc1cc332581cc71ec97c3ad71dc542, 0xd8431c14f1ff4640fbf6990506d930843bcdeb4deeef3380b5cf2161a3bd030, 0x604632b70d1c0dbc74ed29d69d11d37b90669882c2e3d6784b47a5aad03495f, 0xf2553c7fa5beb9cf2f6957b01ff7bb7d3ed61f9c2e6fa8a53264704f986c193, 0x1fdc2bb41ac0418d8351414dc360ab2dd324d1622807cf59db5ca6aacae5d58e, 0x18c42a157f39bfcada57e085c7cd33781cafc7b33d6505dda828972966a9c2ac, 0x2645748d1b13c825bb457aa7761b9ce5425c56137e213c8634c87ab29543ba1d, 0x2788af72cdb594ac08f41269497e1ae18d44232ed0f80a06bd9e72fd216e3972, 0x21ae229ea6529c4f9de897bb849ab6bb15bb92ee41f73d348c10ba8d64acbcff, 0x1abcfdf990784706f54792660668ad106d1a6936245785c3fd023a5344cc25ea, 0x29ccf1d934f2a647595d1be0900002b9b7a343c3e7d3ab9ac3d2ab8de01abf8c, 0x39c2ffda04fb850f5e70d97ca2d93fde05b651b310b1d27dc298b9fc888d9c0, 0x1f2ba53bf1c99665fd6f4e862ac08899a41da938198153e4c638bade14719a16, 0x2451b8e4232ce9c809e439b6eb5fd2bbad8f51e9bf0429a33bb0ee95b7890719, 0x171a629d2c40364327666e0c05ce3097b2be05ea5c75123fa78851ba178980e0, 0x8c9b34df311a18764044e24961a95d1b2dcac3c6df9bbe0480659611db8f137, 0xb22a3e321a38a3801404091d2b160fc133530e8b7a52d2422c9f1a8b252bc20, 0x797c435ebe5c845a743f87a7f0d267f33bfbafc9f1689c2796b392772e7d301, 0x1e7306b31a137fcdfb389fac64b5f1ddc6147bd1cc7f30f11d67870454165dee, 0x112f01c5aa8b6ae92e2c8ca7667f5d21a0b1e4a8ce00a2ccccdc459ade9b019, 0x219de6b42df30699c66921c11e899b888e9ed317b586abed36fb7692b1216b1b, 0x86a228ba57047dc5bbbb04bedef0d87c1a78cece6aaf9b698117b292705de04, 0x14e98432357efd4cc323da2a344142e74f2aa117cc1aa4b559ad83e541ebea49, 0x1e6b895858694eecad78b8b88d54217c879d8b86ad928190789a09147168fc96, 0x15e37faf1d08493df2b643576e177c9fc704fecf164b7327481d32313d55d161, 0x85d0f567ddacd3f8e5e00c4209cd9b296693dba11d00879629b522270e798ed, 0x1067df821f616fc9635104d5b2150f831ff04a1f2b1399db49673e80c5c86db1, 0x90332160427de3eb055f9b8748f7e2b88c11f415576e72e4e087416544557ba, 0x2dc94749388ebd876e0d44ba0105f8da36fce0d45831e4255092d5c7f8b84225, 0x118c857f29e5a253d50b4d24d2d0c29b82c68ac4ec31e88bc43c74a9487e795d, 0xaf67f0d07a2fe41c72a457c92e95458a77db9ad0a28768b62b6681adeb11579, 0x30104204ad0fae366f11620b2f12ee6bb7c141e2fec7e29d963e6fc94f8c828b, 0x1976ac8ab874f49ccd63235f4d81cf0032ce66d53b0d9a910da3b8d0524a5a60, 0x2c316de3167edeb721ab1270a0748ee7f77ed7a8a7c727559436f6fb9313bfa3, 0x9d2011c83a4c911f4535e741f79432b5f2a5b8e53561d179496ddb63cb759f0, 0x135bb87773cca2191cb5d22ed48e633d71149119bdee6569623af883ed734294, 0x2d47ce655296753999d0d8cabcf056f0047eaa166f5f8bc3cc5eb601ed2c5600, 0x12b3ae2f8d3633702674a4ea2e98ab5bb186da55cb7f5bad038be08a46f8f8fb, 0x1941673c79be83924a43b0159e5f0919c3b4bd334df567e23a109d5ad7093a96, 0xb524c1bf3c392285d49a42d8bdab4ca454514792e2abb5bb4f62c902c9b9190, 0x1515ed77226a3311eadf3fc8f035c016fd3705a08b8a9dfc2175fd7bf58eb8da, 0x64862973bd0b7b75f7b4624a84d680fab7da9b6741aa5d6edb76a9d0c40cbaf, 0x1a23361fedfc5e494b0b2d4eeb80c93f8835a73100bacb989be5226fcf0df55, 0x14752381dfb966594721cd9486750a4f1f8e337b06810938317563386d4e544, 0x4a09034e0f69e26581ce66e097f9b5be008d08be687b8122540f2e3262914ac, 0x10bb764a96bf402a53785cf2eb4af7b05e20d89ad0658aded12c1b581511538f]
  cL := [
    [0x1499cfd036b8ae372458561c19a59aa635054692818f9b3234707168298fa14, 0xa8b3b48ec68bc2fa9e34521099684e72258264b7796eaa9bc2130ca5f962fcd, 0x1a46e59c6c21c9d54b9b231fc1403379d01e16680bfe9622dcc01555be87487e, 0x9569a38ffb6c33d8ebcadc6029a3ba8ea8c8ade1a7874c3f017516c358cc698, 0x16a9c201d574004d0276db42e7ef31592cd49a56b9b768ca73c7c6d1ddd6a2ca, 0x19c05f9660f2cb6b113179e32656fe2b39c9307c0d1e9b3e680983e27bc941c7, 0x29f4b811dddc6725ee59fa5a28af545cb21f15cb7fa6f9885cb7d6a405a063a9, 0x1f99271ffe92b27fdf561572e5f6092fc06fb7faa9cbb2e07608067cdd529b10, 0xb9fdcfdc7dfb8724957f00327ddd9372f8fceadbbd41583b66726b252b6c089, 0x1936f5a41ce7135c9027047ec1d759bfd91ca70a62324400f15a31debf179ba0, 0xe5eafa60334d7cd71251663f5b91dfe10ec503a1b2fe5b3886ad9b10662abb0, 0x18065d065c304f7953231240f544ac51d897f58777c69bb9d1f8a486a10c177a, 0x2678766be9d2c5251479999760ea8d6fe4a1525095e312fae3ccbaf689e7e809, 0x23750f77af3988a0600ff868b61b9e5e3d00de0f8759612d4af260cf4b113ce2, 0x7318b129e4789d21bec7920ba354193fdd6fc628eec1513638528431272925b, 0x2a7bad1eb2e6418a954869513a7a531c58f0985c64aa07db26f8f7949fb0861d, 0x1bab89c7aeb8f0f1c55bf1aebffd937a520cf6330add93cc33846077c83a987a],
    [0x1552d5985864ef2844ae3d20a40a368a4e032a4ca49d8ff6546c450cb1e079a7, 0x4b91151b3b35f11f5996365de43d43fe5476e5bafa6f711dc30face2623d320, 0x7568334c7a0595b5ac2105b2b5f738a5df0931aba8576b970722d4e45c912dc, 0xb162e458aeee52ea49ad59cd7b5fd2dfda24fbd9de8cfa1cdf06016e9d171c0, 0x2cef3248eb4dae55793e1bcfa553c9315f6b78c356251508e79af7cfd8ad95d3, 0x15e7245ad978573a5e2b912527de7964cd4add05fac3654847cc0b6edecfb9af, 0x27c471daf0598daf80d02e06c8171f94dd4b689aa0bee6a68e57b388ddc52155, 0x13cfdde932c2d8f94bdceae7ad7a0ba5d545f2ac20a04f7e9397d67b942b09a0, 0x19f9a64fb9d109936e840d1cbe108c9c36eb46d237cdc8462ea8267faee7e8b7, 0x14169ccdf08725826332bbd522d72ef94b5dc96d07a18359b0cf770331224d67, 0x2e8744177cd2849b77040421907fc4a9c356c4cd02ccf32dd8f05386ff3122e2, 0x1507d5deb9bf6bfa10e2b432b56daac4ca62d302fd8e37a021ecf111eb42018a, 0x26d7097b3269c5d618a95bafb9b128a872c5c85d770515b2815b581e94c8b9fe, 0x1c7ab275f1c221bc248d8498dbb05c47f41b97fbdb637bfe155cf1e75849d476, 0x2673077405cc8bc1e0d88920eae1a797d7a40f9999385be0da776c0326b9206, 0x23fe81be9b9219be0e6312f29022c7d0cec98da3c51c959852d951d6f1cb638b, 0x10ba3c183fb3890c360fa562760adb456b01949ef7151ed8ab8103f31c7890a2],
    [0x2d5259daac231ce0e74872c4065e14db8b32679927872701bae243f6842c34, 0x1a637c2706a996ff57c037f4f5ee37501fb3e7de4d067c4c0f5ccf30f9d82a05, 0x2e6067c558d96831add6dce3f7668546f96cd84c4e227cbce700964431ecefa0, 0x1a0c5d35fc732851917ce3bd13a7f28f75898537f6ff8eef1a1ff41b4b7ae935, 0x2edc867095cf941cb1ff7887926a4c8c44ceb1927172e39b362d2f7461bb1b84, 0x2f2062a65c3fe731e2aea024198e417627f38d6cd91e0a4874a856122a9d965b, 0x261a9965be69de3ffd74235c3a239e3e374cfe12090f6929e7c4442bfb8b61a0, 0xe51a7f2109df256ff814fc310a3b08efd5bc160698af9ae219c26603e84b586, 0x201537485c818bea2b1bc635035c7f92ac4be93b1a732a259e5081c6b10822ff, 0xb1dc66c364df6ca43e96ce916012cfc49115a6635e8a76a13c56f966991ef4e, 0x1b70f07090ddb1c480c10557d2f818c2355a0d0112f0448f457196db0ef585e4, 0x1941694438a139d8dde10865876403207f657a2883117cd3a8cc2e7c5d24f32, 0xcf031701838c4ceaa490cd36e710d3619ce54048ea826cf23a2c456f245e6ff, 0x132d7fac73535b2c795ddaaa3a69281704e85097d78ac6e8b1e9e8a7721863f7, 0x4aeffca0f9922fd0379b69a7fb710b49dcd05026a3f2576a48a6e04f91b630f, 0x25f5b5001f87bf2581938f3ede0c2a7a35141c7abc3e5bb7bb8601a22a3cf43c, 0xe7119275a25b2b8a4a6aca534650e84ec72b490a41384d44975ed8c80a2a28a]]
  m := [
    [0x196b76cefdcc7f6a54c71d40114a0bb82694c936f1573ac7ac1ea3fcce1fe938, 0x130fc54477fd953377fc23abbd7a41be6764892a8787c759c1440fe0133c852d, 0x2c9c91f48661771baeef6774578a78f69c355c8e907156fdf26db39d2446413f, 0x1dec0bafa3e8190621e5e095ef751ea03c836dbb8045b2a73f8d397cfb815192, 0xa5f52ad6ec4a8aa377d8dd2ae3aaf6eea0c68c63a1d034fbda67133ca0b85cb, 0x20ab7394bfdab344cbb6f2123800a0e23508e2125bfe795ab4a767cecb4d9306, 0x110ea322b0c26476c67bfa2c1b9d1713f93b3b9cf8320ce0dcd4b64288bda07a, 0x54eabe6131681fa01fbc6dbf3e7d53595d0f8809987182142b890ac8af89cbe, 0x224d811fbdef8ec0a006d376a019e57c93bd596213a07823b7d4abce1fd8e621, 0xe691fca423128a7d4afcaa582b1a94799ba1f5d2a5d53bc2bba56bbecb227a1, 0x189e279c92de0bab66707e6e6e310524e615cd4c6aacc665372a3b8e372d8ce6, 0x1d9bcbbd17b93b1913d2f79cdf12844441237206f0294746d93f8e5bdceb4725, 0x1179184635a9780ee1312dcc3d15c7ef042b18ae9409670e28c4c7f0fb9b608e, 0xe48466182ae8333af1891a6aa19736741ed0680d57c931ede13fc07ae82e88b, 0x1c9d56f71c2f22c44d3a8c17bf5b40452e05471f0b6dfe9ffe4725eb29f73464, 0x2234546f5e8541e8f72ad794891950b32b1cd891cc66775c5b635961642e9c15, 0x14c09d155c5d428198c234b553da338f227cbc12b0e42f2b9ce71563ee1495c0],
    [0x1440dc2578f44694d18c25f892d98c23cfdb87a772200020e897823d4bc84d3b, 0x65e134cb8d84447d6ea1e17932bd4a341ebef2568313c24594faf9d7eca2110, 0x2c6b133e80abef84904fa4a75f968fbaabef890286d5fd11b87a1e52b7eb6d0d, 0x27c72332f59a00135baa94bde294911d135d1d95f53c52eb8b3b95594374906d, 0x87488f735b1fe2fa3c6c7148c4968e7f3479b1418a1a566743c1ca215dcfcfc, 0x19f0e2e141896eae6d56d182b687b8a6c64cbb59e031b749f35822fc7ee353fe, 0x299c47f1e3ecc557ab1c9abe36f0d2ba0ece01051e07f0858e97a9ce16f5664e, 0x1a4befe11c0230c62de44ffafea0de903ba328c6d67af73680312b68f9acffda, 0x140762d30c5c3a0b0750b1400a86a9e2f5cfc2531b729370f3ad9fe1dcd43f96, 0x180aa4babfa7539753d9c222e5e3359aca59e06bbefc7cf3a3ffa4f961fa1d5b, 0x17208ea9cd4dc1a6deebe6a8d27a3181ab5f86c6a706e6fd007fc1eb678e9de6, 0x20007a0f5d37798789e0a8ef683536d9cf4831a6566eb727b41191d9f2974710, 0x229da441a302929b0bae93741b7c75e11337c797e5721f9d7ee59235cda9a40c, 0x1137b5c61b9684bec41e4dfaa76438256622a4378ea4e646a2844bbc85bf81cc, 0x113003c1dc7baf35e4536f95f4eab2f3badda2c7a1c6b5afc956234ade3e7129, 0x1b61468fab59c925f1986186bcb97965a858523a2582d434319a9525ae71158f, 0x117fd528770fb17f718e29a2d91a63ec7c39ef1dd3039f0943f717d1804253d5],
    [0x23aeeb0c6499b84bfc32ae3c42df9728798fd2ef774f1518b870bc57d1385900, 0xe76c40392bd5f458bc187be54099312a0fefff44b441637020eb92670a6fcf3, 0x2ce8546cb59f420ede61692e764e0e9f6715b16a2c8047cd8131c97646f50d24, 0x16e64661144d816885b32f3f7809703477788268d57c14b1d939a26b29cb7ef3, 0x6cf0db92f86b2732ee5fb881ef0176012dc4adfd849b9be4de17846a6ce5d99, 0x18f754a95b0af0e4706ff9024bb135164abd6fc16ee40cc2d6852d88a2ffc9f7, 0x1cc053a6a4d6f96da77e5e73adb9d49bc4d0ef2cc2f69fade48040b7f8d71386, 0x1e40665f5bb8c5c0dc9c11f39d47e9d33e717afa31ba74f92f8737a55efe134, 0x976d7c3844bc8deea0f0337f89b2a131302ffd2d0a870181ca5fd5fb6d4fb63, 0x2c54287eee368d5d52dfb068282d68e6b09b76bd1b5c9333b36848ac277744f5, 0x228a3488cabbf9f29efc0bce211a09031972b37f25ea35aca840dc2331a0cf35, 0x16bae49f5ebb1ffe886b634d215de61ebf4f44d1cdc4f84670df8ed69310bfe2, 0x2e269dc78f70f9103b2bced3edbd41e156e64910887b4dddf8a3eee960f601b7, 0x1f4b85552b960d1c18b7b8f66af7305a6773d9b05faf51e0ed1a5f2ef2f95e7d, 0xd5fb9b0e1503f2b92697c473b69cf76d38fc12912e2c3cb33996dbb0cdfaa38, 0x11291ef514a10d6f0651e4ad0da5d4a489e3018927879da942defdbdf701ddd, 0x120e7416d74308e24047f6828c68ae28bc288b216e8a25e8b0ebcf738480e390],
    [0x1ed9d3e9276acb7b4dae53eba148806fd9bb07b2dd06187212fab7dcbe63d72c, 0xb981765ecae69dd7af3b10ffa424b8aeb206cc4f49257265c6753b1cc54ebcf, 0xadaeaf28776b813d518f645c793e57bf16067fd80eb921dd5a67e895646c9c4, 0x2018db386a3e4e57eada8d91408b155061df050140fb22f9a4f34fb4e2d02428, 0x67c4411745db6c6aa659ec737a586a8f4a1cde0352e30aa0063794865fc1c04, 0x193fe0e9b48010fa319c33b86b6b18f428f323fa237ca918a38faaa91ba49567, 0x9558ecc58bee4f3c578f62489dd900840a9889096c0a62114aa2db045a1d033, 0x23c4abfeb83192362aae21b2e9ee5cfc765bf1000f798c3ae70133556abc78bd, 0x152604201ca7df05994e9d5f058f3b6749cea63aa0cb5b4e1c3a00b6667958e, 0x2f65361a4aed320fcd03a45c44dda740213571f3975ce20b96bffd960cbc6e25, 0x22122c6313fc9a4c6d0f944d3ce238272bf35147b1b788aab2b8dbceb6024c76, 0x229aa5b547a63780d8d129e209fdb92f85662616d59da908075e668fd817822d, 0x21a91fed8bed14914c4fd491b6fa4dcbae7b3b8b3d456303af886c328abf4699, 0xba8a54914886fae16700c02efdf7767413a0bec5a19ed0cf0a7d8ac60c1f1c3, 0x2e164a524ee22eb5a8903fae1f35a3a78f882f3e3a9892b6ff4753baac934949, 0x2df2fb2c2e321e3cce13d16091705a40c5c795f8b41b61dfd6ae7d97d63578b4, 0x6995e510fd7669374c39d27903f342ac5bf8a1464807f308bef610b76cb693e],
    [0x2ff57f3f7e95b03411db790a86647467581197124d217520ef2e6332a5b35185, 0xe4fb044a9fcb4087e351341f25d98b1399b576e2d6654534f348219a0acdf86, 0x2086a01b816438a2a41c59e43d73fa9aacf0c24e4f6bac229d65fba59922554a, 0x12263b7e3f3de60899a2c22fee919972cd79dc289a87f31f1b44baf2439dc87c, 0x19909241cac50288c0d12343e0c12cf9b9790b405ef0a9001aa6be0289063aa9, 0x11ff091dd551b6d586203ee0cafae2f7652e923aba82574a53b632a066f4884, 0x93d7d5563e3ccd0b5f15a9b093fe6b863aacccf9af11ffea9b295b7dd42b1f6, 0x1669e44bf0223a77f48fffbc9f4f20b5814f6185ae11a210f8fdfcb5f71d603d, 0x1ab6d8fe39f87bb0ee5b883eea2725caa52c575740d5ac30b058f77113d05239, 0x235bf178b5b56262d988bfc62708b0f85d57385cde2b4dacf9e6d592deb2afe4, 0x6649a13e65023a713aaee5387d388e3609ae9b14ba4da10642ee0b7b4a16634, 0x29a5b1e4e2f25445496adec230ed53a35993b37630aecb5d76e56608d1b78cc6, 0x29f07c1effc65b5589e1ca52cbe00bd65ef5e962d01200302670b6dce79eeb00, 0x30289c9678c0330f85cf8e362683a6144f22b841aa08f586f219dd9edaef78bc, 0x1f9dcbde7d058134a510a711d036d1f1800e473a63b33a7e0fb04dc2e09e3af, 0x1baaf8ff96bb2224bc34cf80c38bf13086f1e429bceec12090d8a7c376a9a82, 0x1d814b3c17656c2327f94cc02472780b886b88394f1a5cbe34dc4f44ff134fce],
    [0x15faefbf8584a38969b4a719ffe5f02c2191a8cceda0b775162203d30b80208b, 0x303e39ca88e8da6e5c963564712df8a7f8501a7af4a990e4ccec19e5f8fc805d, 0x2348580de49aac01ce8fcb5aa2b467f6787dd8a96ccecd6fb47df7d5a4307398, 0x10e420edcb6da76170b24d777ce9d31612edb1593ea6d30e8cfdacfb6974f991, 0x1d25b94bb7c49c0170ee1fb2a5824b70e4554bcc54b6c8f8cc0cc9d74f19a5e, 0x1da3e00601ca3fc0d90b197bd2a474b46efe3aff3b2cfaf1ebe15fa1afadf2db, 0x45dc0579ca66e7e096d4dd86b882e68af2d35d70cf5e3b1783caaa0ec424253, 0x2d5b3f523a9668cbe4887881bf7b40184f978713e358de270d87a600e5c5c92f, 0x1b62ba8037a83f1261544c307f019dbea1cc6a84d481ea8960b0fc670745e8ae, 0x1794ec2b0eeb22fbd753b21fcd949e7bedb305f15a59eaf74a961c3046635f85, 0x1ed4c95c6283b45ec0cd88f511976f063ea2beb0695b8af7cc10589593a7978c, 0xbfce7b120068b9a30029dbdb36be01d071e8163fa1724f13c6ca89be29b729e, 0x506a7a5de6b56ebec5e708a70a3cecb3a2cfd25e7a20ed495e295a93023c5a8, 0x4890048fcdbde6366761cd58fcc6ac0a3360d9a64233d3ea4d8d6be8a23ec45, 0x285b20799970b58c63ac9f4af564ce0f28209b61802214da5bfafd0cf24c6712, 0x7b0d70ccff1b70dad9bb4b0142e3f6dc5bc95d3766affad378cc5042484dec9, 0x3b90da34b198cbca17e34aac98b169875ecf73aeb5c6ff1f00c9fe535aa9902],
    [0x1e6eaab1191593de0d89cbb2399ab8aa955d829ad959428cd539be30b72fde9c, 0x1b77995dbf30cc55f9d4cd4849ced949349da81239a015440fdb38b876abee5, 0x1fb6bd6df650d27e8cac05ac0b45eef0700e308b29b4bd41eecff58027edc45c, 0xebcb358f95f84b719c631d4045cef03ac6fc238f6834522cebd02e47411bb6f, 0x3274e735db2faf186787528254272ee01967e6ae9d825141378b8354d843965, 0x4ef41945559c1fb0b2116cb2be1f043bfce8dbc96feecccda47cbf68be59b5, 0xda02f6410e24058a1e90412cd5302c57197f7b1af2a99496f9cff3ffd58808f, 0x10c1856f282f556d7cf6d4a293621506724ba6d3c582e4c261842f2a4bdb0ec6, 0x239abc7c9f866aec28685c26f4e046a92d4360d36cb50890f422e18ed6f8a7b2, 0x83e1cd5943461ab505b200311bde4003fb4f7ed16aa58c8bc28f2e08e9f6922, 0x15fe62a69b0438294395da1bfc93272d88797ceeef666ba2443f0c146f8ab7ee, 0x20055568b33367bc12bf4aed7a0909c173588a5763c6a1a7598ba7c6c7e3c2a5, 0xc02b148f4a1559b597cd320f00c02b96a7fc7c83811bd86a1e79cc3106b2201, 0x1a4162e8a7704447be0c1d4d5cf2f777670f4841ea27ac2709cd6bffeed2cebd, 0xce3dd727fdd11a8bc731500effa23763089ce3332cb730f9fe57146ee204810, 0x11f28ee5da80d19e31581b566a439537466d9ca7fdf14b7086830bd8ac13c4cb, 0x27fa77a0658791e6755781c367683f9c9333a41364f7870edff1935a347485d8],
    [0x2a3bb020c8a50d310ef5b5c77cc408b077fe2481454754c4568ff668fe5f0974, 0x23643add30be204734d029cf034c958144551060c1901c420a28c9688ec36a80, 0x3e9718237c1700d7dd213e026f307e8000b3851467fed9e6f51fa5020c2369c, 0xc48e2f304f730d48e83dae5c78a46188500bc8040a49542eea5ef1a21b9d222, 0xcac320362e235b458d6d364cd0fff914f3c056adbb038dc2a861a49f7f70e24, 0x2f053fdf1a72d6ad8c9df97a04d637916f25e3425b6dc33e99ca7cac5cc7e4c7, 0x2dfb6dd598ada57ea71a8d68e6924608f0ec7838808688ee4b3fcd521f7be6d2, 0x22cc4349f6baa3a8e0b61fc40ab97210e4bd3b3dec7f05bb8ef839c84692afbc, 0x2fed5a03200417664537df8fa30276b85d91bd2ed21de33d901fb4d82439857, 0x22a67a88776982d6a15f577dcf780ac485ebaae6fdf6fbe50b95ea266a7b6059, 0x2b079a1d09b9d4a76d4e50c45c01fb7508b1c443a8fb21ebd28533e05def8864, 0x2df1ff86644fcc42a1932cf15d314eed407608246f14a8098725ff7be809c87e, 0x24a466f74e99a602894f421010f43a81c708b1b4ad076425190b85347f685b1a, 0x2e944b449c1369ce9766fa6f4f99a87630b5c1f2d63677a437a537d61b6c7470, 0x1079746ca51d9518a0c309296ca48206292798910494277be2bb65a6b134b3a, 0x13d7b03e8fc9fa647fca6cdca97146901df7c675a164913c2bd2a3b6ee3cb4, 0x6d6ee531ba3fdced05e24cf9103d0962dd227f1de692c0199483e92ab24ba59],
    [0x51f815c454b6015c7ebf90c297b90e9604cd36acc6af07f99b5e51fdeb32234, 0x1946a26ab8953f9be558105fa5179f175e76a24429dad5d532c2ceb3cfea05c9, 0x925af35a3366801ac80a31d63f745fa807bda10560345ad572bef4cf2ce0d6, 0xe766f03afbb7af630eaa8aff4fe60f3810f30f3f4438498efe0186333dadc0, 0x1111ed7a66ba2ccd4bea0d43eec86ea35ab40253a1209e3637f103dcb84fc429, 0x1daf74842c7e79104349ad399592c5c4cce16f79e1a86f50d941598772cca953, 0x1057062b40bdcf1fe2aaef45898c871146799a92c87d0fce64302d6bc83172df, 0x12d019e37cd1bd76fee065bb7380a9bd8331a4dbcd1c9c776792bc19045c23b6, 0x996cae74d9627ca3c56c646095f39730274d25e82c42ce21cf789253d48a3f0, 0x2d1188d9e7e6ac24c4b2c9dc3dfcfb0fe4782d689f31b94b1fb15ef29d11f19e, 0xc34496a7db5abb330b2f6ce9adaef5ae6e308c8fc2c5634097ae352aa7457d4, 0x1d4fb0f18f31c8270b4636e6b5d7a33e455b1050de1164182cfcb739cce965da, 0x1fee18888425724970bd2897b54c7fa8e9c367dddbc8484da37864faff9f9056, 0x22d6e787f44daa6b6593dfde5576d2fdf5dc0447e65a1d5e7712e4e62c3bdcee, 0x23a85d4f91eda69f310c451d7d480c2f40c0d53382ddd3fcaaae627b9617170e, 0x2440e786179a7fbcfe8d29ab18d0fc6cfa383cfb747f7a2d15b77d82d9b0d9d3, 0x1e507921be7c76124879ffce5b62dd0e96259e98cc64c27208d62b40bfe3e482],
    [0x28b75c2ac167fdf184725317c7bbb8083e5ac5bba937bcfa6cefcb69e4048bf0, 0x248b533f875e5ee8e751cefa4b1d0732fcd30151c3a5cc4abbbb1e93b4655d45, 0xf8692d64a5b69a956c4e2006bfec344477fdf5f0c9aab866609842b9d75269d, 0x1b8a7909d7e7bd4f0bcc8003968e384ac2e8b405ad05cf610364d3ecb982db7e, 0x13e736cc70b7c828a38dd6394ece76b9ccdae2ca4f43963432502fe8c2ad19ff, 0x2ae8da8d0b129a22f834d0d234c8917c2f877ff00dc16215498d4b748fb40df1, 0x26e6d18aea75a94861a02333b5364ceceaa78adfbb742817218ca3af607b910e, 0x27aa38fa051c434189df57bafd80723ee29bdccd59fbc1aa9af11891d3722e61, 0x304dbc0936862356e0024b2a32dfa3085abedbd337f22b89062be614d83cb083, 0x265c43c886f07d025200d56cd246b01670b3e82ab482f5879b10608cc05a37fc, 0x4ffe27a92cb4300e774388edc3147ab9dcc4ab354c380f51ca7a2e7fe0463c4, 0x19d6f1d110d9f873db002ff2ed828905bd6cc5d7921c238d7569daa9b2401d32, 0x19711c41d76f64a371aba62f3f46710dee0c3aad217b7cb00bd12613b24ef52b, 0xe08ddb69d5efd949c3d671e4e78e4fc7628c65ec1cfbc18ba6a101aa19dbf66, 0x240657d67f92b5e4261ace434fd286206c315565378ce8b81661523f0e6ddc54, 0x56149221712b88ec291fc218324142d02873cdd53199679fce4dfcb5dda9116, 0x681adaea79cf457db5701931f0ee2f15ecbb159ed50cf746a15b85c6f8a5370],
    [0x23af324599683d9b71b61d093d63dcbbd97e44957333d2697fdd060c1e4b585, 0x2e7a1c51da61dd214a1789d6f1ee2957f69d21b1f16d1f9458eb25a406500bd3, 0x2bdfe7eb4fa803bc1dc0052a46d850ee3e091eba8a7f12579682f6f6fd5044d4, 0x1d92e4213d840a330ecbdb08693dbf9a971bbd6229047eb88a03f334cadef227, 0x1f2805084976b142f7c74a416ff439ff1bcd8b8e7b0570130040754a61b71912, 0x99b0a6330926a4a1564dfe94f9a1104bb8374bb518a89de08c591c17dfaa059, 0x565b96659025935d9c025c7ab20b1611db00b67ecc51426b342f8c7a17fed83, 0xf0b9336db5c16d472fda3fb9ac13b13394c09ab9f484ecf6ad2060217b5896a, 0x2a7de8f5ff476d81d393f1d274636ca956f05bd422bc9f3cc0fac0054b58cb02, 0xf26d05e938f8317bd608eff0895d352dca712b653b1492f8c2ea96b26f9381e, 0x28b73b335c72f0774871a2030d444e5fb954979c1c568e112fb911a46c666768, 0x282a01e8f2ce09cbdd862f98fdaba3f9af02443edc962cb34802d04477de1e20, 0x2770d14a220152fa7083040be9b3cd38c8ace9e207073486bcfafcad706748b1, 0x27a573036509a8a29a90eaa34d2adaed5ed1ec6b207274f3c5ca23dad3880e57, 0x2384a384bcc2c4a17ff7c9e3e7d131d39173c431333a9c7c1d6fd7110e25902b, 0x162c5bbc81b44427be4e82c5e5253bd66c3054f5c5b73b28b29238487849a794, 0x1e6196147508bf2edc872c4e897a967778b119f69fb431a7f646d2018eab4010],
    [0x5a07868a7c95f50a015879fe7cdf1eb6c317e4d489d4515208ddf40a32329ea, 0x2065e374edb1f3cbbd2919dc04d14adb07062dd01ec1501b85522e7e0faf925e, 0x13bdacc137bbcf51d8bc9d281931d6e71122dc6e93e7ffe8b835e3393775c3d4, 0xd3b3fb86a44b7422429a249884c85644af1975641206e610070c02ef5a9f4cd, 0x27aa50a0e5d5588c1486e8e7fc8dda65489fffb866756c218f87e7280cddfa64, 0xb9aebf041146c119199757ea8ceee5abcea9ec42cdb28b921caf21e84847851, 0x2776bde52a1259472c1cc020e719f82191dec3ab7699b7d0fd769dd3fe392997, 0x275a6f59623354d71d38b4e200ce2e9676aab74ea8b8366fce33bdbc47d0586d, 0x12c6f6c83a3530faced60c88f19a82fd12b7d938a79864ed20a545a52fdce11d, 0x257689a4e22f6a8768aafe54218d31de4e409fdbf42319582536bb583313a395, 0x195821b99af2c217404ee582e29889072ba3cd994b74955c261b5ad364e5a9c7, 0x304b679008e8a1f09448423a05889e0df663a2b65055ca9ee5a99dfe13fb9a16, 0x8dffe684aa33f911d35e9a644b4bdbfcd15a4da49b6531816b60e8ce4f6b5e0, 0x72372083f62195bcc2b5afab1038198a3f0546b62d171ea21c37c8f31551176, 0x25547b51b2c6874e4538ca9b34093b714ad36a8f356e4c78e0d66b1f190038fb, 0x178f2aa8df9a11ef33558dcc934971f7697e626cfef00ffcdeb6f3c9c1a7d10a, 0x68efa35bc620124ab7d88990171bae4102ad21dfddfb387df0de0c8a3a189e9],
    [0x2c5b4a65bc55ac5fbeebde53ce5fa68882faed2a92a7b3f5732832c72f7f2c30, 0x2f36535a83a09cf09fc38a20a725477aec56668f034a364a9f4a5605fffd33cc, 0x7d78ce0c1c87391a06a06c83d300d52524b29f183884e300e0eaddacd05f068, 0x25c7e8faf6c48a156cb91d81a997c6673d32694a3fdd64f5e9594e9f504bad83, 0x1f3cc6f65d9d34370825a38fd1f48f509f7c56171b9e7a624d9b0ecdf6ac4eab, 0x55ef271e388278b1aca34d3cb00116bd6f7cb584b3c69f0de2a7afc8d98deb8, 0xc1a324c49d15f87931821989b8c8437ea9eb46ed3aacf8895fd1cc311053e60, 0x2ebb6730d7bafeac23fc0b457ea824eeea3c55eca634bf24b2ac2a9a21483e1, 0x201e03f1ff672629473a24f32d2d502acdc8fdd2883014de74c98f40a195b3e4, 0x1edc57f174e1322b627c6f9dbe27ae2703c3f11c364b38188bf41d8ca0c1709a, 0x20a56fce37122b7400ab61a65eac815dd180f52fad2835f7fd9649063523881e, 0x1998147edaf3a92ab179c61ac2c36af5caf3e78bcbfb684cfea15db17b835907, 0x1cbfab7cb05e2f28254b230bfce017f005fb4f2dd8935ad11765b347d2003667, 0x151e0bc2110e4300dd82a4c92442c4751c65b294426c8c320c69e61831958ceb, 0xe59e1a990ec00f72edc37248349d7a5a6f7bcaef158110450f1e5985f0a5d99, 0x24afd92f80e57788f40fbb2b79f29454dc485fbafb5a7263f462b7c84b4e500b, 0x1b012224a4f050df841122d17c5ea4eded7c8ec2034743a432a2cee893976f29],
    [0x173f895e472c4eb16a2aff3b8e0417fb32b83eb1e3233471c76a0550505d0607, 0x1123d3c97ff8e6b589d118bc40ca0b9ac12ae909558f2582551f7a42345b4621, 0x984c132b29a05f2b506ca07c06fe9a6584f36bb87506d2d316a4f353cac5f1f, 0x2d7af834c9cdf1b38c8cfed218f1ef0ce0b9908de9e7aa7a5510c4fb917a0281, 0x1b11713791ea4cb2e17c8c5867502043d0a8cf955384c1c793c506b75fc0db29, 0x26fbf1a351963fbbdab590dbd760ce6284273525a1b46c41f29226c65339f4b3, 0x27e68568e9cffd07f9253ef9dbc356251dc6b2d6a903d6c7046b5e90e1bcdc9a, 0xff215eb1e38dc67432e262df27eda7c3aa9419d5b6e299bd948e970fc35a62f, 0x118c3efe920c9c3f907c867743d35d2ccbff7c89e9c31bb6a17c552ef92b6c01, 0x17b39f38636d5eff5e06eff089eb56051a602bc8f4bf1bb0ad2b2cd10cf07138, 0x235132912db2da07a4750c5ed5df2590e718404aefc48be6953432f64424042e, 0x28a4572cb654261cf9358435923e65aff8f40393752748b76acfd2e3f5755c9, 0x21d7269a53d3712b20543b0039aecc9466520133d299e8442000b33184a39e84, 0x13f1acc389c4f8e752cc7e4b81c37ae2130c60df9c8b7e87dc5fb7459caf4916, 0x66c6090936f6b054f17dea91682954332b3e32d8f20a0ae171d417316d3622f, 0x492ae5f5ac2a5102ea96e60ac8375553687151ae44042dbf5899232c8f2100a, 0x208d814151bcdcddfcf835a958c259a6477bfe4b3392710edf9d80787a25c5d0],
    [0x206cb038cc328526d0c3dc5af19437d83219751c5ee8f61b0e9e2f5881366be3, 0x160b30c874d9c06704c92c266c7a5b7fd966a62a5db008f1bffdf443b1099a82, 0x1b00faa85136b1bfc496e0ea9a6284cae525aa96612ffeeb514808955693879e, 0x175af5e50e5685ec2dbb1cf7a2cd25d45680f6cddf68d7c0795dec98b87f6a71, 0x104560e95c49febb7a030862edb3a33c2b2a3d414b0536b2e54e25ab36e8f281, 0x12fd67863b2e03b6fb45224fb041ff280e936742b54c8e54d3823e090e144169, 0x1db0e7e01722aad210e5296c36e9103e82d15765c318134d177146a1d9fd5358, 0x247f9c7fa610322535feb0676cff549f1c177d0d39d3f1eee642e9253aafb82d, 0xf705feba5f01cb27b27c104bc93f0c974f561fa26d5614f6a9d9e47d03bc655, 0x306094ecfe63300b2f95bc98a0406c7898d86852330a7b69f9b04b5404b3eef3, 0x1059db5e97f25826b0bbefd6bfaa6e9496c55ef5a88fefe9712691f6fbdf4298, 0x15bd998c2729dbeaccc29b5d6e4f0fd96ad0a6037c84a1a1a785169fb336fb6e, 0x21fde580a19886b13358f18a32d5aff685b4bd77d94f067f44f6e7a93350fd2a, 0x6823a9baa55623732b02fa270b2f887fd3804a85c1a7f2a355df3fbefc69dc1, 0x1b25662843b0986ab1a4e9a766193efca47c70d49364f03d50c5edb5b5517ebe, 0x10dcb11f815c7e29c66be1dd3c5f7602c98e9fb1687c2d825b48789c521fbd0b, 0x28f901fcaa860b0dc4192adef8ea4ae55af6ce432c85e0ce4d073e514ab24252],
    [0x240c57897161666f28d000b88d3353921d967420f401ce86bbee42be287a4f8, 0x1361d27c42a7b4bd6eaeb98a339592616c0d4d8fceadfdb16468162bdfa88d46, 0x19e1e46536704ceceac3eab991bd806e347be40a0b7956dcd7037352fdbc4347, 0x121f4a18d7b7d9650aab625ebe8695a8079439f2ab00c090279de74726234e6e, 0x8c45f3c4c486f6b5378c779c607b517200bb70b5533bdacef18519f625b925b, 0x600cf26635b2d546431507589739010d1b757ceaae617bf95b8e1efa98643d, 0xaef8a4e47d5ec760e0565ae7acdabe7e8e98972de86dd2f447aaf216ab4cc17, 0x2ad0bd9f71e2785084aa0b84616b7dada053207c418e65f4035be66a0cdc8c12, 0x28d327a1c2d6012d9e69e9a3b4c11ad336d3c0dcdff4c5c84ddddf911eb645f5, 0x11afecc85590543bd2df8ab952be164670a3f32593e962d4bd493bcd3c84f84d, 0xb050c882073a581e767223705cd9510c04c30168c50ffe0c9875a28b6938299, 0x7cdf3309e130f9ceddd688af3885369fbacf6d8a44de4d450667c0d7641213f, 0x5232bf95807e48ad82a1eb4bc481e9b0720e95196dfe361f55c4d1cfc7926d7, 0x1e41936e6bc0c3ed665c2e2466ab9216b9973fe136d9f9aad95878c1b5607c6e, 0x2647635477ee5fa9e7ac5983f92db34d7336646c63c63e2dd53d60b8714bd759, 0xa11d587cb75d48544eec662ad27ca6acfec98f7a8b7963a294e4bb329b170df, 0x1bd639879731823c871f9cd4714e3cc56a6eb19884b73664eed24b11929119a0],
    [0x1aaefc2e9925fcd453996fda804063fdab276b37c5f51dfdfef9255b4ec10cc0, 0xf1e8f86860c3b5c78bc14dfb67d22c6beb8992123658842f23f75ae3a92e99, 0x19c2540bbb1cd4e08f105437063c945cfef28ae9dd50b97e0b795f8dc5ae34e2, 0x21f08f9b3c23f3a02518114a96929b6d1056eb4d1db147ce0c8882e1b0f7bd1b, 0x2d2193c677bbcd56a74fc2ae50ab4f2cc69aa77ccfc33c7707452d5adac77edb, 0xf528f5912be49455d4323b259e30ce2984d8170601eeb4bd7096b47353ab7fc, 0x8c00c4e5b3467f01901f64f9f89c15bb0b90918d488b730cacc3296691e9200, 0xfc3ccef00d6a64080abbed4fed90b69c5e5803134c22b42cdca0a60f03ec33c, 0x1bce67f4dc99547f2caff1b5c6d63e3ee2565a404190664533c1c65dd9d8d532, 0x1a8ba4f37d2315389c8560d74dac572a4447a02145516287053e6b9edefbca2d, 0x115e60c4e2937eb53c6e4a5488f801266e84d07547a0b1cd91b18f49efef9920, 0x152d47acb9b06c9d12c2138a31416bbbbb991a65dc4d4f8ef91a3dd728e63b6a, 0x13602646b88ba31c0d544c757bd9181727835dbe690c30583a23f37f52fe5e3d, 0x65766d2980331a55c0a39d83be78bd127baee77d53a24268e064c71daaf2b6a, 0x26db2e85a9006ef5c11cd675a267d42efef9f5af90466b2aaf75eea8024b00bb, 0x1dd6b095cb68459dcf6bdadd434aa81f80a55a08e6782c653a93afd8a65f3267, 0x1d3ee85f078fbeecda2473efc2bedd1ba7ec6f4795faaeae3b0de48d3080c625]]
  p := [
    [0x196b76cefdcc7f6a54c71d40114a0bb82694c936f1573ac7ac1ea3fcce1fe938, 0x197fc9fb21309218eb702b935044146cd33407ed33291cc599340b271c399668, 0xe8ab972df74eec491e4b8c416b4a97c3fe65a38d4e76093ebed05ff3e7d750f, 0x17af7102238531c988dc665323d3e3348ca13eff7d006be181cfca573bd77e79, 0x1b0b5e35d65981e836663ab49379580a659e1dda0d8c49c189b8078bcfdd3f0d, 0x1aa303c6d0552d6fa013df27f7f4aa907d10da9cb9e0881ef2db7ec1a74abbf5, 0xf4eea81fe11aa323228b430a2f9021e2639d66596b3821e131cd8fd5fafa0a7, 0x1b47097a86346051d2d42d6810ee8f3fa3b992b90c009040095fe8357b6be24f, 0x77cdf97e2049e1764e7169aa4ec11ed314badde9e84218bcff380ffebe45382, 0xb4d6879a54ebc4b74422f70789c1b7a47694f6bc0f88624ad0141721a89f73b, 0x14ba91f29fb5987a1d3dcab55e35edd10de3acf4199d877b5c6623b5a6ef8d9b, 0x1fabc01bf1091b88001e832b7ecaee26e5eb867f85b8f1c083832b1db57537a0, 0xb4d4c2920ec03187d1ff531b4cc1b879c7321315d7aeac09b53bad9439ec93, 0x2191792ed6ddd6c3ea8ae009cfd1174fb9efc01482488c101502e34db953815f, 0x162b05a1204ae66ca80d0a89e10426ee4d757f9b34ccf08c1aac697c55245980, 0x251575500ce3526f4b190061361eb2576591f9ef2f0a7ff9a7005efc3c71263c, 0x4384592e42ace8c8014f728704ad93695e50a16c5199d5815e00ce818ed8081],
    [0x1440dc2578f44694d18c25f892d98c23cfdb87a772200020e897823d4bc84d3b, 0x2ff15351b14d1b852edfd01a8ef108ab001a10c8d66e887daf1817a315289259, 0x2fdcdec10d3354953fa9ca8769a3799d001626bb715f19a97e772f2ba1abc421, 0x146deec0773f075175a208469afb87199d1b063c994b98125db22e85844fb455, 0x20f00881fb533be89b9246780df72a26ecb103c554b9b6fb17844fddccb235f7, 0xb419e6fc9348d7c69dc15b49fa148232740635cf2e39904cb5bf7e4e1c85292, 0xc6321d9f04dfd91a4fc850ab7d1f7fa66de38d67faac26599ac62c80784319, 0x12784ae3aa761f38e035e7ee5f21242e28df65235da8599d80a93646dfdcbe9, 0x1e09ddd18fdc3c46c7b2aaf6cfd942c62720cd1630b63dca72b42b4a6409c5a2, 0x2a71a3a65e49942b825245aa127bac8dde2a6fca570c8365d3251b146dcd078c, 0x197d178b0f91d12bfaef18f402635554efba7da59bf45f6daaf3eeba444c3bc1, 0xcf6927b15b1b9df1656581cabd0909b7ee2f1dca0258e183b07b030b5db3320, 0x284151191b230312298ca0d1cc6fbf122b435f7e8de25d9d1927322b0b5a84f7, 0xcb8f5333099700c6d37c787c67bf7fa6ad5e35c32fc1a539a8df57b910257ca, 0x15d5a61db8e06697df1da0f06916eb32d90e86ddc53d177abbc7ccc86f14188, 0x2a9b60e4ae169f3d5fcb4bdd705d89e0a9361e239bc3417c30a42ce645e76d6b, 0x883b0b606695b0c96a67ccf221ab0169eba895363e66ca88425ce3700c0e7d4],
    [0x23aeeb0c6499b84bfc32ae3c42df9728798fd2ef774f1518b870bc57d1385900, 0x101e7e35808991e8cdb0627796f331b89f2646cf0263924aa6003460b351a940, 0x2bb568a99f55bea84bbf76dbf0f54d5f1331ffa1f62d686f3709a56662e51931, 0xceed1b75b2f6ef1438b751e8ad4dea24f1a20f1d9a23589772db49baf9932f5, 0x2af501312e1b653155ec7f8e0e59649b2d078f5ce5121be83fa716e1b5dab2be, 0x152fdbabfe1a0ded6e2ba5497e140ecd1dbc9fa8df6705237fc8c764317ac751, 0xdf66c437cbccd268bdc448cbb706f4b179ba223b6bb87a921094257baf2b69d, 0x15e5521c580b9faa337d9ba06514ac965c373a2e604305b8efb0aad802e72a21, 0x9a09a903ce4f69ab99dd47c16087feca6fc2126ebc4cfd8def7a0253303f866, 0x2bb52dc2028e9887b2a82271ac46f7800dd147e706370ee5edb35b9550cf71b2, 0x9bf3d01f97e22646505f76fdd396b026bc8bcba0e0522ed2ba3079d301fdd88, 0x26b72c368b0bd0103cb7dcca08e68b4446ee788ef6114f6ba899202f1f19b5b1, 0x2bcbae8d5471d562e885b4b185b56ae0fe11ca5bf5461a1e0a41205568525f43, 0x805d6862cafcf5030ab30262a01f2c65b2b7312ac9279baed50c177516bd0dd, 0x2b8b1aa994b54ee5617766dc812d15d3cabf187d8db4ab8da85130f73f01e746, 0x1fed5b75b01e9f4af01ebd30a6f355e8b2cd88f19e49892a19403a895fcf284d, 0x17ee0034bef77cbb115fdd75be9880008af568ed633eb7b2abdf8361c4357500],
    [0x1ed9d3e9276acb7b4dae53eba148806fd9bb07b2dd06187212fab7dcbe63d72c, 0x2c05638ae2f83e73ac9b1bac220509e30ff5757342ccad17261a4c30e3bc634b, 0xf1fa08e424e4691c66bf0a524b81e886da234ba5bbf78cc168c8a13353c9654, 0x1ee32a96f8d3e8fde8ffba0fcd72859847861b8143052e212bb56b103f6f742d, 0x20192d8adf841e5dc110994238180267954de29c8953738ae196447acb182a7a, 0x2419a609a380157d9f6c6e64ae2cfb6e4b39e0d6ec0661b546c1552a620f19c8, 0x3ce58f147c681728f2a2af586144d470e2231e80161f97200b7aa6d624b8bf9, 0x12aba963e415f9bbc95c5f1ca8affd59b6c6b03fcccdccb417a9d89a4eebfb32, 0x167f26eedae299f0e56157c8c7fdda1ecb48f90e553ecdbd4ef35b92ef9f39f9, 0x486a139560dd70e9054321196ddb973e7db09350cdacde3c1c7817fd2b8a46d, 0x1e4a632c34dad41873c541c5caeda02bf58f2127994bca0b0780bceae409256d, 0xa471e606e256e387d5e44d8de55dcdd833b364baf00a694b52e3c10f21f814c, 0xc52f1224066c212a3667bb2beeda181ea00294c5aab9348e5a71d696c8fcd20, 0x1b2e51bf0afc16188b7ec633248eacbdc550f592c742edc91b204d49dfac42a1, 0x25da91e9be50e3762edb77a90706df802461c374a7b90fb2ac018930f3b23518, 0x29db9bd9f3940384f177d7634721451ddd0c6a868fd047161c2358e9c305ad24, 0x7062de34f5c74ad5822948fb7c476255fd03a13d9d8781262712946db22156],
    [0x2ff57f3f7e95b03411db790a86647467581197124d217520ef2e6332a5b35185, 0x27ca7b8c33207e75a42cba1237e0c568d3b31f475424d23a9fd0ba6ef188df9c, 0x1b6aeec49e5936a23d2182de5ca78ca56d4ffe8589d3e77d07a34692a7c5b44c, 0x5e94c1b81bbe16e77c7fd2db254949046cb85834c34e0d8986bff72ed22f6f0, 0x24a01b8801b2865c3a3d20b6f31df95350f5caa9ea158b3ac240ceb81c8f6cda, 0x18c647eabc6fb45dec61bdf9007f83863fb6b7827b23437e10e49baf8e835ca5, 0x523cbdc5787c220da27bcd517d57bf3b31cff9e4e2e97299d44d9f838d96465, 0x1799989ebc4fbcb84e487b4e42f0e4500c309c2d90e740d03f8f9bceda208616, 0x254d90f21c923e30fcb471688f64a6115f0f4340b744c5d732a077f5fd6b46aa, 0x10d8f1c90a94db10a7b730d8c21c69e793cc985e1ef2c62b8815e65c5fa91962, 0x1032ccd20d4ed4502df7faae0b2d9bf2c5368304a24611597d7651733053ce46, 0x39bed2152c1cc38fd8a0addd226c2b5d53097f83d826f7e9b9a3556a32c8001, 0x261d68c368aeeefc167d6b3e2d22be484231b5b800b51394133c7baeef2f879a, 0x28893305254197bef603078e333db361dec1a7775813bd95d39e386729cc665, 0x2f570c80d99ea49bbd76c199e961db6bf59ba6e0a47683923716f9e10e913221, 0x2318f3a1f9ef5c6326960014e622db56d8adfc885e3d0bc2d06e86ec07b156c4, 0x7946f795fb6251bbe041138607f0ee6e1243dca71d592cad53f634dffd91ccf],
    [0x15faefbf8584a38969b4a719ffe5f02c2191a8cceda0b775162203d30b80208b, 0x1dd8c52fbcd6e06ceddbc122ffcc656e4c28ae2e88b94da79f3a276bf5fe2acf, 0x2915408b3b7c2cf127999ef3a84a0a5c2de70e75bcb06ebac67c73ad36cd7153, 0x2e655f7e6277f2147665a414632eb3a418acd90f6a29748e4249f6713d54007e, 0xe0dedcb898406ec36e1ad2e3992b99c8b457ccaba2105b4436ba840e89bf0d0, 0x270a85dcfc9c8f202cdca355246fd989551495ec57f8b6533342e3af8a1e6d85, 0x494b4c62731baf8f3338f2cc0dd934f82606e768f563a755cc501504a50a9c6, 0x17061fdaa032097e06c003d9d719d29df4c30109d6fb86def324435e8176bbe, 0xf9e56a5af5386c4884ca7d0e7792a22d3b96a801f3e8e79a6ac6578c1ee0a75, 0x24a746819bb8574eed44e23319cefdd09c0e8c2dd1ce6924a63ffae59eb1a905, 0x703bfec7b532b9135f72a794d9e3a3c6ff665c08d590677026a06cda66055e9, 0x21bf1e826a3e2141ad2cd0c6b286146b530927f0ddca59fa78d06a36564b7a3f, 0x2f678070c83d71945038501c74ba5968b131939a6af6edb297de5f345e6692e5, 0x1c30abb88b3fb7fff8e97da6107209d608fbd9f2db97e61d74dff19d3e36f3bd, 0x2a14fabf9e37f4497914de5868daa628ef3347a611f675d94ef67fc317e28328, 0x9ea8d820c4e6ee47a4fcbfba19cd94e915de9dda25afd1399c921b1b7666854, 0x106d7b2ded46945b3901ef651245d519ae93b8d2eea8160970ed07fcb6f58015],
    [0x1e6eaab1191593de0d89cbb2399ab8aa955d829ad959428cd539be30b72fde9c, 0x12f17c280efa40df0fafdb7148d7ae86b6401f823e47854b7f11c0a87ff00bf5, 0x2fd97c7d4e331e328d3eda047a68a64f7cac867b6bd3795e2932f350644374a4, 0x2c1c8f60b63e8cbba016d475ba0483d001c70653c1ebc256c51e18975371cf08, 0xfb2d646b505c61dc54f56fe9de66641c6797e59e860528aeb52867aabafc2fe, 0x1a44835e3e9620a13fdc072c1212e942ee95e683d6c07ef097527bc10616c622, 0x192e49c626530d5965c53dc6e4209856d71226aa5021b9eaaa1784044c8baaab, 0x80fa9dddf985137bcfe965068449cb6eb36b1ddb1706d8632864e954f5ac59, 0xff1355d96389f7c74b274950b3f70a3d74bbfe992860c7ba6d9066e59260c30, 0x237f4f3d794bd3a23cc52c74e0ee10dca1d4edd90a3a519af54944ac91deacc5, 0x1c94985507159d367f2aa5a1a04857bd44d205ef8439b844386b025976646bd2, 0x286fb15e9ab4224c0319add3a16b8c82dc71931fe3be2f4b3ff0289a5319c4ac, 0x236262438ed3acbbf4bd56c39d12be65fdc0126562bcd5468a49da6ba33fc9aa, 0xf695879295d610d1edb0da7c3fa43c3633e2d02d2e6af6799a2da41e41c3687, 0x22949d27c373e4447e9814d6f189d064b3b092b4480f8d21c8c12342a956cda6, 0xbe0a5f05b6f2deb2fb6bf836805d52d9ad224e8bb8af6e0ffb194a49ce026f3, 0x3070888a62ededfae0d72f144b8ab370f8a54c52597db33d98c24edf1daba0d],
    [0x2a3bb020c8a50d310ef5b5c77cc408b077fe2481454754c4568ff668fe5f0974, 0x1399820ddf4829a24bfacbe47f56b793117f599efdfcf9e042bd5780fabc29c4, 0x2303c2e89a14828a19a9f75d97f17fe08b6282fbc090e6dd69a4d780032624b6, 0x1f7a5f8fd30b1f9d7f5855c084e8995367889a1a076da17859cdbbfc8301afc9, 0x14f79e9e9c5998e8cbf5a2f1de18ca7707f5627b5637dcd962725f8ea1804d3c, 0x10199cfd4b1cca1f0cadacfcb429b44bcf83e13ccc098d908163aeaa1cf5a9a, 0x34459376fe4246c7ca6f298180c2150367ec05ede0dafdc4806d34e44c180fc, 0x2933eb342796a75af7e1dc15c04904b5f68bb56ac0478a85233a588509edae0e, 0xed494f6fb5598ab0a0a7c655890ddf4a7c0684f24522d2af98dbeb0204791e3, 0x228e31df905565ece7246c261aa5b700f60f6ddd5d7c249264748ab3e521a20d, 0xd36f7669a52260da523b388c608dc283f107e9578e0bcbe1e3d4201b6d5bfc, 0x2ee63ea38cc2cee0e08789581cb31eee9b112dd61e4032a8beebedceb6aaafe3, 0x2be13746d4b19b770fe382bc7e7a56e805c1ade0c9236e3e28f90a5fa874296e, 0x916249fbbb750e41ce6f9475e6cf6337ca4ace63f7a4a377c14fda9c7b205ad, 0x17855df635fe8e7fc7919412106e9852ecc57aa0b759b490cfc4773078016f53, 0xebb48f5378773ec048ac3eb5c84d44cb2585583ce45ff30a93721d70f289d0c, 0x33106bbde7d027db2f728b2563a62d3d6f8a02ae114bfb8a2593c6a2fc15524],
    [0x51f815c454b6015c7ebf90c297b90e9604cd36acc6af07f99b5e51fdeb32234, 0xa44004794fbddceeac78010d88b2146984c75553cec26164754d72598358b37, 0x22423aac5a0b511923d747148e091d1945c252a77e51bcc62ee173c5483f80ab, 0x1e14c0a17f23e94ac435bb7f629c6c0ab66fca8c4db085fc56be0ad9da545827, 0x1958d6547accfb884d50229a4fd5b234a377f5c671fb865170d0a393680ba3de, 0x14bcc6d4b8326e66b453691e5c948a80a618b4f7ecdc3a380478d43dd4075ab8, 0x193025256b9871e2afebc966ed68f38d2f906a4870652805e4246353f567c5bb, 0x1e4200bffb9ca4e47bb270a09e8fd994093dbd4805c4cc15185ced28ff872e10, 0x1d1fa5a83742eb9bb853197f56a4732625b2474e7aadb9311dfbdc0f41ac61be, 0x2d650daa87c7e1c09b53b10595bab1e14c32a67142092876c57b4ba68efafd51, 0x33319bd5b5247a3cb7f63dae46dbd8136f3f3a9b4aa0a232309070d718f7d47, 0x26e56b19e55c9bb5df436c13eb6deffab5059804552442370be53a951b0a9e22, 0x1a0f0930bbea65ad095174ed8aaeaa84628d35471bdad37bdd624d2eedb6bf14, 0x297921088a94bfeeea233c91483a21bc59982034e0c8738c6526cd44f9a11306, 0x1082b0f264c61f37b71fad404cbc0207f809cf8002a7e39c0290d88a48120356, 0x25cc52901aebcb35f9ce47457bbc4507bba219c88a5bd1229f6dc46c503c769e, 0x2ae1b5b3e89117e08bb7385e0b711de334e8fdcbb50ea4bb3718d5e1a0bc8075],
    [0x28b75c2ac167fdf184725317c7bbb8083e5ac5bba937bcfa6cefcb69e4048bf0, 0x4eb2ffac1de16288f52a4b74101cb73d53addd56bbed326bec180ed2363c224, 0x2bd52a360f3328d5c98a6b2de15df151e997cc92c2c72e542819e317c0ee1d2c, 0xff14782906fd866584bb5e93cd18678c22e320ddc66d6fe0e917e18de1094f7, 0xa4a053ffb41f84af21407c6151dc5496a9651a519e317664ecdedb017e3c50a, 0x19dfcf535e723327add95d36e7276afb472408699d7212f34abe32f808b4d292, 0x155dd9ca7898b0559b3e407149e6dd64bed6f9811d59b1ceca7486a110ec99aa, 0x2d9c5bcd84c97759e28dbfdbe9fce6b3c1cc7cbc9a2e35f2ce8a8bdc80a3154b, 0x1ff3d01d32a70fa0911119ebbcb4bcfc1b4fc30b2ec2298832f5da4dce3d7a4e, 0x44ce295745ded1737be0bf68729d669efc18e7e9b55e6ef65f895e2f9e95056, 0x117377429e138736228d8762c8c6567a936980b7c043882adad3951b9986859a, 0x39c17d50605261dabc76676120b2b889ae504138ba722976d8dc822bd1af974, 0x2a6f067cfc9dc40850f552ab42d6c096da045f8039453d7a9e028c39f2f1377c, 0x1d7e961151f8a1d1f6092f102a7c911194618a3bae9ef78de349a99ee05ef476, 0x20431e5d3bcff4bd90372a1eb637c04536317a81b02b48b5a3ae45a4e8380527, 0x116b0dcbc35fae766914fc09cfc359051f626100151eeb2a762d7a0738132a30, 0xab340604e81eb37a5dcbf1e7d5ffde8f2221d60b382d43cf75a0f1360ea5c72],
    [0x23af324599683d9b71b61d093d63dcbbd97e44957333d2697fdd060c1e4b585, 0xb11660056e02d7f845b79d49bfbb685555febb54eaa503d987ca5299521d16d, 0x1f209382e3fcb44eb1b1c03dc2be195b3f92faa9c1ae1a0b57c4df69e7a53d51, 0x22e25afcf23ec18a36471d593ebc8d93372315cd666db66bf398f7730285f9ae, 0x18eaff4c9d5d00d3483d7b0c74551a4487c452cf672e6a74ca397be38f5d793f, 0x1ebb9f7b5f7f0c553b03552d104693515ccc17529c6c1a462c0c24473630f678, 0x1212ba1ac3bfe0c08096c503be351bbaea92aa3d3f6c264b73c7ceda7f8bd721, 0x2f0256f9b47269790f3f2b46a7ef2536d8661dae60d50a61bab58346e83885c0, 0x1b6a8442e48b709797a514e36c1f86b13a413eb1f7fef458887833ef4b482124, 0xc96e617f36391cc516eb3631eb8a18d4dd10d17135bd93f450ef6ae2a945117, 0xed9dc15c9f4a60f8150e367ba71a4a37a9cb50c9031194f55850a1e5e325911, 0x2b8b201e13900e638685cdb4d07c110a8f8e8d500cee83566aa733621cc20235, 0x23bf4e044f678ba1fef62ce070897d6373914ee936f92a2f4d5e09890e238e34, 0x22c93d459ac5db54f2b6a4f267b5f049b976a93d006b88a98a5fc0ea39f53a72, 0x1a54b0b47d98fe83acc4dfaf83b8bf7d972684923d5c7dcea9894b6a07d934ab, 0x22ccb3842b2d75a33b65465a5dcece6870afabb3e3401faeb6504de406348a23, 0x1e9abeacdd2ff75cca093b6d8826a46d8d2c05e30d1d3995da76a4a8ca9d2824],
    [0x5a07868a7c95f50a015879fe7cdf1eb6c317e4d489d4515208ddf40a32329ea, 0x28c53ca5db5ceccab548d154ea6071e47ca73b6cd4fda7e423403cb684d3070e, 0x651a487e9ef91d9c4fd75178dc57aa1f76edf56c4c5c2ba6ea7c6d919e91440, 0x16d216f97bdea9f8b01025cb47acd5d03e8469dc6b558a235a23d2ba8773c71e, 0x2c8a5c7f394b071d0f329d51e451c8738f896a2b8f87c6eb3eaaec71ce1cf71c, 0x132175ccda95488f348ba37b6c3641dfbca9e4247ec43977e279f844330cb694, 0x28eba78439ba284229de2b1c6124fdde36323fc82805988501337a3b48aea040, 0x140f550b1cfe4079f7c44efcca6515f70a9ea190d2cb4a2cf116719737b15621, 0x1fa08142c4cf49ceb13532ff6f1c453f9ac4035d8ec5514f4f3b52c3dea9bb0e, 0x592cf45e5a2dd382f1c6ecb059c99232e2b52bac5475c10b6669698cae88827, 0x2897ccf4f75df225ab5b1c79de477945b24f2ea127c5cbb37954370505957a31, 0x288ec4309c81a0d2ecf16c037706ea4d526d717285ae02da008d14cb8ea23ec2, 0x12bd882b0d8af801ae2579a884b11f80f1ba15f48741f61609466bf04f68cefb, 0x2bbaca431e1d464281a1e6f483cb4e9b2002d0a0ba1fa70b60c1bececddb1e79, 0x173087cac123e07a0324ea3c2231cca859d7e4d112c8e2f4dc9249551c941007, 0xbabc1aa6aa0d7b234fe81651f7b6d616607fa766534d5baee6f63bf02995fed, 0x233f5274aab1d107af4bf7f2b7f4d57d8ee0936005a3525549cbfc75697ca640],
    [0x2c5b4a65bc55ac5fbeebde53ce5fa68882faed2a92a7b3f5732832c72f7f2c30, 0x17d5e7e1862b3708cba3d41c556b070da60b73fc3ef198227f2dad5b202d5c9a, 0x1d7ef8564a9ac7dce945477d529ace63481ace463a86cbdc1140645ed57d0b3b, 0x1edca4960596d41548199aee6040d39d814e4562492a070730982f9755615117, 0x258655ae996ae6e4deba6fecf1190c2afbfc1dbe82454558a18bdc9819442f05, 0x279a42b218cc556132ecaf5666c04e89984f5ffba4225281d3261a48bec6eab9, 0x24605ce4aaa33a0bbc08d586cafd70bcf4c635bedcf98afc3fb0dd32909e8ff, 0x292481a792f2dd4979b04822d73eec02e90c1e4ea42ca5414989ba04c31529c0, 0x19f8effcd417b79016b57398a7bab72f946e75d8628f569f327df5c6832907a1, 0x279c71db7cc16b9c726b934545c2fdb75d956d16f89210aedfd7dbb4f1d9ecfe, 0x16f4afc47a61df3374a702f2800a3a39fb4450a9f92e11e240cc6d76c252de41, 0x1ba7d8b083eb0e83cf9178efe8514e612a5d3905cb9e4279b1c09ae53e8cf23a, 0xa1e2e12a51722b6e0acb9705c443d148b1334dd897185eedd4c4e87170e42c3, 0x1d6b7bb51eb9ba719799096e5e0c1aaa594456cbf08b2bf9a479279f7524d3f, 0x1129fb969355253e7cb31fa942978db34b7ccd3bc0d0cd02ba6a49e159d1cc7, 0x23e3f31479550cb197235af10741c376d326f85881d1f1076882c928212f8b9a, 0x1ac5a27a1a2ea0d7035f74d3a9b54b671e58711d79c87b56d32e40983b62c8d5],
    [0x173f895e472c4eb16a2aff3b8e0417fb32b83eb1e3233471c76a0550505d0607, 0x500a676c5cd159e6351ef8d2b567646fb4d4c61d3c0b828ec201d4f425991ce, 0x1aba42213aa1f15e7550ca941d9bc485e195ac204c5036afee992a967fadc501, 0x20ebc05e620d2c7c362f8d7916ed7e3e12802cdf41c87b06790c40f5efdf724c, 0x191531c0fa2c547a1eb51cb026e79cd663abf458a2e8630e83c1f11876aeccea, 0x1ff17bff476047fd9a466842c8fbd711c1b3c1841e109c687ba4620ebc49969, 0x17d7ef1f4f75295cfe214dce7fc21dfff13ff8a3c7bb86224c8a79566037179b, 0xbc4494e3d58cd6841d0aab064400e6ae8594c35f7e9672c55f283869e0f3f93, 0x174a4219c4aadec5921ae738b7cb40a3219ef5dec8db3bdfef39b373b224d38c, 0xe989d36297ae2397d85b8025bb304fe42bfb8bf93108996d2ba13968bba9874, 0x1ad84e6a15633eba89050cc15d94e459a6c2d42825986f9c5803c66f08976329, 0x6f0eee01ada409058a818ba8369498fba956e713a7e9372b4220ef15f954a99, 0x74a08a71a7e34b1031b63978e329bd0e12ae631100f24fcecb5a60bef5c3ddc, 0x2185e4a0d25570c435162266b565c1db0f23ce4e61b85b8b8a1872517754b632, 0x2bcd8e3cf988891e58bf8b8d3a259ce52f86de01bb8e6c4d49dc903f4b3ecc07, 0x2027fe75d87804599fb66c0d65b287c4e0582a4e8d84bbbc85c6422cfb5eeb9, 0x1e2dbde2355a4d9c61ac0c0db87447c67e08550ac91bf04d96790142d88cdd00],
    [0x206cb038cc328526d0c3dc5af19437d83219751c5ee8f61b0e9e2f5881366be3, 0x255fbd250e6628c5eb540c311936b282c52204f56fe81ef75c398d9f0adebe12, 0xe14d98de84653e22efab29261c9a36c207fc9f5650ec1a5bdce6ae992239e84, 0x1342f46c9e240aa8eb2f1dd6c61d0bc79fa6cdc3dd8fa67d79729b02343b6df7, 0xe41cdc0db95ad5d67946f0ff028aad8c3a3c88acf10519e736f9265ce19a2da, 0x1cc6d37794a5bf901341db685e790cd7f7427b669069e4d320efae1d55bd7157, 0x117c39e46a1ae3c90b26b0df85078ebdcb66362515c74d51cdb192f789c9cfc0, 0x2b4c77d18677eb99a966913f7ba7b478ccda159d0f61a58702e80f4952b37077, 0x250d35fabe31fb7fd1719ae0c13cafb64e706932fecfe47e475034289443f240, 0x2c712075e8848b2d26f7c8c6f7accba81a49800ed3515221f03d845407b1e1da, 0x1d04d22563bde8bff1b425e9bf113cfe2fd15dca666b9130e56511462e971465, 0x135cce03597dd23591aa6fb38b2e70ca41ef91ca05997adbc11354cd831d57f1, 0x24716ad2942c2268df507e25be255e45c00d5dba96093df6c63c8a4df733f0e, 0x11cdeee1ba873dc61888aff7be54fe50e03e3a4a5ea0f32c6acae7d15d9f7979, 0x1ae588627ea2e0c046ed4f6c208f29803a25c9b2c0c385be294b9c25a3287e47, 0x8e0df227ca5a17a9081c60caedb5435a8aff99371a70219715b05800ef811d4, 0xa1cb35782612c7998afa40dc467fd39c882e6b3dabab079e63c330bbc8e5f1c],
    [0x240c57897161666f28d000b88d3353921d967420f401ce86bbee42be287a4f8, 0x7c9f836c94eef4e831b3126c06a9b4ba19c11c7e886f65c0d6267e07882dc57, 0x156f5afd193a11d87249f3422912980daacb8fed225c60a5bdde7c4d93d5a019, 0x203a73837d577d910d3bce1b15fef96c1bb522d4f02cc4032becb907810bc85f, 0x217ac1a2f28cb7bd2509d90ee4c03aab4094e3fef4741cf4015e1e823f71c0e, 0xc2e41be00d98a8dff8b30f5dfbce2708412e200682bd596b2162700a67274de, 0x1fd5670b294ced78188cfd816a41358ca32bbe8e024a2a200fe11d060f8c5e1a, 0x2884fd57b70a2305bf5b94c325b01d03f3cc2e8901014e0be3dabb984514863e, 0x23e772e0725ef73aa18f59f934dc11bdbf5fae9cc67fa18a2319ea13a69b9c4e, 0x122366ae0642411af291571a8904f0b6c6fb11d1ce750b3316ac35f310e5dcef, 0x1d0b0c33d83a40412cdaf42cb7ee8e5042d9a73eb17a0d5867a3191aeaea61d7, 0x8eefbab2c1c522367f543c33400cf254fe07711f94e9036a7558565e7305c0d, 0x209ed5faeeef4d1d01bf753704574d34febc7afd299a04430bc0f8f0baafedc4, 0x1cb753a0f4efe61b05e95e099e4b556770b364873d99e1f77e38a53e9c262673, 0x2a32d7716eba1cf93c98e9bbf805b0e4d27cd7e3f26c560beb2aea41c1782d8a, 0x2936d36a869b8b2318109412bef3c1a0407a8e0b98b4959ee0b624c116040494, 0x281ad4ade7262394bc55b71a8aeb4135af3b0c2433070cb0ebd9ec8e20dc7280],
    [0x1aaefc2e9925fcd453996fda804063fdab276b37c5f51dfdfef9255b4ec10cc0, 0x2eae17dc561c37084e990fd1bc5057d96e7367c4b801d27f6a6ad8e0d0c0875c, 0x247ee52031ac073a81f56a957908c200477513fcb9853942a62b06fb6eea3bc4, 0x275602e8ac1136b245f551cb053d7eaad7dff488df3f645907a5cb151c553523, 0x6143a7c97a91838b0ad68065370bc9503d3e0c8d11f2a840b2c32c3fe2e79b4, 0x1f3aed03d37f7b14629aa2e5f086bdfbac862325988c4da943f88f4313647df1, 0x18fc0aca1d4a45978f6e3fbc4a35a2579a4c12eb6ea700f79ba56727bab87117, 0x97c4f0ca6dfc073c84e97fd4b2c341ec3c45b6f716700cfd7647e423f5e634e, 0xde5765593280a32bbb1630216e58d1d669ba575b7d276a2432d9c6ee302a5d, 0x7475c2b72238b87b0d8cdc92890f037dad0bd67a3c741e5672bc8677a35c206, 0x244e984c6f2f2133efa9d5dbbc1c60463d26f7748650658395201b367a39f554, 0x27a55f5103ad08547128724e6c20a4ae7af36be03567e4efdeca9880214d42a9, 0x14b2c9ae1ec7a0c1593ef29e782b063ed48e580ddc3255c0a1f081e69b634448, 0xeaf70eb10be27fbcdcfa7ce5e1b289b66fe68a3114038522d61b435f17ef209, 0xbf40bc87a391c052a56e43aadd307df751dbc47ef7c6c5af3e7bc4ce0dc942e, 0x3afb962f8ea2cd1affb52a50cf59cd5b1f08f087537859e8a73524c3c7758e2, 0x240011c27da581b7e91efefbe8f37abfa3c6e456ac5a6da05d4af4884287bea3]]
  s := [
    [0x196b76cefdcc7f6a54c71d40114a0bb82694c936f1573ac7ac1ea3fcce1fe938, 0x2cbd265ce3e5beccb09bb3189ca08832cd4fe102f39f9ee2bfe851a8038ce383, 0x1e0217f13e7f212053e2de966a7ad7fbde6a7d47335bb58b2b148ac4ad7b8cc0, 0xf885c4008d2a4c2992b3337f1c0eb3b21bc5569e7eb6aede116420d33f981e5, 0x2e9c594b2023ee628c88f7a8cd002e06fddca13a014922ea4fd489d7f00d0cc8, 0x217afd05c2e55b85675cb39f0aa486a11691557ca9ee1b7ee42f06952bdae058, 0x1f8f067c1602f54ba576795e16bc269cc4f34416fa619920126eb16da9878c5, 0x25f3633c988971494c6c37a0de4b737a88cd5be9c14dfc66ffcc4c5200c3d6fc, 0x18cdc8b1d7543efccdebadd46b6e9096117758a3e2c638bdab7767e74f88747c, 0x1cd8be04f1ac72a0b7daaef83a36e688046a41b7d4ba83aa5ef3a3a4de8e58a5, 0x1a31f69bd76c670a3183335cf97746f6676698514467df13194007eaf8ed8b8c, 0x2ab2c3d35698ec035746c4131c8d4cdae3be77eac56e708b6fb6a9832afb3869, 0x2217b8cac3e14934002e24683cb6fb96da2b282d12447fb97789670e716b3bb9, 0x26d8ecc33cf52610b26d55145f298e5a387c1b4587d44bc89afd2ca81a21cb70, 0x19b5fef4d9456e93fe0799c1b568e2f6deaf43067e119ee89cce7b1b0074e8a7, 0x2f0ee317d5a1d6c6d6c8b01f100eaf5389bffe269131af9eff36f71b3cb7f4ba, 0x1009a43a6a00db52b2d0e325312220738c996b79414b70b2d04f61bf8475759b, 0x2881d241ad316ea5b04bb05c86484922c0b6c6f01173a1e84af83d8b69bd23d2, 0xa3aa81c611a57f509b1f971352d680f75a03361e74a5c12594987287972c39b, 0xbf1eb01ab9b46638fe9d0a135105ed65848bdd9929b93d37369240a6e5ac276, 0x1666fad124b64cb1b1fbcc06ee6180e2d3d98bdff534ea0d4fffad2413b15925, 0x13006947e1defbcba51ece18add637d08c38b973232ecc68b6b2f7fcc0e40f7e, 0x20cef2fdcdcbf581527d5fdd9442d7d80e8c122c60aba74a349e318119a9b077, 0x29308abcbb8c3d71812419611e6e3f30b64b8b3670579e5f7e6084c57f8180dc, 0x20a651bd8eff8989f70625f7e1db0da19b408d63385e63f8b1f066d0c3912e0e, 0x2fe8775003759af3f41c2f923f0b683c27cf89bfa609ec6fc26714b8fd7c5ea7, 0x226d37fdd9023563a4d6e2a3bbcd23137d949f36b2d9b1b8dbafbc644ff2371d, 0x2f11eaf353125b5b7110a75fde384c14365c2e2cbb1140f8b520204118ce6897, 0x7cba6d14f09fa2eeec2242ee401fe0fa089c28bc77f02f0aa90a564c10b4e29, 0x757d39b861897f4ca863713452abb9e6c14f8736417fce8359c5b4dac5be0b2, 0x58992f42ff62ae08b3daca79a5ac83d258272802dc6556aa757b390ab22d6cc, 0x1fa470cc67647213df51fc636fce6b6e69de3a665044696f6bda9316fadb5a1f, 0x11049230da628e01b2a11af1b214327c58092bde0d949e8c08a0c929b39a13c8],
    [0x196b76cefdcc7f6a54c71d40114a0bb82694c936f1573ac7ac1ea3fcce1fe938, 0x29e2fa62bb11282bff23cddfbd44a2d9fca9bb0ca099f34c63153d32257e8f76, 0x2ec58445b13f4e1b14d47aaa8d3c01489e81838dcf6a8fb2e79ae1c420dbac0a, 0x2a26d88da92db338a1de3d64aa9f78389c45cad24daeea74fca5c5721cf0b079, 0x25240495a831b1128568257ef0c438a227576328351ef52cc3f6a361ad097666, 0x10356b86c6b5b46fd0913fe632fef7bcb9507005df6fe46be9089f96008fceb1, 0x23967538833c9bf2f3a2387251089e68c81a47051f8c3154b5863fe78a6ff6f6, 0x3dcf91d2608f94783343c6c1c9cd24847ab2cd6778f568418527be40ac23e89, 0x1185195857959b965104d24285d2f83365412ce31a6abcfc936d74af9fb8fa13, 0x14ef1e17d68e5cbcc3a90ead42b8c438fb56b5fbb950d8883c2d1660fb2d1ded, 0x1175100c6ed2ddf68ba552b4f40c27047fe02cdd2b533a3b9975454399294205, 0x230160f538e3585cff4bd3cf7b4fe333d2b2a35738fb135ae6dadc075f92ada5, 0x88c4e4fc1b21270a933a937f739bbc7b6e7eb3e316ca1b3ebe5727e381742eb, 0xe3e345debdf5cfbd7bb9a4cb5d36d89c20713e43323d4341795448aabbd76a3, 0x1a4ed87c8037af1d025638bde6b974caa276671abbaf0210cc7e9db2fdc9a345, 0x11ed48467664df00548f3cfc70eed4039f6a59e826e73dc4b95990c03a313829, 0x18ed0bcc41aa34c5556a7ebdf27ccf1a50f32561793053215a03d931c4f72eb0, 0x2e73e5ff39e58205a16e013ccd0dd935bebf06505cdcd650935840062e8b1f8a, 0xf66bc73e8a87b0b028720dc420534528d2fe5609bcb3d600507a6c19d20cd59, 0xbc095405abc012247bc4a7277cf59e25e39834bd5839542cab959ad534a23f1, 0x1fc384fdb89e274dad330eef9dc51855c11fdadb0b9b052fa220eb3e38d61254, 0x2805a26d24644536da5f7e9f5071443189a5f102b92613098a8c23dbe887cee0, 0x2a2eab082079c60e24bb5dbe3549bf6390708e8ccd034a2a94a71aa9c414cfa1, 0x5aa87bc4fe90cd48a59fcfa82226cf759ce8f60f8c208cf9632a28ff7b680ed, 0x2038aefd81a73ef09b7d0fd466d2b3c8aed99ad9ce559eb2aa80d7e06996909f, 0xfaf97c7bbde99e8853c67af9e2187b8ee3708e48da3446b3eac3b3252a057d4, 0x5dd570bb1e0feb5e6f13b9dbeae629f6f3ad06a365d9ebcbd2c120c6f76deea, 0x124548796b8905caf386a61bc868d1467251cb29948ff1f3ae4847c724ab97dd, 0xdf9dc278a65d06f8c477dcb8b562c262dcb7f9ca4d875070b36e9c2e7fcf277, 0x725e0e87db61e62269f56d25955fcfea65fd3882320ba3187611e7bca42c2e5, 0x2f204d469d9ae7b364fc44f2959956654f613f60cf669afe7b69a944b6903390, 0xf4165ffb8c3cd0c8df2a1cdcc6d99d487b204cea36ba8023e6a17c90c50d3cb, 0x1ab6363cc8e8594caf364c93385aab21b86de4aea09591b34df2152f6b663079],
    [0x196b76cefdcc7f6a54c71d40114a0bb82694c936f1573ac7ac1ea3fcce1fe938, 0x273626b708fec9b5d1d1330bcbb2d80d97ac1c84b89895de0628a0f15fa73ac1, 0x232c260995bc29571e821068a7fef290fc1fca974214b45cb6eb63c02f56101c, 0x22a91317e4cd0f048e756b7b41c10a9a10f85683df9051b1aac41cfb73dfa959, 0x1789ef31e5469c8fa9e265becaf3f6f0b66989dfdddfc52491933f990624062b, 0x27502f81423df0f6f223bfcb038b0347be96880b4d9b26d685bc87df88a12f80, 0x15944d6894aed7bdec1cebe81ea14066dc63e49db38b79b63b5711cdea0047de, 0x2d5d79c75632ff589cea134763ba602c43390e05fcb6ff8e91fe8376c327cfe, 0x1f83f223b3a559ac092b5ce1bfe95f81be64ed69bd2aba06181f9962c09ce680, 0x1d9105ddf213b013cfd5589de071e9a19becac29cbd9f5699314f7163f14f642, 0x2d8879a2f005d4829b5439aa1630fe03cb581dd32be37ec112cbc8fb76715870, 0x898f42d31a6838f40ddf7874dd4afce3481b6e1eda04c4f22f82e3a7c339078, 0x1e5273fcce91ec174a392d2b384eaeeb2856c1bdb4342e1a38976f97497e51ba, 0x24a863988061d2464b7bcc8d4ed630e79a471fe07c829d9d6b5eccdee1740779, 0xd3f2af2fde3dc00461fe65fc25d8ef32db567495a78776f0f4eac20d4c23222, 0x11130f82fe058dbf04d8ea6be3175f22ecfef9c4983545870967c73267e0dd64, 0xf327ffc10a298ab4376b35f28b7eb90e794b6c9617b9a9cb1fd60d1e6208fc1, 0x2fc6a08cdc07224db9ed85c48555e9b6747d401fc30b477a376470a19189428d, 0x1c33ad6d01026a48305011699dcd1ca89d10a95b096e2b7d60363374c038c62e, 0x1e5457fba2d9da56d4ebe957e2a4960a45ce9bb8c941e2b1bcb861f1c1d88bfa, 0x29d2839ebf586fac7dd395ce00036e0530bcfaf01c6619489494f78a6f7d5ec4, 0x4d8bcbbde662005d7bd4ff16ef911dd1fd74e44d850f665faffe0d4724063e1, 0x1f110564e1708c2705cbd95f592a618406fa8ccbcebfe3b4fa9420636764c7b8, 0x1588d891ff3d8526d281bfb900ea2b4de960a5d2b3740c2562f6a8ed53f374b3, 0x639f2677710d59d2708e3ed851a80e7133f603ae0276ec542b23181fff30907, 0x2a2e29702f1ec78a47401585569f7b48e63e397bd64ddbef59fface62fb5591e, 0x172b91ef6574d5d044f3e03e69e270257e80c9cd0f1000cb91d7a718971dddc6, 0x93f4d3b969bbc023ba1de485797a6ecfc42e2e9f034ead04b17830f297c15f3, 0x1eb585e563cd03b430e0947955e5b906db9b169af33cef14671865a04bbdc7c, 0x15167514d32350029469eb274806d81d6ba80981c4694fd030f0bd93c8ffcf31, 0x1240581c6c08675773597b9d50b9187f160fa7d7a739630f943e4df9b1801237, 0x1598daab9828ae0f9490eeba9d3dbd6282a2490db8ec4789605289a3109a3079, 0x15f48fc5ee41eb8cb97fee7e78b55d3fda674fedaea91534bb506a4b440ea560],
    [0x196b76cefdcc7f6a54c71d40114a0bb82694c936f1573ac7ac1ea3fcce1fe938, 0x6b19393be5286a5cad14b6fd12c51219467aa1dc7c4923753e7b1adeeb464f, 0x12ab8709e0b7289c712a002a6f0bfe6e72844177720a0427631540c7695e0905, 0x145662a0788a01d81bbc0df72d6eaf0e887d22a1e4aeac090900c432c4132fa5, 0x1d403655755dcc00c298137bc7e029f140b9d9e71d30e9145f6dd2a040febb9b, 0x2370434b953dd1d26c4eeed6cae501a3758014dbad14bfef1c3d26cd0f615837, 0x1f13968a23ad91e74be05489afc4b2dcb41621f6fb8b52f73c27bc2f64d198ef, 0x3012f6382c1bffa9df0240a0f66b310a7463e49e7cf74facc054c7fd124e20c8, 0x1da5c938033392ffec34887bfb06e6317655c3094671a68247eafa70d630c144, 0x1a94414d237c4ad29cdef25e46f49e5e939d9699e9a36824f51aa65ff2adcb04, 0xa234e79999d9f55a21dc03c43eaf5e018035d2b588d5ec8cd2d1df72f83cd87, 0x9f0c86d7cf4004d071e067316a8da875d4405044b0e799616e22c96a1140c26, 0x11bdf8824a0955d04b5fc96abac08049c0fa9cd678bf055fec2d43634170f052, 0x20e74a475a9faf92f4998eb559ba0d8f05659dde0ecb757950e8a6abf015d4b5, 0x1366321b06c12b977c2c396974a2a6b0c4e58f09a53531213c6206d072f4d074, 0x1b2b47e3ea9a39df6a054879cee1ffd2cfd789acd7823e765c675241c3acf498, 0x1e94a144e18eafc014b1aac9157ec2faa99affa50a05f8a8ae8ecb152bdb85ca, 0x2fc95ebe62bfd5cff9fa2464bfc67b854ab2aae650da63c494d87294735305a8, 0x1ccaf110504e1fd4eec6cab1d20f863feff3910d832fb789ec7e31713d262bdb, 0x151066f81bfe7b4f1ecd0f7a8fe09a48ed40b0c9450476042bc4303602891d0d, 0x22f0502a277cf27f336d9f3ee1fb7d67fa355a2421d4a01d121f1020e44ae43b, 0x234465d17d5ca11607fb6b7f3ed5d52d0c06dab7b1761356cbbf0227b5777de, 0xee0c8ce14909dc5d73607dba19e39706783488f00b8cac649546d934dbeaa54, 0xc1a12f8f600bcd0dd2963fcfb7172d5842b12aff081a8163fccf1eaec3284e, 0x27813f720b7a7fee3b44b2fbf89888c664d960bfcd775816ceb70050e6d26308, 0xef129ae227544508104a79cdd0fbb9e8247c352c97190b90b5e5892feb828ae, 0x1c59bcacb92f3012c6299cc6b43ba9269481cd107c161406349db4f728bfe66, 0x8944ab7daebb6884078a8d618105b8843503a90ba51855c079b13b6aaf5b4f6, 0x215bf9136c8b81f9bd5b221d37fd0fa327f923dac9d52ba825cbd3d2d62459fd, 0xea608a14f0b4b405017fa637237863552a98cbb9bc1e151b7edbe8e6d78b598, 0xc1aad9a675df88deccc3864f8c6e16cbee74db5441a6fff425a2bf2a6f84d67, 0x243e3a95bad03705f35109af4c8c377983f06fef4cadd95c03833dc06ea51296, 0x29afdf61d86b2558a0cf6083069157e5039ad172997c8ae76857f73e05ca3eae],
    [0x196b76cefdcc7f6a54c71d40114a0bb82694c936f1573ac7ac1ea3fcce1fe938, 0x1a85e806efde07a54e9cc83eac927ee5f534b01fd41388f806298b28501a5f04, 0x109d8bbad7c3c77bab1a8506d4d588e7f5b703361a6ce70d47478e7464a73574, 0x12f04b1f932511c8596a8c3b5f3dbf1f7f1d91554020fc43db068d95b8e6168b, 0x1f28636d87164d2217fb393b23d0bfbfec1d912dca3fc000ba1f3e2ef46b8b21, 0x16179a1cfaa92c905e039047db38e288d336b355029b1ce1048168e55bc1d701, 0x16c3deac1173e14fc8b54c4da1b1ff61b7bc4ee2b9c62c2871d70a14583432e0, 0x176d6148624c45e210837dd7fd87d4dc9e89f8efa4dea7c3cff0702fc2bf042f, 0x20dbb69374e977536f1cdc4a084edeef4ebbf0c9c3cc4191fc4a707961fa39cf, 0x2bab10e7b585d418399454c7d80fd38bb23190eecc5f85f410d85300487b9ee9, 0x1bdb9ff621833468a0476986be6d6d719779ec581cc283a11aaa42c5111d232a, 0x6660bc2be087e505eed7f1d4e5d8418d55e799008cdd4f91bfd536900e9f7b3, 0xd4beae63787b3447f813f245fd8b7d6f49c83d63fe74a400dcd66cb3d363af5, 0x1d76613f447ed37b64000a928b3b48e2e8dd521aae874d97dad7fe9b4c57886c, 0x1f84a0ec9dadcd3937a045561b6205385c12c2ea4c562bd420f3d27ce32677e6, 0x1f6424f12e6950564745b305080c881ea931d9083649631687a5a302f1d86fd4, 0x2bf626dec6b3c130ebf137a656988397de0601250e39822152d316537a891fde, 0x134731482b66f87776639ae513fa3245540fa1d34e6d74d32f7e9587b851de32, 0xcc894c9be43663bde1317a4e3591aff66c18abdf0d8b90d872d86012e2fc8bd, 0x22e690f84991940125c64d8513be14cd3fa81c1efc12bb80a6beada80c7091e1, 0x14287659216a6cb96496ea198bfae1408696c5561f01e9504d5904044d9cc1ee, 0x237b66703bb797da48e0c64dd6633de18ec506dec2d4d72b28fe93aba30b1621, 0x1eb201c3e2663322f85acc8d641a362ac1eb1dab575d105af0feac86d68ebb14, 0xf2588703431e1b9b0d059f900572f8222df5e7749dc0f93c09a24285fd53e4d, 0x18a8905e765a49b51060ddc06eacbfbfbfcc0736f621216de0f9a1a11cc66484, 0x10e1e120dbf75198c342b585b49bd0999633fd5310840e725642ae873af4a53f, 0xe65310148d5dc0fb00fc135ad071d9b07e28b32dff7dd8fb1a2e0670238de99, 0x1b924a6cd822b0eb0c6227c810a51c540fe9d9d07f906e24a57ec6fece7639e3, 0x14f708f7a7c1430e9f6adf3a23f1dc38c92ae2f175b39671aa297d590f7806bb, 0x2c870cd5699f7a402a473b3610adc0b1b1dfba1798b30681de9359334891b5d1, 0x2c2793cd489f2a0ba8efdda84b35034f81bc47c131a3c6b6f8107f7cbc5ab058, 0xf12b486f743b8613685af0b508c3b3c41608d34b82c7dc3d8f15277e31842b6, 0xea23cccde8252adc358410548ba3c53e224a3169e6ca958458940f318bbefa3],
    [0x196b76cefdcc7f6a54c71d40114a0bb82694c936f1573ac7ac1ea3fcce1fe938, 0x1e5a6dba6fde6063136d0d97f46d5f292f065b8a9db8f2ab07bc17d31566ca3b, 0x2f5bb6281fb3085c9cf508288a809476a23c142a459949254f99e0461496897c, 0x230133fa9c214b6cd63701c3a082ee211c2d4ffa7037d0d0a4cb63a77ef5b696, 0x7b9beb8ce1dd13c153d36b636a7af56db3800d97c16400284b5563b192c7803, 0x18a62bd663f364bfd0c79d7f3edbbaab5f58eaa44c0fc207291c8f71222059d3, 0x909d7276a02aac190974de34558921d3dc8e6ce22964f0e97b69858bbf39108, 0x191ce266e49cadd50eb403e7fad07cc9ced8d81d8d23df3dc653cc69a8e62310, 0x29cd029dbaf281a5b72c6d730674b53cbc773dfb542428d45a11d443aee0c906, 0x1235f2e3aa2a5663b1dc32d86d32a8e2ddcbde4e97a3edd894c7cf2f799e545c, 0x11310308464e805034d840a94d25a3b8bd0c206d663f41d145fa66415c2dbc12, 0x2007f67c3b1d638da29631206a6befa6e21365aa1edb39a6f3a0abfe94fd2392, 0x121d527f117db7b0a614ad1be6fea1f84369a4c6e451c0d5d2537983fb6b913, 0x1ca4a6c7ee32ae8f3d55e7b5f8753ffddcbc125e170dc7b7c8ba2d62701aeb80, 0x2f4ff9505df9f5dc0ee5584631e6f331213d654435b5d2593d249b3ff4e64802, 0x186af707cd1927045cb8ad1b1510d4150928d839d07c8c9a3d93411262351327, 0x291caa38b2e4083119c579ad08328807d4ace7deb24f78a5d4d208cce95055a3, 0x27e62d562d2936ef5dfd0aaee64cb42d6aa90006a6fa74a7ccee794d78c0faab, 0x2706ec2021ef6f28fccac547cfb1aab2da02f453dac5b2daf393ac9bbfa63444, 0x2c6c0b69710326e4bf73840601626d94cae75c92ca37aa5b5c6e61706cde5a5b, 0x3bc51987425528eee7a4a3177a8ee4571ccbd028c70ada4bbb3f8e6da3f58eb, 0x1273940d422f16d7b918e5b6bc3dfdba2b22abb42cd67aa154ed75496186025, 0x253094fbc334240ab67c86378c9d8d7435f3d87d5d68f3ae901fad214e0dac85, 0x1cda718ea0bd4ae40920c54c9d203f88deef3e00b3a6c3a5bc9243957c20133a, 0x125308584766a4ec9815951c72a099b9ef423fab29783c9c8f8ba14ef8221ecc, 0x130af16ef6729327847344cdc8439079d47871751ed3f0b871dc248c6b856b44, 0x2f730d5dbd23018d8c91be93b9e666cfa9e9c077d3b2724c43a16092170d7040, 0x278ad27534ef1afa5d3742e03bfbec8156aa660b0d663b054a5feff049aea2c8, 0x6d35c831095f5def4afec1841c74aaf1b18880eaab4256ddba34e49653c6169, 0x2a9eb03bb2a3ad110273c506031de6f432b6673655255c4189fd2db2d9956d24, 0x237bad6e8955fe0485f4f72b4024855f35903b6d795cffd27468a7bd0e47056b, 0xee091319736fcc0a648bc6cb1b31ee36b95b20c4d40f91392c315e5fcf26150, 0x40a730f39a665fd9cb0c93989b291d281958057e9b898d0b50c752f9371a96c],
    [0x196b76cefdcc7f6a54c71d40114a0bb82694c936f1573ac7ac1ea3fcce1fe938, 0x30478f2543e91a3b1c9b3fac23fc86c06032ca0fca4bee9387722862c449cfc, 0x41b7accd8054a88f4ed64394473fba2b13d9b9ea06fccd0f75439c8a09f968f, 0x11bcaaccaa00dc4c80c43172a833a6fa50fa47827b3d4df0c221eedcb7e935ba, 0x1276b1ec4d51cf23c53b104a7d1e127058b91f5a4cd2bfea420c15355b43553, 0x144dc8dfbc21918abb47ec061c7e6a2f7fa9b32babf270047a2f465b7f8f6de5, 0x1dd046beaf1e8476308af0089af19da322852346b18ffa584af9d98619dc8f53, 0xfa7e283d56ded23e03a16d79c94298143d259d8c53c8e0de261d197a4a1c071, 0x2e1a819abacfadb55e98efdbc5bcb57e216fa7ed9d60a4ed920b2a1de8fd1316, 0x256938ee3b182642f778f742bc3bc00a60aaa25bb3ce9f7fc96559cf21b28570, 0xe6a334e357792b5182d8b44d893ce322996913cab640a006c1a8b73c023284f, 0x24073e4154b684459e0cbea690ef583feef556f092b2b17c82c31776725da906, 0x2dfbe4b1760808ac37902dfb1e18691901b413b87c6d8c8ae54d79894ded6c80, 0x20f447f6a67d3b8929e1efdde6688fa53d47964873d86ea01126f1e0d447d951, 0x2c502b5ab202577f015431cc2b64b61f85f486161ac4ecd64c9603fe6d353d01, 0x5caa2b6ed2b850a5ebcc686b7198604941d48d30932a09e2de9006ffa61afb7, 0xa3d02ec260b02ef2a4d51c2979cc1b22cda27b543a1bad75d9e547b3a5c751d, 0x724bf5486c9bd20c2427fbc1d6936ea65d052f442a417215cd089b9e4537843, 0x1ea84269caab7c273d92e86ca287a8850995c9adf2624daa858932665fed66ea, 0x1d7e6d3695ae5003b9dc6950af38af6b5319cf529a7a1d5076512dfd92b099ef, 0x99642d891092eaa8df1bfbc45d79b13934c42f37f8e1dc969fd51caea4fc246, 0xb94bf0fd8f907040c14c1fc8aa290aea61fc881aa82da20ae568c34990fc705, 0x28fb0d75533a8263ef2ec6b85c97b5af21e526471056355253fc5f6fd3361375, 0x10480841e4451bf366c111c8d3fdbf0a7ac9c04b9aa2d8d547285dd891e77eb1, 0x112274c48dece347a089aec971f0cfb9d7bb1a15b32ad3678e77d15cf7107ff6, 0x1a8c6d411ddc6e2dedd2fac64c324d88ab8a946fef1174c973dc0f658275f5e, 0xd0a4a998536c490396be874d02c03de56bcafa3cf45590184f7b53ef5c3cd87, 0x22016b957df82fa5c825f4fb8fcf8634e654988b63d9f9933bc7b7f256e7c67, 0x26d2a9b0db83259f6c7d081a2d50317039076baf6151f1734883fa6c322b243, 0x1593b4f33dd3053258dbea8117f435f21d6876e7fd2907e98bd81d13e1f8aefe, 0x1ec80ad7ee2b685fd79b38b842b0d420b685e3c090acf3e7507a57739ff76185, 0x10573113bb0d41c18513cef083fbba91266dfa7178674888ace5d566e1308eee, 0x2c5bca238c2c3be6d5cf5971ee92ef3174d4a040ddd6b0431354ce434de989b4],
    [0x196b76cefdcc7f6a54c71d40114a0bb82694c936f1573ac7ac1ea3fcce1fe938, 0x2f77238c057e187797950c50dacd539a7b7a1be7baa3a3f3a617f88ec05513c1, 0x1e4b327ddf07cc065b37a9af7f6d97b89c40479908be61b2e6312c351a4d5ef7, 0x1fa0048409da60cdb12a2a3013fb60257940ee5f4f8c2b1bb56362e121b0c8a5, 0x1c92ce2c35358268ac56a756f5ca943b43db8c7ec965770da62b649c45baf1b8, 0x25a62912bc39aacc66055eb6cb404b6a4f09b703a344b752c526dcb93e768c73, 0x2f3e3c91be6f5b034b00dafa6fdb33ed00735f48fb2300a783ab3307a6aac793, 0x12618073f72606525b743e3ab8c2749bc83ebc31cd47ecff2f851adeb397b5f8, 0x7e1a14a5fe9a127930b1ee9a4bbbaf3b33ecc0c23d7b3b906f59925c0670f85, 0x185866c20721e1018a4eaf241031b69ed1f2aa25e05310a44a015aed45003576, 0x1845f9656990a68b36e47e83b67e6d53f42df6a83cba95b016c349ff191ddbc1, 0x285db5bd04516aa0416c2c52cc651c2690bc846621ddec2ff3037165c30444b1, 0x230697cd1a79c303489232f2d060182c4101e0fb4b6d3ac38b82a370d59ca295, 0x2d5d42436b19bd4916f035f323d6acddae9a252ebc7445adb1d7bf560b464bff, 0x1ef94358c904246669907524ba5bffbdbd7c9a5afcf160e44d00f19cd804fd87, 0xdc902c1c2f63aaebc2a69edb37331ca6c053513f29991bfcaf6dbf9cda9f8af, 0x38cfec7101b2ee954fa5bd1156da5c5662bc77e2b4e16d39139bbf165f5e331, 0x23940e1b0657dba41ee3c7edbe86d7ef9f3a45016a61c2dcdc39f0321af50fa2, 0x300efb612aa09a721c8feb5775c639204c092bf5adbf9d4268dd3f24a406e969, 0x1cdaab41d8141524f40389418576088f7c8aba62feb69e895d39843068dd5679, 0x1f035b6f957e84c1eaeec71e31b19518f3dec9964753a2caa1a33ba14879d0e4, 0x9ff1b666e47a433088329f94545bc44a179ff61e7988ec8c86715cdd25237fb, 0x97ad004ad339a6ab46f92a80e303e5d431fcd77b46a5b4435f383af68f7d08, 0x2189b934e1602af6e30d786a0e283f0877720cb8fe77369c37f7ac895886dc1e, 0x1903bcde38ddde14e22209d72837f9b813e437099f71263f84e18bc6414ee74, 0x81887e6be9c14e1b9ded51e9cdbfeba2001c9e6098d6ece905a0fcea98f6452, 0x26c7af1f1cee86563e9292336fb6573a0970af2c6d49d469b682188ad55561ad, 0x243e21405367c02b78c9da82c9102df9c32a26dea21da00beb62ca9e4e71fec5, 0x16e3e6bb95f28d2f321e7b63f6acddf3dd6c2e9a05aef8ba4b9151b1de10a78a, 0xb011142c18c2fd3740c07513612794c14506ad3094f440420d5265f225a84f4, 0x836b51afd8ef110a57d3d82bcb1c294a3d0c942ac20f6f407cb20ae9f0addc3, 0x1ef12a547707d7dd27529e8675e5e58c3f35bd50de464d5e9b1735ab22d95565, 0x12f1b456a3fcabb116586107e089ccb38b8ea0ac2fde6f6d464302c5f62c5776],
    [0x196b76cefdcc7f6a54c71d40114a0bb82694c936f1573ac7ac1ea3fcce1fe938, 0x16e23bc3ba612e8d4104a5a608cce0d28bf3a06c6f9024f8f829edd7c84ff5e1, 0xd4acfcea237e44009b358d998961b4719fe512aa2cdd6438aa30dd5baa6dab0, 0x93cad17aaed41e759cfeb15461f0222addf78c3a0aedea7186431c535ed46fc, 0x25e68166acd241fc301db582f896b8e314e398dad56de9f2926f9f131a81d5c0, 0x8d9b1a38c7c71b2fd5dac87ef974ddb4f7119523d81f88b0d7e16d577db060c, 0x150c5bf06a071be6de288b6deb00b6ee51ee41f96f71cdcc980a366e4049580d, 0x1820e0533ea75404ef263e570250e25f9c0bea1228df9fa90a5da8176154f089, 0x229fc7b637cf8316edc29145ed5f060a9188f10f71e078dbcb887d195e8da899, 0x1cc5470c6bd5d73eee63996481a28466499751a0a9c784abdb1c3fefe643dd81, 0xc4da78b5310d04853242a11df821ba84860fac1a2fee9fc04e25c6039bee8f4, 0x94cc155e114ff824b23e67ebb28b2bda53aa526fd3f11927db7060ededd2bc1, 0xdd872678b808e11045a657250172181e1fc7d9e2eabf893f09fc3c6be3a93c8, 0x2177c7830ac6b2cb6d01ead266a371320f7069a0de0454e5dd3a2566ff9eb716, 0x232dd9ffd97dd5068b1041fe3ed6e08e162265e9e814b85116a6561430aaf72e, 0x87726ff3cabb6294d2106931b3160809d4d1e669ed7de25374390af8ca39b4f, 0x364f607b21cfb12929ecdd65f7618ef65c8e9caacc4f42c440994d8b5dcd35b, 0x304b195fa0bffadcbb23ae2267693c7da7607eaaf40c880843ba71521edeeb40, 0x196610368a8764fcf4f0278601232bc0a5aa7ba6d20e2c5420a7862272b06749, 0x218f52826b8e2b82e86d87d7bc87fe5cc69171430488282062d7008069c89dde, 0x2a70f39b2d8cf212fe706545d1cc154d07405c1417712b388c919b35263c1343, 0x65be4ea4d6caa4125badaf16b830538527414ecd718a923c3417c474fcf5032, 0x527abf8fa6b64559c86b69eebb3f0acd94c9f23a01438ff78f034c80291d964, 0x263078abe4570cb96d27cea17fe9b493fadb3a020605cc474be08ad173dd424e, 0x2616b2e0a8970da8019208335d4cccaa489c6cb8da6a862f1867e246e1f36736, 0x255f2df1f986f154768f0fc8a5a2ced1f18d395ff01165e77d6cbda3e8b7bbd9, 0x1806ff1795d9d6c9292f980c957038acfa02ac32556c9ab826bc14a968dacc80, 0x871baf013f2fb16c067858844cd395a520d8a8bb17abe207d3138bd591dcfbe, 0x28f0493d5c747880a71a82644c20dc23cd3bdf84e05cbe0c0a1a48fa27312484, 0x2a45ef02fe1dd41641c787b8611113bec4881a56784fcfa21bd896a8205798fb, 0x7ed262400e2c66934b968e3f8713d66e85fae72ab73c6cd33eaf5b2b480f6ce, 0x17984162d397a2b3b3bf3bb04af70532c4beae81a076d0b8e1b4c54e5feb2f7c, 0x296ee291fc63605db9594241dfeb6576603a30c42d6d631d4123982adbf54cea],
    [0x196b76cefdcc7f6a54c71d40114a0bb82694c936f1573ac7ac1ea3fcce1fe938, 0x19933fc7d1aea36ed4516ea4768628c08d206e8cae12e53a61147f2301df7c31, 0x2efd792c56ad19032f4e2307f7ee338895556de653bcf50239f56a6f595a59e3, 0xd6c9475058e6029ca3162b0db37e71ca570a626e7812f8938db5bb9f54f352c, 0x2d6e38ed12eda3856592e0348ccb4fad2477619bc8a37237d4e48a8b12d0d7e5, 0x1b22798bb6b6e5711236933e2596905ec1a4eaf3c224cb8e18385857df475aea, 0xee2bfadc6c771b8279d82f54770acab798e5d7e6b6c93123cd6d871ac0f9cb2, 0x21dc8e7e1951b62eaca40550618cef0d32ff82f425264dff2743e287594d7d54, 0x1e75bf782b602b28cb11f489a17ab323dfe881a7654af175cfabadf765d2b48e, 0x2c49b7045f45347ea8498df2f5d5eb560154f3579016772dc017f6d43cfa563e, 0x1a0ac37735eabe257b9c0c25c0e8ced477833e2368678c6449c1aa4baf0f2312, 0x1f35e213914c01a5ebeb34838610578a4fba2c4a06d248e0d6b76212ef339560, 0x236ab082f2cbd2668f53ed5a9ac5f29822440e4b06543b6ff3944739edb00a52, 0x12261534f09c4b4f143717ec4e8b0afe58fc399671ff29f5fc8c3dd302eb70ee, 0x1421d8d32235caeb8e90379b3abacea1d7ce42bb1ae928840a8739d85acb3127, 0xd330afe8be63d8ace3a3a83b7da18804912e3b3c1a8ab3e556b3256f0c551c9, 0x1563b55edf443890c4729a6c84d523e1133d54bec37000b9afda8ec393c0d2fd, 0x2f6aaca00913c8a056867f42f64016d72982e3eddd62f7508c4b86651d2fc253, 0x2f31927a218ce8d5931907542909a9a8a424857218573585e1a11aac34a4ac59, 0x2245d56c69c9bcbe47ee570fa2cae8008a8bc3042410d29f84cf65adfb1d65f6, 0xa6d1a50326bf87096bcfb5acfc3a84bdf112eff86b9fd10e935b3ea5cfe52f2, 0xdca2fcb2fca35419f3ad6737417350e4fe4b3428e65d4f418143b97204355bb, 0xeff0d35806c692f93f365c7ce6d5489b513aca79eca0a6663e9bbd8820f568c, 0x761a1a536cf23aa1f57a5a10140d4b1cb968e9e3054833cd33b769db1cdd0ab, 0x4fe0a5f272499e111984cb95f691ad3533008ae70634baef9e60bb0808feec3, 0xe5e1a69a0f2521a67cbaa96783214399818adcf5104c8da98d45f3951df3d79, 0x3042f99a1751ea962828ad563e8a6d6dc438459f9b912b3b5f2567ae31b74cf5, 0x2191f2dd5699e7f46dfc7a0fb01c5abb9a34740c534690ed789a3bedbe15fa65, 0x17886ed47f13d1d49c9c24836655683cf481f3e89d2b65b9de78b591a97b87e6, 0x1913d17541b234d83fd9f7851782516da4bf4ffe9355c19400adbc995c417fc3, 0x271e99ead6dfaff8400e390541cecf5146ae0f3b86d0d94898a77b67d0f59b89, 0xb57c116f3a607094ae8b3e7a2b7ef123635bf131089ca8fc8d0264715bb72e1, 0x1e097d47d4a82b797a5ab64eecfbc5026ad25c9aab94cbcfbeed04e47aec7e78],
    [0x196b76cefdcc7f6a54c71d40114a0bb82694c936f1573ac7ac1ea3fcce1fe938, 0xeff65c0120d6929212be55e8e6ec2e468d7fddeb7951b01ad014948c174b971, 0x2a5c1de1bf17f1fbb34987d445e22e3bda9510062ee81821d20944df27d1d6f1, 0x106178470931e69d02288fd73abee97994704d2cf4c2142498fdb2487afffc91, 0x1f2d17deb1a25ec04570838e8f5caa47250c1bc16c0406017f5b2afb2b2c8b4f, 0x1ded3f9efde2ddbca11e2280038ded37eaf9a4542c959d9ea7edb29557118c00, 0x132611d30c21b4909aa39e4331d2fe2a1f532198f34588e67dc92a375b1d95bd, 0x2f5741043ed87b7272c7a0db20ad4626af621071cd0aa6759fab3518f420e751, 0x20749c10519279b7ccb82ddcf1cab67a14b26b3080022997c05ceb47da0211e0, 0x2f4b12cbeffe89cc8e0eb8fcce01ad903d14750534b107d1a5095b53f2eb994c, 0x19f437a4cf9d69d918e2bd2c1ace4309e128fb911926c4396039790db1677211, 0x2189142b8e8e62d3eabad7d3a9c92a2ffc07677dbb3927a55035436a4fe99084, 0x26deb902804c50f44397613473add31799f85b20d1232ccdc220357e87e0444b, 0x60feb6d13dc7538cdea6274969507ba784301ea76cef8af0eb914ab2339be82, 0x76ef42dd0bb069840f761558e2005af793ea5beac349c3dfb9e610933b1728d, 0x21718df0edbd2d21670fa990fc293f89f53cb169739bf7cd2b732967fd4e936b, 0x21e9e1015d05a67cb7a314fdecdd1dac563dbee2b9edab3388ec4ef9e58eeb22, 0x5fc174109c8e7779d39321d9b843cdfc1e0d89d8806e199e15edf3cbd724f8e, 0x96aa7b7315c181d4bb6527c1abe5d758908a11d1443ee30c0706b31bb43da3f, 0x100171ff805f808f17a40a9e80b4f6516ba5d39cae9cf62919e085edcb46e0d2, 0x28a6f6698a4d25726a7e7bcb50264b66a9f377f6dd42e9affc077b5bee5680ac, 0x2be4c72e7f354219484f1f1873eb38a8aca5924509c892c1fd072241d02cc624, 0x120e09a9b5ba1d13db63a4d011a2ff38845564e057c641657ec24bf5ce8e532f, 0x26c044b1e72e2ed87e620c3010acf302d6f19cb8d4d5c8554931d2e29a923da9, 0x1621a950244b5d32dae27f189970ae10d14f0803d92f67d8912eb7588469471e, 0x5065df755c536ba54bcc816f308c2e341f05d16254116d0e29bac9cd827250c, 0x18165ae1001648c8d9987e38bff84bafed3414ba2dc09eb937b73a1e636f43c7, 0x2e84dd68cccd069cad6fee65deb27c501b2a0a8c75fa6b012b6451977a1cfd14, 0x29868ed0bed932d2ae0f4ef731251a4ae59470cce43250be9f7fd55c543ce635, 0x296b41ce4bc8cdd06eef0021c564646332bbed4a8cd4216effa4a09a015b1e22, 0x2c1558f35552fb1f9fd96fbfa1cf187ab296c941f0dcf1af18063db872028d57, 0x8b1bc5debafe2cc01e92b310a9bd1b62278d9aefaf78a42ce169dbd7ccbc769, 0x2c64eb96b29fa0e07efbd86bcdaa1fcfd342ff26fcc11adb163a3e778092fb44],
    [0x196b76cefdcc7f6a54c71d40114a0bb82694c936f1573ac7ac1ea3fcce1fe938, 0x1942e0e4dc6666d050565e3041b09d79fc20e99b393b2a3c53f67467c3dc9cd1, 0x2a61fdc217a0fd51b44cda5669eb8c81b4e4cda33c07d96a3b3abf75bbb593a1, 0x27676c9245df29af49d1614b032c86d99dbdfe04e1ae951e91ca88267de9fe59, 0x796165a50209865f0c12eb768681ed7107f6e7976c76a36fe196ac36fdbc5b7, 0xc3ee0c7cbf8623447c90b90e13d290d313b6d0c466e0c4e1629e54eea175092, 0xca789430e09c72971ba49ab8cfbe88c7ee91571c1bdcebdb512adb061597f20, 0x55c78ff2ca4e60c8d1fbe3c55b15ecc28f86f30e893fbc001836cc0632c955d, 0x1b1ed198ea5aff5e8750e4fdd1b51c9e4db45a651b2d9e1b211acc3b124e31e, 0x680a0131921ff15b6f737ed1ef99bbf554e5c41ef4fd6e200bf771134512a94, 0x1c04574d4f435df24a38a6afd056c49edd61ce1dcbb160c69c6ab490716f4bd5, 0x1f79fb349db705a247e689a2db091244c30680dcbda765fbacf3f36fb7feba36, 0x1b6f45bdf0ed13a82c330a5d26eb992dbc9802f11bfc2669e3feef1c310baead, 0x1ce38cb2bbdd94c03869f6bd81e5b7a0c359a932b676c0ba6369fc4ee9271584, 0x2d918f60f8c7be29a0b6eb2d6c44c56f0cdd865fd8a19ed747f4c83a41a2d29f, 0x2b1e6bef26c3c2a5f7ec39c3be4de1c0a5bb8c1dc434570d1cf9811c71c1e2dc, 0x18231a4625a11e057412d2789b10144985ad15966fdb26809ab8091b06e3ce3c, 0x2ba1777ec04222a9f98dcaba3a5c2023e77a8071a279c726b35482d6347fece1, 0x183e2d6301b1e472e01e2360e02bc855b6f1a262a4d03517beca13ac2539fa50, 0x4e6c329b88633c6a45be6f77f5a9d0d54eda85a4e015ef7c368bb145c6978eb, 0x1f7d2b53a2456c0d398417386d87f4f760fb541cc225d0d84d9d000828b94fee, 0x1e7e8f07fc7bd7b462f36924ade2a783ed2ad47f6a7d4a5051b9774d61dc480b, 0x8ee6dc4b9baa362c6da82f6c3787aec48eee1f6ed33157d1a9bdff0cab20781, 0x1fedf46ce5f0967f0d259a7ae19e5b781a801467ab97ec9b8d50265832471e92, 0x610a62079b0c8c00ad3401ad0473fed44dcad28affdde92c74ca927a018403e, 0x2f8dcdd501988f6da1f3d80308531ea26ad2eb7017eae7d97e867ccf9e5010d7, 0x2bca9ade6aa068f60c0fd6a44e549bfd37df8499a589dbffb64b00d3c48fb730, 0x1a145fd2fdce8ce3fd02830d4c4c8a68e315fe92a38fdd0f5ff7a38d698c1c1d, 0x3874b554c5bc6c3988b1601616c70756a3f5f9de40edfbfbe0120631da540f0, 0x2eb0cb6d015c48ad9d3065a505fd42ad811fb70d9fdb5c2d537843f63b378e8e, 0x11454221dfba7bd389e8f03187a0723828428a6bb434c6d7bf20bfe5fd114b83, 0x2a10c14110838c69329a80b0b2613bd9943a3ffd25f6a1e951d0a90fed4ea8ff, 0x1e52a42d152b85d8a7807288f6f70e69634da7844d995b254f518724e4c3609c],
    [0x196b76cefdcc7f6a54c71d40114a0bb82694c936f1573ac7ac1ea3fcce1fe938, 0x2d54de07d84381601063b6e9bc507c93cded3cdab6cac3878cdc3c29720278b0, 0x2d8d4a2f762f3df73356ba6bede1b007449304d062b2267b388e058c30d321f, 0x109f39baaf3fc94e73d04fcc393a6b60af6c6e20d5953ee4a1b572857b4c0e76, 0x12d501a7112aeffcc039e330790ffb66ba390d1dde79ab5ffc723f9fbae2875a, 0x104a8ca53760ad5d9a630d85bf1d2880fc8e22a97c26864f6597b78ccda8e39a, 0x156bf185e618c82fd5622d81779e5538941258d1ea3d26923f59b002ae7f48c5, 0x177774923ca426cbb54827e2b0eea99d32c576101bac07394a15d89354e6eddf, 0x113a5bceb59274549fc1801d16c19742fc8fc2139fe584c52a7bbba2a329924e, 0xc6505ca747cb38e435eed24786617d5bf69034132a74f6464c6e802fa1fabd6, 0x118069d4c4bb4779a3c231b4f9bb10c9e51bd7bc57cfcd602ee7a6fc0e1abf95, 0x385980d35d14e90d64e9768701ebccc125891654fbb8d6b79a4ea17842a4975, 0x1916313365e0bfe0bb7bed5b5f7bd03db314de71ce80422065c503181bb61c2b, 0xbf8748279723ba405fc30c18b22b4d1c8bd2ee8a133b73c3e36170fbe2a04ba, 0x18e633e3f93f527805cc7bdfa61eab0efc189b556f7c549f1596eab99d2e0e6b, 0x152bc76d070352b5e3b4f350f4b07c8cefd23e9fa5c425a8b974d68aa3c07730, 0xd27de87e407d89aed983b9db0f81620c9dfe423d47d3de44cfe3b273bc2bf85, 0x2b50440572a0892b1c83bdb6fd2037c9ad720f13141798f8857283e01b1290e0, 0xb5b0d8f6278e41ff57cbe18be038e3467f1bcc255156a660cfd16aa2ea9ac6a, 0x1c4bbc69ba7ce83c1b223dddb0304428eb67dff461b719504d2a55c7bf380a4e, 0x224b7d772c7a5d6fde26f2ba95e000eaf6fbcfa50398579c0833093d6ab8d7e6, 0x130d060491a6bd90c3e5ee6bcff4181d9126f520c56d7d8233120e8449f0370f, 0x26e1f7aaa668655ac3e092b9c8899994ca9e596ba992fa8863b52b3137cda92a, 0xd910dfcde2f0b93948f265e861563afd9dd6326cde2a9c9489d22d62dbd3071, 0x1a92a6fba93268b439845332988535624c93b616d2e972656ffb15175455e542, 0xdb35e6ee7b9752c564e9132696f3052e39a46df1c4823fd05e246e928963d64, 0x190484fb8797efff338127ac69877789cb80eaa47f674cae2035e2d903b6dd4b, 0x281b15d146c4d56debf9f66bc0c8138b7c5be54cb206a9180987f1104347646c, 0x2fa46d89ce68066bf1ab4d304d8d9163c8203f14758eeecbaeec0725cd663813, 0x2f2ced28553cd93fd972e231deda1c8b53ec3300e9617dcaad0d2d25f2d61fa, 0x2aee5484616632c7511346d4ac900eb5de7a04994eb95b4343d3af1e388fa74b, 0x2bc085981337c2500fb80f2259d55e956963ef377ec1e2071c84639a19a581fb, 0x232d9177d238a7e2d92ff1260e60e1d1199365f4cd6f911dd08315297bb6c648],
    [0x196b76cefdcc7f6a54c71d40114a0bb82694c936f1573ac7ac1ea3fcce1fe938, 0x152e232aa2f0b5ce86a9bb8ec7c916a66ea7d3eced20c3119fa4b32227a44224, 0x2d541381556b2db0e934c244bd4f8ebbe198d35bcdfa56c77ad702ce2b4c0c5c, 0x2e3dc0bef8262414d80245ceb411511467439879f538701e9ee094f7c14e408, 0x16a011d07f05d6aa059d5c39ec295e27d697b94e0eb8ee80d090253627d54ce1, 0xf2e71fb8b1efa67f9de9fa1f2a089cf8f1a995bf2efa733b40cc406b6e25cce, 0x1231d7777e2dc2538a6a0c854cda59d734f0ce0a877b5271a1d38c67e682068e, 0x24d78b8526e7b1c0637f2797968911f101462535e1df4d7a4c151bc6ff2ce040, 0x22a988364a2deabc2ce747418dc02fef38ce6c811ee6074febd426aa59e135a4, 0x15de00a932e2679f01402db621f4226348b05436f9cf4b4d6d6419e7770d1565, 0x299e0373cd69ca5bad2e2ca004ff6dca193a9aa2e0e51de1c89770d2c260e229, 0x1f48db87438ef28954de5702992fc180e1204b139cd825af6631d8eb0a4c9bfe, 0x1bdff4383ad65036a6193cfd9f77601f48095adb5ffa44bb31a4acb8bf68b74c, 0x17644aa682a852335aa5b1532c6fda9a980fff5e94c2b6358ca83ab58a9a77ed, 0x1bfdd4600de694368af6447e16dc544f8565534d30f9581b5d81cc24a6503e26, 0x18c8230d4cad7c815b3b71d905826a94022a81cd18a26427fdba3236667b24ff, 0xe19493f16f0b05a6cbc8c6ee13f334f045868cb36c7e6013b5600e2eae2aefa, 0xd2f393e71214f36cfd6a8f7f4f02b164c0bf4116e97f7198440fb9122583e4f, 0xfee312ee60e18d3e7a6ba6bfa95e826f27a8ea0a865e3c7a7fb4e130d1c4c09, 0x22a056cd7db5815347a2d035ecefda073dcf753bffe9415afd254621fc370eab, 0xf5eabc9bc5fbb19864ef2113fc4c756e6b5f3d1dafb8abdedd3b04d0b80ae66, 0x7c235ac19bd9379c4cc01b454b43218af5b573522aed311148404f3a5c743d, 0x2d942aafd44c4635f7cc2f58e4b9314baa46e187ae91b69a70ce5ad08aae42b1, 0x18b7536ddf2baf318f7d95ceae7c059898a997099b0e006b14a9619734d101ad, 0x783549372d830804cccf9bfcadf1bb805df0cd74fdfd8a58ed78b2cd5493037, 0xd0ff56581899da5c5e06929f9211224abc1701cc590571e4243ac5380251d75, 0x10eb2ca01dbc69cf143a07d1ae33d465c21b004d93fd8ab3eccc330e8897a06d, 0x1caff794c32f783cee39dee2bf130ea89316a74d9bf6568e1d0be5a2362f4273, 0x26e43873787a976ee680508db2668f4e6c8ede06795ce54762ea9b7ca7654dba, 0x8d378aa3982d2aee08f51d4ccf75af2b06f52ab03864d95d56aba9bbfcce7e8, 0x2ff5d0d03b4b4f9d0b01d3e0db319dc28906e4dca3dfbbb4b37f99a85d1b38e2, 0x18520d1a0bea45e0d3d8bf43f25ba325c6f2fc2a854477dd7bebdd9ac94038c5, 0x48981c51b77cae321a249b580cb97b327075fbcc0e789b617e8d3694477e52],
    [0x196b76cefdcc7f6a54c71d40114a0bb82694c936f1573ac7ac1ea3fcce1fe938, 0x1487015218138ffaa0a59fa85396ac51e075d8925a724fd325424d928c654ac4, 0x158e7709256be5b46df08d1e1b0be1938aa6f4e5c70197431f5f2801cb81ce9a, 0x23ead31e3adb55af0de40f8ec4e5e40494192a137f36d6468cac8b9f8eba7888, 0xda52b842c39529943fbff3afa9c3a75d580025df3c708ca7e312396e7c7ba62, 0x20641a12ce32094370652c635921aee03831de2dbbe854b52d983dc669a0cfa4, 0xe854c479dbc2e4674a8fb297f33513eaca7d1705e71cd403b3bfda7d594d063, 0x22e3bb4d657720df9174b5bc721ec49ea213157e0a59d0fa2f2eefe9a8bd2376, 0x3f35d5ab9a8715db37918b791480b3190493266747e93b2b922f17c4a8d303b, 0x71d91869ac439a23c518effe61ce68bdd578204dc70878ea949b980e8ca5765, 0xa5afe6671b39a880f2953d521327679dfc02d2cfa739e10ec0ce898a7e606fc, 0x1a13161ee9c83cc5dad2019e320b65c9c0fb13afe6a473b03242fdf77e80607a, 0x3026cf4032ab73cad3fb5363647b3617179ff403dcb0738688848252d5b6f2e, 0x243e0c7d13dedc00a5a66e8ac3041de9cc0f107c69e38e0a5ac807fc57523424, 0x2a9fcc31d5ba75ce13add9a2fbdd4bf8478f3d286638267e8d9889236ab48999, 0x12355d3aaa77205407a218c67bf292f7389e48078ead3ad8b44a7f26b193a571, 0x2fa06fd721aac5819fb8d72118cfc36835a96a57466c5d9c7ded627ff5f0925c, 0x2009a1047f9adcaf5d077ebaa1d827ba73fff81d486a9bde79f66ddcf7b95670, 0x23afd3d3c0e2e875b2a847cd2a686c1fc3c5837f41935caffa4bc413af451491, 0x2726dd1f3fdfd05c33efe547ed972ad36a60674889b98d1786a505f73bcfe296, 0xa1f79f8deb6a176a4a20a89c2f3134f7f2288e5e698d8daf9662f79a7df7253, 0x233dbacfc9ba8c6e47588085cefa90f7ccf223ab050c4900ab2b262de8235c13, 0x24e7c1d18385735c7be8ed97b21065ad3446b3a44540e129605efcac8b1d27ed, 0x2218b114e6a493d7b5b767736aadd097ecad86b0f58972ac0efa546a5f1a4726, 0xfe60e24f84080950e79f2dd5dc8ef6dcc5eca3bc6cd608f91b9e05a4575db3b, 0x1d3ebedf3c91e56b3331c235edfab0c1de1b37c4fcc7506755a7e90b86a988ef, 0x5b18530d7ead1dfd0d305e24244c90f8e66be3ff5195efa2c7f9317db72f17e, 0xddd0529998868e7616a880793d4bfb9d9a25f7cbcf4f894d7c91443dd3a3e0f, 0x58611fb32de45f6b800200ab76e38d4d88152beb86ece1462c2129509732672, 0x2f4954ce179d833366a6cace0bb216235b5fc8331a0ef36ab40cf00881a1592f, 0x10dae4642d4de29143dd5ae8b72f56fb7800d664ee0c121c9990e88976ceb878, 0x9d1b3f83888c3b9a018f779ca69c7480aa60868a1dd1ae22d328df4667ac672, 0x1f8cb04b5c6155dd321920c129465f8033161f66a6629acbf67d0ce8609cf2f],
    [0x196b76cefdcc7f6a54c71d40114a0bb82694c936f1573ac7ac1ea3fcce1fe938, 0x697468fa48ffbef2def6f8859c1276f40ed8603b54f336a9f5bf6c986dc4472, 0x14845ae5256ccf9f52ef754d6e9f93df1320a86b1d085b642e9ac35fc8c659d4, 0x20a0e20ca969d47c57a6fbf1d7c7be6fa22100b7c59f0701d589dc3a150ee595, 0x1a54b1065df96a7fe52babdd1c8fc70975c19190d7e3f0cb6ff113eed0ac9601, 0x60a95bf72d45427efcf1df7d0374ce564d824bd9371afbf03b58a7c2b8257bd, 0xc6bae2f35f833cd1099626a254a8dfda1efb2aa199b74f9fa99777314688d8c, 0x2e075d54e2f7837c58a23049c4c5bc210731775ef5ca93689d8e411d3e25c05b, 0x7315b60ae704cd80a3649afc32608e8475c1b87ff88966d8e4bddd6bd5ca97, 0x1c5f8d20fda642dcd8db43e9361d4188a8f48dae9021b84073ca261ae50f32df, 0x13671823102cac626ae6c133fae6cc40e2a2e2d7f8a1191889988154b605a740, 0x10f3889ecee1bec4a5e6c7f0336f7d193acb1cd6cc1b5de815daea4b3b760f8d, 0x6290c4b1f8ce6ddc74050ca5d58142389edfcaaca0b3b23514e864e8aeade79, 0xc359d3a8e6913715c369908a57f93775b7efcc28d300317a9c80812d9915a1f, 0x1b7906c8c29ea1eaa52ea3073c80c666a686912cd52e0f8804d61087d3968f86, 0x140e7636bb9af6ca0bc1a25757a7ddf14325f99ac07e34c22fac95cc25b47d2a, 0x1a2ffb754f4df24371e274a2080def1f1eae921b272813446142b708219a4277, 0x8925574c3dd6d39347dcf0d188e603ba86c85d8ad8c7bb96b503be1a4b01fc0, 0xc4d557652fd1a40449b5245494f461ae0688771c6f4c6e287632ef3d9e19d86, 0x2e9c11f9d848f461f467311174d68af36dd75eaee8fdeb0938fef3412cd09e48, 0x198350eea49489bab667bac0f4c78b18f31c0d2fb615f3475ad0050bc0e99525, 0x1feaa21fb6aa40e6d3b99d464f0c9f21c0e6d29fc4733bbf6513a40ff15e4db, 0xbfe6c87d65833b8b7963d8c909b789d379c0a822c03e33591a77bde69936561, 0x9d31ad63366f19f5de31ca26fddf1223533cb9809ac773c664e86ef943a5c97, 0x2092b2bc145c4332074825b2deed1cf735a606687b4bd62d6b70147734da47f2, 0x2c650be19dcb6005092570c6981b6c6701c999aef85850dd7524c99b0eb50772, 0x1987da1e063088e505fe1c22279a2eee2ba492e2daedbf9bb7ff7fa0ea0c2244, 0x2d964e6c97f1ce9fe98ec13e03e39a1418f7b586ef6b624c9b14fa7a56d43e57, 0xe44e2dd16cd81347aa62325235cdbeac7496fb36bc98a405fb658891be8335d, 0x2b3f3be77f4eaf5ee65b1dc9420fb479926f707b6494e45c0c3456c9b1149ac1, 0x4510148cecaaa311e8815f62e0c11155a204b9e8419430708f270cc90369541, 0x121f5e52b5ed6d974d5d8b5e9d535eb69c207cdfa494e75a99a26aff13c9c3ae, 0x250897c08d5b8b109dfb0a60a31e2509ebfb5a453a57044cb4d1cee1cb36254a],
    [0x196b76cefdcc7f6a54c71d40114a0bb82694c936f1573ac7ac1ea3fcce1fe938, 0x170ded62e47a24d031e0d09a9739c181a05ffa6c072a0ae4476c8459026ac92f, 0x7a7d93f07720b729d0fc11ea7c60a819a915cf083fc5590c8034b3e299ba0c7, 0x2b38674819134ea743614550a13ff1e8c4ae2dca4c098dbae7179c8eca382411, 0x271289dc176782bc802a40e2b98935e1f0cd9cce1cf75187e8bdbfc5fdaddfa5, 0x50e0d49763f9965169c815ad6d976f2c1502d504427294ec650162b32d16249, 0x1e16a7619369f7223562609f8571294ff3134b6d2900818958abb801ed25a2a4, 0x55be327e8e9177db48e781385c7cb9fa1eaf7f944ad5806b8040d021328ff4c, 0x1e218f8a23818b358a930aaac6880250eaa814f4e5f4ab3720bcb53cdb1f06d7, 0x344ffbdf73e00c5ac9603bb8205edd7a75d44a8663da028fd643d4d6f4c2ba1, 0x127fe6bca0178af93f621d5cb8c0f000c81096f0b6d97dbdf51785ae1d35581a, 0x286df223607d95bb861a49f083b6dd9eac58b63dee9aea94b87f4a70e6e06e52, 0x8e3e56ff4056ea0cce72cac7f1ab3a3f039d5948bfe24c59667056ede70e1ff, 0x5530286c0e7eae0c6b693a0503fd0271785b1a9a8d159ead68b2777b07fb552, 0xe5a8dc54f4762a808e384f96b9af4ac56fe9a046a3ce354ce3f7b02fe5f8840, 0x12ae091a2d3ceb050262f732366d0461725681ef6a2c98e6cb2246e0821462f3, 0x1bb12b01d476fb2d879e3d80e38294091670654bba4f2cc2556bf47a7fa3e533, 0x183408f575aeeac085a605ea9934dd45294c7665bf3417c2ee55fed79fa3ff4e, 0x13ed068f2325d6098bf97f4201013c9cc366c2212817303a540fa21a530b2186, 0x86a1854cc12612ddc29d8130a224448fbb3f07faceef1c457b212865cbaf7f3, 0x28e0905fb2b0cda24805076055e7a974487c163f6e275de6f0a79c2953f42686, 0x13482a7e8bf17cbf0d729a877b9374b9bdc382818d0829df7785161c845df5a4, 0x411f1eba980a1c2246e9dbbfc95ed50786591e99706eea93b50fd4eb7732792, 0x2e4d2ef29fa7855a8479c385ee585e191afe05e4948d3afb261713ae3846944a, 0x14d0b018b332223d8d3a458536fd4bb2c8ab2765b35cfbd1b4f5af2bc7eebb85, 0x7ada6b05a15e228c703ea1deed0d89a090c888e04aeab93b903260d31fb63ab, 0x2bf8f1482d4178227da9ba8141f98d764d7d25723d12a474a0aaf2b6f500fdf, 0x1771ec5e8d202af9fbb5a6ccd92808069ff98a103ca38e60216f4c29bd138027, 0x1cc45818383e71faabb1f0947a7f2e2c6fdf84ce43bdaeb3108eb95c853b951c, 0x21ca4fbb38c5efb489a858ed9b5550cbe80765807ddeb5403956a91d3bea3921, 0xb264544c114744badd140a81312486c6ece15085107fe41743ffbc42457190b, 0x63f973d8f7955b230c3f623e86769a8f1fff6a2f16f542aa5d25450d77dfa26, 0xca567c8c6074baf8976cfb1c5d6f2d339dd69b91c3b86360bb72b6cddf2a05a],
    [0x196b76cefdcc7f6a54c71d40114a0bb82694c936f1573ac7ac1ea3fcce1fe938, 0xe84546d43156eca6ea9945a1f0bfe0d070c7b5f596a165d6f5b2db25d70c898, 0x255224468137fa5731f4a79531b0e41467fc167a73eff9a2f8606ea4b8854157, 0x5e444e0bfb3002592edf3b1a17b61aca96cc4f55369ea0b858d00a2429413b, 0x2c9547cc8c30279572f43f6c98e57d007a8d8e00afe3232f22c86d92cfb3302e, 0x128d1e7dd33b8a7eff38771210c3e2e32542927ab8a5bf70b304eac65a5e89a5, 0x117ea550387989a27267059d04eab27171d97ad177b4722b9076ac7850469259, 0x9c2d962801e81427424c3b82a3c2590f3d3a015f5d05dfae03f1646e85b83a8, 0x26d1151c34d444d61380f618137cd12d3856a5112c1a229087d5237fce352402, 0x71de2aa9593a6be60d825df98f433ccaff569e8f454b57a1a92a3a179419b40, 0x78af695ca1926d0211a0c74b15ca6a21b21530751b6c89f16a7653d7b749273, 0x10fac024afa92974f4f4b43777c31f0eaec838068e24173416e3e55f18f74229, 0x252a24164cb696970f2696824ed7ab40a422cd2f561c1add5a7b94d9c8788416, 0x2dc1cca380599b8d9c74524f5f370ecc41d22c4c792717a7ff91893c9e878bd2, 0xf1970c566c802ca51f328d7a61668732660b84701dbcdc7388dddb0d503d32b, 0x14410ae146ba19441bdfc99f88fd2425a30458ef81a97cb0757278de7c71b6e3, 0xea9dd39706c27da7b07438387714c8e986a37c6bcb9cfe0aa413edb1d426620, 0x12a0ec57214d783396e73e66cd8d163ae207afdea093f62ca08c1d03849eb81e, 0x15f6e3cd0868b4e3bdeed8670ccbd35b084b2ec7d9f70e1b0e1bf9179f4e7aa2, 0x273ffa3f96b6f990e5bac3da9121fead4c55e9a53a4cccded8ef7768777e04b7, 0x265c7d50300accd451f9d10a056a0a9c4b61960abc7ac07f405544d2be981cd3, 0x25704ec82bcf245817c0b0c38428f80e097d181fe4be674c56a431704b81220b, 0x2bc004a70f93825fc7dda4611642819d5667d0c84de02d108fa24e7553a8ed9e, 0x2c67b0e93decf3dd43ecf2affb6c8ec2681b530e89f028592649fb853ab6913d, 0x25d1957093005c4eddf0f50960ec66bb0a71e99dfe635f3882224ba50ea2a19c, 0xc05aad7df610539bee690ff338426700ee57012dfe44b456047c168d9f230f2, 0xa09feb45b441685f960784f20a9daa679ffed8343997e028fd527f1c9615f1c, 0xc3317b6e0f17024f3e8d48d7be78de51e60037b098935f715c5f7afeeee5559, 0x186002e006875015c7995b512ab297b9b6a2ace2f8b1f23384f545a47a09eb4d, 0x607f219a0a42d65871803946f468fe1a990978f7a7dc0a6565282240befe85d, 0x83054c73153f2594282f425afb21bc06076820a2a936ca2e88aa93d198ad89f, 0x1d279f18a4b248bbc61bf2647394bdced0fb95c8acee6dd036c0ede0c250049e, 0x2e9fde89ba2dcecf4a0d11815b6dd2a93ad007660b67c14e84e4845521b47755],
    [0x196b76cefdcc7f6a54c71d40114a0bb82694c936f1573ac7ac1ea3fcce1fe938, 0x66bfcf07a648bceaa19dec1031fabc57395c4dca3503000a98eba19c54fe970, 0x276ac7d1569f671ee8f23ea68b34b200488ba7f18d905e67ab0148bca152d25a, 0x2f20f2f426186af0ee321282b00a2a641ee2b251399734d15e19af27ecd42de3, 0x1c96a460e778f4af5015f52cd38cf2c41a6a9e85f6a30bb5f3435dbccb7b9e4e, 0x227da7c9930fdc00476ca6928729411b9e65bdcd361ad27b66ec4c4e5b529a57, 0x27b1127b1ce6f0686e0722d5c5a0cf8847ac68dd8eb498a1a2f6124a4e7d3eca, 0xa510ccb52f446c48a9d886d6b7a6705680356500e63b4adfc43608a30c0d5ad, 0x187297811a78c845dcc821d8193d2ae2ccc8be6fc0552f3e810ed9a2d044d7fa, 0x229793d98c198e355838ad9410d16930e88ff01e0a86b8074ff75336afff596f, 0x1214cf6c699c46ef88ff3713be9f3beec4ea27cafeed293326c7db4166b31ce9, 0x2099cfaccaaacb25e8c1730ff9d91c6f82fcf436589b18d1a092f61c766af9c2, 0x2322866854d0c03dbd891bca034f176e411dda04203b47ca04ca2c2a82aa5f23, 0xafe4184fb8af7ae9177ded93afb51dff550c90fd4ab624c95b9e0bdb275ffc5, 0x18981ec4e7b2dd5b75057171332150d62e2ebed5bc63ee632a6ccb4146745f94, 0x1fb6ac0886f9dafcda077d270effeb93aa074c26a62ea6cfd141b82324dff556, 0x2aeadacfa8410a4c07abda74bf85806b7034785279a95b17c6ec7a0ecbc4f72d, 0xe640d01e5ed243961bd4361e2d3b669bcc5bf35bbd30181e231503e0ea04329, 0x2e878ba571f0ae43c5d79cc04becc7c8e65316c9b6b83c0cd56124dd51966ffc, 0xe4671548304dc6301e30360016f37d8289e8570c4fdd1189cc7fadbc02f6719, 0x49f32a110437e1552ae6163e0890d534b044bbe2ff3839eb980ac72b15ca83d, 0x29be7fd214d5ac3a21e930773ea4404cad8e7b751b02e186711e07797362be6b, 0x6d4247fe770b6bf51c7b739fbecc3aa418f5920eef7624676835ac1ae061d66, 0x21c02a9eec894a1ac2eb56d27410ad620122e3a5adfb8a8f83ee617f9525cbd2, 0x232b4705581121f62cff2b79d0c8ea43db47514fadc741b3306a6900a0bb9021, 0x2a3137d0e0a9987d06f2fd2dc9f61c22e3df55d4929a2322242d6a6b36e6141, 0x12814250a734500401e41c65da8949663d7afe8c6868643a1dfd086389c29d15, 0x1d221587e6acdcd041bc0e164a9ca84970807de46a767383c44262cbfa1bf972, 0x115ec085da8a3839212ae49e93243a25f3b2f34c53b5786d5576e8a5e626319e, 0xcdd08d5c710e497a583166923360d16215ad9a3a1629daaab0587b45de950b9, 0x921c454f7b3d19a8c766875963305f4b4d6f7f8be1a2c4119315dff25c111a8, 0x1b87d132d08fe5a6478b2ce4f40d73b8d4522fe23a4b26e96b31c9bb6a3bed69, 0x22ae2be55bb3c7640477286be689776e1514c8872e1e0361ee36b13138d0f6fc],
    [0x196b76cefdcc7f6a54c71d40114a0bb82694c936f1573ac7ac1ea3fcce1fe938, 0x237ac6aaad2e2ade78bbbe46b6d53646c7404a2fba31795c331db8da4145e5ac, 0x2877189f4c0d9fe01baa33a2b820b84a4a3a8b92964ea9c7b2149e4a2547d527, 0x136a6e0031d277288d586824994cdd3da32221fc94bd9c961cbb4a371c6d16e4, 0x18a97e7a120e79f25dc87650a56a580604ad0fe99a7b5c93b295b7231fc13e35, 0x298a890330408d2eb3e6aa31347e4d68c1bb979a23d9c7266e63b47580fac913, 0x191d5d7b95a739bb75bf19d63f8e787dd14fe945408aa987c749ac01a4e5d476, 0x2449e2d526e2920627d993eed7cf4de57155a00e5f071f059b94eaed73645b35, 0x1a0364ee68cb9c8a7a0e801daae0ccc07d92b82686bf5bde72c074247f6767a, 0x1e88daef2272c0f1f9792a6d85f29b403deeb1f4f234522d28112c466790ce71, 0x2c4b0d1c66062af96f71c6b23ea770f5e53c39967f0d3b1a950df67c9766432e, 0x7ad869f9d13d9b270b37cf255b577346ca286f8979e546182c4b9139368d186, 0x2015d96937e823b49d8eb2f7bcf3be82a8b6ea9bf53b5fdb52a4bf72c4375a9e, 0x1ae82e2228f0080b37ac0d77083c3613fad8242b420de1a24fd6376cdc8d79f6, 0x27f0ebfa6e2ec9fed23a25c07cdf68a7dd8bec39ce045c15fa0e921b75df31dd, 0x1b129211eadf48d228e7a13a9bada042edd5164ea595d523503727419a5b6a5c, 0x1541b4e3bd42e9287b5e0bde5ad7c3ce76dd326a0e53418892067a6cfbbc1bf1, 0x3cb9cff50f4d9d174ffe46e382184d9a99306f350971156b859d76d13a4200e, 0x2191176d2fe6b3607227f17aecd711d31ace1a71987962dab59e2d4dbdfdca3f, 0x333a98f84a220a59b23b41a6eec5f1293aae65a9c1412fdbd05b6c730e7fe86, 0x1d3133dc479ed041791efd9f449ac6b7a2ab67089c2aeadc033b12389534c8ca, 0x11a957c8acc043e1dd0228a3bc3e2ca5054dad13c1c685d3fd1c7015dc541b88, 0x9ab1d5764d1ab372770e72a734f3234e944f231d55b4802feeea21ff00cffed, 0x2ab07fca009ae3784d9172cd0de7a03ab1b413207754249d54e0115671c61648, 0x2f26dcb5b014b72bf8a7df0100847754ec09bf69ab23050aa6ab45b8bd49a8b4, 0x12831914375fab4bf02d5923d4fb07f59ea7ec76fc424eada862287fac0121aa, 0xf01b766464df2a94717e0b5670db63546816d0ec951e74fabd2070364513e10, 0x1eec1596e07215f120c71f3b7fe2c872c0d1f0ecc2447cd0382ffc1b3d74ccb9, 0x13a9df3f6c9c0363c8e81bb2ec06ac0124cacc3aafbfcb99ce0d12b15c1d960f, 0x9941a17ae1ed8d69ce140125c49306cae9ea0a037563cd93dadcc09c1b8994a, 0x790fc3d447ed1058bd5eca57d37adba8d645d5c42e7441e5c508e6cb2a7d581, 0xe11f8951edc551adc073326138ef3493ec812ed643400c53da02d49033963c0, 0x1ef50d438e0fb3260e615f2044df40bcf70bfadc6b819481222ddc36e39cf1c2],
    [0x196b76cefdcc7f6a54c71d40114a0bb82694c936f1573ac7ac1ea3fcce1fe938, 0x19a6c9e51754a1ba0ac6f28381aa453e929951403794d3f57566adca54593cee, 0x2fe2b32027a048ab3c9fe57e0e0e63168c1beabe9cc3f5328bfc6e2620d1c0a8, 0x252a353865d1bf6df4e243baea612d8d67a58c9b91b68be6f6ab9fd6cfa6f052, 0x2445b945a65afd2c8c6d1e12224f0e1b5a7a4ea158a67dd4617f8d408239bd68, 0x2aedc3a83dc324a21fc06b06f1394d6a5636c2f191f252e9d927ccab3b8a47d2, 0x11ef3c2372ad8e0fedad2ada9740cf104fddfe5f26a74759e174eefa6f5aae49, 0x16540a4f6d867388866e79a4f327c50bc06c7abf88df4fab1af55b9693c0833d, 0x226a8cf3b4fd93fb027602a84e5c84e19fabdb3c6b0641903107238e7473f4d0, 0x15829949331aecf0006a9e8f46f028a13efb7754976721622d65b6f9cac5756f, 0x219a0633cbffa129b8be664c32a15d8c6f307fb00fa27267628de8a7cbd4da12, 0xdef3ce304e0b1f868a4036fb628bce381a92931de8dd658f9a4db69808c2c5c, 0x2bccbcda22270d6c62effb8e392bb7fb97637993bc102538c5cd58e88a228a4e, 0x188172fe781d7b1804c9875e732ae5ba92da30e3fe79193172a9b2ad266b912f, 0x1f30e5d70cc514c78a878299f52f298eaefbc73811fd69a8af04d6e1b235f8fc, 0x36dd7eb2d37c58f0064ef539c409ff1b2866f3e37995a0e6b63d2e12794a65d, 0x2943d171cc678d4b3e7bde9fba8cc6bec123fd9e18001704074c6b53b2d7fa55, 0x16d3bd98a136cc6ed17d71e7ed150e659bc21e304859d7e91db4a75311b12c17, 0x2cc46361954b156f22dea4b4e5836d017ad5e866df6f9179696836eb0b9ecde5, 0x2093732993458c1dc5075a90772eeb28239503ebd2aee0b0831f253b5795f431, 0x26fb0a33d8ba99f9d666fe22149b4b9c288f7a356f7d4d62ca019c426eae56f6, 0x2ca9e5344928b4c5f6f6d72ec4bbf9f331563b93f78c5b6c693f9ca05a03b9d7, 0xf86ace9eeacefd133e6f9e5b27e768d4dc41fa8a4b6d0b643d59a99b972b97e, 0x16aa6528c3e5ca07060d40caf2050fc7c1199f3ea08c4bd2841f8816f8ddbbb6, 0x1aaf0a3512751441abaf663b51bccc82b4aa9e031f95fc5ad831b6f5104b32e8, 0x1693d12dc33373065921094c6ffb59f1f0361b0c5ce1b20e8f3f4f1bae805df, 0x1a5b1eec5d855cc716abacd6b5ef79ad4813bc74fa3265e0f4966768088e24a5, 0x1a98219aa97845f039309ae314e1658caf33c72235d5a045a11231048dc85871, 0x27d38feb2f3ca73be6e78b2f51db9e904bd78d3f7ed495634b22c29b28847943, 0x27b21eb7516a84220bc79c6ba5a35fde0c5804d4dc2b469f034f93245cd58e64, 0x10882cc54c76c057e84e296d8568fd68a41a86bb595cfe644def5dee16e2b60c, 0x2a5a015eeff7cd48c5f9d66baee6647ebf41fe73f15999b85aa738249667f809, 0xbb55ca8ec263593081a7f140c88ff0eca81548ce6c2fc66d3c9041e7e61a52d],
    [0x196b76cefdcc7f6a54c71d40114a0bb82694c936f1573ac7ac1ea3fcce1fe938, 0x11a95faf7782644e66dd690770be8d58aff9b21c252a17353159e8e6a9cd2d04, 0x1809bc4f74f8da0e56320179b35cfccf08531a383f8f38f055567f54de408856, 0x29576ebe8b472aab3c418866b657b4bead5aebeb46731ac1686234f997c8064d, 0x15fdd752a74e076a3bacc425ac17ef974ab4ce00d98e3b766e4e9da506338bf, 0xa39afeb11772f20bd44212cc5274dbaaeb912c073ab120a0e3a5cff2f95321b, 0x1bd3c83976780db74f4bf261b609505ba17d4269a823fac360138142fb482bc2, 0x2455035975952299afab678e90178017ae59c02e88b66acbfd33a9a97e4053ec, 0xf54c6e582707940d37a81057e0331967328f0402b139f40a152a537050d4eea, 0xf3edf4b1021df9ee75bf77288e35c135bef2e641317adbff2cacd1cd63dfa68, 0x15a4b29ef2de3e66e4ecbd99b63fe784c3d163534087d6e752935e3a66a81061, 0x22de01c525edac04ce6418e44df62cfce81abc3238c0832a5721e81410124db, 0x2f75cfbb2d72a93661691b3c313d73cbf48e570aff4a8981565691dbe6e7244e, 0x176215e6dde458ba94fe6cd32886ab490c44d3f35708fb83ac032957477470e5, 0x125224651632beae2362689f3f298c3d1cdde20786b700cf154dadf04aea02b2, 0x25adc0480ab90662ace18ed71d4ec243b5d118bedf866880e5112278621657ea, 0xf1656323cf512ca13dd9d53b6fea48d0bc03b7a0a510a1d1c376d7c879c0a6d, 0x1f7fca35f19d9bc9a9c510bd904477a82a779df52b3d938a34ad370bcbe107a9, 0x1650f10d70200c4cf9188ae72b638a48efa885d0d57e4eef3bad1908117cae47, 0x2efa5eaf0d9848a2ba0426becb0edb4127f4afa0b9532f3cc8f63fdc6f9f14a3, 0xad402c14a8aefcb0dc67b5d3c1df188d1cece3de0f53cb313bd630594e20123, 0x9874e7aac804e0a72c21eff6800d99327636c1bd05752cd398c2e19210a92c2, 0x127d6e66dc4de7272bc0e6174ca40f48618e1c90ce71f173e0363278e6e26edb, 0x178b0d219dc9fb0d491fdca28d89d4f41d0e650c29d8097a6ef982a3d45686ee, 0x856563611627d9d176f629668c19a7195b0bef83a02011485596c0fb37595bc, 0x4f01e13e7e01f0fb607f39a334e5ac5a14649c65007df2e0125d2c07f165f4c, 0x2fdd1f6a4746ffc3721fe601b31335874a23c0353b217cc6a65f98b52c48c32c, 0x17732cc9a7ab756b3ed24f4b5cd348b27c476b0804a47e8e8024fca28b858022, 0x8f9e4a25ef65884dd6b159c396447f11f374cf781a8932b436e428d8407efb0, 0x185536364010888ec827263bd36282a0609556021920ad8349159c80d6895398, 0x1fd0879f9628b76eaf032db092bb6caf8a03c437a8e7cc0c81c9531213d61b8b, 0x122fc02a0d06dcaa8bc1ba52dc7905ca13f2766023a8e7811876071cb0bcbaf8, 0x8130052ffef7fbdc6d1bd38334212f34f3715f0bd1dfc1b36eb58331f5e9106],
    [0x196b76cefdcc7f6a54c71d40114a0bb82694c936f1573ac7ac1ea3fcce1fe938, 0x21c85453b5c8f53b3e43499159ccef5152fc9bc3b14cf1d67e4a80e49bd83b, 0x273d34ed60e945fe972b67c2c155653e1c5c38c4cdff7c5753de7c68d3bc3261, 0xed8f8c0b64423895664ee04c994ffbf1aed16eb8f6d2c05b46edf07a56d2777, 0x9dbc162c39375cf6247de315a85e1730c451e59671499b7bab9f73ec47c70c2, 0x2bcc328db7c571f892d3d934ae7c031792571d716f51494e8b10fad60b9f52af, 0xf2333e3ab2c7a3c13420d4380f2a8fc867538db7882a5fa6a8d899e4981889a, 0x1bebbd7c3e88b63ed37c373e359a741a38d1b8de608adcc050b051dff7b51580, 0x101b1cfce09e9afbcc995aee85711574de371ff76a293ecb26b4796a16bc57e9, 0x9866b876de53973d54aa01a3095719031e0a5ea78e26194422dfaa80c7e39b8, 0xd34bbeadd10a0556a40cb0e5f84ffd96baa82621d7d850260115312fef1a5ce, 0x1dcdcddcc0aa7ee28522e5b331b2805fb95a75d2e90f876940091c4c57345433, 0x222013e1cb04b56d232f806664f4b950bee1c8965d49dfe59c7d9a7f37be70a4, 0x140eb0a40f600989bc70937e2fb3db0e1cbf4ee953bb5dfb11c3ac257105acbf, 0x1c2a10c01046a2bd06eca1a7850d8815dba9dcb5002710d469763ee12ce733e, 0x4be5c9c1a16eaf24f0fd62603edfab2a731488c6f0066a29bdd96f8595f903f, 0x2aa1bd7546c15d05452c1ecec07be1a96d1a916f6306f11eaf52145be3efc41d, 0x1ea9d7108069582c4db4000fe9c999d50a6732feff50099ed5863996a0f4dfc2, 0x244b02346c1e7aa223e1cd73cc84de1c6a729e722410bcd9c6c21c10f81aca3, 0x818f382294f0d2ad1e50c908d6d58b0567eace452491c7e7e2ec8f02dcdf30f, 0x1a889d417861f076033045816bd9d152dc38a64344876435c43145551e938c57, 0x2a741e0f1842497fbf481fdb838af76f016c7c7f902d0f1cf91946d9b19b8f0, 0x6da5a57ba1e1f0e02b65254d7ba4170ad9f42f8c2e209dd3482d9d100dcb69c, 0x2b015d97e986c22f639d439958e5582192ae2a3c5e63a93876ee2cef01cc64aa, 0xe6fd84ece440532b1d2a84794a2c0905d14dedf21f1cb88ef011d6d40a44966, 0x180cc40f9b1a551d6f21a2616a31fb14ae3de6cd3f90905090112f08cd2a517f, 0x113bdae7dcdb55a5a29449e0196a7ca19785e8f406aaf81d74f7c658604d7b5a, 0xaea1a111b956238e2034bd82eb6566729d6b744738d0f907c24e91cf0e270d9, 0x2d877c0d3637dccbce6fced14de0db189ea37e2192595d31ef7be35042b49789, 0x64a1369e5439801597f5f4e2a95058e001cc3b7d449aa87f991c81219590592, 0x133405bb6e5e245a0ec3785cd300ed55706f465191cc6af05debfc09ff323eed, 0x228bca7f9390e0cfe1125af0b7ceb2b228fe7d373e3bfe077385682669dd6231, 0x90116384ea569082bdf437341c03094a1f388ee217c0e6aba3987a55cf62d3f],
    [0x196b76cefdcc7f6a54c71d40114a0bb82694c936f1573ac7ac1ea3fcce1fe938, 0x2dcedcc12959aba1b815150ec24051fb4dd8440208b0f4eef706f364709fd64e, 0x4aa0509e7a94554490885f0bc0055b4f23a003e14a2cdc51a8f1500b738512c, 0x1ad3b6634a63d1bd97d8d745888387e7030be2bd5219c84de5a4b21f6e6d5c9f, 0x2722ff91fab311d5cd493305ca2e581d23ab35103b7a31d7436fb4351e5167c2, 0x1756e34f7af0be32dc4312c914ac48b60ed892e0a941866b5990c475326a0a08, 0x1f9681a26d581ac87fc486d845382aa8afb31782fcdc16ae3e996bf79e8910da, 0x2c407593aa6fea946d0ec1289e59dc993dbc1d689a02efefd916c42b56d4e056, 0x12d5a1f35a3bee7be87beb690bef3b422d4db19f18f457345c5b13732213de41, 0x1e444d4510e2cb542a4bd1af5232ab8376e5998f69193243509b05648b59e317, 0x1c51186bd573f6d8e39dc9e5f85ad954ee64951ba2455dcd9f415b2ef44813ae, 0x24c84617d0f0266fcf18464eb08422f51633915380696b571dfcd52fdcab3825, 0x4894d26fbb969454287e1560c81f0bd33e93a0ff0e360f882f03621ffbb724, 0xd669e170c4428089bb490e8af37bf2b4885f61f49154eaf4bca6867321330cf, 0x54ead1e70a68a2a5bf0f9831c8b37e0c4692840a5eecce2f10842aa9ff4c77d, 0xaffcbcca6d353dc0060f6c0e87a7ed6926d6518e2e20181e76b0ebc3e55738b, 0x21fca621016a771a181efcaff53647cf8ac55c30813c7e1b7e0c54b1b14d4fe1, 0x12f2e46957b88910c30c9554fd01780e074870fb9df0252cb735dec70dfdd6df, 0x16baad45361a5052c6008a02803656108d8bcf1ab65f3d1ee9c866e2a04f1713, 0x202cfdc4cb85ce703b7ac41cbf904593481c951f9faa52e44594c3d0aff5f070, 0x2782837366366c2f9b943714e6a11097321394713577fe59dbe72a78f4d93741, 0xdd863bc6e9a0abd947b2684abe555a269da1eb7a491ea6c5d3c44e0cbdbc0d6, 0x2b1ab0a5b5516d7a4f31b68c93f21638a3bbb9ed321b9915412b422929e8d42d, 0x247c684cc872df52c2396d52f5c691e459e181546cd644fba41843beda35f07f, 0x17b09bebdffdacc6d3abdfd4fddeb0a1d04150563119def60d9ae9de6b13d0b9, 0x20377c6ac1d667eeaf88e001648da149ea26ecbaacaf079f0a089fd6ec42694d, 0x27baae8b9a93a09459ff4c88150b93e9fa3fdeb4d719d37e4fb03b29afde1b0f, 0xe105b04d1d6efb0def9dd3f43655181cbe4a1ea329e779cec335e27190d0840, 0x1684a9463b01286e5ddac76b990c6ae285c81fc4f7e7715b1ddc827e5caa82f4, 0x1a1171d2f0e3c131bab4ed613fa111bb85f3605028028f5c1337b4ab542af356, 0x228742f926c112c443bc2e362be8a44c49ed66e17038f7be297d51482c548ad4, 0x10bd84eea945febb47f7296e5bb833378ec26f61c36d954b87a5423754b0d1d1, 0x2d17cac96f225898038e5ec16560f6563f768a7e127bf10ff8ce1bba63d032f],
    [0x196b76cefdcc7f6a54c71d40114a0bb82694c936f1573ac7ac1ea3fcce1fe938, 0x23091d6274d72f0516c11e52c62a89e2c218acfcec269d8588246bc63dafd307, 0x9400b7e97812bf8321b96b3c4bb695dab509934e197ef9393d9921a320fdc5e, 0x1c9c8e269b7b5d2527e20b5d340f2978fe4f0b969e2b1f33b5ad8ace05931036, 0x29bcaf9978fe301ee64f032f3b6c5aee47fa89a118490ece975e4765a688e277, 0x2c43ee462e5eaa57409884a4bf82116fc74f060cd3ed87b249066bd753e57833, 0x1045ea9efdd2d37654f2f419bc1c1e07dffc13a78e78329d66a80e816b75e0f, 0xbdd990f09c0fbfcafb0ad5d2e7609fc639f4643262b9fe6064b1cd9f59fea9f, 0x1cc3aecb65d88c117e077773b2ac321f1e35552bb82ecfafc19a6d7f58cca0b5, 0x234ca75eda2b98da7aa4bcbdaf01b94a0ba116a7cd4def0864e27ba56623ac56, 0x1e5844a479ef874349416efe4ad14c691bbd4d60b6a069ff6fccf0b4268368a8, 0x15cf4b909eddcc0af84d45aa2a5ce40f004cea2337de82214b5b1b8bc25fafc7, 0x21fcbaa23db9816f459fe5dea6035f4416bfea9e46b1ab150335fc986a5d3454, 0x23096d193c542015f5ea72945e427601d8c5213652cc7bed15a26118408f3528, 0x11ef3930fae556e5688b2e5c5b646a9bcf2cc8c9ed84699798e380534da1ba1a, 0xb2804a0c39e0406220d23e5180ea34743b823259dc5c037e27fa14d97aa1236, 0x293618a713ae76e001654396f1e7ce9885f07515d1a52ae6188bb68411cde19, 0x2083bc523f48f2310fd04db4378e73b3e4a774c04c82721c347d841cd429c1ee, 0xaf7b362c84812df2052d0e04ad07d830100079327567a741f0e33b05f20a3af, 0x2f0a9bfa024571a9eaebb8b6c838ee153298f8d66282665b8d413e67fb9cfe75, 0x8e5f97cf239846c4bb22151c4fc6b54f6c078339d48834cb674108ebcd533d8, 0x2ad7be60b34c132d62758a699ee2b9b9902b5a66f4d0a1732957fa312693130b, 0x2bd813ea81fd2be04cf74361aa9ec03890ae9dc9f2c62e392aa0077bcef5c39f, 0x2e720551011b0b99d8a0265f870ec80f9b866a0a5f158a2baf5647f07ebe9982, 0x2bf18b6a692d4c64185b59523fd75a045a4844d8df2d931c739fa453740b3cc1, 0x1c166f7ccb69a59db6b374b355fb08d50eaf4df7760b2c3084b229e822d858d4, 0x79b610d77c02e9a71628bdb9524d75ae9822b98d32f5bc8624e3512fadac097, 0x1916de884fe9cac13806c4f7061488f0a57abd1ae403ab0257d21b48a0e411ee, 0xf107fa1c9d4a774cfc10bcbc3b38fd7078e0f374b5e9bdb38e1e04d26d3c383, 0x1b3ef1482c15923666e1cd5dadca82661bfec0a3a58f89e54fbe8fe2428669e9, 0xa27ba24a2a7ad35ec53a125a0447abffccc68a9158523ff88cfd738b0212802, 0x1a525ed62eff06bd139f3fa58d088c836c381a9ef859bf16d0c4ed2400463a4f, 0x822eb9645c965d4f6b677191294e0b5c757d448ce5266f76ae8ff8898b6d0df],
    [0x196b76cefdcc7f6a54c71d40114a0bb82694c936f1573ac7ac1ea3fcce1fe938, 0x1af46f08f6cf19a75e2deca250a062244a541413cca7183cdfb8ff3496283677, 0x1839ce61b8c72bdac116fb26e68db1136b21e762a80dc263434ceae93e71e226, 0x7bcd29e7a46c57bad325631b9dc70f779746e4e3e83b6149cf7d65224299cc1, 0xa58deb34a1aa7a97fbd6de55294ad6ed911731da0f1973bb30cc4e50f974633, 0xc189862d767c9d55128b55fbad2c53c3c7f09f3cc3805404bab81d881c1f79, 0x3f08f5db02c8c4197fbb743163fa98e215093b833ca0c1d709a30517f1bff67, 0x1bd997c5ae62f46a4fa08c71dd8281fa20da177c45a5b5e0ea4cbe42a9d768bc, 0x1dcdc615a1d29786c2a6b9d356e15f14b0516022da0c8237329d9ce31e6c9064, 0x2125c1065d8c42af0dbc0d44be29723de30316bb190e487fac79c6c65180c6da, 0x2a9dd846b9a9250303ea18da7dd2f67d8525074d4259656b9d0def7f2ee018d1, 0x2a1da460ab707f31653862ab6df0bfaf474d39cb909d7b84314482ad8015bcb8, 0x2f4620be83dd42a9810cef816801cd8a77d59146753fd9589a4437f43c44e295, 0x2390bc3ee228ab2dcae07fd77d2f2b82b39be4a3fa9d15a82678d487a4ced7e3, 0xa0245ae7c93aaba110979562f1bb38e2d6e47f8f58146c2e0af29a42a8f2225, 0x27e3d9f7c0d6c32a9db8c79a3fff7227825679bac449cc5567f21edc213d94a9, 0x2172e74151fc03eb201e3e300b2a085798e6d27426da9b9e2eceac40374c95b6, 0x246a685246a9403eb01cdb380b39b49b35d649136870954260afc23e51129460, 0x4f050f7043b183cf35f65e5590bd1ef9b1a88b9a1154e5a6b48b90367679ccf, 0x1ad58c70ac13714b721c7e1e43474983524bf5ed75ea0a375964c17eef897acd, 0x9d3719d52186421cbe870a8dc16ca12d479447bbc1b7209991d2ada9cdd0552, 0xb2d605b80d2d16b8bcc936be91a9b58bf372160c58214d5d05340268db293e7, 0x15efc1be172f0c1cf80c28816163d6281796fe3f767449dce700031a9809382e, 0x18a72ca7580618a6772dc37da2d0ec3721130a93ed2baf7ee8a458215351c5bd, 0x18495f1fa2b09573b0122a6f3bbc62dc8eda0c773c24cfec946631bd226a5222, 0x22835e515350739783c361cb745419032be6d7a16c27cde776cd9a43509d5027, 0xfbf1fa536a4d74e1eb517dcb715dbd57e9c879fdd1184956e1aea742c4b0c11, 0x1bfa4ad591bc024f156f69c1c6ce033e65507f6f2a1b50f9a370ea96dffb4fe1, 0xb48ee00c1a3b873da040822c8d84a7d413b07806c5ef6ee1670502a2797788d, 0x1b0c2c9ff1649fda06155af9c401957dad06ba11c9d6c284ac3d7f6b2e02196f, 0x11b9857c7ac1e55d6696b9323eacd2b75e8e64d863221f4c49b50c0af4ddc907, 0x4d2913e434864bcadcd0a0f187751dbcfee68f8d42eda00afdf9fcc254a9297, 0xd47a86ba4e4c33ab37f00aaefefacf692c1baf9b37db068097f619f44061fb1],
    [0x196b76cefdcc7f6a54c71d40114a0bb82694c936f1573ac7ac1ea3fcce1fe938, 0x2ee08c0e4d7f163fcd113539b4be76d5b8c6dcc306994016e2f50b4065ac0c65, 0x2e4ee3771e570cac361666fbb6230033f0d2e5df5a43207f4c8c4642fc9ca473, 0x22e78c9bd18311d225b9f88c117cb18e658747d500bbbf61c291fe7ebe2bed, 0x1b015cfa490fa705be3b9f5645d4daa23c2098cb0939f019d1697019b00a4435, 0x153d716532b1856b425b07c5cf73f7ec4bad3458ff9e031d6c191da0c5150f5a, 0x25ddff7645c1cdaabb52a3ae26931620a4186ed35cb914b0cb76bec51f7b561a, 0x21bdea71747a451c7e825e508ee4c40df40404c011cd5f7dd62ced05f3841437, 0x2feda62db255b655f3be96a4847d2f1691ce658456697ecc602589c3ff0674db, 0xd3187541007936963cd4bb6c93596b7cfa56d828df39d9f8ff05d934def0ffe, 0x26e633f970dbba038ffa30d735ff34541108e2f7bc0e58fb25b8d038eb574c1d, 0x23c8473f9504bc04266fa76bf7064d8980fac8454fbf44f68c5e93fc37bbfd9b, 0x187a7a328ebe30f3fef7620ec582ae3b457ed1d8dff8a30d60c518c1d3f8502a, 0x1072a4199dd532ae3d36f2c3f07359148be4d81ca1f1ec06bcec2c94b50030d5, 0x1d9c9c64cced19734c56f62f6adedccf54aadb170d499a91617c7bc34f0207a, 0x1b09945179822511bc0b3b20afb76f146b119051e2c6c8f5b9dde03cc761b170, 0x29d1379f40c09d9a8105f1814f9cf4cfa8419d5442c22575a0f9836ff6728216, 0x200809b6e7114084a23b259cc6dd8d4aa9beca3ee806557a250f98523363d583, 0x13169f87f4d5bcdc80277fd4bf931744a09d4b0332e4e54dc351ec16f256db24, 0x22486dcd2b50c5a6e8b08cdbe012907083817073b975a842751aaa497389a092, 0x986aed7b10fc9cff4a80d5e338f69eae4aa25b45d931499fbe7080fe13a841, 0x2a3346c974a7faa8f021c72b4b516dc527033dd96dd87a29013a54ff235069d0, 0x1ac08487b535338f18f39bbb2410e0c04feed1b023c2b31a69c42843b46c7b4e, 0x2db4eb2420d57123dc86f82c289788f4f5882143e70237ed7aed2b318f2f3f6a, 0x179e156f0f6229e6259dcb656daddb273efbdc57b78b1800b3fd492ad4e2ee85, 0x18f1ed42c2dca995ba6b2b418378159005da5fd6d46f31d424e404fdf85ecd0e, 0x12d1ddb3125c15c61e1a07709ecd1782cad928312bf4d32dabc0f3244b98c067, 0x19a555ee9a57b0f249f762e63f02fc9dc41421569e40146d27b805d6926dbd17, 0x22905039eb92f068da4da7f2bafe65b1743fc2ac15dbd1dfb50b6a8b890fc933, 0x2aad30b3fda588c43367320323c66ea6cf3137cdcf1306e93d173f1a5f5bab0a, 0x661d95dafea3da65844c73147d86b8a152a0c737c6550d2a590597b6be28986, 0x149f69bee6b12529d2a1332a22ff6cae413b864da5232181dce528343488fb9c, 0x2f40107da2eba4e1d816cf7cd488861863a460e5e00780c3c07f56c946096b24],
    [0x196b76cefdcc7f6a54c71d40114a0bb82694c936f1573ac7ac1ea3fcce1fe938, 0x89517399fdafcc090ffacbfa0f82b1a356c182a9b8bee5a125afa14416693a0, 0x1eb0320ce68e5c0a8b9b6c8ceedddf2eec4a8dffc775f43aa9545f4432f1597, 0x9b3b380291ed46dae5ec6779af517d4c8253ef609e78a3611e09a6a9ebcfb76, 0x2712ea45ea88a54e4899de133f9d02454004209aea0434ed07cd33c9305c0107, 0x13e4cec6c5fcb7a55d2c5c9e0dcab0ff3a3f7c26edb5c0c5f5bc00c036817e9d, 0x132f73f3a5a70fe12bd077c340752e6837ebebea4e7e8c06672c3e0c09aa2436, 0x24f5ae848c7765ed4cb20417114c602e8186fb02d209b22262ef6b2f9f4c2d4f, 0x1f3203e2946c3e784da190ea76628d98ce46cec50d7720c6289b9a10b029102b, 0x405b17b0927364ef8a190472cf69cc8fb91338ad0a037a6ccd6b71d3d8a5721, 0xd7be909c6d203f7ebbb26f688c104599e34edad7bd4fa7fc11c6be8d2005234, 0x23b843266076f360c24e39af50a5f74adf3ba002859b6bb7d503abf45cc9d338, 0x12ecdca40e7a5ab513a78862d77f90435ce4ca0835a966112e42457c93520039, 0x248096c473071c7c2d5c8dd84006c245c6152e0f86221d82f9d0b2ef68a0c1ea, 0x1200227f631558e2d83c5b6c386dbccd8c019b327190ae6c21f5e6ab44bfc644, 0x1d757abb199a6c84d960aab443cefeb6d6e433b5cebfeb198f803eee3effc0ae, 0x273c19ee6be35b4b8999349c7b7b83cb57aa165f0b302a2d852be61e83409d9d, 0x2d1ca26ca5d5dce1ea42db19426bd074157d35e28ac98e9d0e25cc710354ed88, 0x2ecbd2ea29341b707d79a20744740982390655279542f9837e77f89b127d4a6, 0x266a6643f4b1c323fd22d8bd34c4f9c431032f05b0c856e107d92c70d4bd5134, 0x1062e99d5dbee4ab0c047ac41ccb0121b492e604fe10e2db4ad43ddf677f4266, 0x15f2b18d006fb5f2bf5801f8973bb94ec3d4b03e8d656a59bc09954783ee2b6c, 0x72368c0d5eff7b59f5b07b27540e85ea042a1c80ef063554f53982bc581dddb, 0x17aa521645020d9a4914e5679bdc70c0772edabae0f82c0ec5ec29289e0cf286, 0x2f968cd2126db9260be98ac5a64250d6b1dc60db752ce86342dea9d7d6eee209, 0x1824ed09caa77169c3188a0a3287faa284ed7a51977826f1f64a1c2be32c909f, 0x2b8fbabf299d9da38fbd033dc61444ae2500c1205b785a5fab8996dd9fd2ce68, 0x1be598eea60828e10e0c4cbea95736584eb83c6ac8427320802d9083f5e6dd31, 0x463af34caf20c7b2cfc3ba540ac128fae440690c1fbf4bd815ea2b854183ea5, 0x2dbc1aa280bb43c06573fd90ab5f0530ad450b992bcec2797ce0adf60937ebef, 0x2aa7cd41625eeed2f8e460ce63d2bafd64329959d40cc2e6fe1d5c48be5c501, 0xe3c80439636f2b40b1ed8d33f792f2a5d2e602da651491913ba45df63e777de, 0x3ae4d78e90fa89f943dc0b4c56d32f5c846734071ea1bf6bafeed9e83f40f4],
    [0x196b76cefdcc7f6a54c71d40114a0bb82694c936f1573ac7ac1ea3fcce1fe938, 0x1f3ba6f2a0ace67807ff54fb3752a740b90d4098ff54718df07cf6b99b4a3611, 0x2b2d8688621a0b62968c64cab0db27f41a51b32a84980ef31760d2365d2c3c31, 0x27ecb287f3d9aaf1137d4058abd749febc280bdf70dfb7e5b61a7efbdb32371a, 0xda7a17691f64048331fdfa135dc56a636b1bb8e1c08ba7cb06e9bb1a8f5dc22, 0x228e87cff48ac1eecddd22fa3f50214fe0505cceb58e8aa515a9b21a22cde940, 0xbb1e094527421fde9a1229ff4878eef766152df2998fcfa44ac7b71906bdefb, 0x2162e5b127d7ea5fb675aa6be31013c2b9d9429324fab62ba9ce1ca21b3c5f2, 0x5e7c2a9c59abe90189615a15ad93e146c27642aadc29e4e40b8dd9cb735f4e7, 0x3b7e7cd0a61c8a953ce16bb6adf8f61f49b560e1991497ec3af678413535e12, 0x2b48a6d7de08553fae906852fc7fb1661e6f5036185a3f1a75c9a9abd0c784cf, 0x1451c962e6d5dd24e45dc7e078dc64fcf59634073c13cbdc5b8792a51ffb8e37, 0x22aba4d49ebc306f4b7b4e2bc7b7a1ff4411d89890f9fa5ba2408cfdfbfd18ae, 0x8edd76a666b9264c34b0069c62d2cb61bbeee55882ea1625d3e178544cae4a3, 0x1cfa9bda9fe33f9db0b1d190eea07fb0dc6855b74ef166743abf80aaa1504fbb, 0x21825a8220bc43bf14b06dbd2b92424547a3fcd0e8b0d7ac7543f56382f98732, 0x22a03c9f4361294621f902a43008812d5bfacad871172c3004b7b58126690dc0, 0x2c4d459fcf7b58e7d7308af04d943530955cede00e37d3ed491b86f05c49beae, 0xe099659a946824830b1fc5e17d4d60343f2879ef488fa45a9e3b3af3e80a143, 0x3b256a5437fa8edaf6d7bf9a7b2e695f06dcbe80aebdca4f30e28c8c4a49882, 0x473c1deeb016648a6d5f3d0fa4bf31d1d4b9b6ceb0c7f4a76051515104a617d, 0xa21735e2b1040d8dfc4685c5c5a42ed07a02c216465ccdd3134c157361995d3, 0x1a0b96ee186897808d9130525778e13d2259a406282456b2edf84434e081716, 0x110d5d3866aa52ac620b233dc0d892c39f9e376307a7310c994c8aeac1233f4d, 0x1fa9ce9d08bc9ef43200929b5512236852d4fdfb607f5ef24ccb666dbdf053c4, 0x8b8fb57cdb79ddadf41dd3da20efbdcd502e89c8e21323ec99f0aa99b27dfea, 0x20e451f487bf7f30afe6895258df980c732440567ef2be720f683b4d9bce93e4, 0x18934ccd6b94d3d27af8fcd8f02b3b2aebe21465b9259c7def51799f1d971901, 0x2502b2fcb6acfdf7bfdda3e968afc622b949e55d567100c4007fa0b9405936e1, 0x1e22a9af8fdfe9185346e22a28e4fa435f64c8e0f382ef20f27c0f19df51e520, 0x1bacd78770219cde479b8dee99d460c73a22f674ed0066ecc55d2344c72a0fed, 0x1c5dcc7784cb1a230304a6905b05621618b89498a827ea77293b96d8fad9fe3, 0x1514f7a6184d2f5de98511d358572d7d89d33bb2c6d27a5fdd768178af4d7789],
    [0x196b76cefdcc7f6a54c71d40114a0bb82694c936f1573ac7ac1ea3fcce1fe938, 0x2871dab4aed8cf27bf0e9a2f02f0e7f9c46057ea80fa64d358c4acd2bfbf35ca, 0x16b48bc071b2d9d75c6715e959788a5c2c634a7ee951f61c6c252f9f4c96e139, 0x2423991e2cecb8c7d0cbf1f6c75a96fdd9cc3e1d3404891054070888cf58c027, 0xaf6489dcffa0471166ddb75d46bcbae57d239e90051d360100acad86309bb34, 0xa8fb4c80f28764fb489926f032e0f6bd6bb878ab5632b94e6f960e841780072, 0x2ab3c31cf9ddab37f0742aaee26190292952ba391eb6764ed69434d0553085e1, 0x128a537033583b876442e4b5274483d0e766a01ee4ab310839f6d8a66c052ba4, 0xec7bfaa62f8146ef2bb13af733cea64631b21106cd47d456823b3da92e41530, 0x1d26f27900c3cf2629a540caa3f2fe0896977782cebec4a7c5fc610aaf9f288e, 0xcd7296fc0086a3895770b3d0a7e27302c80383a017e432b69fe2503001d14d5, 0x5efb5ee8e22ccf78945ddddeb3f6ab0ccdd2980aeed476369011dd2017d2cdc, 0x2fd3058e8276c3e1044102e37c8bac9f9ceca3d4898dec5227152bdac4876063, 0x3041d0de272cc4007331a1217ba0462b41f9396a251407964e90f77d20d2be54, 0x22b44b6dc784db7a40c2e670800e462758b5249d78921516293fe1a51866ebeb, 0x1472f9c6b744713482cf7c9f2c82edb0cdcb81f238ddb5305a14e164909a963, 0x11cc50e647086a21c18d924e5cb407e0895d44337b760d95fc1254b690b857a8, 0x1f6870318a97b3458482c2b2e8f4896d1bbfab317d95478653847bfe27f73a56, 0x527b77967bb4404a5a78d8e449466ea5dd85d36d29792fcae4ae26f30c39253, 0x114776906608a453804a6ab3ca1fb1357ef1e68772ce78d4fa53c219b47c4ecb, 0x227cabf1187a8e8c8b983e4452b407d3ad0820e9cc000ea38d2298cebaf5ed10, 0x2cdb16e7154d3366e88217ff94382b8a7dc86b47ecd50620b65ecd5f98aafd89, 0xbba92a567cd15cd0923cb79ec491f17595d6af80463e9b7e2b2c9c6e662fe41, 0x1621a037774eb85fbb2ae136893924aae5ec0394764f2bd204e6e3c2cd053e66, 0x1b2f4b4974fe9c4d2f6ba8f3b51084b886a115dada554e313910e6a0a2a736be, 0x17f058954543b8005d9e5cf0393b669790076e523dbb5bce473d67d98b4660a1, 0x2a131d0e2c1938f53bfad52e5fb33120eb12d9412dfa7c2c79b20a4a9e618a96, 0x1e1f17b82c8ec06747b63629d99e72f5f3cbebe8bded20c0bd7fcd7ff8422321, 0xf92dae5b5070535247aa7062d15dff0dcd533f7ef798556b1f704acc72a1a91, 0x1e26cb1e67c4ca4884975a5dbd44df8c05f6a7a813d9c3267fa7f735cc144db3, 0x278e469316bcd00829620e438af377734719124f83c509d48472294be9910f9b, 0x2d931e21c6bd70dd337a21eb006cccc570c8e248358e256655d4eb409db88256, 0x1f3aae749c86c139151590615fceb9b55d78b0436d6846e4ab2c30abeed628a6],
    [0x196b76cefdcc7f6a54c71d40114a0bb82694c936f1573ac7ac1ea3fcce1fe938, 0x164cecda3aec3963de5deaa919a419e7c3e7ed67b00ed3fe37c941bd3aceec41, 0x1ae5c087043dc196e76f2c1fcd004f07bf7622f91480c2f43dff37466824e28a, 0x206d121a5d5c0e50c6696a4f6a3ce23d86e842db48b98006111cdf9eb6501362, 0x273853516d030f966503bed07d9bb25e9a78daaaa8a16dd46ce4ead8b0ceb92b, 0x2a473b17daa8052023496f81ff3471c76bae27ed780b23b659056288f9c80e8d, 0x126700ad12b26c87c8f7c90e8a6edcc613530f09d04258d1d0ecf0732d143cf0, 0x70f6900e211a2d3ed359a44c1949447264d51580679fa84dace529a0de19d42, 0x1d196536166aafe99006756cbbb15e621903ccfb19346cd45ab951b01348abd1, 0x16a6413bfd363eee8d28cedff00c8c86e15745dee50b2ae15d45f4d796213d15, 0x14fe39f6bc1fb0e0a41f9cdb142b86ff95f1003519cb3a77a05e96a30153132c, 0x2f3719862194ed2deca377a1f1b58eca9aa0b726d3d82859ac5acb5513159f08, 0x2ca365f66b59cc38857d65e1ab5a841574d5bfbcd0f9c2607b704232d7d85a02, 0x1823d36e1b33841eb34a4601668596fe20e08c28f8772ca3958fce53be2c6c20, 0x15d27279b7f1b7514d007345f4702852507d07b64a2f1665718efe5b74578898, 0x11b3efafbd53f96ed7d09373534f299562335045a51e43cb1aedf4002b7d6bb2, 0x12a0a91a6025546911068e6f50fdd1c6e368a52afc769952c4fbd9734f5004b8, 0xa9d7fc64fc90b912b49748faa4a4dcaeac8f3e15df09fc92f7066b55904538, 0x15371b75e8adea4894822544c8d7cb6b670741aeb1f1c465e35786fc9c645df8, 0x25fb2eaddcde34519e511e656d51a90db8518b6375646ff92caa4a914007d517, 0x2dfbb6f1e212006c39bd89dd4a6543eb0fcf94882febc1c958eb81012f17cc53, 0x29593bb7f971b987c1efaaf91cd3d70478b3b8f519e210d109413adc4de72807, 0x134ce1956a848bec4ecf9b6033710c655b425fe7a2e42a9143d989c876e07b6e, 0x232e589b327424a374dcc64152ec03029cbc6b1e6935e1878c89f7daca2fb8c3, 0x2ac4f4d9d1ed520e21fbfde98b4e9169aad8f701b95f7aa6e1a2799d72b599b, 0x13843ac1a48019a500ac2aa8313a9143b045dd338120bfc4b4e91c1750b27bb5, 0x123366fe683fee8c58bfedfa072912dc1bf50c906115880d4954763e648a7c92, 0x147bc77d1f7ef7f0604a669c3bbfa3aa535711a43a8ebc25f786db8c951dd7a9, 0x2bb5eb86f2837f69911dc3afe716c5fc897ed54a1ca84c7e473a92012394166f, 0x25e9535591df883d7704dbcd8ee87be36f7a40fa9d360b8dfb5a38892936d47d, 0xcf22a6787e93e4af1d585205f039fe30280460e02c64b4aa6a0fd361fa09210, 0x15daa89536023119f4f32836140088bce9082cd32db18edc2a4b963ed61665b8, 0x26a41abc8b0969da23c9f511b4a47a978406ed147fb0687d146ff73f0a3f2908],
    [0x196b76cefdcc7f6a54c71d40114a0bb82694c936f1573ac7ac1ea3fcce1fe938, 0x24603e3d523263ba69d2161f7bd3c01b990b96aa479b47d8e7bfda5779b31a70, 0x6f06827f0a52b2434751f1bd23bef70edc803704890114a33bc1b173cd3fa16, 0x18821acd1d1a183b3974714b4c15b9aa338da2999ab219a65ef04d6538c9e681, 0x25d1c75c19bd34c31e5dead0dbbabecb70a1952af3b9acc945e6bbb7af79ab85, 0x2d16cd48d5eb9d3884782960fc5f27529562190c5c9203f1b0b220b07ebe2251, 0x1bb2eb154cea451a7591bc895cf9cb65658133c6f63533a7b45362197d883e67, 0x2c1c099ec563345fddf03a6c54e2915f1a7c890b6554cc496856553d2b2173c8, 0x14de7c8a6f75d5c098439608aefd9d3f2224fd7ff2d301c62ae728c13cedcb56, 0x2a12b1666687a8f3a14e61590ab004587a058e42c5f45840bcf0c7a03487f34c, 0x124f681268028f4ebb6678e070951caa96bcaf09350bff4f72c093c2973d16ae, 0xc61ee197e59676973cb1b0dccda3d618981b93d24285440f223146a7aed3f8c, 0x1d6a13345c16963d0fc372a33a3ccb9d7113e42b8336ce4a0cf68c6c1c3bc24f, 0xe90fe044265e093e82a00cb140c9ec848c3807ca216ae5ca0608b360547e72e, 0x28a0106ab648b3fb1963e8b51f6a26cce8ab62d75ab26214c389e0c719737002, 0x1903a3f14cccc405351a0a3ba23106102830c134d14c378226d3a6599e75527e, 0xe69b6a45f98dc94d36e7f80045e56fa8927416f96bf9b2b603c32c6d0026730, 0x24028083240f0415ae27d250b5e9d2611c5baf6b83ca01c5fa08b2c3984ba37b, 0x10b97d7b32b7541cddf569d3fa3ba4fc792f67fb4bc8abf142bb9765ab3fbbc6, 0x18514e6b6663e92d0b702f6830542f841872a9865e8116b68bf03d55352ed948, 0x7e84a91c22df5f22e465c35f665c6a56c7d41e6f20f3d63589aba4a168981a0, 0x24c67c3debacff4c75f5ab6011d39a6ba905a78980603f9b520dc5f07826d2cf, 0x2302d72a48f7284aa9dd46013f218acf1551249c22d8331dfe48c181a06ca28e, 0x1332fb9ed5a5a86c5f70cfdb899cd053af1cfb9557af1a5137be1e727e3169, 0xecd3e7955fa603af46e69fcd1699d5d57db5eac3b9095c0c7e0b6d24dc7f542, 0xb7012f95446a6e56b35ba5feabc8183ef882ab5e99b48dda6a00aa4b5282ef4, 0x2d9a9de40201e8aedb6c83aa64d6801af749b464ca23db2a743bb6df13c72986, 0x29bd4a19c267732d1f213a478c9c677a47804a525df520ae995bab6c79f0c375, 0x1462f5ae05431a649833f4d33d7199c6af0a27a33c6aa74514d706bc5facb110, 0x291f96083043911e45b87995cee2d52a0c4c1f1a2537b6e890d293b1fbfc05da, 0x411cba90e608a51a8d3635d7e842ff58c4137db7eeef0ef16422402b588766f, 0xf7b5ea5565816bbb8c16bfa946c6145d607e773ec10b74844511161469baf60, 0x338cdfab4ce8fdc9f081c77f3b7a58f5331d3220cf548229c8bdc9f5e49baae],
    [0x196b76cefdcc7f6a54c71d40114a0bb82694c936f1573ac7ac1ea3fcce1fe938, 0x124f60ff00a0e62ddc0a356926a83b8892a7fb8602d5d3b955f41f9134953107, 0x7ec673039830a0f06701ad707de762e97de268ad8218f4e771ccfef70fcaad6, 0x740e5d063abce69067b719fb33e30e4b3da7b6c66f26bd2d7b5320a04dce396, 0x7808acd3ea0c249f88efc1360f1c6e539561f31208e860921311b1c29b598a, 0x112bf7f10ea174a939adcf38e91511c7c00990bf176d3478ba5c5bcf9c46d89f, 0x197b19b25c2afe93631a78cfcbefee4d7ec4f7a5e9c87f5aa30861aa5f441049, 0x1ee3070e40c0e0e740a67449c3789b6b1f5b64047b9adc4a1a7f9194a7ed7c62, 0x2ea7f970eaef265df0ba7d65c20bf474925bbd7eff4c9af087c38b5bda5c8a40, 0x87e362b638c1e17cd837e14f954fc02cc1a020c62e416bcf5106c0e84a42e4e, 0x66c70edf98939e555fdc29bc6c8db703afd5f7317a97ec805c1aa28758081bf, 0xb7cd01813db20a6c56bee471eb16719fad273719aacdba7c475b9cd9fd6ed2e, 0x1baef4e284700ad99e75947e51988f8b21b306e85552c9586159cd2fa62d6208, 0x2d70435bb7b0d2242b1bf4cfa9bd48cefa4f4949305956f07c6ce9f40a4f63cb, 0x2c9f4b07125840d0a8db29b2c8f723da914abd2357de2d0bdfc761ed1d2cb190, 0x1a68c6eecf6121045900f2d146f6e0dc1ffa95afca0130f4023ecc854ac90979, 0x2bde9b2172e01e033c899e7dcb6910441e0b26ba61885817c19257c67a704459, 0x196364688be6c007d5caf7f0aa60dde7a9d4df5a72201a010866f51d5b8e44d1, 0x5e25bdeb203c4c1c10272422c44f883df61bd873a1181005937ac6897b820c1, 0xf9392975fb3baceecec89ce8dde33d612f7b51809c70c79560e5aec4ea0f97e, 0xb3a94a0d7fa6808d540ea7c94ac84329500fc61c1c921f6e1a02be72e0552e5, 0x57f2f77f6f39fcc309ce2227ac987f88020c1156a521d8b4a6298ea3bec1f95, 0x287141748ee5782d46d91412095b8ae8a817341797734ceed2fdf000f7bd2ca6, 0x1d457716f5e27115f1b3bd602743ddb625242575ce407e78cec5c033380fea0b, 0x1393304221b7afe064f39562a25a21c896a65c27cd93ed89f500e9eb5b39b2d7, 0x1000b0acd83b8b51113119fd1783d3043017da2eb32954456b6c61faaa2ae29e, 0x19c9c7938f860731025bd2bb1cd4add4ad7389433683ec7fd1c2c0a40840400b, 0x218bd78be9fe83b8814a959ef810968be0cd8f20ca7778496f52251b1a5703ba, 0x2724bc9c179c6b663419051e901b45a3c36d9f59d63f41dddccc120dfc3abbc7, 0x1e9130d0ad5daa81b807d86cb977eefe449b9081cdfba59bf8e1b43bba4c1077, 0x2d75c84b8825bad22720289707f2709c595d7a5ff8df9b2190359400d2e925e1, 0x27628d274cbc76c2bbf5005702ad14bd8b44ab8cdecc65c2f323f232db788557, 0x2a39cb3d3633cdbddcd0b7cc3744e46aff3450524dd573b8f67a3c7e3b9c7a09],
    [0x196b76cefdcc7f6a54c71d40114a0bb82694c936f1573ac7ac1ea3fcce1fe938, 0xa09afb1c54f1db4544f6c0073aa43c0fe17ddede4eb2e965a0020b3734b3e40, 0x18c1bc97aac4cd9735588413be17348e71d1a7d14a7bf175c8a48b5b85e9b54, 0x1a3730dc03e7f844e8876edce2a2d00135702da038a3263faed39d048af8e466, 0x25176e26f891655e4ecb9a383846a2aa15bb49936c1fb568519615a0d10327c, 0x1190921ca2c2054af278beb8ae7e902f2f9fc032f1ee2e661fc045dd643569a, 0x27301f456233aa2eaa5e58ca623471400a5885e066556edac068e8187bd53fc, 0x14df7b40c8531784271338eb6101a7c565297bb9fd160f5633d1fe8a24f22b0f, 0x201b7bcedc3f893285dd6a8d70641086091db277c47d721fda35ade3354d3756, 0xd7ec7dce868dee03f3cc914c35bd061c8c075ab2b3a24d63514e43e61137f25, 0x1f4366fbd21731723a6377369cafc1ead066d0e96336a6c0cdf44437ac6999f8, 0xd4f720bd1b1d8dd2da533015643abbe2569c2142b3827f769bd4c8fad9eb7e3, 0x2555325b985eb37f57ade931b07684d313c5fd72badc53f218cdf3637e28ac20, 0x19577c98ebc619f92a0ff099cf5c3c78b18f4e5230eae7db5e2f88a18148bb4b, 0xaab15d18bc399969878f0303b29e85aa3ed5b5f0d302efa97073d0580bcee54, 0x15a5b74d5f80efff02db1df507fb260724238371f9da217db249b80650fc2ab, 0x7863677bac12d9c8acb8e235fed719eca74497e0c85f1191132e72f877b4594, 0x4622dd48eab686a6312f00bac77e56ac609832c1a3710062e2d19fa13b25059, 0x1bfd373a0dfca60070a9cd0c5f70106366eafac34d74cad65149841c31e57659, 0x12c3c104d455c723c30a2582a9fed0478089ecdd6256a6a14d5dd3a73e57e58b, 0x1db62d5a9783dd6e3721980161c8e9f40b29066471ec2bb395b4de71521c9337, 0xa1338e33d0d79c8c1143c1e94407be350de016aa190237e0fdf6aad194ec3db, 0x230cd81310a9978fac2828de4ac38c19fe35aab2179f1e83a3127745dc709846, 0x1d46545374f8b8117fe6aafbf40c162cfa3b13f7439191c43572ff8ca713d874, 0x2f0bb6daff69ccbe41e11635d1a451816c1a39e3baa7359493754111c0d453d1, 0x29329695f168370e3b3156e3ae2824a662edb778c2a23eb016d135caf72cd9d, 0x1b9f8f4a4d8cf0878c3b5b57e82096972b7d773a197b6cd412956d9994f42393, 0x1150ca485896d1fa88445f18deff9e46639579453dc8bd952deb10c53fc69025, 0xeffc5e98f228858e49ca15bb98312385cd06a57a898b82a561f6fd9b5af1170, 0x76a9c5ece422164d7689f5863a3752ad3681a28385e022c66dba35b8c87df7, 0x1ea44dc1364ca5d1a9c217488e96b1138da5eaccfa62a3418d687da1308199a0, 0x22390e0fb5c982881d62f7af9255b2c677559b525e70e1e993120e39cb386fd7, 0x283880c9af3c5ee2ad175b97a9110e904ea6f1172b0abedd8726a1942bd21baf],
    [0x196b76cefdcc7f6a54c71d40114a0bb82694c936f1573ac7ac1ea3fcce1fe938, 0xeb1b0ece2af5cde42043430b9c70ed679c2bae1000903072551ecada6dc0a6f, 0x2da6e90774ac9bf5a07971085698cdff633c28eb52f2f57935b712c406e37066, 0xa8125b935e8da1db2d1ad9a841efb10fab0966b438e0a6dac204ccc832ba951, 0xd4e3b2440602bc4d019da80f29ee2ce86a44f098e32e6a47c512fa73173eb0c, 0xca753aa57fa52ba572587eaa47c18ad91aa498048483d9a019457d014ca08e2, 0xf9ea814187bc6dba58c6f7c1ecb3dbf62ab2ea29d075afb40fa75fafda6ccdd, 0x1625e36facb0ba7558f4163e2f69b482cff1002b6e63a0297dd035b51126e214, 0x1a8f5986c3af479a950f2f78c1cfb9e6eefc693568db3215ba3da8b95cf59997, 0x2092ce2830d91cebd97e69ad4aacbf5947c8edd9e809d33aadff0a9c44c60dd2, 0x2c34396dea567e1a3b6bbf21518b8b78bd08527d955ec8c3f71c153351975a48, 0x27ef5d907c12b2473a024ef1ce2bf3770bb767118ab957911608ab99f5011e3d, 0x1f290b20bef457eebf0ccce00bbc39ea19ea4c2625e54e0dccfe3db112e067d1, 0x1db57788c30f2f18fff3908ce919ea10ac851b862b505246e81d61bdb51e0f70, 0x2b041dbcf7846c4e72de5a0e5d201fa5306c8e797bc0c43702dee216497eba23, 0x22a31ea557261176a10f8036c7f9aa32d7392a33e64ed90dae1fa3d9800f0077, 0x2eced0082a7ac90051bfd190d97319e34021bd571d994f4fb633c299759876bf, 0x171f3f295c67c80f97bb0678ad05c216e6df17c46995c7c8f801811b47f75db9, 0x26de076f9b9cd4cd8e7f4373b3569c9c2ed867b182be695528c71e1dfc34553, 0x18684d0ad8f841fc32151dc50ef602e4560b286339d9a299e6451d535596f41d, 0x17baf0b6d89621ea69420282c32f94ad3a52db7394baaacc2a1ca3032656b834, 0x19bad38eaa92c43ee1bf9289e9e66e32a2856a141ef2e36868975617765c0a13, 0x52eda69d77234815d76a5a9b04e8f7245b9457541c4145d00fd263bcf9ac56f, 0x2de5e640d8c2fc3acf28e99df17fd56dfb91fc1091d304773638a453037b17b2, 0x7b075e004bfea80e69fbe1c460586a50b260289becc26cc92ea6ee18ad5c897, 0x24ebb38197057bbdc006a2ed6d1c280e500539f98dc53f83c2b58503bafa8ca6, 0x1ce51573e24a435d75b654a1bb80df8ec38f12bf9660d2abad366ec89770c3f8, 0xff21e9bcae93244b09bdee7feb1841219d14b6d9e8ce6c5aa07915b5d81903d, 0x9f7f1cb180b8111b6a3b22458cf94dcb289ef8addc4adcba913d99567bc43f, 0x228a30bb9161835a3ca58ead6b9752d0332fd78608b1412a402fc045ef430f, 0x15e9b1e05851c96b3bd7f09459669d852e65623f1b68f9f597ab7a0dda5e208b, 0x196b3d652ca59d59663696ef17988ba14ada02ec506cb7e4caf2706001953bec, 0x1c8749855c159f2b4cf83932f39f2676dc56258d3cbfde31d526b4b5ae3eeba0],
    [0x196b76cefdcc7f6a54c71d40114a0bb82694c936f1573ac7ac1ea3fcce1fe938, 0x221dd8a7d495ade1dfe6a6e119845add28d4fca1736fea74f367acb2f0c2c6b6, 0x4b42317716dca3c5d82adef996100935cf38279042de9b6bf50b29f6a202f34, 0x475894cb64dbaa6fa6a2ddb74816670bde6ed2bb1f535a9d5f86348369494c6, 0x1c3946b391ed069e274939cee866a5f3d4d7dcd44bd28c59bceaa7953ba45dd, 0x1825b793fd2ed840af6848d88c10fad3c14234a7dd3834121965a11926c5ce5e, 0x282ec6f6215907e0cbece72ec50a5a90a2f17c3f514d85986b9983bb68f73cb7, 0xd8f7801683a6488f5d54d9289e6cf33631007771a3580746446e05d48ebb741, 0x1855412ba202a2a97b4bc4d141fbd547a4019f23cda4da726fd1aac4d409f48, 0x1798f1c6901076abd77d7c40b401c93bd711d58af1b975106de72a6f6e2b250b, 0x2edd97865d7faa4649469ad96a5e0542c35628e903e2be373a0ab7f1ca5a207d, 0x13676cd7961ec25b87f7ab8b623d2cfad86cb66236386cce469386fd7998d956, 0x16c0a91e9e9c2769401f26728c935e467693afac35f6476d7f45c3593496a4bc, 0x29553d069f113822ab939a807c89614214d5866a2fc17e32d21c786ee26cd91e, 0xcb66808581fe375cd41bb5410977379265c20dfe402d5400bc93ac24b4b03f3, 0x243dff648c9f0c7654669b0628882c9309e5bc28587cc2b239bae21dbfaf03ee, 0x2e171191951cef52833064fd4d4067816f2e9c892d7ec9595fcf15286fc58306, 0x2bdb95923550209fa7cba2a746f0c2681195b0eccc5e6c253227b62c657e662, 0x85aa13a52f4b623dd516a6a478fcd88e30c39642c22f7dfc0e4723e31fd0d5e, 0x15f5dfb2f22e20cf08c1bf8ca7fe18ee12607615c5c3c1a7c2c9fe740bb9990b, 0xfc58949bd8a136c38c706991c5288511da276d6fab95ef315c7ad3043f5f619, 0x284e9569fc8ba77b4045b856dbff1c29eec71e850bed17e1533028e2d07cdd8d, 0x5fb97885d94f32e89b37ed816cfe79118ab5f70784b3a546a50c32c52c5d7ca, 0x1588f5edd5db73e9e42e1038f3e6817fecff001a704d18fbe96ed57022d6853b, 0x16814981024fdcea5abca513e5674e7ef7573813b650daaebf34430a930d06ec, 0x1b0b7c044e5a9cc60631dfadd62bf75f7976460d0a1ddd54c91f5ac00461ba9b, 0x17d68098ed44b6a6c42a6e7e6f9fe2da0ac7059d1ecf0b26eae01afa117931be, 0x6a32a1b358cb5288830b273671306d6e1af65718c3b4ef1a3c2c6ddf0ebf48, 0x124899206ef866ee3d3253024894741166f53f48ef7f86c2955184d993cb6d98, 0x282d1b8005e7c5e21adf146bbc3a80a41207d1ff7ee7b3bd2c3e6bdd5bf3121c, 0x2ba860b0e392214dbee6ff237989665c30944617abb4b31d64b2ad85f397e33c, 0x8dee425c9230a537b33445ffd0f032a8cd335bb0a6c95591e1bc641cfb5dac3, 0x13e1f729e82032ae05a37e3eccdf95591b61a016f5cdfde65b9d61c84e0f0a09],
    [0x196b76cefdcc7f6a54c71d40114a0bb82694c936f1573ac7ac1ea3fcce1fe938, 0x234c770889eec5a24bc88f5a31d56e761f7487199276c8a6eee5b1a68997812a, 0x245bfff7477831205a76d0aa1e9c55d24bc04143b3bf5dec9010569f945991a0, 0x8f4069c0b10875a6c5a474a6632faa9ca5a971d207ed0895fb92f8ab363771f, 0x837729d4fc85301d6b047a6dc71d2ed7ba33ee5e25cef22aeeca59f015ea9dc, 0x294ef20f328ae6852d7f878918cfdce9ed950be58925d997ac533c91d5b6afd5, 0x1f62b4ba6e7650e883f9c53c12adb7ac418d3d48a7514f183218c8d8c9f2e881, 0x88e62ee0805a12f7512c58ebbbe7925c8d94d13ccae933af8ce5ad1d9c11fc9, 0x2a15acb799a36536698c1471b93d206320f2721c13a32df2d30f40fb9b1fcf4d, 0x2255ef233b2e051eb8fe5fbb4f03d5d0450ab225f926cc2ddf4e0f0d9de599f5, 0xb3324f75f50fba89249228c37f2c9a3263a1ba03c624ff6b41d1c0eea4f6f7a, 0x267abb876cf130e5ec0e545b41cb614e6b0dfb5eb2b668ca6ade5220de6d269e, 0x19040678722dac94cc568ff3c0b9edd72deeb3cfce3f3d9fc81af7d49554afdf, 0x9015509267d3d74355f8b8cb583ec4d4c41b01774fbb745ca58b2ee3cfed608, 0x25792587eee7e693a2dfb7ed5fd429f501a3eeb917e6c17614fd3cd80b7356fe, 0x2588230455c1640eef883b2650dea4b74fa7c0b2675869b3680a867f3f9983fe, 0xa5d8e426e8a8633cb0dafabd4f32d946ee6b1c9d80e0172d2a9952e0f85ec56, 0x2f47894426cb6983d71c100a0326090c8ec978454b359a02d618adb71fad8282, 0x23bda45e45e20fb6c274f9a99c7083fa4ec596ec283a78d1b3682bc44c532383, 0x6428e25941cf84268604cac47b8986bf3068257d3be89c3d6dac8f57093a650, 0x199d93b935756b0e6f1ea60c72667b0e5686eb1b12d6cd88dad5f5d44d9bf6fa, 0x171ce4623f0a49ff1f0b33205fbda2909f9c189b275cd7a717f4a38a5abda910, 0xe6db378ce7e1de03348d3f7b7b17264be5adf0995de8e0273c39aad38229a, 0x17b2b86cd66a73a60e46511acd7dec0fb3a32d6cb8bfaefcf4479b7d358fce81, 0xd2ce771ec4979abb30c8a281fbfbe701aae7112066a813393de44e56161207d, 0x86998aa35a19fb86ad35a9116c272887a26c95743d8214f1f2a1fc75050f867, 0x5be1134da0692b8f92545cb326deb862136255794fa8383e1d3f266f3162243, 0x1bcb6b8de9f866a39768466d15f521cf1e75e1e9ddbc30c05a45b53acb5f58e9, 0x1b9e926867ec402e4fb4bfd240a82f240eda7df61c9b5ea3af1984f74089a93b, 0xf408ecd2413f30c5794e777b8a0bde7dd69ee0e24a918253e9cefbc7d98913, 0x2d7f052ebbb9bf5270016f796759f98056b8928efc35c09fe9e1aa26f18010e7, 0x2da951984f4f03171413e1739831201e7346a45bbe9af89d3b23ffa2d615a952, 0xb557ec46a7bfb8a0bc21bcaa56edb6e1c0be152d88b57fb5750cda2851c6231],
    [0x196b76cefdcc7f6a54c71d40114a0bb82694c936f1573ac7ac1ea3fcce1fe938, 0x13d3fef3eaff9b9563a1827637ad00789268d2b55a1fb6681f8b052d049a3fb3, 0x2bc1cc959099f62eda527d7385cead603b637a28c9a223e817c9848fd78f4754, 0xdaac8774332e509986178344e8caf8a91c6d01a275b9a1df469e5b735bd5082, 0x27773f22500cdf92fec80f154847189a3f75f85e8cde35ce9171225d3cd8b676, 0x79c499e130ed874a1383b978dd3c00fd5b6d0c18bf3b491cfd63787230cb9f, 0x1ebfdb369fc74d1469c6e461f64206e4907b6f5b51b02496368aef1c54198cb7, 0xca9e23d1f4071112543d4e8c1b303865a4064ed4e4110eea113130292d1e299, 0x2357dfbdcbc869ea8068bb2ce056854f7a0a765a217af4a0a317888b08ae0af9, 0x2c9e7d1ad79c49b37dfd93ff2d4aa43c8532fcc606927e975b21564a9c1070f2, 0x837ff288c0aa9cfb3fa7cd38312ca6b83b9b2a3ff4dec506aca1af1176a4248, 0x23d8de04d32b88a1b5102863416318011b412b11f1e609386c5d8d87da878e54, 0xe2564431ced9aaddde433e7cacee42a04d09d3026f3ca1dd0ee3fb3085adbd9, 0x61caeaaba163fef7965cb665f0cf305deeef1642cb63e122d845c5f6b095be1, 0x23356942ef4d25d2b3542f5dcb54a77cf17d8fa64ba060462a3b71cb3b73d50e, 0x1866373902a9a953c0768646f37941c805658c31f761dd39e6b4d292c8cbcd, 0x86bb5bb78cb1149afeb670e1ef3470c5634f10b18eaa25450e87c5a9bf35146, 0x2451e0f1a7bade779aaf54dd8a628b92d9cc8a7b7c0074076f860f87be2f8fba, 0x84bf3740a546012b610a5bc78ae897973b85c2be04afb32fae0e39d0c085255, 0xdef7e0528ea820d70cc9fab7935d6cb5b3f47fc8b5aba924bb237b7077f0275, 0x1b7af60a579f6d6f9625a8b0f7c4fdb2a6af598daf08501f155665ab376f7ec6, 0x4f92ee3832d8c4253278f77e9ed900be186f8c182a39662f59e4700213c98dc, 0x147b948eeb385d71922becc54ba12130ff5643e49f71b7327c323ff0e2571c95, 0x367fa68c919ef8c6a24c79f6bba07e7e839c9512b92a690d1a646bce08388ba, 0xaadb8ffaf6b02a6a4f42e97afacf2b4d49b5d4201becf3a013dfabfa068b5a0, 0x1f29fbe41d336788cf666a4378b1c82d5819c08e27115762277637235b9084ad, 0x94397da30fa8ee480cc4cbc0cb3383218cef9602ccd1eb4655071c7bdcf3001, 0x16a091b9a5cd952667b2f11309cc4e39f2c6c3ac2eb43465d99b409ab07711fb, 0x1625cf4e2fbb6f7a25536a24bfe679c793e3bc01574d8af123d61d6b98ddb0cf, 0x17f1ddf6108819ad72aa91411e08264c5a0756eef3101351abd131e8332e8276, 0x272ac6af8670ef04eac5d621949f3c4ec7edbb65a38c4bd7d5ff440cab1f7a15, 0x2ac81ebdf838c893a74deb1a575c929da0a6e12d2e6e1b0729bf0457cd7e134d, 0x28198a6a7de09abe545ed428f83f9ca95a7bc9f91186305adc80d9a561045ddf],
    [0x196b76cefdcc7f6a54c71d40114a0bb82694c936f1573ac7ac1ea3fcce1fe938, 0x21c8f5212e43a884a0729986fc11af75bb7d2cecdf007a7175d000aad1c89e21, 0x12e4a961e1801660228bb592204fc98865260be10e1e0288460f42b527c486d8, 0x9ac00881ffcb7ff45a4f4530d1bf63af3de4c3eb7e8982f354d119d099b20c2, 0x22b92591debead5bf556dfd040688701939a2dc72264c1b74c0e7b89b4557670, 0x2388a2dfce036d5c898a465ab3c88fbde3fcdf8810c87e639f7abebec9decf80, 0x9e2df6b54d923dd12bc44406c247281240924567a7a993e41a6eb027e959601, 0xb05fccc0674af8deeab7d73646e2a28df0f4d76803a8b6fe7a2a5f9f444037e, 0x148c72c32e02a21dbd3c4859046062f7a0a3a0a9c5425a5291beac5f3f54361d, 0xcc72447af3608c9090af67a3a683e8d989688f2239bce43734d5808de3c048b, 0xd923c01448dd3098d10140067ab3f5eaedb0a5b73fd6f29f28cb1f33a1615f7, 0x9145690a8426952481e9c5f53c587aad25faba2f2af7a38d464c6c86e889c80, 0xca36fff3a1b4bed7f8769fd50195c1ccff723fb1bec0db30767e922ed5c5bba, 0x151f1a9546c4380ac89496bdc078ab54ec09e1ce303bcf99f5f7237cc7b150e9, 0x16c046d8404c441eb03e5c0846fb9582414123eaf996781ee0b7268eb4b20682, 0x251c3f386e8e92cd6ecbaf2cc2ad9d910f94135d41466698610f072e718ca410, 0x1475e6349fbe26512b79202c02555f0fc6b0df8c74f12a1cf459fabdf4ec982c, 0x2b4c00677708322d7af2ed6b2aec44c4926456b2d3829b3517f4064933e85bca, 0x8c06b592eaeb2fad227fddcd082cbc40359d7ac8e01bf16f8c907e64c170ca5, 0x211e364e0eeca2dcde7b7e5e45e21931fec7898963f20579ee0acc0711d66052, 0xcd7ab2a448e03f55844c4bfb6b169790a0c8d70638d7ddc4b5e72375970a738, 0x1930ac2e4e2ab703874dae8d6d84cb6de266b11470aceb681dc619889e61e454, 0x1efe3fc036da6b22a66529ea8f04651ba88c4a88512711a32f4dcba84952bdff, 0x1fc575f7be1400b0d7f57217a0993649494f6fd4dc81af8ff4f469ee25f4d3ca, 0xf599eeafe4afe752ab67bc943a63bbd559b10d6d7340b19c5a48feacebedb2e, 0x13161ff12c338e5fea3eab7086ea1b5c9e074e8c4343f5978dcaa9fe77d23bfb, 0x19e8ce8bccf4d36548905830ccc2f9f13c6e0d997fb57c89415dccef20298d94, 0xbad7770ce2057b3cc20f21c93a69b44be7b95403e6d4ccd373d8d855f42d48e, 0xd68c25929eb71425958c7bb308245d86a52c4dd57af1f03ec17d73bd14a7b15, 0x1a20f6c97cd59c0339e095236fb2955b50356fa59244f6173f1caf18deac4c08, 0x13fbd61eec52c83d2dfc6b62cb1d1cb40e71c63fce17265ae9d631de6d683f17, 0xc5c24fe6a6fce7831b9c8b2dbc30bd9dc8352c78d4431f5afec5d94a18f2522, 0xe6f63bed21f2cb9b2886da97bb0d8f0e155f008c1e5039c2ed7080d6be70431],
    [0x196b76cefdcc7f6a54c71d40114a0bb82694c936f1573ac7ac1ea3fcce1fe938, 0x13b9e4a669c3fabe0c43f333992a5f698e08a9abbaad77cd400b2912f5ef7e8, 0x2b0cbb582146576933f01c91c0dd2b095a2da43cf528f2273131788f1a6987cb, 0x2e30fb85d199dca95475521b50700b699c50f1d7aae5b2de4e9b990780ce29d6, 0x4ff7ca87e268b4a23af154c1102c8b705ec4682f08ace1273fabb3a865cafc6, 0x23b371ac3c5e45d6d930df789f60ad510b784afe9ee4e82876081ec0ca7ef7e5, 0x28c5fc831601998b96cccab01c028d613c200eff1d0e2caa7098eea165c119a0, 0x1a649a762e15c9e33b6dd3a4c5daaed08ac2e5a7845df289d2c7ddfdc3771f97, 0x1b76809608b2ca5793d346c52426aaf7228b7e4a09083c2b551bce8fc3022a0d, 0x249de6f6cd65afa7bf206ac6a1fc864898a5135d0b0efaad0f4c86774a153d9d, 0x162c8b3b5f7256af0a7bd83ba37d258ad7d4ab4f29d248bdd00ad36e612f6055, 0x3a8b1979dfb950c0451ebba4e9137d78943d9eaf889becd291a669031680d1f, 0x1fb9ae665dc60fd17dd0b4284b2eeab0845e6d4a5d6fb81b77e9f7c6b43d170a, 0xe61edb12a4174e48a7b47b660e8175f42aa7926ff438c90692e43bc396bc6fd, 0x2a21ad8241436a75ee8a90867aade180589a8c9c63b05253be876f192641b1fa, 0x166620895a93525094f8bece65ae6fb9e14951d4bf7cf10a2169ce5cbd8b4cb8, 0x22f7441fb0e816935c8813854ed5fd6ccce5e7b6a85d91d2b5a3a7a5c8a4ccf0, 0x2523733ae5275aa5fb89c74de7ec80091727f495e729ea9bc557516b25e2cdfb, 0x150f2ac4f573f5f9eda0d8e65fe866581f1bc11e46acd399cea41dc1ee3b4082, 0x2e2c6a081127c11a80d60de162c1d5bd70c9e1b1312fd31f974d419d74e72a45, 0x288f5e4a35d6a88e411113e8324d2af60b07aabb48650d27261f9e0172c063f9, 0x1e94c48d6ccec07a6aec467ce9db1c7cf2f48f20406483bb873f696cb6139c7c, 0x2317555099ef118ac1a6703493335db895aeab6cb1d7cb1e46caaa0e9d74ecf1, 0x112b653324919b4300a6e9caa08f3a36c372d86bfdd4bcf10526ef3c2e8c8665, 0x10d64d9dbfee84b7d8e426404f4f6302cd2f507c9536559f0050b2b77a15b85e, 0xce3409a692acee5372266c97c47c2564d3268f5124fd3094ffb35d252efcd1d, 0x1976232c6b5bc6ff77e7c6d266ea390c5fbd4fb3cad9ece623ced56ac860996a, 0x85fe99053d3f947a665495f68291ade2c706600e56dae991b62833e75d21c5f, 0x253875f4394f5962fe07f784c7fcae1df6d36d1840eaeb0e7c236e3d6786effa, 0x811ef3bdcd3c837aa541d0df32d447ec54391911911e3e0739b7ffd4aeffcdc, 0xbee1c554f9fc98cfc6b2f986fdf207859d78e2757d199e9a92b1501ef92ca06, 0x2e46dc3b30b54925c313731501c5f003aa8d1490b16cfe28bbda33fcd0b9b0a8, 0x29a557272646a8b096b2d1e8aec172491852af8f055779779043e048ed8edc6b],
    [0x196b76cefdcc7f6a54c71d40114a0bb82694c936f1573ac7ac1ea3fcce1fe938, 0x2cf567daf1e32b7e212860583eaa1783d871a1aacc61b1e17274d29d43c3d42b, 0xde4e81211f6698cf1b5513963530b7b9d0b8ecc11435e75e1f8d3743dbedb1c, 0x2441c69e3451809da5aea5422d4e21637469b4384372f06c5d6d9c14c6680981, 0x2aeab770ed2acb63ce4026c9fb0bdea02bcd6d0e45b1c89854c2c827f09f8743, 0x18086bea417322d173d3b67f0bbea727011d58a1307664d208687d50018c0849, 0x1a5554a104ff43a6e64b7db4766e1ce6df735dd7d5d15bc04b224a81453b5a60, 0x2372bbb558acc8f0a26eddb623338755aea1b2793d7e1130190fe2c6ec6393a2, 0x10c33d11fbe22b97736174eaae79eba40bccf31bc846d8d0a8b44470c2af8cb1, 0x3426163d8365dc4847d5bbf779c5577352e34ff6badab833597ddee1bae3f54, 0x1c63281e368936ba2046f4c7f0b4279dbfc02ae7af0224d4bb03d847e157773e, 0x2192bccee71b6b955f146efcc1a1781c1e1c5ce24dd9a55d2658f054614751ee, 0x465383b8ca4136095399e23c44aa9fb454a47ce6590eaaae8517b97e476c396, 0x57e4c25881806bd449481ec352088627fba202db4cd4b93dbd1409efcc8036c, 0x9075ad76e6eb195188a775ab16ab65a001ac6eed2fb1455282cbfed80a0594, 0xbe868e7bfdfa88434281a12e1753cd13b44df13b9e4f31ade7108de24a409e9, 0x2e510e83757137479bf6a77478344c10bb07faba1f97da9c0537da9be515c5e3, 0xda0ea6a6106068ef55cda415d30f30ac0e30877e2e03abf618ea2d79d980820, 0x2452c916a252ad3c7c27a5257f4c8328d9027d66534d98ccc9a43421d70d83b2, 0xf9c77bb51cac4d5ae3a97243b5b967a65f647598197721b487afdf40a7f68f7, 0x1f9e045050fa171e0ee29df6cd436b6bf42a576b4ff50c2c913aeebc084f9115, 0x2e7d45b66ed46a7205c8af1b5343d1d3fe32f2270741c450069783a4c5be0dd3, 0x2516935ea1d2480e4350f961e778d72f56e02b57a98e892b0bad80ff8eebd7a6, 0x105de12e7429ec594b85708128893f8ff201f6fa6b6e58a2f85403e04b3e3852, 0x1fc9f7ca915a6cb6b67ef53d985021ec23469970c5eaf180b0deb0dece3bebad, 0x2811b669db5b1a371c847093244ca2f8d653537d382f16c072df917cd59cddd2, 0x117cbfbcfdcd7181ea2b182bdc6a43f72a78bc9a6b1c27d5a4d4f073b525f86b, 0x1e8a05c84e5252cb9f3f4c81da5c5419ced59382540f32cf949b442f67512f78, 0x24337a6b1cba32ffe53d724439c4554a2430c42da902997c096c26e7a3e88c8, 0x2f90aa6e654fcb74227af9060991e0a68d47d8021f7968d384404b9d4476724f, 0xb181fc79032f8437c5bf21425b264aa28adc4e92ab14a1e57964c79f150215b, 0x99da6058ed7f95fe4cc85f3bd708620f371c9b32c18e235c44b415f4c12bf30, 0x9212f04d8281e62b36d022532df405b8e5dbd81c15f00dd094130d43009b4cf],
    [0x196b76cefdcc7f6a54c71d40114a0bb82694c936f1573ac7ac1ea3fcce1fe938, 0x1107d939e735721d6dbf79d5f3060247a39316ea524ab8c0ec617b2ec201a26b, 0x2f1c347523299d959fc1590f33534fc2a0e5adfc5de0fce0fa0eddaf5564cb21, 0x149ef73788c5149f643a0d35623cfa246b6b83f3883475060ee613f74aec616d, 0x2a8fd18e8e3ded0ad1e39b5e159e9b1298bda05646ac66dddb50e64280889670, 0x47dbcd211f6c7ca6e60ad171965e1dd49d07b055b8468d33eb7c162b3627565, 0x23ca2270b14221c76b77a1f919764a9399db0dec3db5bd28feb2d363e45de608, 0xae18b193b1142e262a16d0d122154e48849d5cd821b8852a2cc2a2e7401e996, 0x1857d1b6def0af45ef7d3d24dc7529d2826ffb00bc7c7c7aae74c740caba3caf, 0xf3cc84626c45ab94e0b872c3779dfe3f41597c39094884678de39d8c1961891, 0xe820957878be6285a630109dd71d5ab98ecf1c1e341c7f05be144a6808961e9, 0x1dddf5d71605db9aab02d71866bcaa3f304707010eb12963e30f54270684f686, 0x22cb55eb86c682ccce666ec7fdd5167af98a04c5731477cee41401f70bf05c89, 0x2285685b32e30facba36b7813a94ae1486502f7c550c49b865cec83f46c2918b, 0x89eb80349c3dcb0f5b5624debfba7da90f041de9bbcb5f0dd5e915c92377197, 0x1ae6a640e952299c2aed2ffdfeeab32732e9c5e2dc95314d217f0642816be3a7, 0x2ee58c48db87e8787a65b7adda68a844aa2dce2ebb95b85a0372219d5469934d, 0x18e425f1816a3fd2371717b0210df14a186a184c14811245b0d2fb38e34da7f8, 0x2d0b4c00ef039859dca8f5ec2242dee07eb08b40c134813ddd20f1e49cb46003, 0x1bbf1b9e8426a43da69f0b718a93348b33ab7bfb49f32792d0b40a1df5791f2a, 0x2bca73de43111cc97e7c860ff86c75c29b66c5cafd04f36a0673d0be35fbb343, 0x1a77d34364e2186eda96a4c0576a632ca53a8579ea24ba17291eb71dc932e5e5, 0x12757dbdd1ec1b481648041f49b600350ed839580fe4c022810e1f9ecae80b12, 0x2491a75bb6c3231b90483b0f37596f07926a746aa6884f087f1b7694d191b51d, 0x998ab89c76bd9f620abd41cff82b3d34203f4e6af0ee0f32e7f72f88e4209ce, 0x2271c33914091a7b0760c2752a12ff2fccd4f512175ffdd949bdefe9b5444486, 0x2b76d998c8fb9fd7a192e5bf3ad5948439cc061182456f9ecb60fcec97d69ef1, 0xba089d24faa83dd9d34426596f4305119c2baac05c4f727363cc07dc37ce00e, 0x168be56f3c38107ab39578355ad8f49ac0a80661977c3a758c29a08a3a7733ae, 0x2cdd0f5feb4447b5120e670adba86c12d71e5f9860ec4b3eae28524825ca6e3a, 0x36af5faba2b1777abb199b35334d12a4a01a92485d53fd6e9211949c43309b7, 0x2c1dcb685cc47c1dbe9db43d809ed56ed6f5f9ac92d76bfb271c10b66b62fc77, 0x24633d05c06303617624fc379b46a788b0d69bde4057dfc36eb3359055118bff],
    [0x196b76cefdcc7f6a54c71d40114a0bb82694c936f1573ac7ac1ea3fcce1fe938, 0x2224f3583f007840f77ac63371ade2a22805ffb999a54fd0feabba444ccebe18, 0x26714311d757b433c90cbbef69da79f27493dd48c26aa00892a69f49412d71e1, 0x2fcc716f7f57adc4e9cf765fa7d0d6f85b2e71b7d495d12d41657da92d50b402, 0x294a3f5ca5239bb5a7b165470474ab58b5a07e2b3da2b4543d2cff4e1f0a1624, 0x14b4beb63d909345cfc2891d52be18275fd436dfe64def3ee9a056da6df31674, 0x84460af87c46a4276cfd2a1ceafadc83ae5e917669e8393ece9d52102d44ca0, 0x141bc6edfd3d6ab0d76ccd6452f746e1e2a04d7dbea197c2ca2a6d498585de6c, 0x1e757acda92690643a370b9c69cfeac5f2cbddc70fe984afafa7d8eb1519846f, 0x9e92da83e2a6b8bae2a65c80e94f8ad0dd5aadd9374f9b666e5292b1c43edc7, 0x28b539f7cf1b63612fe0e3f019dd8055760540cd2a998b70bdf5c755554a61ed, 0x4f1315a1e31ab3f8eed8312a43dbd1b4b72362ccd637ed4dfebad3d350f2467, 0x106aa158cdedbb22ce5caa3df644bde2d9763b32012a5fb391dfa3a761e2e33, 0x205bcd60e27251d356cee0c9fbfe5cec10606aadcddf7dee7b6d50429248cf29, 0x1fa4539519ef1cc1bc573c8af5bab6df0ef869778770109f8de349b606bbca41, 0x17cab2199c1a13dd4608a9e1e4b3bc4965622d8b574ca6533a252aec9395ab05, 0x2c34d65810a7e5a4b851f02a66ac4d1ad54ead2ab633ffdd88c95dd364b16420, 0x128745a9a55f406ff9327e97690ef8137648a8ac585b1d483e87be00fb1e8866, 0xd797eb05630c87b72ac57dabfd5e897f0679bcf0798652a327bb6a02bfcebce, 0x2d49ac3f9e3ac8b8c0b37442e804c4487249047cd6a6ba32282c55ee72b9f4bd, 0x2447bb4feec91d4b048bffde8de39dfdf87c8a9a3623cb563ff9d6203c6da1d1, 0x790cd64d983c721f883cbb6f4aa15ea76aaa19dc39b1f44c4dba993bc9010cf, 0x163a3b62e1a26e8604fab78ff1be0a3699a6b08d329feea137062fdac214b0b1, 0x64d9003fc12c06923f798fbc0f49b33a6250e352180eedd7fd846b7f9593dd7, 0x1f0d94af29f162d084ad70c2b138a6532db8d967573418a3ee82cb31cc8daa26, 0xc30c7df8956774687f81e3881acce5c551fa89eaa5ff7369d2c9b68cf97a283, 0x1814723bc7c2396b80b93f41ae3773543a232b0fcc80d78f92d48c908cecc77a, 0x1efd30a08cf062ea109229b3bc2dfce564232dc6b181030d2c03ee486bca6d35, 0x14e923cc919ce767c8d0c308031f1546740d512c6805a48b81ce2bd7e95cd9d5, 0x21d74be8e343e93f759588cd7d29cd64a3afa4ebb48e1204a3d573ad1d56f4da, 0x1b8e0086de4de522d5c81eb0a996955ea7004aa6e90d3dc9f37b3bf834b08430, 0x17e5a80ec135e0c932f063972d785d9f89eb45ffe44dda9a8ffc11468081645, 0x1a5caf74532f2c590fee8503a13bb0ee8e931b6cb92e8f1e52c337f3c7e188f5],
    [0x196b76cefdcc7f6a54c71d40114a0bb82694c936f1573ac7ac1ea3fcce1fe938, 0x1ac42d7b0a6e8b8f0a097d11d8651798aa5f2676574418f23b7fe6168f28257b, 0x1ec67557d1bf0e6f851c89835c29d2334967383b9677c71e10f12ceda3593e41, 0x2f47ab58a58e52340df845a782d6ce983366fa669f4d9373f849c0e3cfbca272, 0x8f212a5650c4b2f68a8b7a14789198ad2c224facc562e07360904f0adb8efd3, 0x2592c7276c9fb4e962b8f7f5bbb95018d17303a6e8a5b513b2f3ef87b66d5135, 0x28eee34c1029e6eea0cc12e202dc1f4b50e73865acd6a7b69302a1b45f2c1907, 0x11bd9407f0c9e1b9ebe379342b2a426ea14d87335522e8aaa880236f5129fd0, 0x169f293f396fd012d20b323f9b3eb45362e5d272d2342696ddf1e3efed03c069, 0x1e1f46890d389a50ac16e5422f79d449a6011c5be9e53c266285afcc7f5b2608, 0x128da78e60b0758189982ebda43acd77c51eb6455d720455955ff631a922633a, 0x1069251fcb9d2fdff50a041154e6ccc7579a360ceab1c360d20404630de5565, 0x1ed383a4d6c433c6801b6853b5c40f67cc4fef27c2610aac9540d5355c6cdb88, 0x6e9b3357bd837d1a5b8c7598412c78216daa02bbb25970182e089872cea4e1d, 0x2fb62dd173e44023b3e784ae457bfc93adde1e08e98f3631c6e01bc6343c5bc, 0x204797d9b16d45b093bb34c6ef5e27304af9ac7ca7c4a252134d3b61b6954b4d, 0x2fa8b35e4e9405e7ef4f2d80820396ca8f026f3e330775368850d423394b2301, 0x10c38e859ea854e2c6bbfe3acd613ed59d70053772c6fd7497ed2d4d99b2907e, 0x1f44270853132e2b71724021bfd741e39c3414e8c63f7b148371a921355b5085, 0x2eb4d6a5f16de3e5b2c2c33801421c2dee87a222374f4cb2c2fca1fee4fb1ce8, 0x71e2443b4b9018d2a7ca057b35e2050e59409c688fdca9289c96444378486ac, 0x1423a5126a2789082bcfc21a6901111b6b5299c4f76d341c8b0c2e9dc4712726, 0x26e1e7b62d89a75f94630821b5385e6c48a97b8c5c5ae1b3b1f114444e8a10b8, 0x14fd3ede10aa7bb382991a1128340eb1e6ce0a8d573f643bd8add5a2d8e8a45b, 0x2aaa9048ecdf21e06da241868551cf548f683880615368a6a2cf87554d893b11, 0x2e083ac42fa88939d480a976e73c6773d26c4583074073d6c2a9f90071bc830d, 0x12cc2a0dc5c021316bc97e26a35a9f5b062087b78224526541f528acbde2d1c4, 0x22adb7b0e9d4c335e55c7aff8bca2048a59c0101099e8ab99b79e64be46ecc7e, 0x158cbe94e139620090b700f9fdef637d70081aafdf1aff2eddbb5e2f6bc02dd8, 0xcb42f4bca1dca294e7e897d0a0b9e6cc72531cbc872789265fa904aac00252b, 0x63156236d87d3673e07b739e18d79a22a6f1c99c2a4c3de4b982b5765c4de49, 0xb7f0818b640763c1268912be50230493391a86d9de957810fb2d1548397a088, 0x2aaeda58e831430d69a57059f933fa5deb7fd04fbedbb016a919bf5f4d8857c5],
    [0x196b76cefdcc7f6a54c71d40114a0bb82694c936f1573ac7ac1ea3fcce1fe938, 0x1d3a013444e777bc4e816c6f9194646b6009d5ed09931bd8011f5d3bbb01378e, 0x18e4924f258930420b1fc45cfaa31fae7ebed37f375a17f1b8ec6e97675403f1, 0x27c63021eb05577b17d50676669a6d590535b6114f74d6c14abb3efd3589781b, 0x159d12a40b8694d9dcda1149dc98bc3228eedeb19040682a2c5254723a60bc61, 0x1c04115e802bd71622e1b1425496f939414737bca8dcba1f070d8a44f6da2d21, 0x4d0a06d0ce3dc2ac28ee5f7774898d7910714459b385b5874ac46dde92d79d6, 0x30128d834fa6bd28116aa6cc19453b6f731a0970df12416c8c4e7830ef3f6f37, 0x1ab7eaaaf3e533054595ab5a16d37af4b028bb6612017235432179802e34ae67, 0x2a30c413b8cd102148977b0fd1f51d4cdd2684995eb899156438afb7bb4fdf9b, 0x1eb6795f1e63f8933ed48dce55d257dbf972298f9186c56d0880ae76fe562730, 0x21d1ef33916e6a7ebe055233c5e38e388ef6e2bfbac5530ec587719182cc0b40, 0x9e2af7ab3d9206c3f54ded28a08f8b78396cba9de3d7696964d2529a0517c59, 0x24564fb0247a0a53e81946f9f0365c5d45257ecef288d6d67d0bdc91055a80d6, 0x1b9ded9f11fe5b6dd79066bd0e16b9253935e8d0bc2bfc130db23a8215d0de13, 0x192711d3f80d452839ecbfff6dae32c92bde74d051a75bc14170bc690e69f9c2, 0x1b3af1fa25c32da1a5467fef1dffb9cca1b7b92c4d50e3f7ad0548ff2c4da1c5, 0x22bcbbbe6b9a39e310a03a9bf0e491451698d4d874aa192b828c1a4fcb86f3bb, 0x3a947c69e09d64be68d7bf2316f4cdc647c912a6bc4a936232cb2b6d320af52, 0x2d21f4596d98ac3b62dd919550859a7592e504009d268bb7f5bea0f38d4aaa46, 0x2b2708b2cafc826207f80189733e6c53d6ec1ebb3c54656689c10a8526967bb2, 0x13e69bc7a5decd620276116f40f9743e487cc219df1dc1d769b1aab8eb74316a, 0x118aaa8f364cff4865df9535488935c34afa1943b1e28aa08d440a7a7d72d80a, 0x11ad3bfa094695c23a74b1f23d9cf7808e7916b9f0eba90ec571e06e4f310106, 0x2f4b6c06d0b996fac689e922707ad815b411539f857871cd1a6b9aa34386f108, 0xa6288360ee10c1b02a2a6a6d34052b13ce79fa1ca91f8ddbed485dba92eeb9, 0x25ddb8ea60be41e7e99c97b6b5a7822f071027932936673c02900ebddddaa88f, 0x24c8c87f88b21ea24ac03cf1a498d64157a8bfe27ee0df70187f6d11eb856d2c, 0x2f958a89827eb535aab871af8f3e1fda9e0b6dd0541d7c9830321202d467410a, 0x2d2b3221d9d7539c627315e2422ae26dab5ae103cd8a8bd19d895ce97e19f866, 0x13bddf23791d0989c17fd99bd435437bd8bcf676c689ca0595a0d04afd9c2603, 0x2c15a1ae35281bd2fe7a611523dd767be99c5a32a8501ca19b1a8940e1062826, 0xcec5e18e50beb5ab2c7f5c9eada9fe3f3e8689b0901afac80992dda3bbf8803],
    [0x196b76cefdcc7f6a54c71d40114a0bb82694c936f1573ac7ac1ea3fcce1fe938, 0x1d23ff4f22dbb142a5d4465aee8fcd2fbdd8e450d1cf6f29182445d4496a2e5e, 0x172ee58685e83a795c76191742ce9df18765ec6f1e9d1233bf73ee4fbc53276d, 0x352cf61f75587d4a82226e28ed9a38863d7e3fe6647117cd28c736cb2893b5a, 0x1e571b53f1260a7fd4ed79e03d32e23b2627804ea5c038618a239b2873961fdd, 0x150d7efd3ec4cb7eaa6703bb78913527c77b07e38c93a800841a123ebf3edebc, 0x13cdaeb00438b5c6a40c0d8a039a8117269e15f580b8044214e5638f2e87a37b, 0x9d76e8da13f87545b74c5f505af00e204eb2414a186b54e6dc3b7b8c24e27f0, 0xb6ec96b7f761247ebbc27f64fb4275f1128472e7ed11e8a712a206cb9e16477, 0x1e066da048cf035bcc17fbc4fae18348f4bb1140d9519f1bce81144da499a536, 0x426afeba63d285758165a95db5df2aa86932ba9f50314c5f7ca4408bc3eaa86, 0x2ce68ba3f40fa50262f137219ffa5e343650976b2d5d2d1e80b687e40e426d1a, 0x1e1dbc3eccd20a0a96846877182b08ebdba8bcb16492fcdb60acaa42317ef8eb, 0x282ae2fa425f91419dcdedfbe6800a0122a5211345524b9c320cf776a201b467, 0x14bde086cfb19372690c53b0e04ad0ecaa78a8babbe21de8a47a796ae9730e5, 0x114e76d2755ba6fbf01851955b051cb5e7d677db3fda594d6658ad4fc099236, 0x2796ec5da2337effa6fc65cb8536ea82b5e60b14f10b005b07308b52d3011d2e, 0x252c6e37471afd938b2c840b2818ed18eb7900adbe9209e038939f883a236f21, 0x2b6e07212cf2e4304a307acfd16edc984c170d96e7953460d1cacd3e84dc9e75, 0x2adaa99cc0a5150cfdd4e17ff6390c973f2491d4e2723918d35ac55b5deefb49, 0x17759cb89386f9365fa875620b6f6e7cb6b5cee2d77f0b7355d9c33ba0e6a460, 0x111bb071c2ca17121de11f36ba7cf79f699960dd76e09295610a136afd200e61, 0xf394cb8fbdaabd31e43d4baeb5523945e29df4f720d026fe115bd1693a88818, 0x241d58e1cf3ed5d94bdaf9f0c463fb645b65fa19c52c193ad67f1d38fcb343fc, 0x16713a7b5d8cf3ed4c25d780a7968a80f70c566e6ba208859e6cd69801995242, 0x19909ba7fd3b8fcb03b6f810f246f384563ebc5896fd61496737f65b5362dd02, 0x2a9dfd2dd3048b0347dd42aef6561a277adf3d86fe83203df1778536e6c24aca, 0x18532ee14e86e608555da020892086f155c685561272111e7f4b6c91781864d0, 0x2509cd9ebd96c0d7cd88a3bab280b42068691da92e03f6de5930ae67ffe04f51, 0x11c0877290f334877a26326ce2e6ca7a96dd732288d273efcabbc0294e2daf09, 0x26009dbe4fefea6739e28a0a6fb1dffb35d8516e06914862db8738bbbafbfd1b, 0xe9f75fd533fa509a499945055cfdd603dd9930a50634e41a935098d571012a8, 0x1f3592557428f40b9e6582536aed2b7264c9166093b76df3ed68ff033c7ff93a],
    [0x196b76cefdcc7f6a54c71d40114a0bb82694c936f1573ac7ac1ea3fcce1fe938, 0x1befd6dac2acbea83cbc882c661e80b50b85af2021c7ce770cbd4e4cd48f69c, 0x2ddb55369f02ada084136f4092258eff0be8e170cca9eeb6e2b65311edacdf9f, 0x12dd67091b9f1d7101cb2cef74fd216fbf49d4cf33548e6d8310446e562cb7a9, 0x1e824766a37cb1d1c7e75e3f9c261f4aefaaf65080f870e972b14132e7aa6cd7, 0x4af8f03823d37cedd40c1791ac745b768c735234f5756d638b200e1c134bb1d, 0x1b65a271d787e78382a9ee5a1715c9aa23e3570e92dacd75004aed46b5e4f778, 0x1b239d4ebb80ce098356e864632edbe6affc3e5a34d92fb9518ab89f16ca4f22, 0xa9f23337f4d86a82c5dd9a9216cc182a5a6b6eb6fc5e42797df022e276846ca, 0x86e0f2ecc21e30809e1f2697cd036bbd6241d68668b26efcba5a63bfaf84037, 0x29bdb60350b498b5e1ff14f7360deee6aa03cca4dee1a94c4181a28f0fd2a9f7, 0x2ed66c1da1c54cb685c48a32d650d24c17162a3c758eb19aeb9779fd35ce5499, 0x23731d564560385b611877a371f26ef53a64244728a8e8c5fb7af1d793e0c7c6, 0x5d2071dddbfe020a1d54d3be85485fda55e94634c3c7f92b6a0e7df8c54cb47, 0xf43e2482200419e7d6bd3242598add21ca3c7a6f1297401a48aeeeddf8c42c9, 0x147a84a37131c4e46e9f9ca597b984d7b4a4239425a12ce32f8fd114874a8cb4, 0x6acec506161a2536df8657ccae9de73d400b734124368cc4da6fd86ef670a19, 0x23ca187dab655ca80e1af85d71cb254f05d27b6f8000e366443afbe83c4cc725, 0x2f8a17922cd86c60691695f93bf0f432f1ef9f05e2e63e9532ab277fa47c0297, 0x1846b9769a8f327eddc2fa52e235b3c54833f35db8c7989f4342d667ddf2caf2, 0x243270c2e4a32bbc19d2bd52271b9a8da3f760251ae2f2d783d2854d749d0ab2, 0x29e4f01c0da1655d98887dc01ea2faa33baf934660f2c934187ea6902f5e0dba, 0x3e46dd55965a70ac8d048f6ef72742efe897a8a5cac24a0a323452a738a4271, 0x3032ada92a06e725cfd5cf71879293c3b862c706221b604bf004900182588e87, 0x9aa6962258ba57549d5496104be1d44d36adad0118ce7780f470655e7a79b9e, 0x24f4c3f9b2fb7dde23f455ab4a5e76ac60617e46bb7900dd97769420911b59cb, 0x10e408cfdce8d6f9b7b710d2cc93937cdb43d86d59580ff5417160745c80b7fd, 0xc7e1f9439ed6f97010e5539ecf56bf151a2955f8ee20b2ec89879d81cd24a16, 0x20bf7ddb42d4c9d7c8bc1e1b110f065665dbe466145402ba3a3febce0fbfb3d9, 0x485724e08555b73d84eaafda9702a639baf4de0046875d1f0cf609a1270d720, 0x2e67be03421ab1f822047861a72a6d08494e65bbfd13c3f7fe6ff48cb863749b, 0xf79509c03da0c16557c73fb11286f9fddd8f86d235071eaa7aa71a85f547133, 0x1df1ee0ab120c8673cd3cc8c6ef2e15d74810a03809c61e16e8bab3f20a296cf],
    [0x196b76cefdcc7f6a54c71d40114a0bb82694c936f1573ac7ac1ea3fcce1fe938, 0x214e36f5e05f24b3cff586c96031ae938f81cb8624b76697a7e1e79986f1cb94, 0x26e5f56af93c25c1c66a64447449b0256433d47d6413c0b2fcf6210ee5f138c, 0xb31a4ad9ec066989d7421b0f1cb06d7683bf5a64e0c3067e0b1a3bca5a64a2a, 0x8561474777e7f179341123ab782afad4ff632de09860eff6ebe29e4fb1a0c36, 0xffb57365252bbf56569562327f8db32f337001a18e56fceb006741a0de303ed, 0x186989821e7ba7588a8634d87210552eec88f846e3701bb336a5b7f0507d01bb, 0x2b68655758f842d0aa6dacaccd461eafddb981b75166e55dc1ee2c208308e5f3, 0x2d399f586c89c60556a7651f9409b01aab8f7d9d9322ecaedc93c590d9cd0fc0, 0x2da5bf9c9e9da4c394519580405b41e6545886063a830437dec32d7f1bdade47, 0x2b65554e892585688e54d5bb49e321f507bc305fe56fb780e41d816dd9158369, 0x2ba41319cdf6a416c9e11bca8441cc610c6e7e45c2108dae471840f71deac714, 0x240f23cf9066f8f5308a2cb0f33e1b40cf634980a9f76bb6ff07e28730868f54, 0x231ff9a1222347ab20a05faa8d43bf8cb62f0ff9df561f7af015c73d191ffe98, 0x482fa25dc024367c8dd5429b56e7a0736c866fe84ea1afffc3f5d0f421fe651, 0x2923732da6b8bf6ee5c73ce34d3ac60f9660eda207235d1d5af9784103f0fb3b, 0x1753f96bcf7911bc332bcffd151e9e82248a44517474204b3e9888738e58c5f8, 0x15e1d217ad8bcccb9a7b3009f26c09576e9a83a00f3751fd4ae4b396667be084, 0x18e3a1c74fd50b4cf58f3096ed129eff1e129302507e6efdcc44c577ff23403, 0x2ba6780071d6646fbda80d23fabebbaf0272a953fba3249e3af0b56f22ce8120, 0x1f7f5e238b103729627d5c22c78d92ede19a56995972ca46a317efdc27fc70e0, 0x2ea1bdf6dc4bb3ba6c3d068e085a361ec8676c6fe2ce66e842885b830315378c, 0xa6fca77ea6f6437fc2bfa7f2beb768dd908dbbbe87aa75ad303c62790b34d17, 0x6ce49d6e3d7f46d2175ae9a176153bfd3a3b8f93237a5e45ca9c4ee04ebc5da, 0xa01cdcd06c3f24187bef0d4a83b8e21a54746f27f0f0d919e08b7cf0d241776, 0x13c68e6f75234dd86b9568ea56dd98bce6c1b8d64fa4bde97dcd7562d0a9844b, 0xa162dbfe59de052c7f1bfd5a6a0ed87c5d6120d538c40a537ecd0f3ac12d88b, 0x2af4c78dae7b20fd7e337e83afb1feae26c555a544d8ca8fc5c9555423fe1c1d, 0x2f6c75f43301c4a5bdc3d32fc1d66fdaaa4f3b04236427ede87ebcdcb6c7fe59, 0x2a4aa9b8b9464b6ab6c584645c872959c9f68ba65c057c235b7e2fde8160e42d, 0x2d8dcc78c6658c1188d60d080fb3cd8b34ee5fd1adccc8a47d499e62ca725b05, 0x14d6380547e6c54a017d04ca2b2cbe305a4638b32b4163195b459db073fa9872, 0x478b43d35f78cb355796e0ea0e8e9f5a8b8d6c59cd2cf58df4dbac1a55defef],
    [0x196b76cefdcc7f6a54c71d40114a0bb82694c936f1573ac7ac1ea3fcce1fe938, 0x1ef96c51c2b7b30f1e2c59a13e9e76f079c907a4718b3b1827228823b9d8172e, 0x29321a97121f289220eb66f5382ef63c56ab3d289391c4db61c9dacd44a823a, 0x1481bf24e7b45de9670afe57fdea41b8beeecfb23422e83c83de9f6845ea9576, 0x1ef847d3c1b94f7d5dff4319c81691a1354f76fc73dbc600638472570c8c465, 0xc266666de2f8bbbaa20aca7b4af2de342cf1930552784c300342f3896703b9e, 0x149bb0f5b9d904cdef7c045ee236bc38a33dab8fab24381bbd14aac30b12ebc1, 0x2ee176ae76a9196262b1d9b78ce2247cf2133e707cccd952e37d92fd71d88d9a, 0x1376c5573ebb7265f70acb843f749ffab6f69d346c01e8fa59a1c61091e53f03, 0x1098a7920a98fb50caa3540c5efc8f6db3dffe9b2c806aeb20501cd0e09a5b45, 0xb01cc70e8b9fd48f7093dcc2ba65898771cb4302388e39d95095b446fbf6bc6, 0x1b0e1d5d686b5c6879413df5c510fb672a6d6622bee86008f32c0c32d237b94, 0x1f74ab5e561a3606ff3b9b334dce7c65d772ca2c1d8ab0e2591d7b8dbbd7870d, 0x20de7f8e6a491ab79a1d638f7ab760fc5c27285e90c87ad512e86a1bff3b247f, 0x2e48491edee5daef9ee63ac52cb1734aa69e15b68d8c9e0da68ad718858397d2, 0xebddc875be02613b22701dadc5f3ad1020a797469a02c064545adfdfb73daff, 0x171d043f251b701475bf87b388ee12b5a469cf0b5f4c120b34b7b8df3a50b898, 0x11c7c2bb7facd8c4d0e37f220026818496ad96f0009975cade5a85dd0b319d3a, 0x2b86058c080559f84c11d33ce0dd77e8f4aceff8644a1ccf78907b6f02f2a2e, 0x1bd631d67d9ac357a1dfdde1c92a62b0c7fcfddc06376746b45231878b83da75, 0x2cbdd86f5eaaeda63428d4a39c788df7e08cbe62027d423d3060f7a04fe40d13, 0x120e0960c012805f36743a540c3b89f519e39fa631ba17d2542d13ef27469cb8, 0x8e188acf6db761e26d65404bbfd7a0b5537d4e05d85f819de8bb08b1f9e6dd, 0x2da3a719e3b97734dec894cdff62842dbcaf8ffc37040bdd3f2249d32df42e65, 0x176acedbe2dc8cdbad093b2a591292b231289939391991be3b9ebf27276879d1, 0x15964189dfb203bd5cb0a49c9d0fe330bc82a66e62b4bf29cf9a878b74133c92, 0x7e6833725a1a694e290a34cf6d725401b7ba6c1b0b740226bfd38b66acd1b02, 0xe4fa44c437c0b7871d7db91fee425aef4dec5461c08cb8f7e8990ab8aa30724, 0x2e3f0bedffebdd3509be6b792530f2041b04171e729ddc9718a2caf15af84b38, 0x1504dc8d0dcecc34da56ea5522a2bc7960d0dd2e0ea24466b84f59aa5db015a7, 0x178c9a3999106b047952fb93395c214125f988fb1cebfffecdef4278a076e3b2, 0x1af7832596eef3c4cc8630615883a143b7b6993e90b4332e66f36cdf167bc838, 0x2822dceeeceb7a2e1cf3f25a018f8ebdfcfc720a39e370c67d4333e515ddc724],
    [0x196b76cefdcc7f6a54c71d40114a0bb82694c936f1573ac7ac1ea3fcce1fe938, 0x25ce0d19840e800b798a9033269b14f1726a4fd660cbd3b6dc3cb39c07f27f53, 0x175f82195ac38e9f11db0773887a93338ee07d2852587fb4226f11d9422b8328, 0x2017bd7838d0bfa3ea272ff2e883a80e63c7288a4433997b18b4c5f0da5f7e3, 0x1818b2d93a4d80ce0068fd9ce46ddbd200b6040399f4355194edc9f2c55b5ac4, 0x17c59d81c21e6f83f8972fe07e0ca9b352d04ef730fb76dd72931925c9a78427, 0x13694ae68e1c55dd02a5b8c1915f878edfbddaf12b45fbe9fa27a2954b213a9, 0x120221d8a84571726473bfc84ad47f1b04ff70e7a8d8e9c1e91e1165e9b4f18f, 0x14d65cb6f3b2e4bae5ae5ed1cafb3e68ea86144d27fa8f33aeaba929cfef4d80, 0x1a6104dae9627992b627b87d84e656009bb69a3a7a9bfee98aa80dbf21bb6ca6, 0x1e3af87bd45255572d1d14ccba0d7b2f8dfd79b79068c6f3883ca9fee52830a7, 0xf3d0df45aa7bd62a9768cd20f8466c37b7ec5661968b2cd18abd57367319079, 0x13b8af0004234bf35f20a7cc7b9fccc999d0d8e4f5ff6f26c237835a1fe042fc, 0x16e0bf0c9a24d467e38c3778c76b2e2250fb1c06fd4659fffa3093f493a9eca2, 0x26d28c3453b3d7eca08e87a6c46bf8a698385ff358e23edbb1e174efe5c233c5, 0x26fcf8eeebb1ea7b1754c047bac9ad888edbece428440fe2102d46969daae640, 0x2731ccbaf234079c1038e6ab182efe0f1dba3c47effc3e21d2e195e3f0319503, 0xc785f0fe165d5d26f6b5f2a0ffb7ded4408eb4a92f3eb3d13947eb094290d97, 0x2581c7faa23de18b2596cfc15ff01dbc84bea0fa4806c7d1a0abc43e76ee0f3c, 0x27e3f76b7335ff9fccffc865fffb83b368995521e989bd4dd6a86cf595d4a17e, 0x13234d0fe49f03c4a28ed5ec2b8044e9c7dd20cb831e541b7c540db6c1800637, 0x11a6eaf2aa5518374eea4199c11f3d937a426494ba614ddbc6ac6ea1dc804ff3, 0x1fcc367b6de0eac68cb524cf8008e6adbd783e8c13821889031f886647664a0c, 0x1458038bfbc93c12974f7474afe5bdc94cbd539c913100169cccbdd143151a2c, 0xf24afffaaa9f04e88599ed696dbd4eae28447c2f05b997194ec832189cdfe25, 0x7c8e157325437ae945c3c67c4c757493076bae3ae720b00d0c35c36453f6826, 0x11198181950b4a2475dc01088b72115a94285ffec4c2a5ca614d13b1a14fb319, 0xed57c8d4abec5e290ca22be70bc5e754e135771d5348f7d711d7383617ecf36, 0xcec6b37e0709d4c9d5a8ce252840ada6dd5fb95603720af648319370941bfc3, 0x192f0b18cf17855bfe94214aa47604eecc598f8df429d9c7a9f0c807a467511c, 0x10323d6e384414dda110f50d67bd06633361960a357f9c6de63f837553cb58b5, 0xadd901bde5b672bead23855ffaa43194e666b932d604f47000f08d1d2640511, 0x16dd65f412cf9f1325a3cf4e9a8f02c27371b2c3d90888e7d4ee82713dbebaaf],
    [0x196b76cefdcc7f6a54c71d40114a0bb82694c936f1573ac7ac1ea3fcce1fe938, 0xc86afa39353edb39b52bbff89c5c1a2bfbe2b4100df0895fa7c82d8e77c482e, 0xc46613d67d66e8ae31191ad6e5bbae2539169134c5311d25c06ca54e9f3ab77, 0x395678f2449c3e1a76b5b9df068e5dabe76e15ba8589e0703efa3fc1244184a, 0x19cdd035008146af2718d7c2ea72fa725be2d10efb070b303c809b861b788b51, 0x1a047c51c9647354891ea4acb582296dfb90bc65c97e8889f1d075fcf217cb48, 0xc6cdfe9a0d4271a15018a2e3f2d80dfb7468e216397e85e138d20be790b2307, 0xbc59105470408a58ed2e8816aaed1c29dd3af469e2e7eaf3e1ac366d40d312, 0x2bd71a360bc27ecd0f2ceddb797ffc5a662dc96cc64cf15e03e2e63a19aa0453, 0x45e127feeab8d5df95789dfd96426ae84c34723fc735865f80d98ee53eadd5d, 0x153dfcb519caee780dbcf85d14af1fd03d6888a8f8f35e0f5d16fede2fc3be20, 0x14e6a09539291352d800dcc6d07e0d0a15b544460b6a00c00b236fe5befec431, 0x2eb026a3350a6d92b399aafa7e52a5e1730d63b9212e6431473dec34b227eb63, 0x1641bb238c520d7b2da80d743f6325b013f7f2af04f83162314ca4554e4c034a, 0x2e2b3857032c8659c4533fdbd59d3e118d810ef879943988e6239fa808bafb4d, 0x2c37d689e22b1f332dc12fcb8490ec1b679a5e15b1f4b9b5edcc16507adbfd92, 0x3025a60ca5e0d56b9507310cc9a8a7a6dac7bf6e942883c6f73356f8a0c2afb7, 0x7f9e146e6c775ceee72b28edabe0f4735ac136ef900a6147570f0ea6de0782a, 0x318bc71cb7dc9d5f8b099c165d26545fe0bbf112167860825c84c180493c6bf, 0x2c6fe3f7e18010025df5e6b84648d0669067a473d849b4e181c3f4e03d42b128, 0x2bfa2ee15d1c06192533994513500e6386bd767c78391160dc4ed7ec323e57a9, 0x12f7e0085d724c9e28547f4fb7583a6b0fd4685f1fa9d8c012baf4701786270b, 0x58f27cb9e4bb8bc4df8b66ea9b5a5f8b90cdc72b345c4b0a300b1ecb6e2aa63, 0x1f34ca32f956eb4e099ab646d95af278ad8db5cd00ddb1c8a44593ea2fef03ec, 0xc73343dbd1d62046a2df0d555812babf2ee35b1fc103bf6938d783ad0b44499, 0x18e5fde3115a19d207ac2b687e135e438d915cb495c74a0069fda3370f46083, 0x120fde4dcc6a7447775ff4e871e321ebdfea69a589ac90714ea4f9a9608e1e23, 0x2d4601dddfecfe13175df8d48155e9aff8fcf449dafa39a245b8d6cb1706f490, 0x173632b4f61f2083cbb3e04853acb5bafeec8c75dc4407123e2133c060905ed5, 0x26b288e1ff854948e38cff794996597108b335f67b1fa2598c5ab2691a927730, 0x2a688ae162bad939c6de4d889910df138d1f7dcc8989d48caf72e1e22b956422, 0x160f4b8f49b226f36e72359509e3dac329b1372a7fb63f055d7f9b004d5734a, 0xddb062d06f99f34542ed03bcaf07a59a456201d26f15d45b8f122e9565d4044],
    [0x196b76cefdcc7f6a54c71d40114a0bb82694c936f1573ac7ac1ea3fcce1fe938, 0x13785c4968bb97c8c769257653ae58a73b94a24553fae0e00988b29f47ab549c, 0xec91cce07b1e9b778fdac5cb9ff8d8e6438292781351bedc3dda454afee474a, 0x22ad585fe3ddddb3233f390ec3cf43a570cc4f56076ed366a63a50b493a6d655, 0x11f51cd707f519aa4d0f07de79bd18a1f7b65d2b96b6023d18a87459396cffd6, 0x16d2290bff342fae3e0f6366c4a3ccb44c611797e77ebc27d7f5ac31fdc6cb51, 0x16d4e47f82ee3b3d81d48a335be28f4521f90a935641a451097b8298daf0a26c, 0x269e6a80d58dbc19ef71e682b1faa7dc7394636fc15c747d04ac950496f6e118, 0x2c1684229f0eae24af14f894023cebcab0e384703e71ad56199c4c8c70e2dd06, 0x2d9ede2e8993c45794928190781b626fcc406ac3a977235f9d6e50267ef18fb0, 0x11d67805271cb5d86a927303acd7fc45218098ab99eeef9756e62135bf77da70, 0x170206f9a4e4e0d7ef55c5cd644aacce231f7727c7f98d97417b720bc37c7881, 0x14a30c6b5536c74f98f7fc57d004129d4f887cf18ba9f869bd5630d66d341324, 0x25804cc693b0e118e811f3a191a9d6e47a537cb64129293c947206d9290e7d10, 0x1a7a17b400934be92901d4e91ad3cfc98231aa841e09627cce975bab7c15f2db, 0x2c0632973f605ced6998435a7d0cad76c8c9c223c280080fb6a8c922ad09dae5, 0x3044b16721e5ed81d39f2abd29d5f0a761c13fe26bb4f53d09d5a05620997fc1, 0xe2cb4e18b26e4ea445c704748bc7682bc2834cef35ce6bdc043beee286025d2, 0x1c033ddc1a9720312cc3541e886cb227d2d37eac1cf86c4588e98203692941f1, 0x1ef28ce82fab806a49fa311c6f4e8d0423d051e0a3500db978ff731a9378bee2, 0x51d7d3785234a09db1939ae4ceaaf14a46928189efc8ea0fa1889e5ad0d1224, 0x462c9e533e4745c52df23623b0b72f3c9eb8e3a9f2a22a71b5ce6ca41927425, 0x26a33280331d48e2aa9c5f8f63c4423a6dc8019b9633f49aebbdb6a55ea5cc93, 0x8ed8b1b9618a2db7e4746115d96cc25ec51411bcb07985e9529b6111039e90f, 0x18fe5d991dea77a7b18f1bd5c183a377cb9e5c9c2591867eb2f8e876c40c41f, 0x25a3f5cf66d0e82be05ea92e3a982a6b3289d9a8e51618f9b21ea0e39a30e5b6, 0x6182fd61e1b35b6f008e9909fe99904bfaef6519618e435130155d28d1dea2e, 0x1af6ad164424b6c90ca4241382ca0cd2660ca388775973b08e6728570a22d844, 0x6b534601619e55889aaa855c063a2ced889c6b4ba4190da327c8a612c255544, 0x50555bc03cbfafbaaa38191f0cde54e8dcf4fde1ccafb5af5c7e00c316d655c, 0x579cf40adfc069a0b3cac02a495fbaab0175fe948dc97ac85f7699ec9be97a4, 0x1d9670b720e7af8fcf67b3c832d43a0e9b36c1ce11b679554086d3ebd3743815, 0xb9f1b4372ddf2b552fb55e7d029267a0ed4f09c4f95d1b99a08c1d6585a6e74],
    [0x196b76cefdcc7f6a54c71d40114a0bb82694c936f1573ac7ac1ea3fcce1fe938, 0x80610bf8946c2cc782c83ec3eaea36684a2cb66366a9a801b63fad3332e8ec1, 0x2837c8ba7f104dbc7503abda031731b4a7a1dee3ee8fdc708651a7385e56fc72, 0xe4348619aa405bdc4f9fd965dac265ae73dcdfc0f71bfa3a943cf98965610fd, 0x199e9e250ce12b1667cb730f801334157f29044410b1d98b2d6f2a261a2f7768, 0xa0409a4aedc8480df4a99f9bd0bdb0151e5ec3cbb6707a594d8aad6334d4c75, 0x2719d9f1e85015ea06b50d406af582c36d5e937522c974727b1e7a4eeaefdbf3, 0x1066a17fec5e6cd2202792015dae55345167ea35b6a65ab7a7f2af91da59ca1f, 0xe4b0a49c371457ba0eda6cd95fdc3cb81264ad715202e43e2dec5699fbe4d82, 0x24b58a924ae3bf6ac96fc11ffab9221a2283830e95377deb2e5002c2bdd1323, 0x259c8606be0c6467b6ef056c6a4192776c6c3536ffa82c89f038c856862af24c, 0x21d6c0a2a54c5ae9ef9dd5f2aa73764f38df1e923aafd242e5f523b5332bbd05, 0x3c099cdc3f61caaa2e49d484abb2b30e969416f4e1a5678bb025318e416678d, 0x1d4d4b8c552ef0d318a9a8edd80a2f363c1c0a1dcdab35880dcc6bf3c548262f, 0x7e4cf648e92c276185c416d6ce6f5b0c0e7cbc2eef1e250555699afdfec0a0, 0x2992b02301dd18e00482a9940d59a69068127f06aaa50a32322dfa2af211f3d9, 0x16871531e6fe81173d8082d8059270e70ac4125d0951616ff37e4b4aa6975598, 0x221c08a0b7dc5aca357a52f0127797f9e9e01eb05d73655f6c779ff43f295f1e, 0x2756a3d44e88bd6547d02fa4460c09a2e982a4d505a3421625b9bca2604bd862, 0x2923fde3bde5751d8eac7a9a156d2444db92b629185e01e5600c4fb5a2ea53ac, 0x179ebe0d2b17128a67f8fce5fc42ee26c654d2a892c4eb3c6577448d5fd556ba, 0xa1814edd4f8466f7221dd98f8ef29107a18c66320825acdddd8de64feb0275b, 0x1cf03d03226c78b2369f79beef10f08fde37c150d4e7aa197978365ad0bd316c, 0x2fd3e923ee39fabc387d2170ea6b9a629b0a7e28296c84ba8843f8f03ec3bbc2, 0x12c6bd4f25c2d042e4d0ed3a1e5cc01247c78ae90e49ae722d32a584286e1b4d, 0x11b78a0b243bd45aaa4f3cdb1c79ab206e95c4011289c44ed4d8ca99686c9b9e, 0x8945308107ba56486011898e6bb26a99ec0f0b9071ad9ce0af820d2727f459d, 0x2172f85afc450cd67c1efebd6becbc01114bc8b3b62b4081e4cca3418693b323, 0x2db81bcc85e548bef5059b2595b4f06b55386b9aeba12f483f49978ec6a9cfbd, 0xef5d0ab806be48c7d0b46a2cec1766083eef4ba4373a16abb2226803305207d, 0x17caf822e96f4cb68325943442e65736c0f1e01b845aa970824a3b193ccf8b30, 0x2315b8f0ee989b11b9835d8ad7adb67e035f85c24835a4d53cc7d7b59ff15041, 0x1f5c7dea1a88280a88e2a57c1015af5c5d4e84da900bb30de5fb8c5258b46794],
    [0x196b76cefdcc7f6a54c71d40114a0bb82694c936f1573ac7ac1ea3fcce1fe938, 0x92a67467c379af9424ffdcd9a81657b04289992027e3a841bfe322924e000b1, 0x8c70f58f02446463906891b2604d2faf312cac00e6c254f30ae85874c112546, 0xf4af67e5395b62af989d01c1fa9fbd219ad1aa4aa2be4624460940bc0c12a3c, 0x17f7da080a7159316a1994a87177f0a4676e249247a2a577c3fc54ea8cf7fb27, 0x1591bba9c620f87132b8ceea1de4c4c5f09872714fe1d63259e0ef80b5f333a8, 0xcc30f15280abea47abe01145e5f35bd877550b79ae4262f61be65a5ed0cb24d, 0x1fc9cb670a57f842d47bb906223b02a9ab6352ba622804ffa51ee99da3edaac3, 0x8e8b798ab602d16910a34edf3f093333041aed6704a66d782d7a319dcda091, 0x1548714c734096e2cadef4ae88dde9c8886029e21e9ff5696971f11dce6ca6e2, 0xa133a39d296d427598f8acf721bdc057f2cd639a3317bfef3eed1bf38c610dd, 0xa4190ed0b3c966b6d7d0bf0bfe4d586e77b84cd55bbf322dd62c4ce7a262914, 0x26447ee04686542296d06c8f53902672e79514770b3d6490735ee9f5df35859e, 0x2d1d51cdb7a8fdb0cd7da5fdc33db94bdd8d5128123693ab1f4aa3e78e177870, 0x17b204236b11bd5c5c48edfde61d817b73d7cf2f5a32a888144c7b088d3ffdd9, 0x1915106b66fdf208607ed6888d503f44723c87a5c5aec9eed658514f3692828f, 0x1c171f06ea82d218b24213479856d66394e160dbe0b27e659a7294e07faa69c, 0x2a4c40c22e17c0bc9f509eb1e30acebedd18ebdda1825e391523a74d4ab23f50, 0x20515a5d86581b02f9176d72bec69e785a77c41a16fac68e1beb2ad41ee21f12, 0xc401945dd3d8dbcca89faf8e58b0469e7e7520f2e8982214a4dc244dcca5cd1, 0x28bf080eaf7736338ce614a62cbb2805eea22b0bfaeac1d0cd2cdeb2830ae0df, 0x20ed87ececd54dc49ce955a83fd4db61891865b24bd09c3eac85037bd69c52c3, 0x2baf7d6e7863aa68555f8bfd7648d1b4426f6c39fed82bac197368b3d22eaff6, 0x1fcf69944cc889569269c5031cc1fe8a1efb0b1953ec7f9573bf63671ec7a947, 0x980bdeb30e0498f3c45ed4e17a4ae4c8c3bee91095a6340207b69b4ddabb83a, 0x2455522726c3c95dc14e7fcb5fc1c008b5736e569f80505e71454f8aaacfaac5, 0x23541590ac6650296ea9c3b935009e79c446280d9bf1010b8e66cdda9f8970d9, 0x1d14af4f4b54f0c9398e051d2a223193c78997d591a639109818b8cdd02f556c, 0x22a747877bd35dcb97520a0f4a812c7b78702bad181237c01a05fee842840e4d, 0x2eafe1740ca67f80d8ae595e84c17039a0560bcb9628b084a97d9ff4afaf6b2, 0x1dba84e994a54a21666def22befb81abf49fec76c43c3f20da9043c9874ef2d8, 0x137b47cf2f3d3afc02f3469e9d165e49a212ac255691a1bd3565bce046fcf153, 0x1eeb1a0edc33a3e69b8445581ee8f0ddf84748fd901547d49440c863ca10caea],
    [0x196b76cefdcc7f6a54c71d40114a0bb82694c936f1573ac7ac1ea3fcce1fe938, 0x3e5726f2b2c60906deb00a314337a9c6e4eee70497a4a953ea206d200db8d69, 0x528d0374310dd042d5f80b2e720b61c4200539fd1e1a23ee1f8f347041af0db, 0x1da41de720a61ccf6e3b9b97ca36d7439da12c92549a11d238475e05f9037a03, 0x21c1d92ba962ab12631e4f710fc9b066c369ef4aed709fd5f6992f57be251b99, 0x2ebcb6f494b7d06a34d2d097c0f46ef929646c529f6efca0edeae7e733b0278d, 0x26ba18bcbe43ee1a2ae6e1b4dd89151ec17e1341839b94e4b2bfbd70761aaf49, 0xf05d9b39c0b9b3ca177ee5a8b12de457d00643d5a668a8fb30d6cba0266ae31, 0xdbb12012ec467271d189184d086eacb530c1bc906895850bc80af72eb6e49a4, 0x1e3d63755488479f0502c34e097c74fed1926b613e979d53a5353ea959ee6c9f, 0x2939fe43f4690de6ecc251b7cbfffca082fdf3c841d5ec1aa77de64016d23c0d, 0x29b304c4af9503a5a1ed74cfb37c9e98235404a851e915f9b476f96cf97208e9, 0x17f58faffdddb92894ca7cdad4cd379da8c174076a250c3a69441d649ce04bc6, 0x191456fee87886a7ae3d41901a05e755d8a3cc2a2519cc011a80724d430e918a, 0x4301fbb26093e59eb5818971467c137eb7633a00e8d1f51856f2e38596f3d2f, 0x127fe9f3329bc33759114950d8afe484a98e33011da6e40a41dc1f4ca2ce87a6, 0x201ad991da475d146d85daa85c5ca3d2d9ca48ff7886b06e37dbacfb7ef69664, 0x24a3d85006e0ccdd3d6fc62623fc5b36b1827ad57f7511a9677cc36327cebe65, 0x273193d9b2986767b8934849938c7d1157ebc32578efcc7528d9a6a18a354953, 0x2bb64a3b825a61f6c8b577993aa63ac00659221cafe92405be881026da729676, 0xf656e73593dd090547fb5b3b8361d172c93f94a334e5feddc059fd03890690e, 0x2889c18fa2eb572d474b6eee810b750942586f2792b146f455a023b89542d353, 0x10ed5f7f60bab5b473285acbd59f0e3dd299f6d2d1e6412322ebf9378f4aa031, 0x94d0f2d2dac4b549a1ac6b1e112ecb6e9eb337c0086cb2c39c5b98a180391cc, 0x1b6950296c9a98930d2acc173d41e4788e70e42e3f568a97daa0fb7ad8d2eeb9, 0x227c2f6979d9ca34ed1716207f3d70e78b9b76b1fdbf3ea97ae4b54826190e21, 0x33ee70ee09fc264ff1cfa9060778cf77b725d24c55967846f6aeb468189f68e, 0x103ab98622a6dd1bd90094a3b69b635873a4bfb0b1645964b8d03390192a264a, 0x46f5bb0ba2b9a8cc19af50bd1fe9d3e73e4df3036ee569beef19fb47bba174e, 0x1955685f6f6f936a887f4892fd66ae962f38fec2286788bd246f7eca45b5d7f3, 0x7eaa9de669ef1442dc6d616ec080d6c921f95e73b87b7c3752782d7846d5a16, 0x1103c98bc60cb276ac254178b668e743b6793de46309ff72291767e697516522, 0x14e1141e0163ad2a79522578c5025149d4ad0b484ea0837c427ffd798b5c211c],
    [0x196b76cefdcc7f6a54c71d40114a0bb82694c936f1573ac7ac1ea3fcce1fe938, 0x4b913e824903a4b78ffbfa9043117402f816d24b695be147d26fb633ace8fb6, 0x11b959c95a4da45d9da05602f07e696b8ac0ce6781702a1368d807d21eaab72f, 0x1fbfc86fc58e1fa4032309165184ac8b6dc81dc1f81c09ff100758347243f289, 0xfa7865327aef8246f45ac73dba9666a853fa8e71e1edc2409647207922a9041, 0x3020170de7b6e86b2b0fcd04439ebdaaa8ce01089600b801945dded0c906d83d, 0x10e72d8e4629ac7c8fffddca3f8374759040f8f61e1b2419cf266255d68496d3, 0x5e90f1892363b99161345ab49317e3792eb9a536f473e85fa47480b90dd2a86, 0x240e190d0b92f9aa7cd7bce008719c3f8d5fff587df3958c85f5a1286288f63, 0x16e841b2ee682513db27e23b983f5fabbe6ad3a3d44303962910302eaf30840f, 0x8a397b575fb86fad288ceb48f43315d70399c8bd9cf4af25faead935d02277a, 0x2edad52145b10b3d0bcbd0216574b52cc2b442f9308ab528a018a78ae97067f1, 0x1caca2ec3c3d6617fefbe6901c4252ec01ec7cdda757bdbd5f9cc62e911cda61, 0x157303e9fe11497049ecf530db42fea5c87d7b14cc153120babb743935f30de0, 0x20d93803a35f06d76ab5daeec28e4591d0066271d84edf26660e0350d30a9049, 0x970dae33627a299a9cbf049505d94ce6cd1256c80a6322ad47479448bc808a2, 0x178b6678bfc5c1d9fad6fa7aea247cb6b4facffbd49fd846c64f1411b2c2f6b0, 0x6503b98a6cc525bd286b56e7ec81ab36835c969d4101ac249d3dd65834fd99c, 0x21218ec0a783dc924ae7d9f38260750f0a0e039a4004cc095d5bb88e1f9be771, 0xc0289c9220673997f0393267b29ab048761034a16f6b6e076b063ec6031846d, 0x1984f03779ff4d9b4ccfd87d23700f204b38c3a606b0279327ca81ff9560b48d, 0x17aa6042676f383383262058e28ab7c70d3d19b4f8ad4f54a43869e037470258, 0x2ee1b009aa9a1ba5894110394a79e739754d9f2356ccf9293b2d851ddb6a6c52, 0x22a586eb8ef3b8257479bca2d919afc56fd0846dbff4f3a9db9e42e4334b8727, 0x643b1de630b4b9a250b0eb1857c4323bce1701afdb02ff2c6537a04847ac5b4, 0x125bab28f5eb5c15dc0b3e9ce2b1e6bb246ebc56c44fe9943dc1ea4915830033, 0x1bc10af70f7125d85f34ad4ef6e7347eeba2a11321da19894c5f826880d770ad, 0xf6baa6289cf76db86d915ac19af0535773157e39b5423b43b1f3d0df2a4ef5c, 0x2e80ef76053f6d815f5a779fba74e9b03bf8dbb8a19d40550c519a35f391301c, 0x31efdb5d245fd16283ceaab1fb5d4ac1cd08918c0c22265f7f114a9ef22058a, 0x25efb8eac91f3ab3d77ea8ef523c86fa555516d32798397a6ad00622095b9b0, 0x14cdcee9150e86793e59fd2690a2aa102c2ec7f78d1da286826a37068c8859b5, 0x101320abf4ad5bfdd7bf37fd1b5e5afa8f1b472c02e062a7058780fc215396c4],
    [0x196b76cefdcc7f6a54c71d40114a0bb82694c936f1573ac7ac1ea3fcce1fe938, 0x4d0659feee688cc4dbaaea4f05b259f7614cf5a5d970087016cb2f2eb343bf4, 0x291dcb25510a3655066e860ade461e23fa4f89bc26f523b65b88aad5a753623c, 0x1c40b5589a51a5bc3e746f93c18ee86f51331e8da3a246909b6a3063393a1b6e, 0x50535d58a6b20676d9dde187a15c9676781eb6c1e46159f9e63d7db750c6410, 0x1532765d3af5aad33c7cae523592894cf354ad9890479d662ce3cd51721178c1, 0x8a6818b3d448d43c1b5ef357488c00883e342690a21d3fed21f7d62142dd589, 0x17db4c5c59ff1ade79c01c45dbc7b6134c929ca5292cd7893a016573e7696756, 0x2a7e1f2d365ce9b5abd3eeaf983c6f6434cdba5ea59222f6bd3a5d3ecd763f5a, 0x6261e5b4d7188ac9e84d341f1152a4518f88d3e701ed5bfd7110577ce1dfa8f, 0x199c5a8f0703767fe32daa280419f8c6793bb0888ecdfcbb4eb16332fbc028a9, 0x13388d9d87929845924e078243a8d7e2476d77ccf84f1c05f7fb7c7da371bdee, 0x7d044bf7a4fd698a6757c186c08d7c39c2083c8cbc5be29964e481592ee6684, 0x283cd95f4743d216af04c17591b192367280dd2440ef47349a8f384f63887cd8, 0x1356391f7516db1ad0481ebffa73034416caa2362bd2612a9f42034e35e93e27, 0x26fd7e1f6d657b1bd8333e3f9b548f54941b9d13830bc88b8210e5b359b00f68, 0x27ec948ca2028850a977addd6a9cccc697404d4d4b47eaadb54558c57435f916, 0x27529d815efdab4fa4f21829ba3103982ab79e6052fa863044394fb5fc8d5dc7, 0x1dce3f61f34639eefa0a344fea750a5751da0695e577434f20a38658cee96f09, 0x917c97d46d5b4ff89b5cce4bd785c4b68f38c53beae9cec7e8ce31f7b11ab5e, 0x1f389f75cde06c7ca3105a2b5769cf3915292ebb44e5819229fe3f33ff11d03a, 0x2d9aac1c72b0a36a067ec7776c0ce2138eed3e90c3c381d13b28c43f297ff300, 0xb8f7a8e4c0d2d5757c501e44a51e5f5160a01440281ebd4479b858614cfc09d, 0xaa15536df2ec5905877e2ebf9d07d3763a3f94e9b4deb5c6639bd89efb86aca, 0xb03dd77a7424fa8d945440f077f848e4137323442e11e1b4a2efe97df3214ae, 0x70898a71952afad3ef0062e8420e92d94fa7bddc55beb355dcd1d3526f538d2, 0x29d5413ba2416a2db49c14b165cb247362821494d738b57897a0bbe6cb53a287, 0x7f3f807872bb8ec72dd2ccb223407a19c5b64e086cdb0c38a7b92458c5f7c8d, 0x2f69330924f5ca89e8ea41b0334796a9961df24ad0abaef5106d89963a038f0a, 0x2abdcf1940bf24e67ab4c8c0942df7d3440d04359da428541b0f128f6f53184e, 0x209de37635d57f9ff0ea8a6be7cec5c70d701156bb34e25c0948c7090b319ec1, 0x79b485de26ad58268a3b1bd5cdf3a1dbce291e7e30a1d645a7268d340a8f1f, 0x2da731b7942de735663698b5d20570402d266df448d8a80110557643a906ba3f],
    [0x196b76cefdcc7f6a54c71d40114a0bb82694c936f1573ac7ac1ea3fcce1fe938, 0x2c8f848a56c338afe1290f12b67b57d00ff8e974e804ac53b174ea42c9970efd, 0x2d02f17717bf0db48ac36ad0a19e621cbf73b049364d945ad2a962d481001430, 0x2150b09c7e10ab5208e632f8dfd30bc323807c5c6b122a6783b9fe5458a859c8, 0x5b10ef00e618a270ddc6f313e86197af2bb111ec623f2964518938e4d1ab8ce, 0x813aef08c1ab8116f2ed8caa7eac00762afad0fcf0fed79077845b2b81888a3, 0x217798429df3f4efe0b8010a3305f618cfa40b31226a7f01aacf05750f85e308, 0x13dddd98f07da3c85a8a7e584a541a3d1c30131e58fd19a79d3583e1eab08db9, 0x200c75e95d154cd5d9f42b940fd7090764594e0179db56e462c80da1b57e0826, 0x24c60aa77eec80da564202803e367806e84056ea84571e7702e708eff20350bc, 0x2008060f910cd57bd018a7fe79edc508e11897199106323a04369c0b2f110193, 0x154b1730e35711d6b5e0596a7e9fdf40a369c96e9889573772e35153780d06a5, 0x20b48f4a5019ab0f0229c8613c44f40d6ca7ff80ebc6bd6f4f595947c9e3e9a6, 0x8da6678cb4513c79e70618c7f6a247376292a28f4b8a26d7b22cfe89262422f, 0x1e32944ecb0c8e538be8b702f45748cbd910c621ba8c0462a03a6d536e8f3cf8, 0x130383065e342214003bef6cd7ac224dfc22a799b13a089cefed9c8872c056c4, 0x2bb1e946f9019e0f0a3a6f31c54d13d900e95b92657fb49a0bb1d8b085aa7bdc, 0x12c6706724626b4a2511d5ef4cdc22e569da5743363f598b0985da3f74ebcc66, 0x105f4876b371512fdd868e75e02332cb49f228f7f6c3ce9012fca57b9587fda7, 0x1ecdf6fcce9eea60179494be5317b761a337f5c1eea7d4bd7b36c4b136ba893c, 0x9cd2ef6d45dbbca0dc657384ddb563f367042010debc24bf026a4b9c59f0da7, 0x254ac6855d05046745889295c485aa0d141421c2e7e46907c6ae60a50ee2f8ba, 0xa99c054b9a38bbe19930906e64c1126c9f0aaeb16ab6c33d1e0e29418edcca4, 0x220b4016fade57782896ac3ac88e5c69dca5e58f1d6ebe25f7caee67371b85a4, 0xb1979da1c048f6ef5e0232ef793f134dbb2a9e2c8f83a710944e1ccbdb08da5, 0x2eef2d924b88414b5f89ffa9dfd4b62047a12d0e08118d0d39a1a1fa99dd91e5, 0x126ae3d2dcacca892ec8b9b2338953d3bd2a0b341b7ed5986138dae14b6bab77, 0x19e7c32cf6e235f95e2ff6e9537b23f8fb2ef50b5a1f734eb757352a74eaf498, 0x2f9bcb5e0cd5660350ea6151e4a514ac84dc6064adac393e9bc4daa628297fc6, 0x1aa496f96372589a74cdb1523691b1fd072bd35560d30b8c48109d86c7776b75, 0x2ea5a8d0da13d3a0051a7f1b186b35d6f0eb986a2769aee850d3945ee2409439, 0xa633c25ff6bbbd07e365ee018c76dc3be74b40619892f106cdecf3cc4ff8372, 0xf412148158955c69a302b9b42e5fedb330d5ab4a6cf31b25d4fd1d8135c9900],
    [0x196b76cefdcc7f6a54c71d40114a0bb82694c936f1573ac7ac1ea3fcce1fe938, 0x2f2ed1486990b9431be8fc1485b6eac869fef5cd8fd2a94c7d4d5da7e496db12, 0xd5140886c23f2671e698c3733a296be1f4ecb97f7520b027d906189fd755860, 0xd1b9427080a9865543b6fbe5502899198b228d02f2ee9287bd1bc1b71680370, 0x25f14784419e0d86eba62a9cf2cb22f063caeca529be18af1fa084c73287c3fd, 0x1cdf7679aeb1784cd81e69e41807377671163372ca50143e5b30eef5a31abea9, 0x7abd6f3a4c53c8d3aefe49b257b3e7c0aace886107a6168a9f93e33733c1224, 0x198e8dde62e4b800e4a5081cc43fffce5ba02ddb349795a9ba8d2ca36eaeceff, 0x2a10fcbbc185ff7ae275115f56640a9ab88dfee8d2f371e21fade31ff9e7d249, 0x3f74e702559a149c3ccb5dd839b3f80ce100c26671929236a4d703c6e53d53b, 0x1e9cd241f96559366079809b034d98dc345a4814a7e947e17b41a19b4a119b75, 0x7640b3b48b2cec9061c87ce4740d281ccaea62d865d0b3da726ffcd67d2d426, 0xf224f2a3eeb002452e25fa54b360804dc9dd1a065655a31230e91a1f7896eda, 0x296b25652ffb82041356634b505aec0d11bc8ffeab06b6ee76f97d3e90e11316, 0x24b1e852a6168ca05bfe0e823f4a984b3b99ed9bf3f651cdd3ca31a2d93a21e9, 0x1170380f35b0c131ca5d2ea71f42fed8b3caefc4ae2ddb42ffce4c72df975521, 0x2a21146458a9b5cd2232544ec84b9c2e3c07b75cbc4a2e27f1458995a5cf7665, 0x2cf40c380da1e84026e58bca73fc8821a6956f7866bbc6591330c7b0876d1e48, 0xa4e5a8c25c79291e6e7906a8bb9897dbd91567061abbe4eb2b80f7e591abad5, 0x219cccac1ff828ee50d9413629c80b870ed290d5b2197a0b9db61960913eb29e, 0x18a4a743a05448844b46abe129001953306236ecccce1b8c885e712084ae40d9, 0x23f5c0a65d6d3f4b017a68d513413e702ab2195a12d3007589a7ad4230792a99, 0x248649d22bbd35db3c317fb6f1e20944adf80720fd085394e606fe58c93b227e, 0x1da45cba740db4b50fc4b2571e40590ad20c725af7393d2e2096f782ca8451b0, 0x59c9894d39a728ce35f569c8b59acff2a98903a73d6935236ac6ab8bb65e7d7, 0x137afc1da2a1dd16e4049c3e23951f23e5324e12fe046652beb4cda449a21cd3, 0x1c67f00b6836091d6642592a40c27b9b875f51cc9eb804221130d3f883d29765, 0xbeacd79129b9b6c793b29450ce6458c86475951ca6f0941ffaaa73622709bc, 0x1d7194f0b9970b103e3d4bd5a46b5054ab45bd42f537324cb6fec3c672cd5f0a, 0x38c741f8607a78f328725ad18d2baf8642c005429c53f5b7f9b8be51c8a507b, 0x1d32ee86d0a10d113b8400a3301ee9df0b4f9666c4c962073bab7f02f0c55e7, 0xec78e82ba602f4ab67e987ff3eb4562b0818c481c6e8febf4a4a157ecea15a, 0x2e0de6aecd184a6d47a6a7ae42b76346f15f98bc4f0f68ee1a55929939a7842a],
    [0x196b76cefdcc7f6a54c71d40114a0bb82694c936f1573ac7ac1ea3fcce1fe938, 0x93d13cd9b043a5b6a5acb2de0bc54de68b71c88e8d61c2c3c3bd52febfab688, 0x80fab4e2e36da9276e4610197b32d28ecff28dcf155f5db596037e41a2888ae, 0x7d2d245764c856372297c49ff64365a99137acfa81041932b4324877e33d9b6, 0xab6a369f3d47ab68ba9add80b46b610d39531e22a75a30df3f32f4bede18a73, 0x7a683cd3c4e68622283858eff121cf3a5ec2cb48763c290a4984f7e75a86139, 0x1fd44c84d9e254b1c6e60cb8c1682f5e78a5c9f9cc88e53b8bd1d8e9bf20638f, 0x2ac2bdddae01ecad6c097ec139f7d442b7a5c48c491c0a83a006e9dd1c44c9b9, 0x24a03800df78ab8dac3b172aba870efde663176598e2489fe1371f1b8fd9ce09, 0x12e453652194ddc8ff5f249f04214d2e0571ae46eda251ed66c9de6f412e08bf, 0x592a798f42fe58f27f503f2ac512286fc9a0271edbbb43d263358697b731668, 0xa92a96d55b5e02c8fe846f8cfef92f2243cbd535b6b3c0e44d3c6fcafc01963, 0x2f43e2c6e8af0638e163e2f4d34aadf2debdb3a5df531296ee2bc5dfd2aa8d41, 0x3117e986130d1c25eed39ddb3e1e4afef783e031d60bc17e0681288f2d910ca, 0x25cafbb434aee06df5f90241702018c6fe677ba0bfac46f6b5b8314ef8f5d407, 0x28b797a499c2b1082b6a674ac02ef5cc2440d6eee1ea1be1ed5a527a6e5ccc95, 0x23bf393a579394003e64cc399506807aa684314a29992e3bbb3b67fee7f50e24, 0x28656564d677d58df440de43115089a1790d1aa95183b390349688e8c8aa3e32, 0x241a69500f5e134c993252fe1052c9cd7e235d501b3b2343ee0e4857e2d0209, 0x3744e02ce85e599147162a48b8095c61ef582bd1b4027649a4b706e9d99f355, 0x59b7a17e1c0e884def789033664d88ba112980ee5d7ce4320f4b59092a493ea, 0x2a6efd68e5dabc912ec2b5f7814e6e1b7b8893acd10e93d8e88af5cece9e433f, 0x20826fe980809fbe57d7af7d60262abd566278d70e03c7dbd24798c9c991ce5b, 0x181e562d37922bad979ac96f562011311f09187613e196398d3cea64e7fcc7ca, 0x1c4e70fbd4c9e09d3b341e1a9ff87d088e6bc4d88a5cb20bc39a2216e9a2e78b, 0x170c6ee37a8fae5a940388717c1ed8237f9c2c51e0771fe1c5114f020720b1c2, 0x68712f00eae99b3109162c3a1c8a6b836031f7b3fea61477d274fc39cf53b53, 0x1937a02e7c8e39d7f3a88a82c38dc1b2b6a7f4326ceaf7aca3f8a2fd163f1388, 0x8b99b6b338adaaec87f0f4e4106e1a76938bdcb0b55d66b9af257f46da5c6de, 0x136d1108a8d4bcea80090baee33556f59dcf26a8365b6f657a6625029b73f354, 0x2d8a56738cf6dc4785fdbc68f440fa3b2d4de0d5ab6d2d7c6c11649ec2e4da65, 0x27f16feaf6fe1525cd67eef458297d1696dc45bf5f8f1ea18e17801399f3ca4f, 0x340f8d664a1afe4fbd06793842133cd43ee4e0b2173405efa10445f43a1836a],
    [0x196b76cefdcc7f6a54c71d40114a0bb82694c936f1573ac7ac1ea3fcce1fe938, 0x14ad435cf9a9f41fbfaa62698ea2b01d778fa6ad3e6d75d628e535cec66f6183, 0x229f1484514708285cb6c866fab78878bbc39aec362b9db5e258c101a7382806, 0x55104ec0dfbeb910aa081864bd59497cfe65acc2091c2cc675ebb7c7b2a318f, 0xd75b1f18144371f5a0de32dc9124230448f17584ef93ed84300270b6ef3d4cf, 0xa1da3a581de2337e823d10c00af64ed8152a3375abc7c8e038592893e02f879, 0x15ce644c9c753f2b508595d24c0905b3712411f8bd78c1dddb60a61e3574f50a, 0x249251029b3a7d83a4442ef27a2f3bca3edbdfca88c33095f557cececa23fa7, 0x2190e0657b7f4592ed17884e486aa0983f96d05d497f12d9bb08fcba65e146a2, 0x18e7e7d031ea4b865475eca9cfa2f156d2bebd8f57c6c66630f2b3e9bdf3aa1b, 0xc23dd68ce397790fa9d48e22108072ad02df0f80f684926ffa4b66e8871b1ee, 0x1346be394582712818b12e409e1a2f80f258be08e8f5273e4223048a6ec68596, 0x227413a36ae6153e431c4dc592eeb597ad18b0a119f1c644d8741c5d1302bf5d, 0xb0ae3714255eb9abec3c60d3e9d3852c33db950e87bc17818ff0242955aa594, 0x1f65fc46116912553c6c9bde179a09288bc29ab001fa7f58b2b36e10049da7a1, 0x1c35284edba1cd391d618754b17f642eebed4127382b82f7c28b2e70a8f70d40, 0x1080a3fde0e42ad7dd86de041cab7fdd025951641942374c1abcf62626f48a3, 0x1428eb2a1f2d91707f546af2e0a14fd6f11eee2ca12eff4d36634a08a2501d8b, 0x33503c434487731d754e92d6e8ce327ceecbae661711045060e165ed284fd29, 0x137a5d67d8c2d7d92f83451a20d0698f3ec69d9bedca8fdf23e4cc761c30895c, 0x33ff54a0543a859d10d23919d9353eb1c7df8c37cf77d71c033427f8785ef7f, 0x2ef45d95ea7a2a6ebf7cd42d1bb3eede45cceeb3c13124fe3e4bf9bd43919aef, 0x1503cc2c9f6869e97c3f356fc0888cee11b122576b7ac19e53e22e64541b864c, 0x13b7e00bb153de07cecadd2525f0400ec81c7f3f01b2f8c0d4d923626f5074db, 0x1560e82a44438c75cbe5e7bf4242e9b318e84d0f70c247b4941214a54e2ecbdd, 0x16e6cbda059ea98cd388bc97b407a150d03cbc54db44314acd2fdcb856ed59ea, 0x224e1109c1eb450d665db9aa5a324754e9de0f3645c36a4f42c06525a6a02f17, 0x1fae1e95cc145b1b611ae98352921e5621563019bcec54ef9aa0a006c5ca9c0f, 0x29c2c9268343afc2448493205d8efe3ca12ff4ba45195e125b1a585b3c15362c, 0x1745aa01a6decfbf4742ca4eb4fb46936c593a8fbb1753e4b1bd8ac26107dcb6, 0x2b8e149f0ad40ad21c74ba35026dddbf89dce7c2227dfcfc94a55130b282348d, 0x21eb20b36f906d2693f37e6b25f10a251dae88ee9e5bed97d0bfea9d95eb6155, 0x2e2d367ebd03ab9e863a272a0cb40240222f32d1ef3f7a79de99160236cde439],
    [0x196b76cefdcc7f6a54c71d40114a0bb82694c936f1573ac7ac1ea3fcce1fe938, 0x2e142d51bb3c63e11687bea27b03d2c1f47ff4617dcf1784fcb06139718bdc, 0x2f9a0d8d22bb17dc91fb40146ab611c24fd7aff2721139eebc67f103abaa8abe, 0x1cd3446fe74bd3cf4e8790869ca502315e2cb5e61bfd569b79e4bceba7dd18c5, 0x4882cdf369a6b624cdcdf140521e2f5d4f056d5be8938eafdab02b2b6b28365, 0xdaabd96d080089cc09b753a113f03c79cddb879fcd4fe92f64086af355320af, 0x11fada765d840371159d393d9383846a758452164778b156ad07d2f97b1c81d5, 0xf1bb77c65687d588f3afdd2e81ed31b0b14e7a6b34b3f194013310a430e72ff, 0x1b6cbbda2504b6c7157070cab18a64cfa67b25174430ae34f88f41d06a5df61c, 0x2caadb9815edd0b00891c8952f439654bff61c480d34304a559b2ee106e8555b, 0x29d647c2ff17d90d8ac500cd862bc7cf3bcd63cae45d13ba2b2f5bd819cdf00a, 0xf9577281c0113be755056c5a200c03b651cd175ef4c1c51526a262db78b6012, 0x1c7a4104b1eb344a9d10ae34fe9f0d9b944b1f27b9ad60e78d076f14b1579dd1, 0x28833764307c07236b8d64f1e872a15f26b93cbaa63062c5728b6a6126a2b3d8, 0x245ff91d36df9a9301cc998a11ea027605aea0dac30a20a32fc5b9546ff5f22d, 0x9c3b8ddc3c8a83b3dbc098cf547b51d197fa16571ca6ce1bfa603f23474188b, 0x23123b0f1690f3c61a3d7877f26f33c4c26feb8579966b878f9313f2a7bb0724, 0x2f42ef2f174748c44f63767b95d5e66b2554f75a164e00833336a9d990fe4279, 0x1d8000747e03e93c37fe21b889bdbefdc234baa290a68aba51d3517a260e6944, 0x103f779b0899d4250da3fc25d27e0444a18498ffc0bf0ce7ad7fb106ba311a18, 0x7f4c9eacabf180b840cc30448d4926692e4a4d4b6c970e0e818c5e11d7a984b, 0x17e5e03ecf01408a520c1c5bb8e1a4477b011178aec18404e414554fd78da779, 0x116cd1a5deb317ac2200d91721cb4c794fd1bdb9e04c80d222b2ae77cdfe0412, 0x259847fcd69413a8b787a452950cb9970981ce86ace933112f205b18b20af1ac, 0x7244b4174980899193f70318c4c09239a011431b1f0bd3f5c79e8e36347e52c, 0x27a6122c5882996b8b87923a9b66a2a4970c9844cd3034e847fecd91d6b13fcc, 0x2c0bef6885d9a4d76f43a29ddde616fa8174cd24ab58d4dc707ba5f924739c41, 0x2d0cd48e3952f4d64e4f37477e2c0ac65fcb78682dcd8fa4c4e9d744c1205af9, 0x8d8edc9e81dfba6cd7305c1bfe73f42d7252dbb19889e125c5c9aef137804c7, 0x20860a731c157ac1b7ad854b3b851d0c739f111995a8122aaa7147ce61355a1b, 0x2b242cf51e3fc841f925153bac6ae94b84c0e4839da70c3639ae554a2ffb538b, 0x71642f8fb008ca366c562ce0755bd0edc2cb3b1851d91871f7c217c6c17b812, 0x10628390eb8c9489dd00520c4d1f3bcb7917ee849eaec5d03d662192e40e4c05],
    [0x196b76cefdcc7f6a54c71d40114a0bb82694c936f1573ac7ac1ea3fcce1fe938, 0x2c657cf556552ac00d3c6a312f941c21752d80f6fb971f6f237b9f067f55ef50, 0x2274e5afd41f484d4bb846c23f4d15eec892ed12abfc57aadc71c431dec0ec94, 0x21e3eead8292384cd4e9ab89698674acf899b310c4fb1474a50ed68ab15ee79b, 0x275b0e09088d1a143b3834ed09babfca45694301eb39680c7e01456918596140, 0x129eae0d0efd6629f2846e2659d11190f995e7f7976dba6706d5275f8ae42e2b, 0x23c3296abead985b298d2f7359d6fc6b66428469efef7f33cce72f7d261e200e, 0x120eb3949a1bc6dadb99eb797c5089f6c81b8489e8d2fdb648759f9b7d950c92, 0x277b28338565bebe62ad1128dfd277e71dcc0f5cbf15884f3f4431aaa022ae2c, 0x4f36e389ff9ebb3bcd6810d8b233c0cccd2d0a9a86f0c6eced01bccdf453a94, 0x2548fa65475658066e282e043fb7e3a2e5916ad635f27977d292b0ad3ef3e4e5, 0x4565577c55373eed95c9aaf5c9d202c270ce37dc1a1a2232c856f88dff9364f, 0x233e72784c11da8ade7b9f172935e44a748c8cb94959122f9da6c7ed65a6cf10, 0x158b72f3087e0267336e27fc3921ee3a3a534b925fecb827ca25f7dc77523334, 0x15c260f3c32020be493ac81d6969ece9c8e8aab39cb11ad8c69bd97516886522, 0x2396362d574b22bf4f2b162ddb6879ae4aee803609c5af81b0cc96e1dd77fb69, 0x2d0bdfbd9147195907ed3568ae8309feb349fdff397c36b567099ae14a3770ff, 0x2cd487c6239575748dce9a1b1e9cbaaaa9df4bdbbfa64f68ab6ed9f9685898ec, 0x1e73a3297684b098cfd3e270ec4299fc88d970a924596014e9a7f602ee9b081b, 0x248862b26667bf9e71255c8473c4d4f498bf02d6fe6c554e9d6a8194b443c7b1, 0x12daded6502d15cc7ccfd3998e01c39851611629fd9a6562f628ef83c7910b8d, 0x15e998f00cc4dd24ff559089cd43bec5566f2505b8136c5ab74d9a426d875c75, 0x217fa23d5b14a9ffa837fcc744c4a64fd13e6fe162777fc834bf119df306c8c7, 0xcadcf98c06aba7c6f354cd05bb28857f3798b83111652ddda6e2f8fad6a0518, 0x1c5c0906f02d4a6e3fe315f26891dae1132436b3cfd048f897a2988abb14e005, 0x8452c4131a7a4f5730e877519de1b927a02260f56ab0e7cf23dd41010093ced, 0x72e4518998bb2aa7df1a094e4a1032a4f1651403a006aff7d8d3f8e0431b39a, 0xab9888d29232bea4dcd77c9627693a4f292375d6ab81482eb0cd718adcc4752, 0xfc2e5df60bb4a189253e73f07025b34dac9f8f6c215a26c53fa5b3b1482e105, 0x50e82e90a419f91e690625c51ad3da156afca51ed13531b0e67a3b89385273b, 0x2f88a4415d7e88cfd3cdf0a5b4bbc26b243319e20d0e4ce861a2f2a5042e93cb, 0x1e10e776d5e15e0786cd5d0ef96d1ab332eb05773833ea20cd5a19891df8da96, 0x17de64722cd216df23ac5fc20f4298bc5c23f17de82c80d361a1cc10c3f3b7a3],
    [0x196b76cefdcc7f6a54c71d40114a0bb82694c936f1573ac7ac1ea3fcce1fe938, 0x1b9c2c4eebbe7516481522714ccefbcf9f46b1d9acd32a7074f6e247ad6cc86c, 0x1b40c39dbad124c570125eb0b2586ec99e260411e0dd871cff7869ec3864df9, 0x33cd9b171a83f21a643c9db6174fdb0a12ed70e96e4dbcd7cd13888c4b3eb55, 0x19cb8e0c054400347facfff66eacd97d794bd61b59323af411ad0fbe2f380942, 0x26c218511f870b55f305e1787e4b19e1ab682b8c823153abf87d6b93d808e4d9, 0x29e12c794848bfe525ab81ce659d2cf1111feb3fd7118f94e22a86b6f88b53cf, 0x3a6658a834c4e3616dc5f917fa062d251c8ba4cccd09532eca0d77981b0170, 0x168adabd67838fadbbf46c9d9716f71494ab077f42cacf9c45e489d342a3e15a, 0x11742863039a6788df3464d2644c239b1929c3f16f43efaf505e2416f5e23a1c, 0x126abad95e2b51fd989173eb24d170db35879d2ed95aeb53fc43f37b92e0da48, 0x23c212335569ce5f39553eb328159fefbdba99ea37be97365fe8049e550c93da, 0x2f4dd1170cd5681dd49cffa2b31105e7f1772c10277da6436208aa1a496c0ca3, 0x1f1add5db460502e7d77a5abe06b5391bfd9363ec845f737ca6c072f46d26164, 0xde4648c15ee1c296f4bbc50fcf033680afe8764c93b524d0c7f96a17c8fa0c1, 0x2940f3f803b79a69ec13670c3bcef58b3aa6225c5ff1b9fd8bcf1ce7d9da83a9, 0x6022a2c0e67a56ca21f209520eb78989c32443d6d66a659def8fb09e41dc3b, 0x2614b22ed71c1ebf563048afad7b64934e51c6c1787f79d6cacb0cfa401692f3, 0xae0351a3f38218d3f64682ea5b4bbd19c9da2312b6d66c98a4e5793f56037b6, 0x2acb14246a8372f36e96bae26d0298d0dec2a8037325848540d092927b247af7, 0x4ac1f3bf59ff8258755878919911219c901e45d368e485fd581702935e593b8, 0x637c3722f5a87f3c148453456b4bd91dde864a8d689b73b12379558e5fe427, 0x2ed10f87c57e6e4d78f31e18f1c7e9ee7c0b59117a6d034e2ead2aae114caa32, 0x2db539eff29b1c4e93218c6e10e9552179fb7b03fc7308882fa9ada5a9eb4776, 0xcaedc62eb88ea19a6ea5fde158da87c74f591099c56a110467fcbb2dcd21f79, 0x485d5824b4d88b5c32a715605487a6b58ae93461b15110f2a7f71887069940e, 0x20fa1c1846393fc776c5868c6eb0b841e64eaf613c2005ea361b317dabbca53e, 0x2e17fb34208254172d03928de8c56b8cc29f87e29e8aef1f79b13bfb5e7ae90d, 0x1d45f577db25f490276008376cf8b59a08f20d469d8676010f7f281d5cd1aeb1, 0x48ea8cd9295a1a3e48cb22507e7237d0a6566b58e4747c0896fbefd7aa0c7c2, 0x3059196428e054d558d0e6a091559ff419ddfeab8e2aa1ba796e98849098f404, 0x1170eb002f68247115722d0638fcea7c2b7f70024953c733bc8cd94a86c23ca7, 0x25fcb5f375ff3d5cc49ca2936b121d9591be3e09fc88efeea4cf90521aa04b97],
    [0x196b76cefdcc7f6a54c71d40114a0bb82694c936f1573ac7ac1ea3fcce1fe938, 0x23444707325fc7683a461c2dea2173d8472c0b5b13701b34b87203bffe8f4aa4, 0x2b272e00da1d1d1d764b7da9384cd2efb8db8604c01b9f2b833a7c1520369e3b, 0x17b59a35bca179afddf24993a2a28466862328d66cf18d77e8be5f950d7f957c, 0x20460d5c7e4548772c619dbe8a220b477882005180887377c0ecb4b4c20ce625, 0xd1346ae8fcfaefc96496235e8a4b6cac300a284f97be68f0a453c55569e2e1c, 0x29d5c8e901d6f659e2c9b51f5da873c776a55de9fe0a95910c5893d9d64c180d, 0x109297c57950d5ec34e371af14fe40615e26d74a4fd2562dbaf8b0cfc0da67b5, 0xafa294b0b8973e74c6bcbcdf0953726679268df4b7ab3a0af0496d80f4e915a, 0x1ccdae789483414efc596b7a74d20cc5af2de7595d53c80c6762e599c4c19918, 0x7d80df4e972d5962e8447454033d912127d2930fd5229d1274aacb93ab35467, 0x19e7ddd05077b3710fc6cf15a1746ff3f2ce7b0ad9355bdcc599e882881b7812, 0x19c52a43b8a53bb146faf681e98fc8670800b6b9dde47ea38a849b82c1f17920, 0x2ed2fd2f3a2f78c35d4ec54a41b9941d4040bf4f0766985c776b6726746efeb7, 0x117e9b92ef305e1cecef90cb404f6b178b1d2c216e8c3bf650ad5b9f675a2446, 0x27dbe49809655461a2940850aa8c41ce6dbd5221400a9dce49f9f3ff9b04dd57, 0x8bc85ab2f7b9d3152fec37fd1c66ef688e2d71e325dba40eeed84dced4ea11, 0x18550a78308e47e5ac75a3cd82d4389a37c6918ed42bffa89dd128c6b4cd6f53, 0x22d06c4fb6f2b725a93cb9e97f08f466c2d2078953f43f4159bdafe3a9bbc2d2, 0x1f3f2ff5ea4b6044d0d142c2850a8907dece24a9e7c508c09b3b7cbf1d2db33a, 0x2985a2e4d66f1b2c18c3f647d444474d432fd597dc23671ccb3bf61c1351e990, 0x177e8a83bcc683805e1af7e744206e05fc99f85b605b10f3f0867913ff45a521, 0x97666874717688dba3d9546ff71cb3fa829d101f2bec9a191b5915ec120b658, 0x15055d2177bd83ae6ef36e4f113f7a53fff218984f73588988acb7f890461698, 0xe0197b38f1671c3fb6a078cb443ece122bfdd9f47486f3fc5ddcdafefdc9c5c, 0x78b8c01a67c4e5cb15738416497b1d4b3d8fce7631cef919eb4a39015bb5b8e, 0x26f58171d43f5d52535468f97f3f4a76a56d43bb0c8560ac98ad6fc409c6895b, 0x2db3d892f554ae8b1b5819fbd4ae79f23a1f4627383656c93be2e3ff42f7e7c1, 0x196b74fdd43c9fa4f77111911dced6856b397b19da47474fe1a8f0de62bc57fc, 0x6238d5e3cdaa238c7670efd64dbcce481815965fdd55efa8ab1706d7a43aa38, 0x22332a4ce6b7a223d45c777c7bdc960669e4a801b4a76b88b66d05039a53eea0, 0x1f88fecb08e0101e470f5dcee2c8b846d2562f89cd27d92e6b00faacae30389f, 0xc2ada53a5fcfb484d0a65c509305fa3f00db8a2f961d4515c149c85e677c8d4],
    [0x196b76cefdcc7f6a54c71d40114a0bb82694c936f1573ac7ac1ea3fcce1fe938, 0x1b28926cd83b4658afd2d9cfdfdce6b87aa9a072634889320a35cdcb9215e5b9, 0x15d6448f76cf1b20262428f1e416bbd1af8630fb361d7f644639ad5b60d8f180, 0x2af5dfa19ccc918de449d5d3b592e6d04d78bd796e6f07098e64630f2079d1c9, 0x19d0ff169994b50d9ca896bffbd91f7f3b5c7d9ad51363fe5f0d2fb6185c2410, 0x2755fe866df7e2d95bc2c8072e5402ca6f588b7f2734a2a54a4c519ca8297474, 0x77a07258bfa21e2ac255e20a0d31d9a01cc85cad4bc02e6921a507ed5df4728, 0x2ece250f68cd231dfbbdd343c367626f3cc413a32be08ebaf996dc8150003b5f, 0x28d5f29f5df2a1b4fb5dc798dd2fb2d9099a9bb15e06933ccb382d3f712abc56, 0x2af8e1fcf37dcf5f55699d9929ef5fc6505dfa79e061782ebc6a4bda3100fec5, 0x1a391e08a393750010adbdfa7c621d382a29b98886d241cfe0c567bb37748954, 0x1da3f4058cc2ce6554842588dafe5f4517661730183f0b99f9aeacabfc7acfcd, 0x1e3b1802005fe7296d11441c07cbea61e32baf5484d40e315cb49e2063bb4942, 0x1eca6728a58b997d09ac9d9eae05bcd86afaeec5800dfd73fb0280edc996d61b, 0x2991dada2697975e05e0f74b4a69560557d34bef132ff73f3ecce501461f59c1, 0x13a9e49e7875c154539d20cfef506535c91422054cd04aa195e12695a073487b, 0xe97ef3325ec39935456c2a330435ef106d50b3d24a74e55045c58da778d2733, 0x234fd4e50ddc42b1a40b1410ad7d9bbe27d21eb61d1b4ab05516422214059ee6, 0xce167e175eb021fe2b91b0abb90c94667ea76c9a1139b958ecf14d64c617722, 0x15871010759972a879b18a4d18bac0870013ee1f646d63f4bc63fcde2847ae87, 0x168d81f62839ab0e29c4e03c0f570f9e44bd75eecde371611e98bac9a78c51cb, 0x2c0c157479d4268e5a40179ab0a915072b91889b1eb06e1bb0e30c5936deac3b, 0x2c1c6ea12c4f9343a80fd53d4169686705ffb51d3ff2766fd4c61f803e648e85, 0x12c2c9b7086ab39752ea4a0afbd8703ba2ff66c309d48f404d7eb4edb90aadfa, 0x16a90e916477870cb13cfc1ecfa73fe9365d36854efe87db94a2d8f019a3ee83, 0x1e5674b6f90be35ef343540b191b0ee45707bdd34452407ad9035dd3bd282799, 0x2daf0fbad1fe6737f7bca405e34dd0432a4bcd5acaaae29ddf9ed8ffc1f0c336, 0x2908cd47730b9b031d14f778c53b64aec2838f3370f8832ac1fd7ab2d10a32e1, 0x1385230fd1095a5c478a798071294b8a11c9805d10d4f27b670a868deff0a451, 0x1d163c58cf48bb8e02eb3193cdfee3ef9c85133c14f87db1829663e74d10620a, 0x2e557c38674c410f4d7c72ee1a36898f9c16ccbf5bf4709f49e1e727dffa2a55, 0x1c05ef08c0686e237cccd7c9f7279e5abdbc39f7a27dda7238e73f37526346df, 0x2527d4d7449be5d202aec33259a43c5daf25db035ba558b03308203a0e33f717],
    [0x196b76cefdcc7f6a54c71d40114a0bb82694c936f1573ac7ac1ea3fcce1fe938, 0x10a492ae5b487f258651a3aed0227cc02f6c7a8761586894c74e50b84ad8081a, 0x2403d5c045640a3867d3fff22c33d5a7d4cc9c86fb7f746f0cfaa6cf0009165, 0x2d5d1d7a9af2b5a434066ba829ad51a9d596c775d77dce9bb5e539df0869093d, 0x9a863c700ddced174ab9a2f52feab6a6fc50d640f7cda128d3e0db7cc6d5421, 0x2aab180f6e316fad89afe18cac953fe0795ad3b267d632d4192cdf7a7f09fb6f, 0xd96040a550ca9da53410c291bb03f2597546be222c18ecc3ce1a6b934c9e79c, 0x162f27f588a7684b059dcfe87e6f50d77e0b2b7c2a04d6b2bfea5e6677c07124, 0xb923196444f67bb7b9a3549947da0d1d65c2d863062820159e7b8a15763fbe2, 0x2004eab7ce64ce5a33d093bffdb3f5c8c062629a82df11c1b9d0237219653ab7, 0x1227bf877742b79ae1f3f94f4a7d99e2ed3a6a9e531f224f865ef504a5bcaea0, 0x20f776f86d93c05c559f42775c914befee8b6a77ce89e137ee9faf414a0985d7, 0x172aa65c733a6035cda4bd931733ecb05f160dea5fac191c85b7f96c03c76ff, 0x8be42f0fb8d0bd0918ae0c9a23d6c350992a03652a1443e10676ef0aab7758f, 0x1fd0be6c49952151cd278ae5631d6760f0b7faa1da5cf1f86e88f04332962b0d, 0xf9ac50342fd157a0cf0acac7bceaf4498140817dfb573e81bc6b455122abc7, 0xcb3dfddba8d704f6abe9c8d4c31c36ba7aabd8b33866d5c34920a61a0971ca6, 0xe770f3147cb0e321701d76e1090173d30171d6cb47618e96f0391cfe89a857c, 0x737d887efe6fe8f9472901487cce5dd61e60b27b3a3987a5107cc0c747c73d3, 0x1a385e2fdbacefe3fc505c0e8866ed36657ae93f963f4d8b9af435a98cc91fab, 0x47765901d35e5b9c88c43dd5f4141cba4debe6bc675e49a08069b787252a3c1, 0x1da4a4ede36f08e2b6f0000760e022e4c87b4828f5df067037e07ed0a3db70aa, 0x847d2c6657d2fa009b736d83e33c9861b0192212fe8edd90dd9dfe16f52f861, 0x3039ed5a92b2b6ac7e0dda476285292ccd649442508936442d4d3cc1d552383, 0x77951dcf1d2ed93be5b91b720b5387db3a4097e55cc7781b69c27f5eeefe04, 0xb585622b1f5eb8fdfcaad1c3cd7f944255a4618ebfc9f9dacf339e874df620a, 0x1a2a7bbd62d97bb265d127d44fe34b17d9da8ee75813b5c51b9e16ee8dd7b402, 0xdc48ec2dabd95e06d2987fd1824a959e084d4e62d1b2c5e503b33dbe6b30d02, 0x290de95aae65845be12406a4585f7187d3d6528bf7daf00a84da01e8dfb69e1f, 0xc017e46a4f39a1669a350ee495e7ad68562b222de7114a6c101adef47853293, 0x2f0b5fb02d18a781e744403921d82e54c4919d1686d824bf4e62b2e4cc088cf9, 0xe7e699b1dd9c60f0018d874e9364210eb920583d0d2d71567d38f4333bfa474, 0x9472c6ed2b6494433a9319f2b093f2fd1923059b6002a6e896fee03e19546b8],
    [0x196b76cefdcc7f6a54c71d40114a0bb82694c936f1573ac7ac1ea3fcce1fe938, 0x2a8a40093e2bc9627fe39aa84ab78c1ce1265e8cbe28569136f8b83dbf1e1a0e, 0x21d9b9f7094b3462aaa61148b272fba6556514dcb39cfb47b5414ac776944f82, 0x22be02328bc62605ca6d890565b9726e83b9d8f925e702412edf291b777df027, 0x27b5d7ddef018e17569d33d8c4e9003ae36382bb57caf96bb224b724cf237254, 0x54ec141c594bace5c88a41767e82517f8dcd8e02dd54f8fdc1c7223d3614982, 0x17f76454a7d3b049dc34c09012706560351dd12ff052187ba5228c9fd5abc646, 0x189a082f5c10117ffb6b064329b31026c852cd41e01352e6c7b9d12686200598, 0xc597daf1c2a8f602322f2796a1bca2aa3101cb8c9a876ee195a9bda90da5d5b, 0x2ac2e1037357e29885d73882899652c5cdaf8560ae356bbdf7ded11c139dc663, 0x6ca950f38af807cac3b6d74cb2937af0a2287576b78fddfd7200f06e66e5f22, 0x736209bdf8c1ac643b8ecd0950d2bb4dcd8745be7c8cf64432da264fc4c6a33, 0x1e96d9fd0f2db5bcee16ce782403a3a33acad70b237106686ad0bbd8bbc00d1f, 0x2d7f5635e4b127aab06795499bb1a6c97c54806d79823ff7871e519f4081cc1c, 0x1d8d18b18dd07bb89fe0c84a7740faed098c6a2b0cde5f426fb8c8b7643bf95c, 0x28d51d4551904bbf04ec169bed853453358042ef76a08ea8d155f8677a051ccd, 0x189be365face10b9a4183d6f21048d6c36ca9c28b0720c71d72ed529654aa624, 0x130fc54477fd953377fc23abbd7a41be6764892a8787c759c1440fe0133c852d, 0x2c9c91f48661771baeef6774578a78f69c355c8e907156fdf26db39d2446413f, 0x1dec0bafa3e8190621e5e095ef751ea03c836dbb8045b2a73f8d397cfb815192, 0xa5f52ad6ec4a8aa377d8dd2ae3aaf6eea0c68c63a1d034fbda67133ca0b85cb, 0x20ab7394bfdab344cbb6f2123800a0e23508e2125bfe795ab4a767cecb4d9306, 0x110ea322b0c26476c67bfa2c1b9d1713f93b3b9cf8320ce0dcd4b64288bda07a, 0x54eabe6131681fa01fbc6dbf3e7d53595d0f8809987182142b890ac8af89cbe, 0x224d811fbdef8ec0a006d376a019e57c93bd596213a07823b7d4abce1fd8e621, 0xe691fca423128a7d4afcaa582b1a94799ba1f5d2a5d53bc2bba56bbecb227a1, 0x189e279c92de0bab66707e6e6e310524e615cd4c6aacc665372a3b8e372d8ce6, 0x1d9bcbbd17b93b1913d2f79cdf12844441237206f0294746d93f8e5bdceb4725, 0x1179184635a9780ee1312dcc3d15c7ef042b18ae9409670e28c4c7f0fb9b608e, 0xe48466182ae8333af1891a6aa19736741ed0680d57c931ede13fc07ae82e88b, 0x1c9d56f71c2f22c44d3a8c17bf5b40452e05471f0b6dfe9ffe4725eb29f73464, 0x2234546f5e8541e8f72ad794891950b32b1cd891cc66775c5b635961642e9c15, 0x14c09d155c5d428198c234b553da338f227cbc12b0e42f2b9ce71563ee1495c0]]

/-- starky/src/poseidon_bn128_constants.rs L9595-10888, one round per line -/
def c17 : List (List Nat) := [
    [0x2fb583762b37592c6c5a95eb1d06694b6c6f9dc4f1ad4862dd8f5e67cb7a3f5c, 0x12e9f46cd8231bb03d4028bf7a11d7c0e331dc05c088e6dc3d1d001da58b85a5, 0x1275cd70326f52f816a7c53fe62e323efe61a5b8d3747f6dec5837a825873afc, 0x6e7d165b57b0299d23e750a75ea2e12c9c7a16954c40a4d10904a61e8773541, 0x2f67f23a93ef1e215a4add2ecb41bef4b9d85ef9135065d992800e34fa98108b, 0x169eb9952e2a8623ef38de57e15e242df388019489e01b7c84fa839d864dcd1a, 0xf4cd404b4024ca13a513ba3156d4de9cb3aa240c683b3e0eb7253bc98c8b5f6, 0x1c486bfae3ab032ff519e8dca6dc41ea060b0ef9083127bd7c2c4e089fd45aca, 0x102e745864251ce940c67b1e2f4bc4d27fd3851571ce6813baac665e8cc0c79d, 0x1e6a6d620433d22293044ffe36a5f2a729c129cce3eeb0bdafdcd0d52bc3bab5, 0x8f3abf97ad8d01cfd8651ff2d576e3d68ecc47aad82b4188d92138bae603b6d, 0x283da3f1cf8477d9821ee60378b1c39c72428511a1b9d6683c0302938c248ce6, 0x2d99cd8d88e49e0babc84cbd58adbc143a75a26ba16f96466a2e41629734437d, 0x171edd6a7456a4c25fef8aa6d8b748ead869369f72a4e502861fd037dda8f779, 0x2fab64694369e3a2bd573c0cc383695c02a381e785792a3fabd6e1ca8df2d3a1, 0xc6155944f64f7694fc8ecd2a2b9a2370568c3c898db9531dc18c72474f9afe7, 0x1ee0e5cfae030622249210cdcda71437f28f0b1730653c0915efbfc08607c3c7],
    [0x2741e1a7bc6ba2cb162858c4e8454dba0d0e12dcd956d127bed071739ba5ef86, 0x301194a663309ab8d80a434822a6f6552585e888d498581845f54be634ebc93a, 0x188ad25347ec25e6a8a1b5991b3e96df81f55cbe2c52ba48741c04efd471f296, 0x2d1a0a032554c50b22699496dec487b01401f25282f587e1b575fc98c9fbd648, 0x2c47fe6533bd34a760084e8d4c488c4ca2b3bd11c22493179ac81a99f8a44a9d, 0x2fdb414eb8069b5573db5c11ede045a6009f267a8d908dbd7d90d6a0f028f28e, 0x9cebf9eb6d06fb278fe736d6ba09f93e0df2a040dfdda5fe7d9ad0fb94bf62, 0x1d55a3800a64ee82703ab1591d18adb00259d168276e1b0fad4718cbfe05966, 0xa2f6b059255eded6daee4743c08fa84dc3c51bae3179040056b3a8df38982ad, 0x17cf49c0568384e937f81b41c62c476dbbab87bbd6f4d9228b04429299cc81b5, 0x2b28f60b3ee128401dadd3d94dc96f001b9432f70ea1b3b3219d80d369921aa2, 0x25f0cfd33257de2cc32415e65ebfec4246d90a181e8145f9387def3c4c5e0d8c, 0x117c3c2b702ecc0d12cdf264fc26fb8b4ec60ab3752d20f1d2d7c440cd461273, 0xac8603ee819274a7bac613b6d26420bca69a1d147072de90aa39d4af80376ce, 0x12c3b1dc37d665123fa74a2e68ee329a42f75db42d2b1c055a71c16f04d4455b, 0x107b0f5506fdc2e774668e4192b959410a4a8e0c9e82d05c5cbba8be93d73f37, 0x1bdb9f5e2cf7aef69b26f0bec8bbd500ba3a56addcb25505c877c662a810899b],
    [0x8224a746a8f72cba619582bd7204b8e21d3ced7370bb7fc77ee51241c1cf72, 0xd2fb5c8797a28a15bd27665dc510ff7afbae95abd32d7886d223d1ae86ec2f5, 0x21397b45c024f6cceebbb9d1b0e43644f6ca76d2de9eb0505c862f05d7330586, 0xe207305e6d3028b5c459df6090396fe3eedbae0cf8884e15fa5b4fd9c5eeb4d, 0x1cda646c94c324f84dccc02f77a716daa86e7677c57047caa0026724c12789de, 0x3392d1c129eecf880dfbdd7d30b4a8d35c5736d71e6e1879fae2362211a7aef, 0x2a46775585cc9e5bcea482164e668818ec54fd76d9d2c7d933be090f7a6878b7, 0x756d791c7b670dfbd18ebbafec56fc148365f1df99518b634a491a2203c9e3a, 0x1682d281fdddf6f34b42a4bad0b260d597e8238878c1d7a02180a699db4faa7f, 0xba069dec00122629c2eebbe6f9842040a40d8a12327bc084ef34fd142cba2cb, 0x25d190a3c1e234d174ec14da8db903a8df0a76e91217f9193dc891f1965d1ab3, 0x2206270cd7f6cb0f4692560ae2de0eff1fad9f86100053a3ea52db32f6de92de, 0x13135b4171ad752f3906f7a0227406d8c50dcae587b5a671c63eaec0b42efd89, 0xff9a3343287ff5db495f642d32a71f193ce25650ee9a3f0b3cd70ccdf11f4cf, 0x2c5fbf86b2df75c9f14ee20b314fe4b3d7fd3519593ad8c73ace69cff6406a94, 0x1ad6dfaab2cbdb350af0f2bba83c21438a078f09d6f50a765096469075307c81, 0x26def3ab54ffe04d216d72bdf3e34345c21f29c715dbc964a70d1565224a62fd],
    [0x1ad802b37c96c6ad360a316cb0883a15c3d6e951f3f81b29f2da517a93297c30, 0x16963177b53b5162bf2f9829514ca1ac60196b428a7770a80be012a42eb984e3, 0x3206529b723d804ab582c4463e1d39ec579f6415e0c3c100c4ddfcb87a1b6eb, 0x1b7080e5b36b8a6782307882edd6ba9c43714a319544360725f10cbe4036d56a, 0x1f501df667ce40f2023272b32ec123854fdeca8cfa8d21fa5f8f91f4b3c6e151, 0x29dcfd2048ac0b5eb2db20316a6cb805490cfaaa7f7c52cfe325d0ee3f3c8132, 0x2b5c0a4f3ac49471deff47662cf40c2053e1ab9bd8c90259fd39958819f1cc26, 0x2bd152e7a7045ab64a942d6af902cc2995ceca3d5fa5298f10bde467d20eb383, 0x1924180fc608c30d71ca6bc196f6b6b65915d82abb6aaa66df4154088dbef2b6, 0x8e7a84a3ec9fea2c569690436e1b89f8e9787427cc2eaf895f86bef37a6a6bc, 0x1bb936cd8a92e3acb1d40861ae7ab5d7b0b0e4d1548e136e2751e261632cd5d6, 0x2f6fdb04a6ddba0da03ef70a36c8912ce407b81e963f4c4ec4a05e1c1afdbbaa, 0x33dd37517c4e06557a334bc4c272abc198853e381599a5f0b0f248d5e94d79a, 0x257bd936aa56d71b0d64ba98006d38ba85fd07e2c556443c1101deb930d62754, 0x1c1899724669efe1b1d9b17d5626fa7ea52d62b8bc93a52fa69eb4a5a0d669ab, 0x136e4007bd769d059096dce1b8d16e8d5ebd9262d646383b80ccecc3f6708e2d, 0x1cdefb056618b5286265f7d1cd85cdad945dc9c6d203b97756700a68a7e305e8],
    [0x13bef640af3bd68eddb99e6532e05fa787171ab21061f2d51282505558b0f778, 0x222c43b44c581faf924430fe5b1674e15e5f62b174e936299e8fa41aee000c17, 0xcb7489149d78784b55deef16853e3faf1298e78da5c3d199e4f6256eec3bc94, 0x1988cf8b0982b7ebb3c5df1be4aa097ca59311816ac1c52df87f604779e5d81a, 0x2a86243d5537e0e1bb946ba87afc04141a4f4683b73a8a642f430113b5834d79, 0x810e4767c0f83b08eee45c743a28f6aa0f6c478179dc923a730c00a777c080e, 0x111051b6f6e645b111ee16f8d7277c5736544257b993df519a1ec2c56bcdcfd0, 0x138e637186a1aea10cd1929f478be75eae3ba9088375a5f1032eb90389fbd16e, 0x1c48e87c3a5f6585c7feb9009f959127513965869f67312b5dc4ae1091d97b13, 0x1bc91e3923739d8557a49df73d6b18eacd3f1d843d2f9a19d5a544d2cf61bb1d, 0x1f55cb86d44e8975bc1483e56fdb8da7c4ae53e1ec31b84bb2da027005d4527d, 0x27df4280dc0fe9e40b3c69f81ee35b9d10c3a77ee1aa568cb99de3c25a33c445, 0x2f5c9f8726064d9ef2ae70b9c8b9bd8c67bd0b4e01e33da14eeb08c9e84900b1, 0x18039fc9add69e1c38faa320bb6a1bf0fdef44feb0935882df019920c87af82d, 0x327903788c3245da6ab00b1dd054ef0a8909c746381d36be32c63540f6aedd8, 0x1f9e9d1ae90c18f18b33386e190283cd795b00a5e700d9b450bf30597bfde322, 0x1335f2a251d97c1f4fe98c9df2f5e0b49a9915b63ae6ac860715a450ce045c69],
    [0x216fde3c47d44db12ca9b3890b746551e14de61d61eadaa82872b8b02d08c0fd, 0x20aea5ea277d5c1799bf056503d16e9c18067cce523655520500a4509558d6dd, 0x2c9873fee4f36a764e4633cae58d5975790e8878d02f6687fd5aecf0fea45c72, 0xc59d06a98278118aa314c0a2e1ff138782a1016592643141fc11eac458efa06, 0x20ed28a0e5dd6d3528f6ddb4729fad421ad078802f2835228b38c04acdb5cb3d, 0x242a84ca0128647dbb3ef3da25cb387d422f571171db50845d58ea6beab90dde, 0x29ac14a0b12b581d8b76b71e2197adff56879090d84e5c39952f91f2bf8c397b, 0x37dcddb2530ed5cda99b3890c9e7ea0b091a00f50687bda0b6233da0bb9b422, 0x25a8987fb6f4c18aa01d2e5429697d61eec4830a301a60c3562b61ae3290ca92, 0x1c9bf71f113b61c7bf719d99bb5aebf0cabe8712b304f1e1ef2d17a098c79acf, 0x4a0c9f59af433f472f1de92cc39d604d4ce8369e91c4df9feb6d76706d10e21, 0xd300e35270adc9e45f4315f3c3d9d939ae9e6ddd105ed4f7ed3805d29fb0d7c, 0x3b3d5fe98cd3d41d656038d84f3f63d5036ce839ab10cac86d931bc6f49c71f, 0xd4ff1e8e5f471c0cb60c4b64e25d46058a64ba30d9fd526b6df528f36a5c585, 0xe69833375985f6c99f32cf9047ed72319a78d1cc452574b160ae501f9106b70, 0x218a2da1a71bf2d9495435c13826e81bc4fbc52f7e9e76801d76efa6d1506d5e, 0x220b7c5c7df259d28ef5c87818d37b1aedd331c5ed64e2be36963baa6f0e2ede],
    [0x5e6ff3bb2c3c3d36fee30974381c7e9e4257cfcb175226975f80c7826601d7d, 0x6ea2130475038482d43b40d701f2e5719f8b5291e32e70e7ecb67c84952c15d, 0xe8ea3e32a39cd2f0524160913424ef01a99b490ecfb7eac844e9bf858b9b014, 0x294e5cb86e4debaee0d50db9d21828d54d2996a6d2c9c184172c6e58fab66f16, 0x1b76a6dc618f7023b2e9201816b56e04600a1f6007704757a20de7a453137ee6, 0x158b87e1fb4ee03a0cf364d7737fea5b505c8f265d85e53cd8b6ed21b8f7e0cc, 0xd6845f8ffa83ae905c90b939bc0217b96a114eae191142b7b39cccf6a05f918, 0x1e70b87aa5eec31fcfca56f01de6f0e16abd68e94016a6862f1fd84ac753eb9, 0x15afd08d9cd8f119f6b84c1bcf1bd8321bfc269f7ca4ba312f78c18cee06332a, 0xe8a18af50888c0e678a18db035e95f3e514d12add25b3129fcb0a1175bf20d6, 0x5a423b76a066ffd86bface24a69eea019d742ac25673cfbce2d6c8d8fa959f9, 0x1cd6633fc781769de49bb060222f70e764c0a599cfa63dca546cc770a8c96e01, 0xbdec688fb651a41a8454bab72bceb7b4b9a4e64e15a7759af96c3910f1af1ed, 0x16fe2f67cb81df40a13aee06cbca391aa9f363c8b6113970da577f00ecb68632, 0xd9e30316cdadf4ee7861bbf058f9864ba41949a97d80f572f4f321c5c81c266, 0x2b7250de2b670143d2795767be62b401b33ca87317d51774332efdc0d561e2ec, 0x21191107cd97ce6d82d8f24580d3f312384ff8f7c372a6a6f84bea4619432126],
    [0x2d3d14d019903bbebb3844951f492ae64034eff311f6fad2e7ee224df122abf8, 0xb1761537abfe52313d2984794e0f0cb5a67fab6c7de6064a9b23a9c1682e48f, 0x2648c021ea22340d9c15bf3b4de1019ca5bb2b154f528acbec879ba3060c5e71, 0x210383b9295acfb0afe0a2779904ff68510979cb8308cd4be1ba74d50f8ebd2e, 0x2366beb9fb0aefb2b27919a936a90e5178b6c920a7cdaeb2c24dafdf8eec4f62, 0xac0babbfeb05aca0bafc86a137345008a4785828aecae6e75726e52b19473f5, 0x14f4e3f929fa309ff76b77022f98355881d3a4619826f8f46f3f3307b7ed7cbf, 0x26c17a705c1fb16fc93b49912a3b026239aa37147116548af22c50b17c63d2f3, 0x1c041b56052757aa8b251c9cf93ac84f163b5029446b6b9d5f73738c71569c1b, 0x1db847af55f4dee4b04b07d8c756ded04b10c38423abda88cf955686e19b4d98, 0x14a9f6b5276ca64c71eb85421324ea22da9e59418c3f3d168a2e25614aabb250, 0x19e965d8014faa21520a879fa7062f8cd83e83d23d34eb96f6155cb698fcc5ae, 0x272983b47b987c94aa704a01c88698c287f66cd6a35b0c53b0ae248257328491, 0x179082445f7e90050f2751613a18be7c615443a5aabd9ee30dd5ae1aed141d0f, 0x2a45d991765d6810e7c6de95b751077ff3acd1a9e2ed841d4e351641b531af77, 0xce80600ae777b7577dcb0c38e3017ddbbcbce86bedaa78f3ee80fe8f8ed9c46, 0x1836efd329ede999eda029ac76933e51d379c2ec9f81106091d4dd81184b4a90],
    [0x23c2f9f5c32b9fc9d8a0f06a1fb94342f8e0f72871532ae622e69cd26983cbd6, 0x229a60de9ea7b9a31af0537a15fc0cc8f4e1874b05b029a17aa6069badc70709, 0x27c1cacd84763504bb9da995fb9c11dfe1de4f9b4de0070c62458dc06e6f718c, 0x226925e3b28e9d3583306111412c7fb3125a6229d56499d4ad4ce275fb945a6d, 0x2d4c3ef6b8649fd521c317d440f0de2170c7dc0ce2acfe5547c96265237229a0, 0x2e163352d3c6c204a4f39c6347ed2a1546da1c162c17b37fe5122dbe0ca38d81, 0x1d50944ab52614ecf794a99ec9d9364ac97acb173f01a5793d55f9adbea4c3a0, 0x2b4bd70b5f1f434f70f1f952d02b031723f769ae18207781b37efa7d860b6a33, 0x1da84194beae599eabcdd0d9ca29cee05c8d70118af22d79496664ba63d953d, 0xb1469c1486ad837a64a4889c24acd60c7975f59a70181bebde9950fc04b94da, 0x191e2dcf4dba410ac50f7e9aa497a5c783bffbdcc2db8471cbcf70b56e501040, 0x1668607fdf864d54f4bc62a7a64bcc84e7c9928a5bf8215fdfbf22877673317, 0x2f9967228d705426d5012c764e1754e1f43e1cb9dbde29a8da4ba862ae464916, 0x174c15148cd64c6a9c7e25bf7e92c0eed93ba9d9d20dc9d99127b9837f842ae, 0xfeae0bccd9061f01578a7a003394df020d098b1b5d4d994e9c7b01d5c2a6e3e, 0xecd1468fba5b3142d6b6a3698bd27eb2961f2232da5614891eae6fb2f501f83, 0x23b8bb2b66cce71b0805586c9d01f82c1f7acd6608ba14377052ab5228b9d2a8],
    [0x296c2942c041735a80687e79b03159ea0bcc9c8288bf61e932b16d9a77418703, 0xdfe7f9c9417c892a1aa425e36eabd1a8307bf14178cc1bff30de270804ac6b4, 0xf9c80c1ed9dbfa5264ec0ca7f2907b45582aa1aadc8f2244eb826f36302075e, 0x13c76a9e0ef6a2afe12453d52c5ade079c945de6700ade999d2654f00e0e1db0, 0x8d14936c51c9d5bfa8934ea69752560e7f72d33c6db682c6eeaa8d37afe72b3, 0x2bbfd29e71032bd6df3626cae78d5d7d950b8251aa9ad387baff0cecc55ae78a, 0x20add9dae28c0b6c56acf8dd8fbf8b82aee8b9e464704243077185468c6c7a25, 0x1fec96baa86d874146fecb495308b927cbc63ef0acf2481252cfee977d77a051, 0x107f942cd1f7db02a84ff410913b07ca14067c08e3cee6883c829f8383db56af, 0x20446a5488024632c1ca5a03f3e0d9927db7911b48d0ada345cf442d574f708d, 0x16c45c6ee2e09bd860204a12550cfedf1c15cf5ae79210ff56c3a067be982232, 0x95afac9e9c0e7bf3a3757afe1a59b1cd2c8a9dd0a4016a768de4e394c5aff4a, 0x1789b8d50c4f470a2040a8c97540530eb4a4ba188e058c5cf98eeff2986363cb, 0x1ae4a093f1ff056d43eb1f176efac59e64dbb0b30a17bf9cebe739ced02d7eea, 0x2078664852923af8ee05ac393bb1b71771aee237ac4bc13feef5eddb824b5212, 0x45c263bfd2c80cf563fd1dd093919e61702c4180667ced47109f22293d6f635, 0x5bd68adfe9229ea5f91b9b9b7c648930278ff9cd4235a74ddaa2989b8ed1b68],
    [0x2ba6147bf61fac6fe9f89f5d03424bbd3dd25abd1ba8099498cdde87a83508a6, 0x6c29c1a964316e5ff468201ecda5c5eab28e5cb0cbec1f83fbf55f911dbf6e6, 0xb3a42e10c5b32a4db4ae5742917bd2a2b6484d58d069988d40f4b2c5d923511, 0x1ef05c441e5c449dcde2b0104cc0cf09338c87fc1ef249e47219be01f8900d4c, 0x1346b974d355923f8812b1b81cd69ceac02ba2ed4207e078b1bcdd65b99c1c4b, 0x641be843dc5babada2893a000856038b0c480c73bb1222242f5c182b0366566, 0xe0ab9754fa55418576339c74a518da23da4512ef44d918f3ce7adc03877c0e8, 0x524eda9a8cf74c8aed40f27e804a118f479da36331029d8e35fa3067a8a2e60, 0x2d9cc26968b956d282d882ad26062692ad57541ae207ce90a36eb408ffcc1c2e, 0x208be81442f0eea20014d7c50cfe3f8497c3eef59d23ac75676d86e6df672177, 0xa103c791829e5f91e9143aaaf373c130be8bfc3579f3608b2eef23dda272775, 0x24c250eb5eb7b2d00c290f548f258b4206da050fcfec439320698146a687b4d1, 0x4af611dc756228bc87c791eabc9412b4dc539e482b11360dde2e8b15c5ceb26, 0x2edda4c0c8cdb6ac1f766af30f296c30bad29a7fa345c492c5fd461c83a74ad4, 0x24a57cc97ac713d122d20a0f45af32a192d57ee2df010a2abf932d3fedc531a0, 0x2b7869256ef8449ef1632686c2e4eebf6c7dc01925e171b6a3053c00c7fd938c, 0x1fc2cadc1d42598fa8af9a087df97d11564f96124486f9d36274a5290771637f],
    [0x1721830740eab5d3e824ca501d9dbb279c33cca46d957cf4dffd86c4643852f7, 0x65bacc3845e9e1db1666679ba9198965a9604f9d0e17a509d3435461bddaacb, 0x14b469025cbe3ae69548004a75ab8cca73e668f3fdbe5b0412149da212b86295, 0x1691556195caee6db9f3e92a740b8e3df97ba65b9401d64071720fc3f5b93d11, 0x2043760c0846ef1a8307b889640c3495bcd17b855fad23866cdc940a9e9bf202, 0x254c39a9337dae077e34effcb2bf6149dab1ff4c47077f565a1164cc16065df2, 0x16fff81b84dcb6ee8195fc9a2b43183ef2c93eba69ed01fd66215afd4118bc7b, 0x1dd3fdf493e57791e270cf1e45932a03871ae749d8b071b210c113c746ced3e8, 0x19f34c30d29e2b2e71d0e7b58975b52e5895100a642e52509f73499470664e6e, 0xe53378ab524fde35bafbf5b073f60337d37cc7bb024e4d770b478cab71efded, 0x2657a42fb7fe70f69fbdd34cf77e2cc1d9be5dab5c3df54468402e9823b730c, 0x270797e181131ae454fbe035b74c818574db4b0b14617145614bfcd17d866f5d, 0x1fe850c6eeabe8cc324105f8780d7802b35263639cc09d7c27e2c3d339fec530, 0x113b0fd84f896b1726ed7e324f037d49bcfc61107341ba50e6ce467bd4fb0393, 0x455301c9c3a9576864e5349b9dbaa24bb5a73194929e2022f9f9462dc60fc58, 0x1e78afe9e73f4fac3c0603f1a9944fac953e8649a63ab9ca386e14f76cc9803d, 0x2a2df8062cd4e4019ebfad326af75f075ad9910112c9e56dcf5c1402af2eb5a7],
    [0x23199d2e3d213c593ea050c5b5ad9f69f1b0cb0a3bc785927509481d9365a79b, 0x1112f3f5206cad6ea06f81e7e93f6da2605d12111f7d82dadab721a862820454, 0x2a7850975343dd2d9736a41fad96173abdf8ec955a5dbf0fef598a3427b06cd7, 0xe8f0ccb5547386fb377f8eb03ce31a2fd99637c8288acc824bb3c7e11976247, 0x2dffa0cb7982a215faa3ae587f3d0a8fdb38bd67fe497d6ec6a9af385a7de5fd, 0x38104d875861c16f8696630fff0f564ab6367eebb54aec00444abf7ca01097d, 0x2e1c146050524fcd059e554496c7365dca249831f8f3ce19154a3a4f25c0a15e, 0x1f1b007113b257163a2338f7dcd31019898bc9de8cd433c6f4d2a0d61b4a895b, 0x245d414c0213d2b34191838ece52483b9b823ad5fc60b0d1b5faa19dc499428, 0x27b89b2aeb20498cfc4ea10b7057b853cd060d9f43abda0b62ec0acb50efb0b4, 0x1c77ccc651789deb5aac8d3c633ae0d61021f924fd15ea3f64b2190692f0b84a, 0x1344ab9603108364a71cd08f29138f17b813a2e507c5a371265094c3ff091733, 0x96f47da409be2b87d72a5b4dffe768e464b9f343148561cc8f7f65996473338, 0x2a963a2d7dbf1b6648324ca5ca201005707c68f190338602106ff7a1c8180074, 0xa24a1fbf8e9ea5e0ed9b2f6f45190baf98eb130f23e3a59b98800474cce6d7d, 0x1efc39326593db3571d1f81f6e239efbbb625848e204043a3eae361b784da8cb, 0x2878f199437f80ceb6115a4cc69ad4306cb90caf7d33a57ee2c772fcb0e7c43],
    [0x14e714116af02eac68ca2f2d7fdc5602d14b0e3156bf689dd8af02225f67d6a5, 0x1cc4f895a494442a4c6bd0b9be44ea8d5c164ea0aebdce116bf6e22ea9c9dff7, 0x1f72d9f57cce69a7a953a9d1ead68e0fee628478d59b37fccf1e710729f9f2b5, 0x1504122452ed1fd0021c274b2f90e860d621c530397d4999625732841c24175c, 0xf84c2185df257426cc7160be00166fabf2793f17b4dcf955537842cc39ebec6, 0x26211875cfeb1f08402906b6e10083eabf34188c0f1c9e6ee6666fc7499161b3, 0x1fdaf9a5b7dcb487eb434eae3a3a1b632045c4f36727a1600da5c67d7162bec6, 0x1a82c7c40e0b33bc3be8f836c4b58c1167b9dd3b89a64a40f250fba5e7992603, 0x26a830d5593275fd09838a337dceba9d73b6b0bcde5794f3795a2c7d9a005beb, 0x1ca1b51031b54d6c209c60095eba463cf27afc1d87db60b8527336586bf5ac37, 0x2ed0b2c0fc04e99dd373f11a3fce52800291722a4f60f69de44b0be369b4301, 0x138bf926c9f7d99f3b356786eca06d03696c34a2b3e7045ccf4d35036ba8f5e3, 0x14c9004d3aa47932ecc43b64f48012296eec6175998b27d4ae9e67ac37e252dd, 0x2e8fce1dabe0cdf3fc5eebfad8fa7adc6f8afda97e429172d9b753dde4b98fd5, 0x86d86c3c731fe45726bafc5176b5843fd04dd64f58080677db1ac99fd279c34, 0x7c522aa9582313c107a3629403f5469f777e86b83ea72d506087187a8e72bd3, 0xf8ae11d8f6f426faf8516e350013be77f4892512580ed34e760da1c298b68e9],
    [0xba5aa0e6b3dc7c67804fdb84bc1bbcc1f844e9046a6624a910173cda4154bcd, 0x125a057c109e46c86d4a079d3aa4396af8b3e01365556a1b54f39d8ede66fd21, 0x28ca6c1010270adc4961aa8335ce83696b24bedb4bb473dfc15e82d305b95d75, 0x1d636937861daa12215f031dd31ef5ddb5d298fe8a687f1541c113dc6a6f982e, 0x2e755335e4022d7bac084dcce1498520f80ae93da97d2f65715027dc8f06f0dd, 0x71f2713b1a7933a0a20f507b9120564af7e399becb3c364dc4d4ff00e82c84b, 0x2ffd5da8280e32999e19a1717e10c89afce0c6f81f5d3289e3d5fce62ce0f328, 0x1dd14fe6365e941517ddb8fb308e3a93f54003ab4bf5f2acc7a7bc28b5133d77, 0x27101129fc7fce62280ca2c588ec157d96e5aee5c2b0dbf2049ed24b2c1305d7, 0x21919fe253784f0db396d4f9e4c77352386b9b72489043754ba8a2b1f4ac126a, 0x7027958a8f531877d1cebacf828dd8b017a125c9d287595373a5a39e58cf8d4, 0xf4c12b76814adc1cddb3af4d1ce6900934ed214203cff4daa3c327f9ece5456, 0x8d988683eaf49158a7c9ae87146068f6e1cf75455a9d82231645f7290d10b36, 0x272e74426d074d9658fd9526b8616907d5673aef4ee33678507f82bceef5868, 0x1a4709dfae34cf5ddf7006d7c290bb58c74297c8c4818fdf5f3950b54c924525, 0x22002b8b417575047a0ed5d359143aeda19e8810c53499ea4b57de86d441adac, 0x24574868ec8a4a702ea0cfa55bde2ea3bfb22821f6d88a66183527b1c7f8f0e9],
    [0x10d966de7e680887412eefd87d811dc46b0240886d6854934338d21121819798, 0x2ee7c7e3e8a979087deded02e7255ec067b1c4647cc714b96e1a28258d706966, 0x7029f067945ed1f6946894d66e2a8f17513b7caebd40c9adcaf39eceefeba86, 0x238f96dce22c10c9aca9a1982ee6eea87b7cebfae5a387782b49a62fea5aabfc, 0xb46866c52482fd492baa3395e0a2c90470b402e538b3d8d0c50722e5621dd1d, 0xd766df2a110efe25a3d9c00709cf5309a71c3eda799419fc3cbb0f69cce2ae6, 0x70143b740c54c7108f5f6183ce84371f770750dda04ba765ef83bda3fb2d5ee, 0x1700b579f15e50c2ad18cf77dddd549da000a6c8390de97e7ed0d8e68dd77d5c, 0x966a4c76701d09676a086e95d90becfa07bb8034642244cf6aef00a540d2348, 0xdbefe8bef0af25598f5412f84e00a3dd4e87de653075ba0c5da7ed783970bf4, 0x166d86374c39d7660096c87278e27024ca839197e65cd2f341e7a588c5387fa0, 0x251583bded154eb2396251754588712d0e1b78c29cfd44b45f29a9fd52ceaec4, 0x104fa2f361cf696082c5fced47e78a75f39363142e877b3d82c55c686e52627a, 0x2e937bf849309765a350ed8791a96d859a2037229bb6a652bc6aded264c7c5b9, 0x2b1d9ff7fb70883508c56021f57e3f9ea1dbac6ca74116b17ee926c1ec3190ab, 0x5f6384c19be9a2806e892c810917c10224188bf43f041a4e9633f370fabcd9e, 0x2ecd3211e05ef27a50e8cebc42ff0b183cfe21dfab238ea9ef76229b3f109303],
    [0x134cc424a26df27d06dfecdce2641a01bd102e7ff1a079a2f7e02cb5c04d0fbe, 0x6491bf6df0385099926b322197f0366b2757d7dd62ee3c2a04f9b4c9534051c, 0x195fc25a0f0e518936af73aebdfd96d9b38a4353504b0ff8c1418986552920cc, 0x21d9052cce28cf6e4e94073f863ce8edf12f02ec3286237f9d223b6239666286, 0xbaa8f730ca31f03feecfac34a96c3ac7af148079107bd1d17241917917321bf, 0x25581389210f6dfc774d3716e19784984d93837f46e519dc753d36eb2ac7ed3b, 0x24e00e2fcb19f6424d723a02dee50396b779a246da53a1a240f1bd889a8970a6, 0x83d4854b30ee0679d2db410b207e0e3a675788631c5a356cc87732960134c7a, 0xaf54416d73433ca2ed2f161359272770b6e3009381d71298f8223deacfaf11, 0xd86112e0b5ca938fa7edbeca9ec16e9e9eb4589c77706ff386b4f121fff102f, 0x222eeb0b16a9b7ed31088917ebe1cd3de2a51f15e1e39229a08bf734fb2cf54f, 0x26ab188797afc73322cb02f8e79578e0e296f991bb2bcfebb635d1212116f43a, 0x189a33095624a9fe843ee367eb23224db90c8d79614941f43009202bf3f7692, 0xcb116f05c5b188d660a15100e4e53213f9c91a2c7cc48497468ee009204155d, 0x677167ba65ce31ced812c57211602111fc3a26bbe9226918a7819c94281196b, 0x2038709e7cfcc3a1fd50ec84476c90870748ebb30f6431bd136fde99cfde252f, 0x11304b471f078464bc2004c224dc05a4c4ec5db0a0d15f324130e12793a7aee9],
    [0x25d8e2ab7f87aad379da3e3eb7f5d35f297eb80c430c765adec7f637c4f592ec, 0x252705f54d55bf29b30237f8d12aad2b21b4a5d3a7aaae982f7cde3da630867, 0x1db9ede78af0ebf26dc188f6fa75663eec8f65b6c9a5ed38fbb3421dec7d7e44, 0x28915bdfab7235384a0052ed73839f3b6600a7ad6328222a5b5cf6e833a23778, 0xa48fd9b0e00279f51f240b4729c1360740f003e804a09579e28c033c47d5b25, 0x4aa895e8c124ea62643e1d47b28162c404aa390fd45c32f9ca00c080fec007, 0x2f6ff2c3db97147ad04594d1858994b416f98aa1243bfb9deea65c109df2771c, 0x24f4f4faf7ce4f405a99b997acbe94f4f75646fe7d669779737e6aea7a59318b, 0x2c6de883618f61bf7f3f7d8d27a607d6a7c4477491b4a505955312a1ead3bc10, 0x84e6d4e3821e133fb91ddf17c52a3c3e056dc5211d99c507a5f8eb010f2051e, 0x182695778ac2503bd5ab232f7a06bf670a950fab0f52691e66d85d678f7ec4b0, 0x160333461efaa2ab9af0c831084d54e7669d8a39c5cdb67b2dcf41d3c4fc5e05, 0x2cd141426aef83b60baf24a91964fa03a4a15a956db96b9ff8b1802cf7886907, 0x1efcf46de40d031f8433503f35b57e7e05e7333292fc4e87e8cf690167176023, 0x13566534c621d806ed162efe86de13e99f5ba0b87b7662bbc7b558abd47fb72d, 0x13dd0f3e7ad7091840f0fa46df2804297a60a00afb5cb4cade62ef93010b907d, 0x63074d64729807274b9582f5459fa5f13a570aa0c8c1cdf970e0a676cfc6bed],
    [0x2cf0b9463240189f91b0d0081f1fdf117013e3bbf66b2ec20768b6196ca78a40, 0x2414bc086989d9c5a4b4389231672e10670faa0fa46393ed3acb8f7592d53cfd, 0x35c375210c40378de763a3a1ca80b6f59ee72e60bccdcab9987567607a7a661, 0x24649b22485d4164a5849e6fe09e491800bb975c4c18dbe076ec4c8430944105, 0x28ff30154191e734bbf8835086d026958770f58c05adf2ab87451b0f5b6a5b90, 0x1333e068eec2449ec9f3ec2509033a95eee7d93b3e21bacbf131f353021eaecf, 0x1aaf01fef0368da6ec25d420df62bf7fc238eeb68f9c01efe080abd921969992, 0x1a8158e9d6efffb3f770430136749c13ac3b57b0ac67b7e790b87e4c9533164d, 0x267a4bce46448d250fbc476240bdf28082bb7b3fd4fdf6b4959d202ca5c22cc0, 0x19092ce179c682ce654858f33d7db753b9a6864268eeac3e01b9c7499d669382, 0x2cbc84334505141c85446a368bdce6f43c4c73002b9c7fa2755bafd3c913cde5, 0xf2290d7acdc26ef20e0ebf6c790b226ec27618780d69b34235db806c2cf7fad, 0x8997d8fe98a3b07b245abb1a2ff924e69c94ec512dd8717d26d913976f7009a, 0x281257a6930442a04b62b72ed85e06c26510ef3572b9d76a5a47d39cc8ecfd19, 0x1bed3ef59d524fd38eb28351acd8928fe6837cee442cd4128e17e4ceabf5c5e1, 0x2450c4222f921391c2d880d0549a66879b1f036e6196b0ed04b6f65d7501ae88, 0x13cbc816452f1a7859c5a15a87dea7c7074b06f50623b8d535ad31f380862014],
    [0x2a447dab60e9a356de04e09237b0a5e823997072c557c28398dc34349ce6b103, 0x403afb29d58bd7a9985c47f8fc5e230619c306bc3b9e5001e5641781e2a2767, 0x1f1b34d74c7ba4b249e9ed1a403edebaedb7cdd68997d769702c61675cf9fed, 0xe5e3c54edadf35d98492c46975dbc8e2ff08c13858abe8fcde5ff740182b642, 0xd63ba660037b09ad891f2a73ee687cd93fe26acd102f90ad5ac7fce6e3cc24e, 0xafb72ecf8fd02e169980cd8f4d692ceeeced7f54406a649da0b542138177506, 0xa18d18293b53b043057c48caee752f777ebcbbed6cac878ae6dd7f823daf887, 0x341875860149b8023899da549912f6ca633d0cd64308178b5af305831025c9b, 0x1e74f47f430e1d9fe4edafcf6484293d475dbbd32e4db7afb109344d6b217ca1, 0x1393ce303c52c2d727cb4004446b8e2ad22c18f3c6baaf7f0b9807b4dcab60ed, 0x2996a98688b3896b12bf84463004b1e6cfd41febfa82a76c39829c00a5909563, 0x1101278844bb1ed1532a88c945eea3f1771c0b7177d9e90a89fc14e15735c0f2, 0xff944e58495c3facf9e8bce3ea7e63b45e0094453d6de3a476f34f0bcb7f076, 0x9685892b1647936a2d06ec2904235a2a473236fbae0007813832b3b28747a11, 0x2df959566a7f74f07a6d8db0ee48cce33d83d76d83cdfb72f8e601cbda8a619f, 0x1371c30df84f6fa17717dcabf21240b1f62b6a0f7ad88ea974b74424576bdb2d, 0x63df78a5d2ae65937d865fb6653358f110a1620b462221fc53722e3e5914bf6],
    [0x6943c3b3b93a51f75b9ef027e7e489c4031ff92dfc9e6cc8c144765ed455963, 0x258a6301e1d4ed86f430c121b8a7a02ac41a45310d6eccfb1e25c50e144d552a, 0x16946c160509bda0e6a28b310d1e3d465496f50f331eba12a3d335e80d02ceff, 0x228a377dc063ee95ea9383203e09cdc44ee8ad4ce4a3bd6accfaeeebcdb3afe4, 0x29d562c833355a13246eafed9cb816b700e432688f9d0161eb345f93c86d1c30, 0x6bc32e8519fba6364af48c63d468794e43eaf044a122f5df7506db732811574, 0x5b5f5ee4e1de0165485ed2e889de65244597ce9795bd1302995d6448b7099cc, 0x228e0f6ae75902b8c6f351e3afe911852fb72594dac6d84bb2501f6c1fb62b7b, 0x1adee1a357f9bd07b9aa5d5de6c1cf13ab85e3c637572c4405180255a6b262cb, 0xfe8e230f7a653e70d7e66b68cdde3b091c90bbe3392ed70c657cc18529c48d0, 0x17f2e3b7e2a5e959cac4b2e2abd5b204ed1d1da788ecb601e209e9135b42776e, 0xe5ebb8d9ab7b2ecfd74f5c7d852fb72eea1d29438e5849d60c3be110dccd77f, 0x1176ff60b09a930fc378bfa5bfae137d7e914b2c2e5d41718bbe5987ea4204a6, 0x1c289e2a8f4efc5bf0272bf45012e7c53b2ea259353ca5fac13452570f0ec30a, 0x897085ca8062df434a4f9526f65def6b90df42244485a72e23b62dbc3ad4b2f, 0x8702d77c6eb4854ab9a0dc200a9496022381e1fc33606f8a276cae0a0086edf, 0x2d557de044b0ba9934b4e84c14c2790b77dfd73c60964fac43c12834ae160236],
    [0x1b7c71b547295485251a601e795a5be291ec9310d09af4cbf6c6f1d9d97f0759, 0xc2ffa9d08d01f7863acf32741e6f40f5a614d5b5bc9680d4450bcc3ddcfe7e0, 0x16b4df7609480dc496c9c80c205cb130dc75a36bc86ed397537fb8621bb55aab, 0x278870285022a8e62c007ea1a80dfb983108933916474d70597eb223db38d120, 0x12d086f24270995532f5e9a5fe0f454211df6e0d70a4f5648dec1532bced0822, 0x14051b5b246c70615818e460072a6335353ed0baafee7ca27dd1ed323a1a460b, 0x12b64f3fb3491740234c4b2a9c22b0d3615e6409374dbd51c68480ffed83c578, 0x1dba77c37155cfc3a40e60a3cab22a65ed3d0b3b9e14a088da0f78235f378c46, 0x2d3cdee7c20e981df78414afbc11ac0ba5538b05d8b3ee64e93ddf79d16af761, 0x1e72ec6459044a8545cf04fc975cea4396932411985f63f69cf5abfd079ea339, 0x33de42aadf342bf63b8dfa88f1834316ec0a1a2031fe6b990b8939ead902367, 0x1033afa420fc311df873cfa662b1aa74c3293b32fafb6dd8b50957b40e4538c, 0x3246089fc735a2a10eff81988dddf6bf6cb36ca4c94e5f811d34a138af7695f, 0x184378877dc29eac96d70f2c3c23d03b15bb5cc33ef46aa4d7d8bc7436e2e133, 0x24a45709cbcffb8665e006e6da138718b961a11e5f833afc14de37273a14fab2, 0x15edf9c56babcccfb597723c4e2ecc4e9f27a6622c161e90f6aa189ccc28c479, 0x24a5b373a41b6284b58dffc853e57c1e94dd8018bf6155dcf79f539ad38f0588],
    [0x212667816adfb3eaae237f4bc5003837247ff166cf8cba1fdd43244f34aa540f, 0x1ef893f637158368e9a96b7893b13693d1a08dac4f4523108b0a99cd60d627e7, 0x25d14d1d9d039aac2acd4d2dda3f73a808846aed7159817289db8ff01a512c2, 0x9d18709d5cd1e66a30a5af2a40202a06e2c4b6456fbe28c5509fcf8f5010097, 0x10e49e4515ab23f11ba99b0a8eb2b9c0c00ffd31e297cc0ebff4b70a19084a03, 0x120d8f3de534d39e74a6866a095aa3038cd5a8a6da2c8c3af11c6a57878fbd27, 0x1086a1c670c0b38a4615e2b5c9da452435b28cb618a755cb8e4d6cc4a185e0d8, 0x143da4f1e56c2995390de6d5c203a81a0f8534ae6fe1b548bc06ed66eeb71b82, 0x3f67f0c682e74186fa8a43185ad1058986d7829037c9bc4efd13303df2565b9, 0x2ccc820115f173d6df190637f860f7559838d62da484768aa9147e38718fe4f5, 0x16c78c003db17ade4964026d9c805f98f6bcc18f5ab084bf6db478324b4cbbf1, 0x2ced73fefc2ccaf65b289e9dbc565eb7118f94a1e55b431c176659a4e20300bb, 0x80355d267446e657f4fa48445d6bbeb92bd0722224b62354102faf995c8cf0e, 0x1d7b035e2e3447110b569a0a285fcc75848e9edb05f260790b1842827caa69c8, 0xdef7d6932196574dfaa3bb93e455eb3073af3c6f5b23510af304e44af9d45eb, 0x1d7bee97b83a508aafabcfc215e94be6c319c91a06a446efeea5d2eb6433d01f, 0x297df20f1168df352ac2f6f2eba37c01f2e1dce8c6c9ab6fdf4bd4f73a8aa61b],
    [0x2704da6a1722356355503d2c68fe1b4cc81c7ec8ec79e60293c6ebe2cd0fbbe6, 0x2ee1c93621569042fcb5787986b162c7713c3f46ba980f84c35605f39c6bd09c, 0x143dadb2702943f0c1ab5f4dbc544741271b5feacc410778391bbd31df27d57a, 0x92b4880d629751c880c52a583e7c897b96f8e4017d03615240b58b099710347, 0x2dfbb9e30dfdd6a6109ff6096fa7880bbdca630af585a98dddc26c3c0ba06b1f, 0x183f5efabcd0bb3b5bcdc307a3000408ffa227d7ea09d1e46728b8a41dc10b1b, 0x188ec11b8e4279fe5d6885cae68b47b0e2f3b1b1491823d56d45b7ee0b819bef, 0x3b932f42f057452cf7e63be1d791df135b1203a05a1ee87181b79569dd9caf9, 0xf004e411866bf3827ee877ff26b9030e8234af91cec1abf4b1e63ec376cb4fb, 0x7b29a2bf26c3253559ac91866e18bd24231873c628c6c54085020e9d94e4e06, 0xdd493324477dab3fb82ebf9bb5ecb261b16053ffde0780c7a103f5224ed0d9b, 0x15a2481d9a02f0f660f26f731800672d4f01386a88b39a481300524ff7d6d77f, 0x20fca8de9b1ec1b1306069459134385ec736ce3d47fcfe31c9036de466599d5, 0x13f13006cc21c4413d126b903430c7d0f91843fcc8ca9d6f29e088d53e6d56d0, 0x1562270321f351d19ff030cdb1061906ecaf1d545a842611dfd2f62b517fadcc, 0x2a1bac0d137627714a64d25cff803b56397eb7c49f916f212c325e36e099a21b, 0xa626b8413c43716fb39475aade5a5fa6032be65870a14c7536db969accd9f4f],
    [0x1d8614a7501b8508b972bb3a9865d7ebe10da1f7ef9a4b7caae2e8dbeafde38, 0x2c4cd54213bc9c118584922573edd0979687ffe60194ee617a89971095ff1712, 0x273b67e44bbe0f36e03fe1bb7d026d3ae18d74280ea660f7eb6adebf13624370, 0x2345edc3a494fd086270df8ec3337021bbfedb313e666ed13358d808d7fb96be, 0x14e3240d400b2f37c462731eab1abfa3121fff4452adf8b8f1ea2d7dfefe5b96, 0x26fed100c2fe18afd4558db5690f1f5c1ae4848e45f7984b975a127b2c3e43fc, 0x94f0c0432e3dd61dd59f78f3cae7b2ceacc7ea52e1e429618132d2993561b3f, 0x1b69528d1cb065ea1bb8cb4ffcd6f727a43c184998a8c52289713e52f1a4f1a, 0x27f41e553f9d587a847aceda9bc374ada23fd5a31068640ce8851f2ac9416b9d, 0x1e78dc5799e31ae0047ec4338ccf8b53635cebfeec7de05098ac9a49f51b4e11, 0x1408db23a0195163f57ff57339bc69577b96aa7c9f5b2347cffee7c6cacd3895, 0xa45ed2874baa1e55853ca869d88ece0b18f92752a6a622992f2c40a80fa1bda, 0x8c69e11628ef5f25cf5aa9a86c58192293eda7b8038b0fcdbe9ec43a387b38, 0x4418bddd1b637b566e983af7174840f3116feee63ecf811ba3c183208b73457, 0x215cda6478735eb143ffb90674fcf75ba4d60f81f2e13ba3a148ae32f72d4b44, 0x35577a54e516696334944d355f8f5f19cdc0006a3d8f19cbf52a315fca92657, 0x14007e08f2050a67267adc8999afabf2df408c524b62d66242e07bca846b734f],
    [0x1d34dc16f79b6e30ed5a661cd37c19178e1b9b5ef6814104b0f01b3042fbc1f1, 0x210287383f8ea9d022330583037c97c78bc6559b06da998d3486c784518e28f4, 0x24f14e85290d69d501a2347570720ffb805edfa3c42574f10c173631dc15a933, 0x301162024bb27bbcbe7606f50fe7ff61f9ef6fec6c70faf2485d11859f59249a, 0x112ec7cf1ab77ba88df0bf2b9c9adcd5bbd3904798557b1fb17c9f09aebc0ad, 0x405e5888854684398caa0a447f1077f2294d23c4fe188bd1d9024b5c786c9e, 0x2648137d6f48e92e1bccacacbe308447399f63583708346e2ebf987f397c8f19, 0x2828ed7039303cd2ab1ac07e24e2ca8df13562f1974b2c9f2b3fae742eadc23a, 0x15e6dc583e4e1f4626d8699910170faa3235d54d4fdac2480010cbc4383736f, 0xe0d901f126136db8ae40803538a6e638a67be495a8b0da6523dd152be24514e, 0x15f1d6b88717f376031f4c9db9389922c83275af3e65bd06f1639457d8aea6d2, 0x2d4a2d4bef42094512da25f1fc445197da4116cbf1a5f19deda71329b3fd3cc2, 0x2b75516b90c831875a52efec663b3ac244300a4aea3390cbb79cab04a41c9c37, 0x22dfe7ba1a8b83b4ff9e598e4f853568e49212eec0beb566cbd83a580c913510, 0x17356d230f9da4d245e95d31939c5468fd6b4fe1d43a5e6a23c325beb7818e85, 0x771aa5a01cb551d674ecc77a4566d30413f3c6f3f98883f2297bb2af901700, 0x2038c2bdc57d92fd22826fc76e6d08c2b9f0dfc5284fff92067ca7711869f1f7],
    [0x1bbb2d783129d5647dcd868d4068b4cb291755342f4d189667cab73f58913c54, 0xcfa3cd62a22569bd9f83dac75982f5d9ae73f6d11e945db4f1691e47d690cdd, 0x20b8bcafb219c0e8cc74c564c365e7f1aadcebe9d1de307a7d8bfebd9a59448a, 0x133f8f49324ce55abe13c52065b9fd5525d19ae1fd95c968400efc2d32a3e559, 0x1e393e2816d184bb6fd0624f0fa7d0be2c767ce0cda87aa2235863564b6f0ec5, 0xea9f996da777929697fd9c0b7078128e70ace44e0f9c5bd2b408096ba6acab2, 0x1f998239bb13599db25c562143e127d87f7f7a94d32177ac46cceb87cb9902bb, 0x2731954ff3fa93fe61134965d3f2dba0bfaccfc91ea76ca59638d2fa9c4a7a0a, 0x18d07a9939fafa512e2db3f523d1cad5de5ee6138dc2d68c8ca06d5abb4ae655, 0x21c5122f00f0db5fd84ce1d7c2370e019fa8269fe7631560f30a4c791f228e0f, 0xf94cbde49d7bb747f1b7a83bdbc3fbbacc95c68355767beed02d68f444504cb, 0x7786585577d81638c8df6c6fbe94fd632f7ad7e35ceffbe367e9ca3ca33c165, 0x13899fa1b41f12f9ba9d85b72ba310e028736f5200293bc15df542c1f3fdf3a2, 0x1a3e2b4a3410b810d0d8d8e91bc0abbc5843c90e1f196902924901e4a423dcc1, 0x24693cd5298886503438be685277e580caa0c61090ce7de0e7d40e49d12b9190, 0x1cb88707d385048828ee4a4ff4651d26b0c6ce4403801b70e65d0364285bd25f, 0x2d5d8e36c872f5ba089905e748b00c1738ad5103e56334250db8c34f89f4cb58],
    [0x1df48fd041b0e7762fff784087064fdbbbaf29242a35bdc6a24c764f1201e39d, 0x21aea18d65264f486c986b3dcde7abcbc0ce1f82418b6fe9dc420ef728f9a5ae, 0x295a978d6b1143de34ded6f81e2af50bbaf9e93a3c4f98f07b69a912978218da, 0x4f0f0b54e2f9add517c53f11de865a6ce34df352d0c8b7b0ea8fca0521a3b5f, 0xc4daa6bd8a280695ceb773c23ea936eae30b9aecb7d29732f3d005e8f6be875, 0x275b5f950e56bed013209e34c98959fad51b2bdebacfb151e2993c8691e1f19, 0x142e622b8eb094d15647fd69116f59a527d8984710ab8437379206bc95bab064, 0x9acc90fba52574235b7ebe94b3afb107a68bb7ed6d60b21714219fc170d55b0, 0x26512b4e53591f187109b2b4f36f4131fc0bcd1cc606b6853aa20526b9591dde, 0x304cb4d258b30a6798cf5e3fc86e491809ca72e944066160a27ec60c6687faed, 0x9f24d8469717a2bbdb34740942cb66804ed67d932b768c87bb6b4ecf354eccf, 0x302a604d14a5cea49d0411d6d669797578de3ededd4bee595109a509f2005f78, 0x17057a92fd82f27763b98c0137a3daa6aebc82d1ee84dc286521c4b33ad16acd, 0x17c98c3e6b14e5c38bfd3d1918e7b32d85d4324f16e43448992ff12bd0063a79, 0x2d85baa692bbe01ee8ecfab8e20b80b8c012c96d69f694baeefc253bb98e49e7, 0x22a713aed1607d36caaeb46fff411e64c1bb3160db3f3431facc07969dab4d4e, 0x2f7ae4d4acfc8497fda4ac0d082cad38196f265c86089235093e1aac53c67e8a],
    [0x1afd52944628c9eef6a4d5cf21a9dcf6fa49b1da1fbd9c97697aa50dcd6cf712, 0x198e874eb31875b5796c3081424da73a92708ecd74e80eded5c8ac492a8011fd, 0x14ea1b78ec6247114d4615ce0d11e280c33b0a1fbac636f55f043a5ebf04ca7, 0x23b4797b3bffb21db4277e4eb13979e6774acf0452deab3d057ed6c0eb5f1712, 0x27c85c1c147076cd777f41b99d2e55530d4d43b341121187d010637cbb66ae86, 0x1f846837097639fad43c0f406a4029a3ab6d809c1a27c61e48b15c1b71365f1d, 0x26b338bfdf150311357f806449ee81b2fd29e3f2f43badfc7848948dd7781af1, 0x2ccc6e79733745f9b759c1eb5fa3671dc3d99065e8413d653eb24837a9bdc544, 0x1b7fba6bd285b5ee75e195de2bbb189e822ded19a2867c5323c7f6c575c198da, 0x184a5c858586996f08ac5cf5b5f67367d91cfcd71b35eba37787e44e7cfc61b1, 0x2391576ba9118db12874e5169e93c729f8aaef71d2dedc81d283dd953d59e0ac, 0x6fd613bef646afa4f1d57f7128518f83350e5efc0e41f8148d2ebbbd9194058, 0x1ecf14479487ad8f8e5e4677f73dbe81f3ce377ec7bed9fbf0c0a0f16b912718, 0x6fe9870f03a8f83498e73ecf2e214532b8b114a14cf3b342d7623e9d5192b67, 0x4b8da7397a519153f0756f72c9b62670ed5e983c02a4109131e7275d7f2d1b3, 0x2b1c40fcbdf7d9db85f818aad7fb333b7249db791d1f65f43f529a77e3118998, 0x278fb21e4cad110091702e5c8cdc84425bca088286772f1817308f3109787057],
    [0x177ef03c343328defd5228df7d4e44d4cd23956dfb134448a485b196572925b4, 0xd201654bfcdd40cba52e51bd419c0f95c12101fc1063ebb8d81554c71c16153, 0x3b21c4a37026ac5d962119572d8bbabb453343f75c0d55c740aad13968d6e09, 0x72a52164e3175f63504fbe7a0e02509d050e5552490e23d7c9c8242fa870ce5, 0x30d0c184b743e3401114b1f395b12fb6a962191c77c5bdfef165977cdfacbe8, 0x24ba3bf7b9134803ab3dc87fd9e9c27f129764f91c34eb53b557ef3fea87a39a, 0x13e05d5c4e1dbad46885dff27afbf021f7e1bbd432d0a9f1a3dffcf3300a7a48, 0x113a2fe6e9019e83e0e898410c35326c10cdd01429acbb1fab5faa9cf474de2d, 0x78aebc8ff29a02e89514e9a5beb5690b75e598d2af2f9016bbfbdac02f47d17, 0x2ddd3bdf04d7d1449c12e60030b971b44c6577ab560f9efe8e867282ef1163e9, 0x220faf36a017fefd9df4282a946513585a4f6cfa5bc5f9766861fbfa43ca18ac, 0xeb6a2ea9f6827065fe666ff3d1318280923a634f91efa9e43a223060257881e, 0xbe9458e9cfd6cc6489d7f20d1738f3e519b5c22ad15352cb444105ef4b89a8a, 0x1925d24635bfac09431b17383636f69f224baed3577628de33d1a282cd18efda, 0xa4098894729d44bb96a4b265cf98090039eff6cf8b170ce3dd6f8e42566dd97, 0x19c9d480ef38aa13105b574a419520aa7d092a68ed6e76171065803da50482bd, 0x1c0a6c07cbc0d6ab894864dfce9df406b04bb0c3f7d7d4f00b3403551411c07b],
    [0x1d40bd40cdae647cff38b49289ad2cccffc669bd94a6aa724fa2fe232d4e6b02, 0x28ef2d4bb34fb4ff673169aa1cdfcbfd7a869974957ff7ec7bef4c731dbdb666, 0x1b2d5d6b171b0148947d55f61b069828285670f4b843d29aa7f4493bcc5a8923, 0xea0a67e504a55e07fc868ed85f3cb24431835409db5e6653cc31fc307d29ebf, 0x14a99bbcb8fff06772149dfbed0103dee78b5622afc0d99ccb2bcde06732c042, 0x28f711676e8ae8c2443c3f82a8b765edc17cfc6ed254b7d2338f922b6843a8e6, 0x145eefa014a02d9cef3bdb305206dfb1dcd4e4b8bb91513eadd1374c38e94195, 0x2379d29d5e9c69d6fba8ca261656c9d0370235a378f77cca2850cfb3d5fc2170, 0x2d12ce4fb01ed5ee6c444c59583cd1a26d8e745443a6721ab48739d7b2685e1d, 0x2dada5fcace74d74dbebe88dafd754b859989b09240b43a46e03dc6fba6c8f45, 0x2e23386575e2f0f1f97e4fb08438a13728dfd5030d398192ffaaa1fc6da5d159, 0x270d58901f888a0d3331391d74b72d35fe749849add6419cd747d6cd67db2d52, 0x29e48b157cb407f9ce069d0f80a4537cd9e87179d9eecab350c78d6990a4e0e6, 0x1d15d50631be723e2ce8bf8b559d975af370557abee33b6514ced1bc7dbfbf70, 0x19a954aa55569697082d97017cb66cc676d03bed6542a58a2237e7483ae8e3d2, 0x1146d8cd42e6e1e47b51d5d80660d7e17ab43467a2a5b5c8c0d271bf92837151, 0x281a3bc2877b82e9a9796befbe8db3536aaff12bbcebd91de6887432f37bb44],
    [0x271904d6f98de7de1c70275d3e362c3985b2e7ebc073ae59058ac2b4e71394eb, 0x1b07f0f881d60b7ceddfe4dff878fc7162c92d8c237b5241017fc0a2aef43881, 0x2bcd2701a63735e73b0257b73d63ac7cd7792cf96ed0a0fa3ce3bf6220835aeb, 0x131f25e8aa9663cff8fcdc4f325434fe144056fadabb01d4effc020148f07566, 0x1e03c62451cbbfb82a6a4c851368b9a9cf79366be4c7937ef16e890bca6cd6c6, 0x2a8d3017f2b21a818d3c8c932566bd1baaaa7c45600baa0990aa67a49309cb32, 0x174c20e110d106eb038cd9318d46691a685d777b71d8852d45602462ec5e3a4, 0x2639df073fa32789d0e9afab0f34422488eae06fd75ef55995e369e1b15dbddf, 0xc170d68f133125763ba7714624b007475fb6787a1b17043926963dad16afd1d, 0x2fb299340483a1739b0108e631ac6e8917367253a76b9e7993b1aad9f694ec29, 0x2588cfe421a60702216fa0bd567cb266af1042923bc6cb57ed68bb90488f35f3, 0x22c8fd4638564b9de90ca35e661965ea6f01f37ff615ef308046fe136ee5f01a, 0x17cef09c980a80c4e53d7284b5b2a10dd1cd0ab41260d33cc19dfada88e5447, 0x1d9f0a3022c4764f9e5e6404397bbf44be049e5185cac48bc729ac948ab01331, 0x1bbf6b14ad3e7666bd58c7e9750f7bb9f6d6f70c4c2abe91e20fc51cc5ec28c5, 0x14c8d23e7b15787024794dc33c58dab8c117b51b4588f5ec5cd8c59f9cc30dcb, 0x1b91fc8e62a79e98f545cda2608f29a4169641a3f715ead78bf494822555f565],
    [0xae904147620bcf04a4b4a9679b2713fdd8cd50296d42ca318548e32b81e3b38, 0x166f3e332577ce10c873891b5cc742e7c34bb4d62b5773316688e510f4d82b8b, 0x141e088bfc6e007a2d82cf717954720cb29b97b30c8c8125d5f9b46c2e26621, 0x118e0ee4202d127a0577a6eea29bb614d99c1034fe0e2e7465e91e97c837aa29, 0x2970b8f31d9b9afb3d3b912d90594a847ba0483dda4b0934df1278ba14bc2ec8, 0x2f4a5eaa4b7aff3fcd06c9d68fa2e32e4b4e629aeb93eccb552c9f96fbda3ddd, 0x291d6cc7e8e5152902f5b05c13002bba95cb54657ef393e92bcc23b9bbf7ffc, 0x2e221aaf4070c2c0d735b5b0a52099c6594d38936914c9393d8ecd2327088c42, 0x103d669fc46b07aaf6cc4489e85724181503000817f8c1fb5d471b2b36179f22, 0x10dbe373ed70674013a939b46a07ee4f8c191e3fb639f8d0a781d1ffba82fe90, 0x116229ba1cf580ff86ed006b9207036e69cc0f1b55d4088ab34e01a3f25fa531, 0x179bb393b9bee8ef918a2ba2239ff1e6bd63d6d48cad4ab6f2d319f2999be4f0, 0x257a8dd0150b1254b585122987e3bfcdde7f914d374d2bec0595c46afbc0997a, 0x1015f7f8871dbab0d121570b0ba6417980a2d11b292fb2a37ac74c8a6e198dfc, 0x160acf3dc98d9d1ffb15eaec2287d5cc743ef3d16fb8bd40946a24633d23825f, 0x63c73552b19fe6f68e9df9438a581827ece6c31520117c2353c67cf0714d5b1, 0x3e8c80daf887938cd355ec710a9e32f44c47520aaba5dcff9c62c4bc0412a82],
    [0x1ac3f781cd9676c41ea21fd2b7cd3f38cc795eb6ba45a525b291c66b8ce7ba68, 0x189d712149326d71b0327f9b7102ca0f93043fdbcf400c18e3bf70106493354a, 0x25a912761f8d8bddfcfbc099bc994a355176c54a1831f8eea5572c476592c1ca, 0x1158c9758fdbbd6551fd2ccd615dbbe0bede969a6cd0f28040e93b5239eda2e6, 0x28e7b56cd29b16133e66383a20edaa6a779b6afb82772344cd2c25979a9a5eee, 0x2c3597feaf103aef0cf0da96c7817bfe5713828c613e326c975ca1309927700, 0x1c4cb6031554a2f40fcd1b71223a97975dde9f4f5c26ca08678870a139ed93c9, 0x2ec728fe7b69cc421f18d96bf7a826ca1b04261f24a98fe9c1e8a0a41b64b58a, 0x79e331f65c8a82b875922c8449bbdea3a111a68179e5d2dffff605e1ca47dca, 0x26cd813f24807033d7c0244c9f0790fb80da30e5e3c1e45d7c7032f2aaa1831, 0x5bd11c2b64de1a736f93ac8ff7e0c166f8c570a6f068dedaf72227e85c11451, 0x25e16ec5be688e137b2cccee835428dab939351b3227e8bebfae85f3a1f9c270, 0xb38073981b0af418fe69ea55eda1be5d289b2f0de3bdde47ee6483f033b16cf, 0x1b40be531edfae81a33e40638fe85f88067919a14dd1de793e8eb1520db3a2bf, 0x1b3437d0f405ab27c185656999c538a67654438f28562b3a00eac395e7133835, 0x25abe96ddc21b2c17b6bfb3a8a90a2ac051b3871c87fb9e35383cf6d7223888a, 0x25e3fc93bcdffeb428bdf8c12491963e4aca18475844b67fc5676c73fd0eb358],
    [0x3af96b4b972c3371b076821359cfaaeaf9638a072c4f93e08ab119e6c7429a7, 0x232a48732df2599b09f1f1631d68129303ff6d40098f8b2600983e5534435c11, 0xcdd518a91b38feda4681d3bc992182ee111e0440e9860cdc71cdb36ae80c1e8, 0x1b821898c43b4f3ae2007e994ea83a84d3fa63e7595db2f41312cdfad1cf2499, 0x1386203ae413c1942a336b2fa08038f4e92e5952e523bbdf7cf3378113ef0cfe, 0x425657e57a9410eba03665cf1ce8eff3e0de9469b032d468ba15d9208fc20b5, 0x27884ade4cb4eec0c91c8177e0971bd5a9b844af188d28ac1980ccb425fe6986, 0xec81730de0878942af4b3827b8bd9ac4cbb1f3ab7ae97cd1bb135b0b7c78f4c, 0xa93f1c9629ec9071e268148c6503ce1800f4cc3c5389c36e9ede3eebabb7025, 0x7e9c58dd7c4767fca5ccbcd7bdd8a4f4bea7858542b298743660654001ec52f, 0x975e07614ccfe3cf39fd0208e97cad49c65a30af3590b24df1016e6a7ad9b39, 0x283f302c98975a418a232d3263d80dd74300113d851de6d7b5ef3c7f9299450, 0x2b99993f81272c00553c71827e9e24b3270549e703515a6704393b3894a7d378, 0x3cce63cef0bcee4b9d5c753a190c249127a628b4eff5d557f2ec05b5d033c9d, 0x2bf4ce1340a1e717fd8df525d46439375eb3642228ada9dbaca5804e6998507a, 0x1ae9453dcb8890ce578b221d846612a3396ab24ac8057ed48209efdbf31165cd, 0x2764d3e37c82c76382c2c47f4a93dd8e73fdc7cadbec68bd3b03b4dd75c09871],
    [0x150f9419a3b6d46dafe052942e15ed496e5b162648b7ddd3cf55bf1e52f7636f, 0x876dc242c8d2aa183d184cbbc4340d5a9a3a474ea84a99046999d95c7884bcf, 0x21ae86ad0b69ae69e4b9be0ceae01667895a9d9381a1c0de6d3864d228e8ec55, 0xba0ae75f3c762e9efa11794c8121d2b7bc6ebee38f105fec003595992419580, 0x10a16abfd6b38360d4f3257f3c51c9fb94ec5f845dd83e0c4ac4f7798f2d9077, 0x9dcd9b007d04507c0bc772c0ebf964d496e697461753bd1bb81bbc39583de3c, 0xb1bb2a1096618ee3bae22563f63fcf7e85a817f6345501426c271a2cf1975e4, 0x44c7652068fbb0991aed6944540321bd6b09a1f0d6e91a54b8af4dba18471cb, 0x214ea955c4b2a5107d885a37734de5c9afcef744c4815593f970bbdac51db55f, 0x1684d36dcd86408b68230ca9f98e784957bfb7552a9253eaee876820bee310aa, 0x1666ceb9d9cfa4cbed159ae6ac945516b093ce589c59dfd5abeff6c6c2ee06b, 0x2151a99ef7bc07707ef7e223864c9e8c50836302f299aad05de35ad74c409daf, 0x2f56e15326295bd701a40314e42ccfd5ca4e0814fa54d312e7717e488da05955, 0x116ae009a6c4bb4c28c016716364fb7e7be3b21723755e1607b1a262b91a16ae, 0x2fdbe71f53d54e5b3bcb850ce61743d675be601d74430d9eb8073f6814205189, 0x11a91f3be424b955b2241d753e3d6d5b0c48ff9c68ba868f8a611232ba442f5, 0x1c7c9cf7751255070ebdd0e3db7f97e5d95564d33d2b3293caffa0434e6d788f],
    [0x1eb979221c31f6978d43e7568a7cee7709d68b86e56d77ec89587dfaa78261b5, 0x263b48e46edff89f2de5dcd258850d200543ee5dde31459b6fb5241a6bcefd76, 0x785b9559c5da0bd57a80150c229bb2d75f51094c8e1a11bfea538e217d2ecf5, 0x23cf1ad5ac576585eccf97091be57cf0ea3bbb2d3af9174f8042582424321d9a, 0x27d4db4bdb30ea4e07550d9e077ba8a9d5caa1d418c1a76a12dc71ec55881180, 0x115f6242fd5412b1208cd4023d8cf87fb62d33a8292b231caf8d825701ab681a, 0x89bbc83094f64e293c91ae79a8b7e009d0f679c67dc19c62597b04e1415c424, 0x1d4a1b3e7a6d26a8c81d7e9f4bf08af0bf1370dcd0d2101469ed87d469d246ae, 0x2868583e9bdeb10538362d7fed8997e9ceb4b43ab8db5b0a4b2f140943ae52a8, 0xb79459ea80e71539e8079cfb3eaae03ce6d0e3c856557c3f71fc983095b434f, 0x119119d4ed16eb8d4766c638d0c34acc159a2b8e24e38928c3ba875890ea1985, 0xbfdbe4b4377205377f69c3cd5e93ecd2a9cb3b4ae2c1541d8e74b64e965a7cd, 0xd41174cd6b5c4c0d34b2f4d841f3f9da4f100e20cf6140864efe6eee54c08a1, 0x21c5915b86d2211067d19fe9a318234043b80b53312749898b537783cbe4e1c7, 0x1038a4a9cfa20caba2d23ef064e7419792e83a31f0cabde4eeab2e49972fd78e, 0x17cc0079f9863177147858c89d3d7f31adaebfbe4c9e074ecabd20b7d2243a4, 0x294ff7e5e36f7690d60fad36b804e35659e82117ecd44deeeb79e58bb8c874d8],
    [0x1f03f5d810dfa62edd32521abd1d283c2416a28fcaa244d36788eeeb195a9041, 0x2113e2715ea893d00d101bb30e6e1702157d10faffe85095427dc9d9caeec5, 0x2e92c29b7a243a299d92e78195f30a996a3f534d5791a32a0be28bb7e8960c7e, 0xbb300ac74564449f872674dfd9e17a185432f1f463317cdf9d499c87cf8595, 0x250e835ccda0e466dbd59a541e1d03c4fbed637ac6b715c82c32af588e1bb020, 0x6b776c5024ab6374c84f5528ca7930439da012d412f9369ee36db33fc435826, 0x21df8b318a44cc5f9d54bbefc97a91b787912bdd5cdca95f47eb9cc89abcd1e2, 0x1e4e1eaf5d1729d55230bafb1743de4732a18d66a9692849701f9a25e74ca9b9, 0x268ceb3749719379b14ea062c63b359449e70ad5816df014cbd102ac647f2228, 0xe252b231c1f0ef18c8d6afbd879eaa7f9e61dea73247ca3af62b3c1e8794fbf, 0x799c14eec20438a0e53b69882c90c6d9239b7367be50f64ce92d9974c2bdaff, 0xfc050000c821a4cf4ee6bf4d91ba46d2cac2305118ebc194684a2dcb7d7383e, 0x261a8cec31c1289f2358c73530ed7e01c2eef88cbad4010ec09d036e57d2a9c4, 0xfe536c9c7dda5070a37fd31135f77a67f9f3a986b1c23deb83e85793cf3cf89, 0x19ffddaefdb50032b58e08b4f377b1c0eb37f06375ff78e7ab7b605781dde8d7, 0x2e204413c53445351004316110f539849ae7971f877fb0841b19ee753ee2083d, 0x2aad98682dfe08ad2c9b15f4455a201d4a963ac7dbb189a42d2b3e1c3e03111a],
    [0x2c89f855544594b08ca43a7c32c31c0d90aeaf300132c8b4a4cc66843a181ae9, 0x17aa1f236e0e89d6c821337ec90bd7a78b32eb9bafdd9e83ff8c7b1b9784828b, 0x290feaaeff298d887d5a5baa47fe2e84070eb78d2079d791acb9067a979ac1a0, 0x26103b8738968671897412fb4246da86eac69235c4a1a71aa7a928034915f67d, 0x28a70fcea0f277978120db4bd478a6b09d54eaa8a97d369dac79716989b43c7, 0x2499d1e4544c6db94e9ded9ba93fd92162686e412099de5baf123211b4138ca0, 0xa1aaa6aaa97e0c7228ffae517b59392211af38efa670aa06207ad7f05bf0af7, 0x25b6189ccf6ab3a759641ae79385f3e7de0e375a61c260d84d91b330f83616da, 0x1746b0b982fefd9d90e7ce72cdb5f92ce0c6990eb43a27cd53efa1bce881eb60, 0x289e95d858d2babe2526517d850587c3609a9f4ad32a646de51e866bba0b42be, 0x3048411ae21ced1b31d43d3496c92e66a26d53a24f250e17f328c358d97c220c, 0x37ec711790b5b9819ed2f20da092a6befa9bc44cbe6c1c21f33d3efb17688fb, 0x2d4029de72bf01e5937bfa34ff4d5ebbeacb010ea816d9fcd6e7af91d9a6714a, 0x466fd8b23836d8e45a1751a1d0d28db003cd20545a88e41318c571c38fd3b12, 0x32edf5df6d833b5490840e0140247218d6254c3697d0070fdcfbf6f1168e841, 0x24098e733e307a6ee49e38ffd010589a51c1df21282d82788f5bd0cf8928d1e1, 0x2d5e2fa5e630042a0731ec84f4a548420dd5674b614b3de83e5ca707ecb32706],
    [0xe77210dc9f28f0aa0b9330bda698258e429ada3e10f084f5066aadc86d7de01, 0x2ebdaa0993f6a702e710f8fc47392d7a0e5186294ba78ccbde291351087b4fb, 0x5667655c2f54b241385b86fcfe274d1f245699cd6aa60b6fe515102e6ed9c0e, 0xcf97aeba824e4585cc9e73c62f0334b8ed4cce1276b939501fc2fbf6b2cf2dd, 0x1b0d81d58b85a80d5fd10b4c399e0ba9603e0d60c7a63c89c8339dfacb3dd88c, 0x165261806d574e0612d935eff3064754aef0f9fc86984b1e31da996961b565ee, 0x2543c122ea7e08406b7c5a89f385579c585ce647d98ec4400b6db8ecbe6dafc8, 0x18aac1e93332c0695691852880b308f069d8749f94c92372c1367bced171ee01, 0x1bf63cffb45ae6f08358df0152ace17058bb3a63b0b1f2567e69d42b44048bab, 0x20283d0443c843dfa2cccb285119fb4a12094c90ce6ada0f6def11ec6caa6b96, 0x1d954fdd63b3ee13a6ca13dffe9832aa9d9e5f2e1ecd3e407272d87c281250b2, 0x31b80ef30eb0f639c33fd4e7d5b778d607ce624ab7c0bbcd9b2921b6dd0b164, 0x1bae6f23461f682a6389c607670ca2c975b768ba4922543dfe0c78dcde3ed854, 0xc15d34b4ef0d6dd324f1fa8ef058bf24b57419c1e49396aecc6b2945562780f, 0xc95d91f46eb587506c57bbc2ccf87a0fc5348ac0dad375eb409aa64cf92da96, 0x2d1da15ca522aa1868740b9e801a008ddb7884657ae89507fb99457326786ddb, 0x572ccd7fc6fe06be9bf2bfa8b4891a37e728805c609f1e282a0214480e62894],
    [0x2016ba766dc14ebeb269c939f988c0b0e5d7a16f2649e38877f2ff8a525a88a6, 0x1d570b5ff85730e9ad8c3261b6ae8574999221574fda8a97f19bad50dc2ec724, 0x143223d027cb22f42b20a25860333657c243a05e16f8a0fb07784a3f8b3f83b2, 0xf67ed530f31504bfe3b87325682a5e9b916d75caa7b5b3d5e222c7f86417dcf, 0x10138516469478294fef0508151ea8164f146c8e377e90637c4630d0b45de53c, 0x286dcbdb9c85e5d6c68066b69720b550f46158374b88e76ba48091661b591e19, 0x189017ad0ec6599655fa5f5c041b189d4a5055a83914e5eb1565209d44366f1d, 0x123bce9fd40c7f1962d00668560cc3192428bc2296c92fd13a42d75b41b441a4, 0x1f9aa5e25387985073ca220da7df2a6cef8b60a089e4afd93e14eeb3d5dcb5e6, 0x103f38ddb6e1a669aa42ea1c7b9ab05761f1804a15fe22f26bd34367654326a0, 0x12389e0109377aad426be4716375841c2fd4ab598b60b6b2b4e7a2ef8a48ae7a, 0x204ef0a4fe68dbf212371431265460d3ad63691245c56ccd4f6990b989537d9a, 0x1425c7e1f5f5a42708633437672f8ccff1c17bf74dbefa1e99cd040cd193fb91, 0x1d1b25d3cabff58428e2696ecea9975a9484302d17fa12cf33d8416b4fe1d299, 0x23908186767f07f13d0adad116284f2f179144750b0f1ffdce62eb4797ec20e6, 0xd754473d7c8757e822a89718cb7d7c5acd1125ca5e0d12718486552a3741974, 0x2d59de71c65b8678dd79d9ecd3915197d161b253913299238ef8d3d28cc12d67],
    [0x2b2f638dce6c5dc04bfcbfb40d6d547e52730cdfbca74f0c0bbe5fe25e0a6e44, 0x20831f33188daadf77c482c1f3aebbfccb9bc2755940684441276f800693c758, 0x1bdea03a87112ac5f71d27b0690eb578be20a7eab02ccf7be94a9b504306bfef, 0x7f190626c5ce403670abb23f739112ffb91dc234819180d83de234de743a31d, 0x21d03a8acc5002c7565dfd84fe3001d9d7025929c71749de25382bf9383c70ce, 0x37f8e1f9f310b909085ced938b600d4dd06a147d5183992d9792ac4458f7936, 0x2680cb420ea4ae49c2286e497ad3cbb55360875a2b69e17e1fd096ebac531c5, 0x13a3a06d1fb827ff1406192162eb23b3e27e94cfda6aa05a86ab5e325e5df358, 0x7060927b3c64111746648d6a8433ff8f373a4534841e5cbffe5bc41b9e688f0, 0x1d4143526045c6c418ca7edfbf9850fd260d231b52b2097fd22411041cbeef8e, 0x4f6db2530b719a376c6e7d489cd7fbc652e7d2d09064e3e9444978c9be197a3, 0x542efc3df5bcef699f0fa7be5c71cd32d253f20488bf70d734241e434dbf09d, 0x2769424bb96a6c21c64a506107d4885fe53603c09ffbb01860658330ab1b57fc, 0x123bcdb0cf6e7afb47b866827db72332e93c571506e073c498ad1a92befaeaf0, 0x15a1d25ab64db0353b33ad1009a867276097d5a60b4b18dd02bfe855a4952b21, 0xb9cb6fd7e6ffaec8246acd41e43e0712fd76d5cae56a94076cd816354db31be, 0x1f38c1ffe5470c8367677c8c65b3f83194cd9c7d2e8080a1c31513a2c23912c7],
    [0xf32237d2d6ed00b1ca954df37c30c988f89415eed829133f5a73634d05f0c60, 0x1905f76e825e1671f867fb5858f25e53a45f8f306a9a1b6dee7033647fc8ad15, 0x91c7d54e02067adc0794494efd0ad906e8c338a524c37f825f9003ac312d02c, 0x2dba5a21943598041f90860c8e92223d7511c74beb4648caaae4b8de3870f3f8, 0x293a350bc3c789dbf7c2e5a015480678a755ebcd68e1cb29e41d1d2942c579d4, 0x49d0199b6c0f2b3122d7d74b31aea8fcb701a24f40ba5fe698de631d22f6248, 0x2b9325291ca148c86eabc2eb32cae477dde830f028f548b5b5c6e143fb8ab68e, 0x96a6ee98c5686bf3d586a0e54961b0a3afd6d52da377122e85a355009f4a560, 0x13fcc77ccb4a091ea452a3f4a10fcaddbaa7ab18eb3f88508bd128ad2ea5a818, 0x9199f06156eda7c8103343b344bab11f43551bb9507bccd47a292af3d4fba68, 0x2fc417c576e3fa9b6b38a82e0328422c2d2dab90879e42fea73033a7562166b0, 0x27a81a0c9e5d0c98fcfe679afde0caedce2c5fd66742492e80dce95fcac79ff1, 0x467bf8d537dbe823d6a7d64ca2c7a2417a2d7758fc1a89ff93304fdeb4d079a, 0x71d82bca92aefe7636f10c9ce16f7e5b41314128ae5907e1884baa183442469, 0x1473e4434eee30b2e7db34daeefb0df47d1f5e939aca25394aa11a686ebcecb0, 0x2303403014edd8333b87d5cc4cb08ffa29ee752f6a367c5c9918f8e3b80acd49, 0x213f2f341749dcc702fbeb8eb916ae6575445cd9d4e5fd5bf047aba7ec25dc82],
    [0x64369bea4c676d37efe3a65dbd4316e0e1b6b51ac48bf9c01b52c15b24e8a19, 0x26189341509951e63ae3b022397098e5fa9353625280131b31dac3a1c1837967, 0x28c51ab463012d8ba9f0b7f8eec91ccd7691ef0570217892d57494c6faa6abd3, 0x2a3e5a660753c0f733827620cf3d2351e4f171133f749eae0cab25ac5aa4f0cb, 0xbf314d9d75e35486cf9f62f6539584d0f96fcfdfea1617b76a4640999f3d109, 0x2d96368456c5fe26d119a5742d014db9e86feb0e2315c2a37bfbf7e02ca01494, 0x1ed8f2f743e4af9edd62d9add634474d54113712e5e948f05b82d06e7b59913d, 0x8d5a047a23396ab6b1c02d108974b25ae135e4f0de6805627ca074f3c58a89, 0x47d8ab6c52350d654f86b8942f10d2c0021bfe9dffa1db254dcc5028aef7100, 0x1991c857b30f3ed8a58fe229da5c13fe07d75199998df10921068afed09a6a36, 0x22e4866b8af16ceb7fd45737ac352805b1c575456e1535a9e9d9f7a79e0a5b5, 0xa0840cc3720e659f311daccfe6348f287ce1dd473912c34979a48e69b06aa54, 0xe4ff910ee3920c587d0610db1fbe08bfdc2db5381926263b177698810dda57d, 0x155d27b044856920bbdb5667d361a536c3f8c5a5d8599e2a7955dffee77c266f, 0xcdc005d55f575c61a43d8a28fdbbef3eec35e56a438ab99680c4d1efae64e7b, 0x231e87ba98a67f86d501651f5b74bd53cfe26b9ee09c07a9d8371b6bf7c42be6, 0x6b4d87805bfb75f9c37a61e10e5579122d369327c344d516e2ce6c89398b379],
    [0x16e66d16d3f570ad5da3dc1ecb3e18b38eb8d8e05b2e8e7884491a2e1b2e562c, 0xc66a6340c9c20cf66de3d6eeb9d49e8a737c233343df8d847e5a718ed5118ab, 0x154a4b19575147b6672bb0a721ce40957fae3e336c82c7fca199ab30e7512274, 0x15e4b6a70cdabf2c4de98419da811d062ca8e9dfcbe39bc7542f66f7b60bf63f, 0x1161ad8fba20760a13bfd7b7ea1d38257edffa8c52be8f410087c916f504afbe, 0x27b83bc79d2ad4da4b5ef4982e91b81074985cf23311a658dbd0ed301e90fc5a, 0x1a4115730d7515e8ae8d0000e48f6cefcc893190566d94d39db15517f401d9dd, 0x1a9c2b3b97a4108828bd76bc41968d31402b4041aadc416d65c20996ee6ac6ae, 0x156aeb50e11c39af946c5312fb0e14db6e919490571e0ed6b555556c31f97d90, 0x14d25507db869e282d0759cdf16e81006faf9f10e663883030997ab894149e2a, 0x336977ba5510fb3b812bf39fa1946594a78a99c00101ef101727c2e8e7cd687, 0x7f8bb771e58e5761017a9562c6b285b93d6b709aeda186d96616197579f1b68, 0x154c478a2566294d2f96d834323009af0dbef15da62def8171c309a05ed1dd6a, 0x1b938bf306de7f48325de59877abcbfe2eea089eab0903802c7bf3fb9532627d, 0x1aa446890cf65be6ce7f7d603bd42e03b7fec0d201668f760dd609d31b587e20, 0x17eb7ee41c38747374a7b1f145787ac75b8d542d33494d65f0ed00ca4ed17edd, 0x1d1b95e9e4dcf3df901aafe1bda2cc8237032fd36ed508c61c8b4109f820bb61],
    [0x99d7df97cab5226cc7e3a35ceaa635c22ab0110e93a62516f0370a2967429f0, 0x161e53b2f10ee9aaf22596c621480e1de2090503fcc55a8295c23d45baf68f94, 0xb9bb53d660364ce1a5222bdcf2a80a161934e3e92de5057d668dcf49dea99f5, 0x1c8457a265c1756de7571b30290dcb48fa0beb2b7d1e44114262515854808326, 0x27f9c6fd0b90983010d60a37d80a58abb0f3500d6d16c9bb4d6a52ac91c4a491, 0x26880cfa04ecadedfda3a24a956734d4abc8ae2f92644369c8460df5f21647ab, 0x2f3b58e9bcbe37e95cdd9990aeb26482c55eb2a9409e28e56cae24dfceb8dde8, 0x1117104decc679a66af2e7588d971805b518ac219fac8078cd522ac8980c6980, 0x1c745418e4cdd80ea18a339ef590e58362b3823b1fed2d6a8ed942190771cfc, 0xcad8a954ec6676b42e43c86902432a1e17e2cf4af5a3274bc1be6726e1dbe3d, 0x1b30bb989db0337d04320fccdc7d66f0bb15b4377fce1a75b4278bfaa61d5f57, 0x19a557a172005f84242d40c56be7c37955cf74da223557b0eaddeb5b55c6181f, 0x2a1f883c5eadb6964d4847479f52c8250b4ccca0fdb292238b9375dcc218f4c7, 0x162a0e44db8faa02dbe1aa52b1680710a8dca6091387695cb22c1ff844928341, 0xed9944bfe48542efa10c9f20b7dd4c6b15584e126bf2c01c8e04568bc8ae21e, 0x1d53c076c105da67f5cfd822fcc9c291dfa2923c4c6d275ddb45d926c9711c2f, 0x72ba0a2cdae57b583ba1d72f09c745e50f4e16adedd6488cad8b793e3d2adce],
    [0x26e72dc609c2901873d40a7e739f70af722aa439a0fe417d7568c38e38f47ce1, 0x1f3cab65aab5d0cc6458519a14d2b0dfddf4c005a63303d1738f56d4c41602bd, 0x1dfb345ab565970e95c89ba297b6355deb2f2302b66179e1dc548983aae02d76, 0xb60e697535215bf10f1cb1208e0e699bd88598199c6d8d652e69b90ad80e6c0, 0x81593786e302650396b0a45ff8f62366310a1f53869d0557284481ac4bee258, 0x260276a46e6c624781f3a777a9b45b4835a751c6b016e584da35a3c309844351, 0x20120b4045167313784d0c2cb4ede07afe7fb0605518f6f50cec1b8a4b68ac73, 0x1fc1e2292678af8dc5dc1f2f1f573c3ac4e195c5a9857e40fae92309bc768a9, 0x14c0047ad00b7d736a8d817e561e582e901b4481e38316568b1be267e775b93b, 0x250b4e6ad1c7ef8ca6c251c27aff101d7be1fc25fbc484477cbbe4e90d456d2f, 0x11aefbc0c4a1db81e5b74581f81f7a83ce7bfeefceab74ab4b6ada0d8aca2acc, 0x100917e088672481c83ce9e3fcb3db32fb72a83332e5b27af55a48c73a6f9a89, 0x37b5eedbf4da97617f53b898370933367620388d38e16a0bda6a7759714bbcf, 0xaf98b1a856c51387767bc26146888b2806e66643b446fcc3f91859fb39cddb3, 0xfdd008bcac697e8113e71c1c0e4904f5259f60aa43ed448796c0ed948fbad4, 0x1781e1fcf5046e26f19bdaf3416ea604454e254feb0a493905f566b51510b596, 0xe80eef14d5ce06847a51b0e9e4541b3ab94cae7ca2a536da9a264c83918594c],
    [0x37dca03a6b5e150b50564128082e6980a67703fcb783e0e3e12033004fd76bb, 0x109c28dcb873b3272d40beb0a3fe8f4fdb1e7a2ec5a79b3c437c19dc4e561f67, 0x19493c0f5c372c7ad0c4f096bf4c206602ead23d19773f6766f135a71e017bea, 0x1b10be965cb7e46f154e3c08a36656c2e8954b5d507c949f7597b971c03de325, 0x2de26e700320ed4cc986550d9e4d6a1656115670f3411f5f503404445b4adb7f, 0x11d86ac71de74607859deaff3cf093f8076d28620a88621c09a7aab1209a91a6, 0x2c3c3cd13f231389681701241a54f58c9f6af1ebfd6cef4fa30e9fa2fa4e02a2, 0x78864be7a5f36c07fa9248e98181040fc5a911815984b8750f944bfa5365032, 0xfd7187cb6096ae0e12e4e276419a03edc0d3246203362d583cd064a6c79fff0, 0x15e626596829d802f0adbf2476e9566e1c36348b0225eeae7e38bd0e3eb2dda6, 0xd46ded5521d165c4fb07256a2f7f5e4819f6d88ade910b9ad3fa6c5d7dfab10, 0x795397bde46b5a97a23f72a8b926a329f3cd2bb6200506e7e832abb6453b8a7, 0x13008e1519be302934f4200329db951b700e322db1a87dd5798c2b9e1259e9a1, 0x1a3f403f644737a46615e047a42acadedfb3d84fccb73999cab627fb6050123e, 0xc921bc32a9fc9eac6065f5dc6346159ef9f6dced9649896b14edbf3aa8264f8, 0x78f97a37d55f50fbd63b87d595dc665fd206ed6c887509ada7f1af0d1e6493, 0x1bc6393214162a52026d07fe770e530763c725b7539d9b219cc574943977c6d6],
    [0x121898c012ec88514f155880c36c1755c158939089f8a895b565401de07bc60d, 0xf1bca466bb24ddcc60ce92b9aefe7bff427d1e57e56f654fbdcc362eb1e0d6b, 0xaf379ec4d8d65332218f5138dc128d41b1b35a33a5d0efc5dbb6c881444890d, 0x4f21086392ddbe22291af900709be87fe4e9d52b1dd659ec563bd848d42dd77, 0x35894f580c826c669d912a6966478ecfa19ab1bbe80e5a70c6a1867c02c8d95, 0x2ceb915d2e4787cdc8e948a4ea35ae04bb6a02c0720c51ecf9989a94b8979482, 0x633d77da5ed88f9c127c459a30d5f8cc0bd85377a63c4e7541ff735271e66f7, 0x22f713759545175f343d00265c3ad9156ae99a35f3045a03446fcd88ff33168f, 0x13e3034537e2b8207a22d1753474f2c4bbfb103f2473ec508348ddc50d60297a, 0x12236867a7bde21abd297a77018eeafe4b840df67f784d1b6981d7e91d70424b, 0x15ad10d6809344fd76a38b99f45fc3d10e98f0b4d1af4eedf461c43e92a6c0e6, 0x5e7352d95dc1c7a20313a53e66e69525902a17e1ed43859453142fc49529b84, 0x29f6e26d8d6141e1955d9fb3226a74ac71f393b16aafab41e3c787e71fbfe196, 0x1ca3c0b4056dbab797c54688838a074cff8de6bd6a75c7b6081f113b1fe37380, 0x141d31bd71dc6bc8c4ad59582f59b963c05623de46199438ba7edbe4be2a4660, 0x1063538fa44657399e12597ad0c9220fd608178de399e5a98fe8abf3ac410c83, 0xa1aef7064cc9aa31935dda57cdc4ee0f1104d4345bcf2e42ac48aca3fb9158d],
    [0x85280793128e1556cbbfb35c9aa97aa074c4a60d8169427dfda366e42686aac, 0x6a3c8dabb9a0040af5671cb1ddbf725b484c68360ef5116e9b7ec05fe0a6966, 0x9a5f6596e0891dcc5e27a3b98ccf537acc9a8bb74f8502209b436dc071bb4c9, 0x11620412943c57b902af3626ecff608f71e3f958c87cd0014a21f94c9ff355e9, 0x52144d7b94eae33de0d6cceb2e26c829b7f722ed2f9b6010606fc6f38b7cc63, 0x7ad1ca346d6f4cc17bfe58274c1b355659092c58295e4c0e78111a387aeab1e, 0x2963052dd36d3383f358c8024308dae2127213640c785f202a8d83251244d4be, 0x489690a5d56372b457632d77ccc8b80aa24874737e9a05de269e11618ed69fe, 0x1c01fff06b37a517d39ec7afda66ee768fd39ec5689b1ecdebf31299c376cc66, 0x6b30c158318d9b5c81edee80522afaf72e880fa327ccb07f8d87ddb66f15edf, 0x16d571fc71e5e4a9630373d12b85a412268322cd94707eee0d678d2b6266e9ec, 0x67dd981da6052087bbe44ed357898be8c108fb7ed6a13481a650901300cd584, 0x1144f33bf1bdba903eb0b43449b24687bd995f0dbbcb654e38aeb94a6d93a1b, 0x1614036785ba16cc3e158bf70c214fc0584e433fd14009d576a6787970ec0bfd, 0x257755228300963581662fa0e767f42d5bc6fd642f040372c53d3a1fee9692df, 0xde8628a2b51d70e30fffd251db4dc618df73081d01df1612182b2f3bc07ba1c, 0x2fb3c8b96fe17cc14327e848a61007ac7f0432d3b40f0802f764ce7c16866428],
    [0x1b68037617ea65f863d828f2bbe441228b9d76d9463d83d779e5eea0ddc92297, 0x2882c16547cb68f8806b77ad813ee36372353e9bd1c006fd1961020508774411, 0xbbf09ef8393989d28a68d1e0bf9b49b9335d0c3611136494e128e5f7b64d8b5, 0x2c70af6d36c07f4e4b654b3f8ad98b2c91af09b7bfb74079977aa87f99b1394, 0x3e7edebd18cc3ff82b835ad08bc4c3371b7d55286f7c48c747d930127f62b5a, 0x2d024df041954ba23441dd927b30a1ed1028e92d4c351643296742a974139b6f, 0x298c0d1fc2f36e8fff334256bc5cd7e9e43b892ca176292b3a64d76227cc49a9, 0x18e6416958898ec89885353630496c2c5f572ec50dc2d04ef17869798f9aefea, 0x2d53a27c2c07fb96058b88c9789fc3f8e1d361a412bf164b2aa0e66e700b3678, 0x55277041cb7a122b1618b05ffb93f723416ea8eeb6813085dd54a99db3eb13d, 0x2643e6d5ded06a3b540a3a17e76cbced06eace4c7f8e95e99db09a1cf674fb25, 0x4c7d00cd7767e1c0a83375a7b11d43bc2fc2d9ad3ff6366890a261c53c310b2, 0xf89d1e5310d06767b2f0b1266d56be653d83648878ea25d79c4ba05d7192e26, 0x2e6a9044a5f48fa9bb75ee3a7599da717dcc8996cec003d26de87e494ed4e97a, 0x2c99c1ff6a5a75729540c409b39faed9387759b5731f0401e86c9df9aad08cac, 0x13ead7267dc6cd6162931836b07745bf142ebf38fbb16c030a410055aaf41e6c, 0x17a87105c96c2026c777aa33a53292ee200cbb9f855d990949a36d55d576f7cd],
    [0x2ead3b6ddaf49661bd4bf3f6cd1f12127b8e26d7baf9366005861d08ababd4ce, 0x1947f8c0db2c58260479222a71b692e4eebf33cca2cff82f2ed62f90f51f17aa, 0x2bb8110d2109c6a1f2ec56bf72e05a161e94919bbb0d855d5bb351625a409e86, 0x17dd76cb0dba4956f8bfb5311a83222e60bf5df2e20316b336693d2871a745e, 0x1b6a1fda58c084a90932e269b8e56fb51cb7741de326280e035d9d89925a453c, 0x17d9551144697337ab2dc2942cb774bc424408dfc3fe1819b3bb30fcaf404b6a, 0x12ab68bb7ba2a36fa645f90fc7220d4f82e8384e231b09ce993938a349e0d5b5, 0xda8dffc7bf3ca3d2adcbd362035aec9296bc74ea67d1e94a2f6f7df6a0d9219, 0x1496cb3ec7cda51d85f776d8613b0430e974d7c3a7a6a843e66fa2531da27578, 0x2e81957d2f73aab44a59030affc945b26172fce09b4d4351ae53ecdac82dd99e, 0x2fbe8d6ba5027296b98f0277b27e287e4c59e9b1f84624e0097db390fa65c090, 0x2804d45c96d2d8422c8c1ddad8c1115d92aec2b16930cd70079bd44cf41fd98d, 0x2b7ba8b64a1cb2fe67745be523ff46a4c8c0408092faa2333c45d18348211415, 0xf506b1dbb1b5edf2b2d93bfbc297c117df212d6127cb29c6ee60a2f57b9e215, 0x2e9b52c7f050b2e79bd377d47bdc1d8246fadf3db799826364c4b7ee2133207e, 0x8151faf272100b459ea31b72c3abc2aa0ccd71adda2ec0196895c9b2f9a6c35, 0x77dd8a546141be08daca164600e35d10d4d4e9f536163d41c270c7afedb58e7],
    [0x3061e55590411e9f811476d6ee78bdafd88f4fc3d4be60b561eb79e0e17831e0, 0xf5000c26e73824a45300d0420e81d8cff3e8580387e9310d4f46908cde9a92f, 0x91d831cf15ead47511b93af75c8305b55610b3116d07a164feeb6aeeb21f7a3, 0x1d3a3e735d4999103059079b59588db5fa076b94ea8c70ac7ea6cdba7f7a9553, 0x1e89d2b3e30ec664ee929c38842721c074450a0cbb42a4a929654b3756d0bbba, 0x1c4bbd5f72f3ba7d1484e517da5c0af72236341b6a8e991fe9e02a19cb24bf71, 0x2a7c81f7813b82e3b263fc5739cab23c5eb35d84c7d82123f08625db7b4fb963, 0xd48e4062cf25ed607d179bc3d84e1f49d30e21f7838386ac3b203701ae9884, 0x17f43305942f3566265972ba5543d4a8845dac0c80e2cbcb56aab179d2854157, 0x8d87717d5eacf3e5bb3fb473776a5cc47d2ef805bda1e77059026c7c6629741, 0x19e6e275500bd0e80203aa20c0ff65f7985455cb0096088a5b9b8de314900a47, 0x96d0f3b6dfc5e9233dbaaacf69bc70a0aaaa1bf6c0e04e02dec3b5cf8889f86, 0xb9a564349bae4ffcdb0453cb7230aec5a15f18eccdf1910c10dd7ad3aefb08, 0x237d449c1548db8987917574ce540b1ccd24eefd90e28107866a175c7c16af00, 0x12ed08f7b9d12bc30456bf424f2c05c6bc912990de7318e2257d98a413e47deb, 0x29611601abe18d26f5c198268af5f329b25f42b8f07a65849fdbdf90038408e0, 0xe17287eeb77d085fe7a0b10fe16540368e4b1b457425bfca8638ed10f62b201],
    [0x29d15813db66650d5fb633cfe0fc56e242ac3d039d1de205b0a26178c46434e3, 0x7fe7f7be1fcb36aae15a33171e9d0d7f2e0e193e789e57bcb8f016e08116182, 0x1fa87be196f938da229ceac44ee343da8f2c3f956c8e50095d36b73123b7eb0d, 0x24ffdb52f4f443edfc06b8f31a9357253c6a157aa0ed35119437196c2308fd2d, 0x2d4bca77457123208fe4508ea4eb49c617032b6bc735fc5399b0c2fd6e0b6f77, 0x2311d7f0ce5763f04be120e804d7e894f789db9ebe2f85a62659a94a27d3bf7, 0x1b6bef8d51e9451f00d5faf09a78393ba83e58ed224a2e21c0039658bff79995, 0x908d6045d96d1113c4fc30336df3011bcc56ba66eca87ec8d2075a176a76bde, 0xd94f3ee8083301f8e3881008c66651c32f74324d41423ae0859ebc096f76b50, 0x1ea89e11b87e6fd00623489d6ddda9bf67efd74a703d3bdf58bc09f68a0112f, 0xd07457dc3eecfc6ee77c7adaaca1f5a369e096def369e66519a88701baab786, 0x260461a3f76bb066094d76406587ab6377217fed528222da29be2cc7b90f1d2d, 0x1a229e393e2d30c7978250bfef3165f267643eb3c22dd9f1cb1ade57ec1bdc1d, 0x14ae23496945484e158822450bee1d59df28a552afc9dbdce748e36553d21786, 0xa287200ab7d925a94553e693ad30d517961d7b5ba293d9d6ba67953438ba72, 0x178b818748633614e922de31583f27c417c365818953d40cd44f18042ee1d1d7, 0x84ae8aeef5fb792c36cd573a0b12f0dd0c91d6d4476779e1d99b2925a05432],
    [0x28a6aa60d570f0999b772d7c83cf5583c9b23dff39f63388dda40f6ea4adcef2, 0x1afe2a4839132b0cae494f76f6fbb09fc97a2dcffc3cf455f644dfa1e89e019d, 0x1f5d00c0c3a24bc115798720b1f9ba6b52feaa44522ad1fec2c1ac9cc2cfa9ad, 0x280c20325d10c5c9f9526576d6019dc0248f1058a0afd5da5a0cc65a6debce93, 0xaa34e03af3b028cb67d1f4dec7d789478a3cb73a27f01c75f84bd466ed9b32c, 0x2de51efeb36dd7f5bee9b67afe192ad7ef4abf63b4621247be883af708828074, 0x143cba615b06223f5562bd0a28a61a33cf8dda134c2b41954e1a566dd30bbf01, 0x14351a9d27d670b7aea2b999bb187d7ecb0529f9203aa036142e5277e6815f6e, 0x46922904294927e6b58028050139001843032f6967ad8a05a204425711e18ec, 0x2e056e1ce369ea903c473abf7988a24d82fe9fe0c87b7c9a605c656dacd3c5aa, 0x7245393912f85302ed7b5d3601fcbbfbaa6f35920145ef0c59ce88c1a6a9219, 0x2309fe6c306ef736f61dcaf65bf6d9b39d10d2e9fcf68ede37d511fa4bbdee11, 0x170e4332da217cb3562e25f5e200a19cf36f84c986296e71de1fb26125b6e78a, 0x1e3eacbc11e9c8190274d70bbd5dd0ac64a374595cb77dc08e33ee5e0d82c609, 0x998326b8f93e6da7a460baf6cbfd1d29db3773070becab001c5b4af76cc24e9, 0x257d940ed0cd76647e2d3f62a38919b3c62326a494ac9e039f82a22ef1e68891, 0xf4335d10bfc05a979f038de90daf70272bbdc2426e4988646650e164c5627b1],
    [0x1de2a72ae9d2a5632c3e6239e61de783b7b84c8bfbe97df965c739dca7609284, 0x12f44b0e8c694e7bbd5699e4fd0ca734a8c9cc3f59ba2eab4a329cf5cb229289, 0xfe2692674fac2fe017fee7d922928dcbd3158ea209d7948a3d769a709d90d45, 0x1075abb0e5a208cee18841131ab4c87305f1441aafcb808cfff68477cc4fb2c4, 0x1a64cf8c020e712b334dc8164f247def9098553dcad7a440c349fe902439e93c, 0x296a51a4ab990c5934922b9f553e053293caf46316e058bc79ad13a37f7c82d3, 0x138ef5ca84980e11dc9b54ce02bd516621b65ea78ae0974c1db9a6720c00223c, 0x28a75cdad539dc300a2e9518bbfb47cfecce5da01cf1e90210782605181300b8, 0x26d2b92339d8d44b3687709aba95c380438360fdf88bfc7a011382bd2a7859e1, 0x1df11fbcb77f0ede506504bfb4088e3279a79fe6b84c3a51af512a5fa9e2ae36, 0x1c2478fa762abc607fb0a162a2473b9e4c983859e0ccf51dabde5fa7c8d67789, 0x2ddfe02cdeb5759332eae4e2b5edd5381205515653b7a766967b829cab80e18f, 0x67f9d082c4ae52e53eb02ac1080d31a93537ea24d74a510c89b7da79bc3158e, 0x10f56349169a98c01f7e8da62e515e55aebd4d44c4503783012f588a37c7280, 0x2b035879b1c570495436d250a2a45bd85510b8a6b951629a4a5bfefaa7117fc, 0x1059e4e3320b8c2d66a6b6b1511fa09e619c4b274201ee8741be77fc5b39a6b3, 0x7994b9136814469cb0a286067f632b349b5ae24dae78b056ce45d722752eb90],
    [0x269e470e88cbd936f4c35ec5f0042b9d6fc138f3dca5de3a83a99321c8c1e4a7, 0x129f3f097b2aa5746ffc84ae17aff9a892a6bc4bc965ab4bd1c65addefc160e0, 0x19f39b427cf94a65aa7bf76a405b43c0d0b4a824c8e60ddd645d66f0a91ebbc9, 0x1cb82f7ce4871b4ab04f77469d0100857e98d6d950dbe8ef64e35681cf888c32, 0x2fcea06bb3c4f9c9158418921b8c4ab1380d155a139894648aecee891241413b, 0xc88d2ed1d6ffc58445502752247df534c2577b18fc83f8419fea33727e56f6e, 0xa1da581a39db4e8dbe4f5f686327e7cafbce078ca7cdfe29ca5d3ae74ab1d26, 0xd56f11d19300b214a6309769c23816d9109b415fe6b1fbb17de6fad7d7e12cb, 0x2e5745bd8e65df2e8c490465d8e9357e9afaf55aa182b8a46a4d8b47ca3e6be2, 0x1da803c3d0860644231a958b17d2c22ea4ada1347c5748f8ab68a402e77fe8ea, 0x146a6d1fc8428ca679fbe8c69616ff6798f59a827d47dafc15af34fe5182f08d, 0x12ea0731eff3e53c881aacc0ea77c163e30001ce74a0f5773779059f96360fb0, 0x21c455910996187ec677c08373e20c41a30a2d4c06ceaf21b91f0b14a13c9046, 0x189890c68e60d975ac6e44d343b29cda1dcba09e0a67e61e2cec8b2fb9f6d8c8, 0x2112df96cbf5b91e4f19269e8fc74f24ff3663ed5632a26c9c3b7252b502cfdb, 0x5c4b82abfb0c152923d56f0fff0411a3b5d11bf00539445ff183d6b3170fbcd, 0x27d88fe28f12c51e94af9b2b3f14099afce73a3736a9fe1cc89b11fd4b84447a],
    [0x17450b33b035a97eb613d289ecf775f4003044d861eb41963a5d78304ebbd905, 0xee988a9ebc8e608d631fe4324fd78fa77e00e402f5b4b0474723ee47ddc26fe, 0x14a89566dc2f0ff0b64dfaf5d8703dc9f74a0f9ee395961832c194e3257e0edf, 0xce667d93177e3dac9901ec3238fb0f403b7deb370bc069513428be70013464c, 0x16aac40ca45f818abfef9c158704a979b32a208b1557647c606de868582184c, 0x745f2cebe4c7eb3a170b3aab5825d5c2bcba8c04d66de1007f587b2a1e535b5, 0x3061f188eb54dc71a19c698f1931ee261ec69297f79c420805ae0751496703d9, 0x1b71a417d12ce73a3b7a7025a14f8fb51a90fdec9af9b1dcd8067f5830fc17fe, 0x2abaad97be28bbf4339b5a4be2e24b57e8d9cc14775f5b717ae8cb227c8c581f, 0x15797c5a072cb00cdaa3a97cea969bcd53fb2984c23b7adb237b6065c650dc73, 0x29df7edacb34a24b1c52d8142c5338b98dc340c0cf27bcda968891e63b8a7a6b, 0x24023ac420b27f83814bd182a843f6ebe5739bb1b9c686f59ce8a1a9478d7044, 0xbab405ed11caa543f9cd6d8863a65dd800dd08e8c9499e5d6a58474800339f5, 0x1270d139a0dd8a66bd9d360a9e0111cc440b39ad7b3ab4694b3ce507ba64a922, 0x4d722503a7341a690f338977b80ad66d0710aa65c6f27bd49823d7c12c7f8f0, 0x7a08300cf55c60191eb9e9eb63b40497980883796856aceb6147e390df57143, 0x1436ea3a03399a958710d4a76fa9140b32d5180d16dd837da335df7fbe18dc42],
    [0x3e5972a9ee5473d2bee70683a4054098d41faf8a44c03ea9d09cca460b186af, 0x212989d49540fc0bc6b1a2d150e3bd76a621ba2cdb4475ab1b72b0b6391d88a3, 0xeb7f400b0e9a2a4635510a5379b4a03df8d56c54334fc8c713db96bfb3a5d99, 0x2338c348fd956af6e191909a22a99009acc53bfd8180926f591ca7f78f8f986a, 0x26afcc776011c8bec5e32f56f149a511d064df09cdb28f0965b701558e63838, 0x21da486ba0aa4577041578b2716221f15b5bb054ef276cd9a4383e646a3a23fc, 0x4accdbb6ca5032fa7396c256fdd8f52bf7412d11f318c2f8293aa1c9832b849, 0x2de8a8d4960c10ee9dfe8ab018fea3c87553992f59bcbae36cd42af4b455bc5b, 0x215ae1f57e2421bb33c2b4c2e854084cea0b12bcf61a53963057a9eaafa19a7f, 0x1a81df3c791bb08768948ae63fdbba1bd42efcb009ffb07aad880b31bb8aa68a, 0x141983471c97c0debdcd4f0f085145364900fba8429e1e5583a4e561ddad5bc9, 0x176cb7a66c586ec1f480ceeedf332cd6cd5508d4b55a1a3286289a178864c1d, 0x3a27a1378e601187b81dfdd76e3ff8190d170d1ccd7f7cf333cb61f5e6a6afb, 0x17e1d8919b6ada78c9d1823afe824714fd0948406311b21a2b94d3a0d1c08a9d, 0x161d6423df64e1ab1e9db604809d3ac5fec7676d57d42ef3138d3f0d22116fa2, 0x2a5a183c02ec47c022b2f65642a493730eb86d977e599c0d57b1d57e21cbabb6, 0x2734cc336702645a5769e176b62627b0ad899e8d3ef24e84357214dea0675e1a],
    [0x19a0bc5a4ed65b51890c60994626f86d7cad3719879e00fd17b4db6f2ef09aab, 0x1db6087ea9f42685265847de13ddf18dc446b158f84bfa20a527d62ec9841398, 0x1d544bdf3c2f10b4aeeeb8543af54309705f7a275f093edc7690197ba3a5cba1, 0x2b1a876127921b75dbf4d7da75a6bedb7414bc5d55c998dbee49f47ce200f3b8, 0x276ab335062e36197fe442444f9d9450cb76e171c00c3ebfb7617bf0afbaeea8, 0x2fed58d5920b05bc742cb65a1d7e50dd8e6a1baedc27b6de3ad6a4fbbc259b5, 0x1f600a529dfad6ff62ef171974ad70e76f3733f0c98e0eb1b10c95f13676095a, 0x2ba35eaec2c38f4faaace52bbcc068d30b21149a6088d0467952542e9dd831db, 0x16630e42aaabc020163e87c1bf7463c1007dfdce3e1ce9c5c28fe64c1b7df093, 0x1585e3c692b27e7e342bfbb4bd4218e7ed01efe13c95daaaca62d2f5455f6506, 0x18d7cf9c098f734da2a04f93a309f774820e141f9aa92e8cfca42d8e22c61d9f, 0x646a732a7d52e8abc0441ec9b04d2af6ff7eaa085a22c0cfd82ad0243b6e64d, 0x4ffa957845e1e01f2916f2243815f8e5e3c76361f3680e259218c0d28f39f14, 0x23d3c890fd6525b7814fd3c325dee2ffa11f67e14cb8bf3de22b29058276d1d0, 0x2000315723a56cbd67692146cf429cee40952ebc607b3100f21354be0605c2df, 0xf092bdb3995305ebfe727512ebeec1ea48d29acc977cfd1169588326f50f999, 0x1b8059e616227b9a836099e9ee37329fb5a2417e3b5bafed731daaee12b9b1a6],
    [0x1d8e60b25f1fb1d0b97da0f17e094258aeaa40b142c97a863b245f787c75dae3, 0x1cd738d6519d3e822a6767a7dbfd23428e361e3725a95bf62d30723a414ed1dc, 0x232c85d492596d3243cd72089c50f3a691fd79fbd60b6cbbace1661a26c7a5e9, 0xde60bdb58a4e7c7efbd95b55017d3201b746e78a9a6f4bebeb51c1d6ee4e64a, 0x2fc101a02306054035ef59b60e1e3efab2c3f65027f93da20756e8abef12057, 0x3f53ebacdef572b73bea99550064782d2919436a0f2b5d9223b2da974e3ca09, 0xe27834cc8fbea3881ce43d9896e6079b8e8c9db4d77192daab89add326aeec8, 0x24d40616c713b9099f7c8f3aabbc731ef52e0e96693a746a387d8ce676d6f70e, 0x149d27d0cb014e5ce9c41a78a76a8ff7a37501def603b56bf0397edd176e0c68, 0xbcc978ef69a805173a7bf1d1d56518813032502e4a1d772ad91a9a6a7e700c, 0x6964a0afbabc86a2f491e86270ead44f49f98622b88f4c44ff86830fcce1640, 0x19342122713b66231b0a7cba1993c5d904d4279e978735fa07ce6832da4d6e61, 0x26f535c20424267a91005fd224230a4aeebd3ac079a58a78a63520d58716f71e, 0x2bc43e9309052167648814454cbd77956f73aa69b201c94fb517845a8c7198b6, 0xd9922a3643b4c9e175b57df597f10b70a46e9eda419564c33675b6afb7febf1, 0x11b438fb1df0a4557fe6b1405b6720ad4a1537fe1b42f884b841007f55c61aff, 0x1495deafa1bd1f27b7541138eae20773ba01d0d9ec10b771707955e78fdaea33],
    [0x26a73d4a105a86611a01bd22d90e0eb52dd0340ba7476f771190cfe587ab7d93, 0x16ddabce6e6ddd32a9f8a3a674851ed8976e0f53c1f7f6c6f5a28ccb00d97317, 0x581eba655a038de496c785d31d65a919404bc25f0922a774bc399a67fe122f7, 0x65762a6974eb7ced80ff42b534bc545ed6cde0843d2583ee7022b9ce40fe6f9, 0x17bff1a70e36b684a2ed9dbd95530cbe9b38b87d76eaeb63359ffd250b78c5e2, 0x18e68289ed3521949172f06e8a59dd9b074dc3c9dbc8203d8fcf3818c70a1a9d, 0x2a8d8ee03d5f03a69c0b0d2b1f35792747b3429f00b6e011f4a141345e5724b, 0x300243abed4b18e061fb1110abac6328ff55dc53162388f9dbc753749946b8f, 0xf2ace21877125cf2e78abe96afb79fdb5d572a369f1da4f2dd7b5776f6652af, 0x26b7e92b9f4f8776b2b9af31ed850fc81dff18f70b165c8447275f6ea5c1ba87, 0x1878b3a4fae1d39825386fae5f199a1b3b5f8f50455ab5002517cbd2eb7b5fa7, 0x62d0d89e967bb6fa4c987c0a83f65bcc795c0ea977b6dd63d625e06ffb0a55, 0xa03b278b25ae2e7d31b31082a0d0cc57c8e7a432f24ce9fdbccd93475f3d135, 0x100da120ec2ae772921c7c04b83ed8ee7682d2077cf47740086c980e04e38f6b, 0x2342223b205a2b0279d9e5f0ce7f0f9bcd772839a34c52c57d0750be1e51385f, 0x2df7f4397bfc42dcac58480f57316877f9aa21ba908f70153dfa19b7e52f36ee, 0x23622584c86a8ab59fbaf2569481d964d1e15f8073bafa8c6e92fc2c0b187fb6],
    [0x6bf808cce651f581a1ab25261d66b74f604b70480af6054cc45f81da3290ac4, 0xf53c972702cdee0f9fca0a70505cbaaf6c9605909dde03cfe4c337331fdfd72, 0x2988b1a79f8d22697c0d51b537a9b308f979792b1ca47cc408b8bd8ba6f6790e, 0xc41be010c41896092f74093791d90c85c0404f92861f74ba1776de6da0f3e83, 0x2f88c192a822a2a0b2f12cb349e15ea2b3f3b1c83ea2bf5461abb010f80bf3ef, 0x3a443a4b0709ebd40891c593ed528cb9e9f65eecc40af1f231574b7c9738189, 0x28f8211ec19a4dc191f757371edfb788696efc2b0b592d65d8097f38e723f131, 0xabbaa7ef23a5d98710e42a669bfa42305adfc1f8e49e05bb3abdc96c8ca73ec, 0x1f04fb54a09ee2df286b6c5e089560b8fa61e062bc90fb7298d5213491211ab0, 0x679c1bbbfd7f4d0f2c2c18d82948d060f3563f28a1a632c99f2c64a461e8267, 0x2b44d70ebe9679bf7681b2e1a3249e29b5d800109367a7a48ffff53e969a13d4, 0x23f3f9e009138f0998b53f841093307a41ac380348ef662e348de2827ca499e3, 0x24811a70ceba527ea6c7faf5762f5813591c865170d2879a08bcad496b23201c, 0x1aa535811fbb13fe315f411cee03e20a4a3c48ec6dafa75fed0e12352c34bbb, 0xae3df3e4e59c999b16606ff38902c761634e2b49d63ea716929a61e8b57306b, 0xec1accaab8a76e43c4984f380d2fd4a1f8bbbf49a16b889467f7424cb06945e, 0x1b16efc5729c815659bcb1becfd1e1948656ffadff07978d138b54349f97b76f],
    [0x11fb1514ae1b038db9750815dab5d7ee929cfb80674acc541bd0679b11ff075d, 0x3e8a08bcf09eec1dc2ead9784a919810cec64993eb40cd49399c2ea31ef27fd, 0x232dc0617b6035c98f66ffc4a8945d1f878df5e3258e9b542178d6ba1b684e42, 0x12b2c5d51a142d7f8a0540228e2ff3cec778e91e4ff701deea235ec7142047f2, 0x9d6f2228acdb9d4a06577ac9f8f76f2c858ff531b957f89b822a8d28df70f0b, 0x26e61018fe4b3ef6d966954c74c63e1e1587784e276ec198232b65e3d1f3b6d1, 0xbee9635b9ac510099b9c82dd622205c67f1361972265939c0c197f7c48a0e80, 0x2efc7456782b90263f57853eb2807e67a88cf15f2cc756b7f4a9570bcc38e379, 0x283fb2e8d6b18ec3f4115d0431753eb6facfe99f099ec679abd856917dc22f8e, 0x2889b870ee98688faee8863a5484afcb67874b33a9f0c1794b46a9263e181ab4, 0x5d7bdbf3df0f01fbaf9c1fbd87f0d8dc354875e451678476aea4b0ee0c016bc, 0x1b23124a367801d93b8fbfd222eb27d149ae2ee98c6b9dc30bb29ce3b501f7a7, 0x13f573baaed32aa63ef2ee51c9d25a996cc9cdb333bfbdd2b95e2a3a323b9f4d, 0xfd86c6312ae538c580c6fbe67e07539643967f075c81cfc504d4a0b51d4d52, 0x11d07e190748d15d00447b4c653b055887677d1d0cb899a4a7090ea07aa0b393, 0x1b8fbeb3c715077b0a094d76e35702ffebc4740fecca3faee9608d460c1cdeaf, 0x297423e21180784527bd90be63d021fbe8c4bdb8b204398ee1de6f3d41fcc39],
    [0x69fad4b2eaf9a9fd4891be5f4f128ef4cc11e4597cac7c55e3b2beded8c05a4, 0x1b351f30e204c212a5ea86b7de299b1df744d07c8ff7f7f4944514985160c49d, 0x3c814bb706f73f933bb03d3bff83fb5b793d838c2de00089d5d582183c954a0, 0x263c1482af92672f28e64ca3d4dc5374862e2e60b02c9e2fa95deca9d95b9fc8, 0x20d53632d8bd5242d9dc9ad8fabc48c6c60c6f71a235807b1b3bd0d42e187c02, 0x1312833846d4d021e6b854478da8d9d63f1e1fe36a08c6a95952ee4d1b82457e, 0x23abe598cbc971ff0b6625e441018e1ff84ea07ec5a37db3ad7ff2e18d1efdf4, 0x189b134a1aa72c806ba90d70580ee758d968c1a0acbc1d5fd3aa9881e742b784, 0x21739396f8193d4ec0154cbb302d7226e7563b803d9b6639a7ca065729d87a6d, 0xd17bda5b0f2b08f2ca4760fbc8fec19c961c0eb8219565a2017c19b8feaddcf, 0x2294fd20b62a1854819540e5560302b45403148db6e9890bde0b0a883fe1909b, 0x2bcaa1216d5737475c013dbc3d8c54e36be0196dc71ea0981b01609369d204bc, 0xffc62d59cb8ef71f03d5b7cffbdf3f1e8a8b3906c8fd25b9ba85b756f774e52, 0x282b2996448809068c25fb3430dbb5bdb038e9c3810d554d7ab3ca1fb25b08e5, 0x231b7767a4cbb0088fcf156fff8c71cbdf02b27e31dfbcf7597af49fcc99d610, 0xd52e9703d4fd0b424639d4b8173bc8ee730bc3db3c959dc1f1e36737babe865, 0xe8d1205f76890e94beb4460955ae97b5bf295671cb1d09c581b80d0c9729755],
    [0x9b5e2bc828abefa93a501bf75c0a67686fd8a0cf106fdcfad65a8f20ba8b363, 0x8ee620bb73422c6b3c9506a973ed0f754f9d8106148fd626cd5a04d4386800e, 0x14deb68983af2bdb376b873303e07f4672d77798f8fa8a481a22c223eb357d19, 0xdedb230d955cb9b02ba8a586010044e4c6eca8373192b5fffd1252927ce09b1, 0x16a6e90080ea1aa4e0d192aa13f701a781142373c0d9a985a4ca5a70e6ca20fa, 0x17cfe46ed6441eee1e9acfbfcf669efb386f270d142429b3d1c6a8f3d984cf93, 0x9d43cbd543486b31694bb1f856d876cf3f135b86aa0e2f45889966912280f31, 0x181457642e691657d5b2414b7a81beb58432ab1c9abb588c7e1b2da1f1e8aa96, 0x140504614839fd16f90f1a5a2a49f19c8b2e0a3a0ac67d1fa2a31ced43f3a27b, 0x120487061ca7d1fa340f11b2d6c7115eafb971569529424171bb1d3f10fb2afd, 0x1678ea1c9a9f63f1ff0d1eb65ff7c7d5c704b2a0dac3b15505fb45224ccce387, 0x298964c2828d52a1764b41b5fb460752ae1b8ab108fbc070bd1be15bb6faed73, 0xce97b6f2777c3a5eb86fec6a0ea65a823cb9bee65253157a0b9733ac6a44c01, 0x28e819231b5541e7b5243cff6f044b62e6ec5fb8adedd2b6abf879add5f8fd2, 0x1d04a29170773073c3680a0d73ba0759e80630bbb2798f4a6e77c003a145b6d7, 0x2ac32e5d907bc921779525bcb9ad4ae1a8c782ff0abeeded32787eb25275adda, 0x1f7600e736df837404f0c327205cfb931cea48bb1472ca0b45a974b6b5998b95],
    [0x2921dca5c0dc3bd317e0ca1557e2e72c6dfc4856fff4d705f78a7e1f55f5a3e9, 0x14f80bfc521f50b8d79457a4c2e9d7553f3f33c37649ee18a43a480ab2cd5bbf, 0x2dae059ac17079b15f6b6d0de647a6ce9af9cc9b5df5659f169be826e0ae745a, 0x27ad1fc6da5465b8b9013f0cce96db4af1dd0d18e2799b73cc5416365084a6d9, 0x13eab23fd02de014e3055b4ab42881509c6b625e04488e8ee938557c6688261f, 0x18cfb5ec775eb1683db7a7327945df44502e441a0082bbf760825fdc05054dc3, 0x26cbbfbc719cf0657d98a6fca78d2572adb2301938a1ec19bf734178c2208656, 0xccfe2f976ce2ba408e431ca319e95bfbeed592741e0bb33da63a03fc8402d3f, 0x17387cd668214f736af582dcbf86c00a80dcb77250be031c2e02071391d537d5, 0x2d9acf8eaa6d15e6da7ffab14e16353cf737f7e5585ef9e2e43acac6cc879742, 0x393a4c1ee837afaeb10114ced12f96bb9084dd4a4c2750d700e876b6caefbf9, 0xf0407a7118b6910dd909e894966b42440d616da403e0a07b3f86f4ba8011df8, 0x2f7735765e2789fd4d05c78350c35c6b84a69a74c7f69e0afa99342f1c6cdc39, 0xdba9178d2ef6af1e01cdc2de7e85578418c26adbf376d063cb6b5b1181f41b4, 0x2144ffd569395c83073f882ecfca0d8c9428b32c9469db7760d3778649fe275d, 0x2984137c5e2012d8bd79b1d59087915b997a8aaf568df355bcf531f4014377a5, 0x934f3b2191291cf3e631822087c19f835a28cc49b98742783224ce6cee8588f],
    [0xe0ba5918aa4cbc38c47648a5b28d83c7ac2ff68a4127ece98836b5429ac3078, 0x49a3734a8e2a2ff2fa0a01e5a6c3ccfe37d09fed6c8f5dba7ef4c46b5d33b9c, 0x29fff8192128faebc6fa8432c1562bc01b7289b3fb5285e29d12a3556cc0ac49, 0x2201820de3cfa4aa21637bc742afaa39c3611951330598e61ad3dcd8190818e1, 0x94821527657e717dc177127a1b10531a2a9d18f9141a12e8c9f02d1f7ec1a1e, 0x10b58daa36c56ef2f2a4dde18698e272112fcc01e68769868e9ef1b5edbb4fc6, 0x29dad68ce58824ba5d89b7b3e7ec1fdd95c253a6b6ab2b6c418d53a57e3ee8f5, 0x1ef75d0df2fe249e6fcec6cf55699bbd616bbb1dbdb384d6aa21f5c6b5793a6f, 0x1754914267b0b09a948685fd7d60692da6c6bc990d3bd86c05d1409132920a37, 0xf593c997ae0a9426b4fe3054b60635374a049bc55af8d13735a0a903919a66e, 0xaa91854cab67a7a1e2982a8e515845a71913530ff5aee98c91eebf79e361825, 0x12f2e653a73a9077367b6abde35ea68cba141062ade7d3583b05da2c8f0baad8, 0x1692c37f96667fa62c619fe1a0e79abdf86d9bdd7241728228db6009ffdbf437, 0x4e833620b139d50e033dfed3b39394574f631371e31c2bb0e9c44ab8a168490, 0x14f13dfd3e5881a820ece1fe4844628b14daab9c0fbefe88acd1895c43576619, 0x458b78330d7902b4e84f70c250bfa081c92ba1de2962e19cab628b18608d3d9, 0x2c52077e5bada6cef5397019391717264140b8a99b7d2fde520ec89d31192312],
    [0x1de2f57c28133226450019531ae86d160a0e72809f01593c1771e4ecca7a23c, 0xa761fcd234c2bbd661bcd788f5b14a5ee4255190b81fd3153c003d68a3199a7, 0xebc974e17f713f3ea0d8b12e463fd5af0450149066d6e72322d8d0e1e1b6831, 0x1b96e0241b7221a93125215256ab608135b2214e2f04c127a3e451d7f8f7787e, 0x1df3623a81acd17b0eb45cee6638d1dd1e84966e38cdead88ca5f9f9096fbccf, 0x208f1193b74f48f50021d1c0cd977dbc6a55e2f68ef0ef0000cd21a38ce5bf08, 0x246352bb36eb512ff4f36fd8df72042f69cf67f1744521898a117b6efaec7895, 0x30e94ff4018a5a9725300f274a619de490177d1404dad9a8299ef29e0b04f1a, 0x1f52354035e44ac050ee86ca631c0e45eb5f75b44d6e7f01b0805e28066accca, 0x2659250e4f2ecc3d3cc5a1c74355aa01f2b4c3aeac607f7df372c15b85ecbe3e, 0x1be2311b78b5c1246fad8a8c346e83e6c0822df59557588b5511b4e821e2bf2c, 0x509b5de4dff732da434372972b466d1154d194e10915b4347dfd0665a72bf9f, 0x3247680850a5862c08fbcb0fef6c739df1e88043c3a5e73531f682f93f8e975, 0x2d110540eff687a945010e040dc40497a3d1360b99073babd6911541d30be5f3, 0x7ba21b3ad4f133f69627b211c12f3244d1ab553ae6d6a1daa888d0040b07779, 0x20077db65156a8dfb7c3160a81d62e119b2a861118be3dd509cdcceffda88d10, 0x1cfea2b8984b62b28fbd6b8dbe134240e2bc10d6bbbd3c2f73a3088710b09973],
    [0x1549ba97fc538867506f349929a7d1b86213886e8d2abfb60fce0368798fd294, 0x246252ab7cf345e982717225f954e74e7303ce0c9b1b24b1dc06fe10fdcee4a2, 0x2b750d77da95774f2bee129b314d1c3dd5e302b666c2bea46cf886585d5ab6db, 0x236fd4947774395d7f9423527c5ba34cabd6f7a9501ccd33353234922e896e16, 0x18a4917affbb7751667f7629ec085af1a902e9b5471a02c89e05678d620bb0d0, 0x2ccfb77f9dd97d7e6a8ba9ede42364214c52a02c8a0a420ccd0768dfca171a1, 0x18db49b4f99f685906f772938980682572837a1370f023d0fa379fcf1c1ec854, 0x2040dc09e877cba004d4061b3701c6a92b03fca41c1dc6ebff525c76a1f9f7eb, 0xbec5c4494c0b5ddbbdbcbc6fa88f438305525b4c08af59860055c1f8b73ecd9, 0x2879eec47e729739d1f79e83f7a71e631eccec2c83b43dadd6ee56841f83a1f3, 0x1a50c3a018059042e5ce95a789914e5c2800b4f4efe17336c5b2a216410018d, 0x1950b98c22b8f3cc855c167c7d9bbdfd4ea37aac98b12b1fb017257c3e7f293f, 0x13b7710d9218c0b169ee4a1276715274ce9a6468730d2de7731349ad1ae9df7c, 0x1ef80d90805ed282fa4f5e12843ed4abc8f22f5b59f04ee13349209a8bb581ee, 0x13abc482d41ef22b6e3d0db9276b75599044438af8940b5c8d58e7dfe80c44c5, 0x267d61670e53dd034e795bb20c20912163a58248709d5aba8a95c0dfaf50b02c, 0x24441cd1cd8145e42b471f82e4f7f9c28d45ac2c55e4e60d3e66d74e8b56391a],
    [0x355fe883f75c1a4353c1c0daceef2d3a71a9a74c62053199e431b8fa81cb8d2, 0x551b53fc92ae63c2b2ecbdf40ce937a2095fce0647482e64a0fdf515cf42ea8, 0x28b6aaa4aee256071d9988bff1bcc284ed68a7614622392e53465a6ea91258bc, 0x2df31d847dbffcb0444258e69876ed3b7463a49454be6ab6250a8446c6a01703, 0x1bd22453d36950ff1ba1b49bcc43f9c9d4ba388b780c43f4ad3216b9da8da126, 0x213abe279cb897fa749b6e98180a1c8225558acd88667bdfa14070baa65dc812, 0x4853a8eae790c34e5751893e34ba932024d9c549c7a7751d536be9cc9af6b94, 0x15242fbe31477d9de0c431d25d0c8e35d489dcd4c99fddf72c4f0ad4c492dd4f, 0x12f6323f31e14576328957a9f393451ddc868aa57692ca327bc5a169e93aba39, 0x1dda2035b7580e63bab28535dc392f24085d59d0bbfbb54991ba3ee9563a1899, 0x13251bb73a28dae6bd498501db9e6c58c4f9d458e8695596669b2ce90007629f, 0x231ecedd2828136a0f76ddcddc58f9cb3a77ca05c4c0fb95ddb696040391328, 0x2002a71a926fce26a1e77ee49f68846c371b74ca7addd66da7ec5286bb7c54ab, 0x2cab6f0f98bf107f345e22dbef16b15ead94407098a933ad0591b3c4500238a5, 0x401a74a17b514f0532e1b9b4aa4421addfec7269f934875b34d4f73cf9e876c, 0x27c78bfa3d246da84fcc765ca8b00ecdf6baca2c967796a8e8c8e1c501bf5b43, 0x18ed98acd2c8f140ad3d56627d9f0e8b41e84e30dd1c165e4043c1c43e32f663],
    [0x188d51f7de70e218853c44a40e505b38f45caca8c92d5090d474f2d01530db18, 0x1930b89b3303134f1f900880fd7c39c7ba00a96a972fc4f43b17e19e3f1f3d4a, 0x1fcc8426a4936736199ee6829c5f3bd947cf62dd0a92e7ad4af4cbafb490b0a8, 0x2d3847971e336844d626b6c39ed253d6994002bd07ec946b521e06e9993a2d48, 0x24217d683b98c9d630a704c3bc4550cbf70ea14dd4dd770aba45b41ff3ac0301, 0x28aef269e0a3dee65a1df434d1b2ad4dcaf8e840b1a1d067b353a2986d94d35a, 0x238b3d227a012ae13dfcb6f0b06511b9a1d7dddf0093299f0400a887a90e070e, 0x197d7a63493f21eb3e99111944cc130269461f7bd88d302f8b357bb7d686817d, 0x1bdcac988edb00a3505567ded6f9440a542df09e20aeb013c43972bbfb3ca7b6, 0x1169171163bdcc2c0c8bd9e56b1fca66e44bf61f9243343cdb1e131cc034b0b5, 0xab66abcb7869437b24facecee1c89b18ff8d2d024046bf978b844a1a5dd123b, 0x20b9a555a8b39f0cfbc6031a7ccde6c1185abcd06e3f6fa2c6685038b874dab2, 0x32e07028d1fef76b7ccb9dc54ff4f41da1031ffa8952c64a5437983e838cce8, 0x1573694373095bc3106e92b6b627ae4c7d0ff8e499cb2ea426d044eed818cf08, 0x1a602dfd352e43ecb2f69fcbd568b60a140ab52fa9f65b53af13123d511cb04, 0x1e2bf4fa574ea907efeb285f6766b4a17db35bcb6186c84a04602d438a6e3216, 0x2505c8d417739f21d2162110db6677017bdd46e9e105bd4a3d56147c37327a0c],
    [0xe654549cd7da15a2808d06d8611796c000286fa77d02f6a0230debefc88c215, 0x6fba732c616c7828cec557ffecd6e3ae22aeb52c72a210e007fcdc5c3740079, 0x1658321ad9c3d0a3639efbb9e23aff309512599f0df251998bb3b03b7ca5692a, 0x2b33052c618387b8b667799bcb8566a6b6fc5e2ce3f9440d025fda9150d4a82b, 0x1410b1ae9db218e0ca654de70f05cecc7953ce710aefa4885f0863b8e03470c3, 0x1848e80ed144936e3122de3c706cfb707ea3fce31047e632c79638ab01dee1e9, 0x27a27ffd5e7cfa1dc5541dbc940085bd3dc590b21473d05384f8c463fb2ba936, 0x29b94126f5536a88c763d0301ae366abf2486bd300db3123762df3cb93d1d986, 0x2d5b96cdd02c61014a228fabada597a65e1c5757772248009802bba450b6049c, 0x202c5350a6a37c6f159112efa516be970c2f88e16c01aa8462d62ee4e52043e, 0x2cac718d86bb68b80cfc3e17cb740609d425aa547aee14f9105b4da9490da8dd, 0x283e1a39e8ac0b1913943e8618a19c89c5c74b58d59299b11fd127f02cfc9891, 0x11a6bcf0ee6b0b9f6f62dc0c48168cadd576e8d86390f85c4744bd70e3c1e967, 0x126821771411186adb55ed7e59e584832bb8c3544ded7227e8d707a5b34d6137, 0x1301d280a12befc02f9a13f3a92501da7208279bc03d99e772da490e7ae069c9, 0x28e729cd9ca2716cf5e82b0c1547ff3c48958ccc49f806f9dfcd6f8d90b2e422, 0x10ff9267c3b191f2fb37450d4e015aa137b25f12294430e936e8d124a1f98d5d],
    [0x2c19b499d3dc4f8545d31cca6a58a6240cb2cd5ce0204239dfceddb2b77d1423, 0x2f92727812c862f5ab2543ae88bb5539fca6a97cd331fa4e5e02ef7231017ee2, 0x2b9bccea18d03f5de4dcb9a4f10ac80fb44be746fa5bf30724fe04c0d576814b, 0x1c85bb1761d97e4a576faf5c53b9bdb479a0fbc37818dda8b2abcb365e0a73f9, 0x7dae9e87df37a4014d11878b49e0571628a20ff3e6a102291d211b8fbb1ea8f, 0x2b9b3bdfe342987935c9d780df13f061f6ce9a4e6b470cc1bc7c7aaa53075332, 0x12adabe287498be9ddfab24ef799bc49be7d58f069cb49bf01c9c4b1505d0586, 0x2b206a11a92edb5474ae7ab65b8fe85d4503de3b6f4330767f938e7c67060fc6, 0x1f540c4837c4a4a75d8f830935c6d2e4d731f230dda7ba5052a50d572439c019, 0x54db8726050afda0e8a0c6b5eaf5f967d80fe0e4b85179c163f36970700d2a7, 0x2cea9ad4bafe136cce349fc6eaae2db05071118b4b82f2598a09cdc8db005af6, 0x252f699ea739d55642ef8a22b45b58eea8d55900f8ed7f391fb1f077d13f94f7, 0x1f061b04b5f927b2108c7b6be795c3c9314965107000b13bb63283f41925ad89, 0x8459eea73a94af361d3c656e75f97d27f6f1e42503fce8ecbbaf19a29186835, 0x1b3d700fe7f51953e2275604d391f136c1fda986a3d30201ed0fa140208ac812, 0x28e56028798196ed5eb0d88ed905d5b0c47e9d6110c75632a5a2ee8a86a4861d, 0x9bd90f2333c4c2cbd4bf7eddadd1fe7a91e5b98908afa559781d98a257944c8],
    [0x15bc1a6e6baad5f6b0c2ae3378a252b14299e0af66eccb6b266814278ed1278d, 0x19c52f0dccaa44199a7f4fc33bb47d41d6a081cf36317e7fe159e8fe6b1f0a89, 0x2547bb5ff20db5e0c592983e54fc962f0f65f478598b2cc5fecd72f169489a9a, 0x1ef0bca70036f3bf1d7d3f294c8b0a1057691172793c5be658b8d55f8e5337a5, 0x4198d58ecdcfaf0b9c2d6acedef52537d1043136b624a5a1f588a40cdeca52b, 0x2c5edf565ed2065d7d04fef7d4f7e1b1722a2d064c00549725e0715947c26f4b, 0x2bba33fbd4a8b19d6cc52859259379a3b46a9fa17cc5c4570956503ef34eb8b7, 0x2e98fad823aba9aa740aae084860f04081a58de39bbb101eefa119cd6a471fb0, 0x2d20c2cd090abd0533aa05e4b25ed9479e9ec4b21eb59c765637083b87a95921, 0x10967beee9da2505cdc53be5c9837672e8f3729c6a784b013979d8ab8a3c0a89, 0x121fb7ac685ef13f74ff829cd18af140bbed250db5896f0ffceba42d5d803a3f, 0x142e085876884e6572c868998a0ea31776f38ab30e6c6ff74cbbef141dc906e, 0x23ca041ffe1231fcca12d630c8db597bd844191895714dd1623eafc2056c1bcb, 0x1a30767b5f4f01d00c2b01a44f01b5f136a5258f7a513d6f7d0627f778970d51, 0x1ba0ff653ae6bd81573fad7901533cc794806aa616f1a263c06fcdf07039d741, 0x94a5945a881842d8067ba77e9e699ccfc74ee8517620e6b090f5627bfd7293f, 0x21c84f232883c041a078e1cf608ec1f30a07b8859f6eb8eef7229fc6bca86f03],
    [0x10f83fe52b38a091bfad07decbf295e8610c63112873bb05b7ef08f7043f7bce, 0x37233401e03f5907192e47e733f792c15520c7f4975a82877db6dea638fd4db, 0x131743f65beda2de7e4bcfaa7a4bdca39d066f9c9d571529e62e7f5ce47512a2, 0x2c3e6fb700702366dd46d37f965a454869d6a3f1b8efd90cea90be0dc15deec1, 0xbca2e8dd5719f2490699eac6bfc2b3e7c6591317c76ffb1516d126ce3ec162c, 0x9ead2ebea129a56023afa72ff1b77c6e867a72df81839fb76c2523f9452205a, 0x19a210d7be3606ebf9aecd9b0c8f3ab0bb04099584bce5a7ae2a35a0f808ce6a, 0x1b44df05ea46ec1231818008eccf838e627afb2ce4b7798aaa86f609c2423634, 0xe4d978fa2ed0507dfa47dd154b51006d25578e18d6c9d83f8735e6a0cb7f1c4, 0x154e4d1a506fc0c10019f2f89d186f4af8a2d1b6ac3ada831ecb00f3a925ca6a, 0x23f27f2464c116f55a5b7482a1cf5e6c7bc99f12e28fbadc6fd4826072eb76e4, 0x2df196c92d5355817805c6cc3ca1029440e27db83b17fae40c35fe3518954753, 0x2b7a89ad1419e85f4d414f1a372feca6aabdd69f721f684f34fe829b2048c8d0, 0x22c29d74824817a0423ab1d70d5c9d5249b16a181034550669e7fa357d9dc33d, 0x2d44559bf653c112918fb033c8153bdce449b0f1e769e46bb91e5fac97ef7cf1, 0x21d70f181b322f74ab50c432ddf9736a1e3738c4e883625889434da50d884c8f, 0x2a437b970ff32645bd5303f9474b5743427333c6663d17f44d918e9f2ca005d4]]

/-- starky/src/poseidon_bn128_constants.rs L12687-13011 -/
def m17 : List (List Nat) := [
    [0x196b76cefdcc7f6a54c71d40114a0bb82694c936f1573ac7ac1ea3fcce1fe938, 0x1440dc2578f44694d18c25f892d98c23cfdb87a772200020e897823d4bc84d3b, 0x23aeeb0c6499b84bfc32ae3c42df9728798fd2ef774f1518b870bc57d1385900, 0x1ed9d3e9276acb7b4dae53eba148806fd9bb07b2dd06187212fab7dcbe63d72c, 0x2ff57f3f7e95b03411db790a86647467581197124d217520ef2e6332a5b35185, 0x15faefbf8584a38969b4a719ffe5f02c2191a8cceda0b775162203d30b80208b, 0x1e6eaab1191593de0d89cbb2399ab8aa955d829ad959428cd539be30b72fde9c, 0x2a3bb020c8a50d310ef5b5c77cc408b077fe2481454754c4568ff668fe5f0974, 0x51f815c454b6015c7ebf90c297b90e9604cd36acc6af07f99b5e51fdeb32234, 0x28b75c2ac167fdf184725317c7bbb8083e5ac5bba937bcfa6cefcb69e4048bf0, 0x23af324599683d9b71b61d093d63dcbbd97e44957333d2697fdd060c1e4b585, 0x5a07868a7c95f50a015879fe7cdf1eb6c317e4d489d4515208ddf40a32329ea, 0x2c5b4a65bc55ac5fbeebde53ce5fa68882faed2a92a7b3f5732832c72f7f2c30, 0x173f895e472c4eb16a2aff3b8e0417fb32b83eb1e3233471c76a0550505d0607, 0x206cb038cc328526d0c3dc5af19437d83219751c5ee8f61b0e9e2f5881366be3, 0x240c57897161666f28d000b88d3353921d967420f401ce86bbee42be287a4f8, 0x1aaefc2e9925fcd453996fda804063fdab276b37c5f51dfdfef9255b4ec10cc0],
    [0x130fc54477fd953377fc23abbd7a41be6764892a8787c759c1440fe0133c852d, 0x65e134cb8d84447d6ea1e17932bd4a341ebef2568313c24594faf9d7eca2110, 0xe76c40392bd5f458bc187be54099312a0fefff44b441637020eb92670a6fcf3, 0xb981765ecae69dd7af3b10ffa424b8aeb206cc4f49257265c6753b1cc54ebcf, 0xe4fb044a9fcb4087e351341f25d98b1399b576e2d6654534f348219a0acdf86, 0x303e39ca88e8da6e5c963564712df8a7f8501a7af4a990e4ccec19e5f8fc805d, 0x1b77995dbf30cc55f9d4cd4849ced949349da81239a015440fdb38b876abee5, 0x23643add30be204734d029cf034c958144551060c1901c420a28c9688ec36a80, 0x1946a26ab8953f9be558105fa5179f175e76a24429dad5d532c2ceb3cfea05c9, 0x248b533f875e5ee8e751cefa4b1d0732fcd30151c3a5cc4abbbb1e93b4655d45, 0x2e7a1c51da61dd214a1789d6f1ee2957f69d21b1f16d1f9458eb25a406500bd3, 0x2065e374edb1f3cbbd2919dc04d14adb07062dd01ec1501b85522e7e0faf925e, 0x2f36535a83a09cf09fc38a20a725477aec56668f034a364a9f4a5605fffd33cc, 0x1123d3c97ff8e6b589d118bc40ca0b9ac12ae909558f2582551f7a42345b4621, 0x160b30c874d9c06704c92c266c7a5b7fd966a62a5db008f1bffdf443b1099a82, 0x1361d27c42a7b4bd6eaeb98a339592616c0d4d8fceadfdb16468162bdfa88d46, 0xf1e8f86860c3b5c78bc14dfb67d22c6beb8992123658842f23f75ae3a92e99],
    [0x2c9c91f48661771baeef6774578a78f69c355c8e907156fdf26db39d2446413f, 0x2c6b133e80abef84904fa4a75f968fbaabef890286d5fd11b87a1e52b7eb6d0d, 0x2ce8546cb59f420ede61692e764e0e9f6715b16a2c8047cd8131c97646f50d24, 0xadaeaf28776b813d518f645c793e57bf16067fd80eb921dd5a67e895646c9c4, 0x2086a01b816438a2a41c59e43d73fa9aacf0c24e4f6bac229d65fba59922554a, 0x2348580de49aac01ce8fcb5aa2b467f6787dd8a96ccecd6fb47df7d5a4307398, 0x1fb6bd6df650d27e8cac05ac0b45eef0700e308b29b4bd41eecff58027edc45c, 0x3e9718237c1700d7dd213e026f307e8000b3851467fed9e6f51fa5020c2369c, 0x925af35a3366801ac80a31d63f745fa807bda10560345ad572bef4cf2ce0d6, 0xf8692d64a5b69a956c4e2006bfec344477fdf5f0c9aab866609842b9d75269d, 0x2bdfe7eb4fa803bc1dc0052a46d850ee3e091eba8a7f12579682f6f6fd5044d4, 0x13bdacc137bbcf51d8bc9d281931d6e71122dc6e93e7ffe8b835e3393775c3d4, 0x7d78ce0c1c87391a06a06c83d300d52524b29f183884e300e0eaddacd05f068, 0x984c132b29a05f2b506ca07c06fe9a6584f36bb87506d2d316a4f353cac5f1f, 0x1b00faa85136b1bfc496e0ea9a6284cae525aa96612ffeeb514808955693879e, 0x19e1e46536704ceceac3eab991bd806e347be40a0b7956dcd7037352fdbc4347, 0x19c2540bbb1cd4e08f105437063c945cfef28ae9dd50b97e0b795f8dc5ae34e2],
    [0x1dec0bafa3e8190621e5e095ef751ea03c836dbb8045b2a73f8d397cfb815192, 0x27c72332f59a00135baa94bde294911d135d1d95f53c52eb8b3b95594374906d, 0x16e64661144d816885b32f3f7809703477788268d57c14b1d939a26b29cb7ef3, 0x2018db386a3e4e57eada8d91408b155061df050140fb22f9a4f34fb4e2d02428, 0x12263b7e3f3de60899a2c22fee919972cd79dc289a87f31f1b44baf2439dc87c, 0x10e420edcb6da76170b24d777ce9d31612edb1593ea6d30e8cfdacfb6974f991, 0xebcb358f95f84b719c631d4045cef03ac6fc238f6834522cebd02e47411bb6f, 0xc48e2f304f730d48e83dae5c78a46188500bc8040a49542eea5ef1a21b9d222, 0xe766f03afbb7af630eaa8aff4fe60f3810f30f3f4438498efe0186333dadc0, 0x1b8a7909d7e7bd4f0bcc8003968e384ac2e8b405ad05cf610364d3ecb982db7e, 0x1d92e4213d840a330ecbdb08693dbf9a971bbd6229047eb88a03f334cadef227, 0xd3b3fb86a44b7422429a249884c85644af1975641206e610070c02ef5a9f4cd, 0x25c7e8faf6c48a156cb91d81a997c6673d32694a3fdd64f5e9594e9f504bad83, 0x2d7af834c9cdf1b38c8cfed218f1ef0ce0b9908de9e7aa7a5510c4fb917a0281, 0x175af5e50e5685ec2dbb1cf7a2cd25d45680f6cddf68d7c0795dec98b87f6a71, 0x121f4a18d7b7d9650aab625ebe8695a8079439f2ab00c090279de74726234e6e, 0x21f08f9b3c23f3a02518114a96929b6d1056eb4d1db147ce0c8882e1b0f7bd1b],
    [0xa5f52ad6ec4a8aa377d8dd2ae3aaf6eea0c68c63a1d034fbda67133ca0b85cb, 0x87488f735b1fe2fa3c6c7148c4968e7f3479b1418a1a566743c1ca215dcfcfc, 0x6cf0db92f86b2732ee5fb881ef0176012dc4adfd849b9be4de17846a6ce5d99, 0x67c4411745db6c6aa659ec737a586a8f4a1cde0352e30aa0063794865fc1c04, 0x19909241cac50288c0d12343e0c12cf9b9790b405ef0a9001aa6be0289063aa9, 0x1d25b94bb7c49c0170ee1fb2a5824b70e4554bcc54b6c8f8cc0cc9d74f19a5e, 0x3274e735db2faf186787528254272ee01967e6ae9d825141378b8354d843965, 0xcac320362e235b458d6d364cd0fff914f3c056adbb038dc2a861a49f7f70e24, 0x1111ed7a66ba2ccd4bea0d43eec86ea35ab40253a1209e3637f103dcb84fc429, 0x13e736cc70b7c828a38dd6394ece76b9ccdae2ca4f43963432502fe8c2ad19ff, 0x1f2805084976b142f7c74a416ff439ff1bcd8b8e7b0570130040754a61b71912, 0x27aa50a0e5d5588c1486e8e7fc8dda65489fffb866756c218f87e7280cddfa64, 0x1f3cc6f65d9d34370825a38fd1f48f509f7c56171b9e7a624d9b0ecdf6ac4eab, 0x1b11713791ea4cb2e17c8c5867502043d0a8cf955384c1c793c506b75fc0db29, 0x104560e95c49febb7a030862edb3a33c2b2a3d414b0536b2e54e25ab36e8f281, 0x8c45f3c4c486f6b5378c779c607b517200bb70b5533bdacef18519f625b925b, 0x2d2193c677bbcd56a74fc2ae50ab4f2cc69aa77ccfc33c7707452d5adac77edb],
    [0x20ab7394bfdab344cbb6f2123800a0e23508e2125bfe795ab4a767cecb4d9306, 0x19f0e2e141896eae6d56d182b687b8a6c64cbb59e031b749f35822fc7ee353fe, 0x18f754a95b0af0e4706ff9024bb135164abd6fc16ee40cc2d6852d88a2ffc9f7, 0x193fe0e9b48010fa319c33b86b6b18f428f323fa237ca918a38faaa91ba49567, 0x11ff091dd551b6d586203ee0cafae2f7652e923aba82574a53b632a066f4884, 0x1da3e00601ca3fc0d90b197bd2a474b46efe3aff3b2cfaf1ebe15fa1afadf2db, 0x4ef41945559c1fb0b2116cb2be1f043bfce8dbc96feecccda47cbf68be59b5, 0x2f053fdf1a72d6ad8c9df97a04d637916f25e3425b6dc33e99ca7cac5cc7e4c7, 0x1daf74842c7e79104349ad399592c5c4cce16f79e1a86f50d941598772cca953, 0x2ae8da8d0b129a22f834d0d234c8917c2f877ff00dc16215498d4b748fb40df1, 0x99b0a6330926a4a1564dfe94f9a1104bb8374bb518a89de08c591c17dfaa059, 0xb9aebf041146c119199757ea8ceee5abcea9ec42cdb28b921caf21e84847851, 0x55ef271e388278b1aca34d3cb00116bd6f7cb584b3c69f0de2a7afc8d98deb8, 0x26fbf1a351963fbbdab590dbd760ce6284273525a1b46c41f29226c65339f4b3, 0x12fd67863b2e03b6fb45224fb041ff280e936742b54c8e54d3823e090e144169, 0x600cf26635b2d546431507589739010d1b757ceaae617bf95b8e1efa98643d, 0xf528f5912be49455d4323b259e30ce2984d8170601eeb4bd7096b47353ab7fc],
    [0x110ea322b0c26476c67bfa2c1b9d1713f93b3b9cf8320ce0dcd4b64288bda07a, 0x299c47f1e3ecc557ab1c9abe36f0d2ba0ece01051e07f0858e97a9ce16f5664e, 0x1cc053a6a4d6f96da77e5e73adb9d49bc4d0ef2cc2f69fade48040b7f8d71386, 0x9558ecc58bee4f3c578f62489dd900840a9889096c0a62114aa2db045a1d033, 0x93d7d5563e3ccd0b5f15a9b093fe6b863aacccf9af11ffea9b295b7dd42b1f6, 0x45dc0579ca66e7e096d4dd86b882e68af2d35d70cf5e3b1783caaa0ec424253, 0xda02f6410e24058a1e90412cd5302c57197f7b1af2a99496f9cff3ffd58808f, 0x2dfb6dd598ada57ea71a8d68e6924608f0ec7838808688ee4b3fcd521f7be6d2, 0x1057062b40bdcf1fe2aaef45898c871146799a92c87d0fce64302d6bc83172df, 0x26e6d18aea75a94861a02333b5364ceceaa78adfbb742817218ca3af607b910e, 0x565b96659025935d9c025c7ab20b1611db00b67ecc51426b342f8c7a17fed83, 0x2776bde52a1259472c1cc020e719f82191dec3ab7699b7d0fd769dd3fe392997, 0xc1a324c49d15f87931821989b8c8437ea9eb46ed3aacf8895fd1cc311053e60, 0x27e68568e9cffd07f9253ef9dbc356251dc6b2d6a903d6c7046b5e90e1bcdc9a, 0x1db0e7e01722aad210e5296c36e9103e82d15765c318134d177146a1d9fd5358, 0xaef8a4e47d5ec760e0565ae7acdabe7e8e98972de86dd2f447aaf216ab4cc17, 0x8c00c4e5b3467f01901f64f9f89c15bb0b90918d488b730cacc3296691e9200],
    [0x54eabe6131681fa01fbc6dbf3e7d53595d0f8809987182142b890ac8af89cbe, 0x1a4befe11c0230c62de44ffafea0de903ba328c6d67af73680312b68f9acffda, 0x1e40665f5bb8c5c0dc9c11f39d47e9d33e717afa31ba74f92f8737a55efe134, 0x23c4abfeb83192362aae21b2e9ee5cfc765bf1000f798c3ae70133556abc78bd, 0x1669e44bf0223a77f48fffbc9f4f20b5814f6185ae11a210f8fdfcb5f71d603d, 0x2d5b3f523a9668cbe4887881bf7b40184f978713e358de270d87a600e5c5c92f, 0x10c1856f282f556d7cf6d4a293621506724ba6d3c582e4c261842f2a4bdb0ec6, 0x22cc4349f6baa3a8e0b61fc40ab97210e4bd3b3dec7f05bb8ef839c84692afbc, 0x12d019e37cd1bd76fee065bb7380a9bd8331a4dbcd1c9c776792bc19045c23b6, 0x27aa38fa051c434189df57bafd80723ee29bdccd59fbc1aa9af11891d3722e61, 0xf0b9336db5c16d472fda3fb9ac13b13394c09ab9f484ecf6ad2060217b5896a, 0x275a6f59623354d71d38b4e200ce2e9676aab74ea8b8366fce33bdbc47d0586d, 0x2ebb6730d7bafeac23fc0b457ea824eeea3c55eca634bf24b2ac2a9a21483e1, 0xff215eb1e38dc67432e262df27eda7c3aa9419d5b6e299bd948e970fc35a62f, 0x247f9c7fa610322535feb0676cff549f1c177d0d39d3f1eee642e9253aafb82d, 0x2ad0bd9f71e2785084aa0b84616b7dada053207c418e65f4035be66a0cdc8c12, 0xfc3ccef00d6a64080abbed4fed90b69c5e5803134c22b42cdca0a60f03ec33c],
    [0x224d811fbdef8ec0a006d376a019e57c93bd596213a07823b7d4abce1fd8e621, 0x140762d30c5c3a0b0750b1400a86a9e2f5cfc2531b729370f3ad9fe1dcd43f96, 0x976d7c3844bc8deea0f0337f89b2a131302ffd2d0a870181ca5fd5fb6d4fb63, 0x152604201ca7df05994e9d5f058f3b6749cea63aa0cb5b4e1c3a00b6667958e, 0x1ab6d8fe39f87bb0ee5b883eea2725caa52c575740d5ac30b058f77113d05239, 0x1b62ba8037a83f1261544c307f019dbea1cc6a84d481ea8960b0fc670745e8ae, 0x239abc7c9f866aec28685c26f4e046a92d4360d36cb50890f422e18ed6f8a7b2, 0x2fed5a03200417664537df8fa30276b85d91bd2ed21de33d901fb4d82439857, 0x996cae74d9627ca3c56c646095f39730274d25e82c42ce21cf789253d48a3f0, 0x304dbc0936862356e0024b2a32dfa3085abedbd337f22b89062be614d83cb083, 0x2a7de8f5ff476d81d393f1d274636ca956f05bd422bc9f3cc0fac0054b58cb02, 0x12c6f6c83a3530faced60c88f19a82fd12b7d938a79864ed20a545a52fdce11d, 0x201e03f1ff672629473a24f32d2d502acdc8fdd2883014de74c98f40a195b3e4, 0x118c3efe920c9c3f907c867743d35d2ccbff7c89e9c31bb6a17c552ef92b6c01, 0xf705feba5f01cb27b27c104bc93f0c974f561fa26d5614f6a9d9e47d03bc655, 0x28d327a1c2d6012d9e69e9a3b4c11ad336d3c0dcdff4c5c84ddddf911eb645f5, 0x1bce67f4dc99547f2caff1b5c6d63e3ee2565a404190664533c1c65dd9d8d532],
    [0xe691fca423128a7d4afcaa582b1a94799ba1f5d2a5d53bc2bba56bbecb227a1, 0x180aa4babfa7539753d9c222e5e3359aca59e06bbefc7cf3a3ffa4f961fa1d5b, 0x2c54287eee368d5d52dfb068282d68e6b09b76bd1b5c9333b36848ac277744f5, 0x2f65361a4aed320fcd03a45c44dda740213571f3975ce20b96bffd960cbc6e25, 0x235bf178b5b56262d988bfc62708b0f85d57385cde2b4dacf9e6d592deb2afe4, 0x1794ec2b0eeb22fbd753b21fcd949e7bedb305f15a59eaf74a961c3046635f85, 0x83e1cd5943461ab505b200311bde4003fb4f7ed16aa58c8bc28f2e08e9f6922, 0x22a67a88776982d6a15f577dcf780ac485ebaae6fdf6fbe50b95ea266a7b6059, 0x2d1188d9e7e6ac24c4b2c9dc3dfcfb0fe4782d689f31b94b1fb15ef29d11f19e, 0x265c43c886f07d025200d56cd246b01670b3e82ab482f5879b10608cc05a37fc, 0xf26d05e938f8317bd608eff0895d352dca712b653b1492f8c2ea96b26f9381e, 0x257689a4e22f6a8768aafe54218d31de4e409fdbf42319582536bb583313a395, 0x1edc57f174e1322b627c6f9dbe27ae2703c3f11c364b38188bf41d8ca0c1709a, 0x17b39f38636d5eff5e06eff089eb56051a602bc8f4bf1bb0ad2b2cd10cf07138, 0x306094ecfe63300b2f95bc98a0406c7898d86852330a7b69f9b04b5404b3eef3, 0x11afecc85590543bd2df8ab952be164670a3f32593e962d4bd493bcd3c84f84d, 0x1a8ba4f37d2315389c8560d74dac572a4447a02145516287053e6b9edefbca2d],
    [0x189e279c92de0bab66707e6e6e310524e615cd4c6aacc665372a3b8e372d8ce6, 0x17208ea9cd4dc1a6deebe6a8d27a3181ab5f86c6a706e6fd007fc1eb678e9de6, 0x228a3488cabbf9f29efc0bce211a09031972b37f25ea35aca840dc2331a0cf35, 0x22122c6313fc9a4c6d0f944d3ce238272bf35147b1b788aab2b8dbceb6024c76, 0x6649a13e65023a713aaee5387d388e3609ae9b14ba4da10642ee0b7b4a16634, 0x1ed4c95c6283b45ec0cd88f511976f063ea2beb0695b8af7cc10589593a7978c, 0x15fe62a69b0438294395da1bfc93272d88797ceeef666ba2443f0c146f8ab7ee, 0x2b079a1d09b9d4a76d4e50c45c01fb7508b1c443a8fb21ebd28533e05def8864, 0xc34496a7db5abb330b2f6ce9adaef5ae6e308c8fc2c5634097ae352aa7457d4, 0x4ffe27a92cb4300e774388edc3147ab9dcc4ab354c380f51ca7a2e7fe0463c4, 0x28b73b335c72f0774871a2030d444e5fb954979c1c568e112fb911a46c666768, 0x195821b99af2c217404ee582e29889072ba3cd994b74955c261b5ad364e5a9c7, 0x20a56fce37122b7400ab61a65eac815dd180f52fad2835f7fd9649063523881e, 0x235132912db2da07a4750c5ed5df2590e718404aefc48be6953432f64424042e, 0x1059db5e97f25826b0bbefd6bfaa6e9496c55ef5a88fefe9712691f6fbdf4298, 0xb050c882073a581e767223705cd9510c04c30168c50ffe0c9875a28b6938299, 0x115e60c4e2937eb53c6e4a5488f801266e84d07547a0b1cd91b18f49efef9920],
    [0x1d9bcbbd17b93b1913d2f79cdf12844441237206f0294746d93f8e5bdceb4725, 0x20007a0f5d37798789e0a8ef683536d9cf4831a6566eb727b41191d9f2974710, 0x16bae49f5ebb1ffe886b634d215de61ebf4f44d1cdc4f84670df8ed69310bfe2, 0x229aa5b547a63780d8d129e209fdb92f85662616d59da908075e668fd817822d, 0x29a5b1e4e2f25445496adec230ed53a35993b37630aecb5d76e56608d1b78cc6, 0xbfce7b120068b9a30029dbdb36be01d071e8163fa1724f13c6ca89be29b729e, 0x20055568b33367bc12bf4aed7a0909c173588a5763c6a1a7598ba7c6c7e3c2a5, 0x2df1ff86644fcc42a1932cf15d314eed407608246f14a8098725ff7be809c87e, 0x1d4fb0f18f31c8270b4636e6b5d7a33e455b1050de1164182cfcb739cce965da, 0x19d6f1d110d9f873db002ff2ed828905bd6cc5d7921c238d7569daa9b2401d32, 0x282a01e8f2ce09cbdd862f98fdaba3f9af02443edc962cb34802d04477de1e20, 0x304b679008e8a1f09448423a05889e0df663a2b65055ca9ee5a99dfe13fb9a16, 0x1998147edaf3a92ab179c61ac2c36af5caf3e78bcbfb684cfea15db17b835907, 0x28a4572cb654261cf9358435923e65aff8f40393752748b76acfd2e3f5755c9, 0x15bd998c2729dbeaccc29b5d6e4f0fd96ad0a6037c84a1a1a785169fb336fb6e, 0x7cdf3309e130f9ceddd688af3885369fbacf6d8a44de4d450667c0d7641213f, 0x152d47acb9b06c9d12c2138a31416bbbbb991a65dc4d4f8ef91a3dd728e63b6a],
    [0x1179184635a9780ee1312dcc3d15c7ef042b18ae9409670e28c4c7f0fb9b608e, 0x229da441a302929b0bae93741b7c75e11337c797e5721f9d7ee59235cda9a40c, 0x2e269dc78f70f9103b2bced3edbd41e156e64910887b4dddf8a3eee960f601b7, 0x21a91fed8bed14914c4fd491b6fa4dcbae7b3b8b3d456303af886c328abf4699, 0x29f07c1effc65b5589e1ca52cbe00bd65ef5e962d01200302670b6dce79eeb00, 0x506a7a5de6b56ebec5e708a70a3cecb3a2cfd25e7a20ed495e295a93023c5a8, 0xc02b148f4a1559b597cd320f00c02b96a7fc7c83811bd86a1e79cc3106b2201, 0x24a466f74e99a602894f421010f43a81c708b1b4ad076425190b85347f685b1a, 0x1fee18888425724970bd2897b54c7fa8e9c367dddbc8484da37864faff9f9056, 0x19711c41d76f64a371aba62f3f46710dee0c3aad217b7cb00bd12613b24ef52b, 0x2770d14a220152fa7083040be9b3cd38c8ace9e207073486bcfafcad706748b1, 0x8dffe684aa33f911d35e9a644b4bdbfcd15a4da49b6531816b60e8ce4f6b5e0, 0x1cbfab7cb05e2f28254b230bfce017f005fb4f2dd8935ad11765b347d2003667, 0x21d7269a53d3712b20543b0039aecc9466520133d299e8442000b33184a39e84, 0x21fde580a19886b13358f18a32d5aff685b4bd77d94f067f44f6e7a93350fd2a, 0x5232bf95807e48ad82a1eb4bc481e9b0720e95196dfe361f55c4d1cfc7926d7, 0x13602646b88ba31c0d544c757bd9181727835dbe690c30583a23f37f52fe5e3d],
    [0xe48466182ae8333af1891a6aa19736741ed0680d57c931ede13fc07ae82e88b, 0x1137b5c61b9684bec41e4dfaa76438256622a4378ea4e646a2844bbc85bf81cc, 0x1f4b85552b960d1c18b7b8f66af7305a6773d9b05faf51e0ed1a5f2ef2f95e7d, 0xba8a54914886fae16700c02efdf7767413a0bec5a19ed0cf0a7d8ac60c1f1c3, 0x30289c9678c0330f85cf8e362683a6144f22b841aa08f586f219dd9edaef78bc, 0x4890048fcdbde6366761cd58fcc6ac0a3360d9a64233d3ea4d8d6be8a23ec45, 0x1a4162e8a7704447be0c1d4d5cf2f777670f4841ea27ac2709cd6bffeed2cebd, 0x2e944b449c1369ce9766fa6f4f99a87630b5c1f2d63677a437a537d61b6c7470, 0x22d6e787f44daa6b6593dfde5576d2fdf5dc0447e65a1d5e7712e4e62c3bdcee, 0xe08ddb69d5efd949c3d671e4e78e4fc7628c65ec1cfbc18ba6a101aa19dbf66, 0x27a573036509a8a29a90eaa34d2adaed5ed1ec6b207274f3c5ca23dad3880e57, 0x72372083f62195bcc2b5afab1038198a3f0546b62d171ea21c37c8f31551176, 0x151e0bc2110e4300dd82a4c92442c4751c65b294426c8c320c69e61831958ceb, 0x13f1acc389c4f8e752cc7e4b81c37ae2130c60df9c8b7e87dc5fb7459caf4916, 0x6823a9baa55623732b02fa270b2f887fd3804a85c1a7f2a355df3fbefc69dc1, 0x1e41936e6bc0c3ed665c2e2466ab9216b9973fe136d9f9aad95878c1b5607c6e, 0x65766d2980331a55c0a39d83be78bd127baee77d53a24268e064c71daaf2b6a],
    [0x1c9d56f71c2f22c44d3a8c17bf5b40452e05471f0b6dfe9ffe4725eb29f73464, 0x113003c1dc7baf35e4536f95f4eab2f3badda2c7a1c6b5afc956234ade3e7129, 0xd5fb9b0e1503f2b92697c473b69cf76d38fc12912e2c3cb33996dbb0cdfaa38, 0x2e164a524ee22eb5a8903fae1f35a3a78f882f3e3a9892b6ff4753baac934949, 0x1f9dcbde7d058134a510a711d036d1f1800e473a63b33a7e0fb04dc2e09e3af, 0x285b20799970b58c63ac9f4af564ce0f28209b61802214da5bfafd0cf24c6712, 0xce3dd727fdd11a8bc731500effa23763089ce3332cb730f9fe57146ee204810, 0x1079746ca51d9518a0c309296ca48206292798910494277be2bb65a6b134b3a, 0x23a85d4f91eda69f310c451d7d480c2f40c0d53382ddd3fcaaae627b9617170e, 0x240657d67f92b5e4261ace434fd286206c315565378ce8b81661523f0e6ddc54, 0x2384a384bcc2c4a17ff7c9e3e7d131d39173c431333a9c7c1d6fd7110e25902b, 0x25547b51b2c6874e4538ca9b34093b714ad36a8f356e4c78e0d66b1f190038fb, 0xe59e1a990ec00f72edc37248349d7a5a6f7bcaef158110450f1e5985f0a5d99, 0x66c6090936f6b054f17dea91682954332b3e32d8f20a0ae171d417316d3622f, 0x1b25662843b0986ab1a4e9a766193efca47c70d49364f03d50c5edb5b5517ebe, 0x2647635477ee5fa9e7ac5983f92db34d7336646c63c63e2dd53d60b8714bd759, 0x26db2e85a9006ef5c11cd675a267d42efef9f5af90466b2aaf75eea8024b00bb],
    [0x2234546f5e8541e8f72ad794891950b32b1cd891cc66775c5b635961642e9c15, 0x1b61468fab59c925f1986186bcb97965a858523a2582d434319a9525ae71158f, 0x11291ef514a10d6f0651e4ad0da5d4a489e3018927879da942defdbdf701ddd, 0x2df2fb2c2e321e3cce13d16091705a40c5c795f8b41b61dfd6ae7d97d63578b4, 0x1baaf8ff96bb2224bc34cf80c38bf13086f1e429bceec12090d8a7c376a9a82, 0x7b0d70ccff1b70dad9bb4b0142e3f6dc5bc95d3766affad378cc5042484dec9, 0x11f28ee5da80d19e31581b566a439537466d9ca7fdf14b7086830bd8ac13c4cb, 0x13d7b03e8fc9fa647fca6cdca97146901df7c675a164913c2bd2a3b6ee3cb4, 0x2440e786179a7fbcfe8d29ab18d0fc6cfa383cfb747f7a2d15b77d82d9b0d9d3, 0x56149221712b88ec291fc218324142d02873cdd53199679fce4dfcb5dda9116, 0x162c5bbc81b44427be4e82c5e5253bd66c3054f5c5b73b28b29238487849a794, 0x178f2aa8df9a11ef33558dcc934971f7697e626cfef00ffcdeb6f3c9c1a7d10a, 0x24afd92f80e57788f40fbb2b79f29454dc485fbafb5a7263f462b7c84b4e500b, 0x492ae5f5ac2a5102ea96e60ac8375553687151ae44042dbf5899232c8f2100a, 0x10dcb11f815c7e29c66be1dd3c5f7602c98e9fb1687c2d825b48789c521fbd0b, 0xa11d587cb75d48544eec662ad27ca6acfec98f7a8b7963a294e4bb329b170df, 0x1dd6b095cb68459dcf6bdadd434aa81f80a55a08e6782c653a93afd8a65f3267],
    [0x14c09d155c5d428198c234b553da338f227cbc12b0e42f2b9ce71563ee1495c0, 0x117fd528770fb17f718e29a2d91a63ec7c39ef1dd3039f0943f717d1804253d5, 0x120e7416d74308e24047f6828c68ae28bc288b216e8a25e8b0ebcf738480e390, 0x6995e510fd7669374c39d27903f342ac5bf8a1464807f308bef610b76cb693e, 0x1d814b3c17656c2327f94cc02472780b886b88394f1a5cbe34dc4f44ff134fce, 0x3b90da34b198cbca17e34aac98b169875ecf73aeb5c6ff1f00c9fe535aa9902, 0x27fa77a0658791e6755781c367683f9c9333a41364f7870edff1935a347485d8, 0x6d6ee531ba3fdced05e24cf9103d0962dd227f1de692c0199483e92ab24ba59, 0x1e507921be7c76124879ffce5b62dd0e96259e98cc64c27208d62b40bfe3e482, 0x681adaea79cf457db5701931f0ee2f15ecbb159ed50cf746a15b85c6f8a5370, 0x1e6196147508bf2edc872c4e897a967778b119f69fb431a7f646d2018eab4010, 0x68efa35bc620124ab7d88990171bae4102ad21dfddfb387df0de0c8a3a189e9, 0x1b012224a4f050df841122d17c5ea4eded7c8ec2034743a432a2cee893976f29, 0x208d814151bcdcddfcf835a958c259a6477bfe4b3392710edf9d80787a25c5d0, 0x28f901fcaa860b0dc4192adef8ea4ae55af6ce432c85e0ce4d073e514ab24252, 0x1bd639879731823c871f9cd4714e3cc56a6eb19884b73664eed24b11929119a0, 0x1d3ee85f078fbeecda2473efc2bedd1ba7ec6f4795faaeae3b0de48d3080c625]]

/-- the inverse of the matrix (not in the code) -/
def mInv17 : List (List Nat) := [
    [0x2127a96eebac13f9f56104d49f7d12bbdbbfcd4ea13d2dd3a5d4054e9261f212, 0x240f76e1a08ad723a960ff784a795821b95063987cb2d4b5cb35b3916f4e7a83, 0x1e0ed93e97c42c4e35005790cf84a63fa30d379b7ccf1b52f74bdb0b71dc4d54, 0x36453c8f6f8f7fbc83b1f40512cc164ae0da046898871107a6dae2cb7cf66c6, 0x1230b3c7111fd18709942eaf5e63b17c5cde22a323c3d72afe606e61b10ae455, 0xe024b0f0b272144e226e6953321faa73bf16eca4d7904f53217c89f7080fa87, 0xe5360fe8c09ef50615e3f91e5fc7b486f05aa5dfeb79ccd2a085c2ff67a3ef, 0x817f9590cbdfc39082ea2bfd3f033aea87b27621a9635ec587f6be2c913c3e7, 0x1845faeef1949ae6a4cdf032846799512344eea5131efc995032c56ac826e07c, 0x22ff3b666eefa5515132746a763f55c6b8eac2c2219bd98c8e3ef21b763a949d, 0x1f44286da4c0dda21fb6bf9c04c2997ffad4f7ec70d059d9a69c6441b33946c, 0x1f5bfb38d6445feb4956e266a348b644042a9e9969399ac3be1926a260b6c126, 0x52e12249ead00c1dd1a2d9a2ea7d68c3fe1a537f30c685cd4a7972e0550012f, 0x13fbd77574bd1409787d16e4890492dbae53f4a6043a5c8c153ba355f2c4fc29, 0x2b40aef2a4fae4d5bc4c21a70cfefe1cf05546b606ea6f21e35a70acd8553934, 0x27f9ce585034a2b08914331b949b00b7fb31689b46ef6a6c60eb123fd84c1ded, 0x16eb3d84313ff2a9fcd022c99640a2a197600ca864cabdd7b306931b5954d724],
    [0x184494a2370494d31b4741a3ae1d521ba515d6c39886f910c1b80fcbfe2025e4, 0x1edea2c2eddd839910bf3f3e576a3f0c677a6200fbc50d3796401b3b5ecf3087, 0xc4005979e128f1b7c73d23430786646cbc70a9d6f03361a5bc7922696da3c82, 0x1251a222302d1e52ef4e3c3cfc4edf8426326dd5511ddecd0e2d5ccba7ac2ca1, 0xf1db17b844988b12ed8fcc8d3dd942f3ebc30d4da64b3d92c7a1796de9249e8, 0x1e3b9b9e75fb06867835a579b09b232ebf2777a354112a881722967a3f9b7029, 0x101a46536e2aed973692746506d156f09ff7fc7a4a83172857b7808772c0649b, 0x20c24ce8a9c6f674e0cc5f5bdfcb343306b2ddfaab68ab0b822b89bf045e4326, 0x37b2344ddbd2ef91d078f019f8a695ed1332c07987ddd11f755153cc574a730, 0x1217f8efa0596835347e11470f814f37ef481b63980b0e175b68065dddd4771a, 0x20a80108c837b88d844b73884de32041eca501512bebfcd1b3a25f6a9810fe6f, 0x1c501dbb0572d38ff500f784dbe2e8a575ef16e2f304a7edd2879881597038fe, 0x18d7e647b8b36ec6d8ef435058d2dbb337842db9bdbe38258a3896fd0a8f2c20, 0x267208b841d9e84ea8f7ca9ce1d39d2be01075cdb942d213283dc8c0c8166d50, 0x1f4f503d1c0a6423e00213831ee8943e8c56d46a83ede2b91439e895596f626c, 0x2b36504e19f540492b6e593ce7178c92d1913bcf39af9c1f6ef787821c3d6ff2, 0x2db467ae44068d38b629ee78217ae0ec61e6caaf9ffe9e7c43f3d221e97b1dc0],
    [0xc52ab84048184125e58b5392fb690e22387d948219c71434f0244d5519be303, 0x16cfc85fd1d437bedff632fb85e8ff4eef44f88da8752f34dc1b35ba39fc99, 0x232204cd4652647bef1dbc07bb596769d67ff949fba487877a2b9b72e41a502c, 0x2f4bce9e1874ac52575ff3acaa566f7bde1beadf9129e3abfcfd92b971e63359, 0xc0d0458be1523e0d376bafd5a96ff21f99fae5ca04c9697e7a88b09cbd9120d, 0x1927ad7b5a98a81b784962152e76c83776aba9ed8a9ac647b8c2f2b40d2cf10d, 0x173cabc1243dddc773d8d13e61fb54206ec3063f4c54765040f43e79992dc632, 0x4840277d49c073f839e95a5eab29d9efae3f74d141591b57d919149921d1dc4, 0x1964a32c074dcd3e25b34436bc43f40fbc78fcf0cea9ac4dc4b0e5a9bf86b47d, 0x1f5b5d525c899b544a142ad73bdee5b599cf7236ae0b3696961956be13bc0c90, 0x150169db3415b9777a88b11ca3ff580c890e84eba715a9b1d97eda9b1e798b4e, 0x242811a380d205bbe6d120cbd613e3352b3daa17a4c44d685225f501f444ed47, 0x24eafc242fd5e16ce0fda3c6d1025e7dd5538db0c96b1d0db3f487b5b5f99c55, 0x16a6f41d37c8625e8959a4fdf65befe205d9febbb2c1fde801bbd3330270b0f, 0x1f6aa5d8f3965474f90c6afdf8f7d180845a614769b31a43b416ec8fec45ccb2, 0x1276ed453e28f916a5685cdf81ca16b7f0e4e505861a29e8d9d3e830dc187c5f, 0xaf27defada04ec0edb245b10dbec1ef139654d001f01d12ed0eb633d11aaf96],
    [0x1b426756152cbbb6dab5055ce972568312265890c656c19d58e4efc5699be1d7, 0x2c5c8ea8e7ac449a5121f3155ffbc048d5bf078fc8cc7c143ae75792f674cdc3, 0x13c8a2099c54c7bf394f1d62f98904aecde46f8dcbbfcca4a7810670404b348, 0x2ffc9a73acee52a35ba8d51b5574a16067597cd90426640b05661daff947676c, 0x2408d93bd81bc34843b2e7352096d286b80ff4f06546dc821feed270c1e9b9dd, 0x44571f1b3577d142cd3b30ef9f7cb3b9d6e93c3e85cdef0121e29edae31495d, 0x468d1034344718763ca70f74e453eeec0769ad6413f56cca238494a04ef04ff, 0xd116b22b80fb94348a732bd2af6b5be6d5038545e0cc789a889c7969244ed6d, 0x492c4518629d616827303a650fadadc0d28c185566d2fceb58a81bb149f8637, 0x2a9a0cc7e5d220243540c6de6e7ff19382a29ad6a834fce22693b5f73f791f4b, 0xf5f03175899e30e45caf246450c36c7f051f03cb518df3282e2f9fd8ab4131f, 0x60b00c58032f9c99816f8e2799a9354e2d9acf3c7333174c9b7330b93fc69e9, 0x17c8c2432429fb7b2a522510a597198fbe82c6b3df8fa48ed7d75a904200c803, 0x252bf735e0634193cdcfe8d98751722707741bf06f8d6aa73dedd1fd959bb0c8, 0x402f766bb8d980ea00257925326fa3f765d4e5974f871dde7dcf8b7d3f41cc5, 0xef2ab8ff0c959c177a36f9e773a0fb845abd41dc746a07b6c8ca5399ab14cb7, 0x8f9ac63f79c9604cb8d39edbec2a71c6478912bc3a2e48003833fa0f1adaacd],
    [0x226b928c3c46a6b57e24b09fed1ec06007159b0d9c07f5d2937b50e7357f2bc, 0x86a8a66b0fac2c8cc262a32e968378168312518ffcfd3c3f998d5dc58ce990f, 0x15c0f993c0c754a7fdb0bc4d39b6073f21b8f3848475f3d4f923972a8cc8efc5, 0xe7dccf6d54ee64e64aa32ff37593bc7f0a2e60153cf947dd10715bad188a6e5, 0x275271ca238a197bace73e99afccd294ed2c7ccb7747bf1cd31a33bd66304694, 0x472e6eac517a49491256baf29f013dfef88bca5ccc2ace15ebd2a9f49960cd5, 0xbaec23fb2d50cffa3750227f68c56e6685e9f92d9e64856e57b94e2b837bcbf, 0x1732fb6997528c759b18b7fcbc47e98d87209dbdc4d2aa839a76a38b9a1ff499, 0x1a8830eb22df24d68a876c9c9c70316fce9cfdde50456a4af637bb27b0baecba, 0x2d6946cbc906d233b984f6b729799b49fa77944e8b6ef5849a2c461da1a31d61, 0x294d913c8c43676f01543123027a9207085c45258e6225a790420bc40b23777c, 0x8d31efd32773126d3626469c29ed15f3effccc2fb8cf4d248140ec0079318a2, 0x287890d7ff02765681ac1aba3a868796700a312f249697ae5a8d5d5e8fde0447, 0x26039ab97907a679c9a9a092f7cced8116b8b860adf5b8315d22b01dc9fea5bf, 0xe0ceeafd1d8cc35312af5403a25de4d7235d4327c26bf2134ae6ba5ef882543, 0x12de6035225fd34eb4b51738643d4ebb16139e20e799b3c93ead03421309068e, 0x23cba5b3e5cf9454d9b5fa462db5a57004085fb5622414502f2fae12d5ef4599],
    [0x58650fd627f792b3534349ddf300dfa3a7d46e6ce5544822253eaf6d4b8d113, 0x674e49340eb7e73fb470903b3ec0fa856adba14eed56217745eec02ba22754e, 0xb681281bf29a0f0039622af78751dfbd3f5f1a5bcc5fe436ea1dffeb6f4814d, 0xdea9956bf5d5cf2e64f5a69f56ad5e215a304801ab74c6ff2d42e2f921fc4d9, 0x11734d5564ff50c8fe743c187d8b2fb4a3803ef0a378f3ae91ecb75ce7096fb4, 0x19fe178c982c262c0b3a5168bbde585c5729e2c8a2ab585c4a911fb76bb5e01d, 0x2e34046137eb059a6047db7e8f8516b9bbcb93888712f914dcf794598657b20e, 0x21582ddb1a734154de6024f2dbf2371d11020fe4b0fab893f040a1fc5b8a1e4c, 0x58f8465a0c019ee9e6904649b41236f72dd9f3ddc1d3607dd10930fb10f8cff, 0x1706715d5ec62a6c93e3140f25d58dd2e7ff3863962937cf4215c79f4c4b01bb, 0x301818af9f827707eabec65a59ddb24dc627b802427fa3652d28dc686b21d3c3, 0x1b1b255cd508f9538ac63d7cacdda036146c54a23621c5461476802f4bbcee36, 0x22ee049464e13f374057accf9668bd6063656175cae0b0643b1dfa62731784a8, 0x28d649ceb7c16b7e6c98824345704e78022fe0000edec6727c28da5b8da04e6a, 0x262b236e023f03b1914a460bb86f1dbc5e841aa0a2200ca0ab4e43d32315acce, 0x20c5c5be7c576b3c4983e42fa98708e706c37b92f9654fdf7c5a2531f970a938, 0x2c4d762ba4ed4d2e38828fab45be997b2ac30c0b5670ce0bf0c7dbb12bce2ffb],
    [0x81e04e88018f8245edca1b34e56f89ec66e2e0823ccdce38e6dd909299b6186, 0x28586ac7ee985cde105f6cef1c41433dc4fa315a72b597e997b2d487ecc9a609, 0x2ef823d81f9eacbdf841454f27a645aa50037539898a4a6482a6e01e2562345d, 0xcdc5228fcb8f0e8f23f106580b1be2a4b09b0ca6d907fbf34e9dc6b9ef173a5, 0x18d729ae257f2930b81f286b8df9b867012afff692bed004d183328dc184ab1b, 0x219ed9ea30272ceab73b8c0d6ce3949204976c71715ac9e80d2cbe11704e3614, 0x28e6cd141ace688799b11152caea2ce01ff5b950cfc76716dfbfc437c7ff2754, 0x2d3b9a177ce3563f07d7e3d3caea03050c9528c14adb58ccd3ed623522e3ccd, 0xdb597f6a00249d8e6cdef20357b03f9ed35b8f24c37872324fb2689d0bc7096, 0x21bffb2991d9e5c2776fe94b3644062af84982a028f38f0151554d4eac061563, 0xb8aa69700e3e1f4a3c2c2b6eaeaddb121a0603c038ad6ed81d3341a0524eaed, 0x180f675c2c957fa89f91f94c9f72fe0fe766af33c9d273394b828e2694f669b, 0x254e703730e8a7c3b7156e6e89f6f6f07f103e2511166f758b5fb4125c38bf37, 0xacc333b065758d7e28ae809af6f676be16e044f63ea8c8f10f88d639a1fa729, 0x173bc52c7b986d68b5ee9cd864141876c0f3a7ef5bde44eb739a2d57f382c111, 0x12322fd040b34a81c766d0b7f6b08169d71267bfe4e062db2ba70e3fddfe11de, 0x26d80b8a84160a70b0f5cf24c1716590ec29017c510df0498531357fd5db90fc],
    [0x1c1885862eea07d6b7f3c505788d6db6cedfab35653a6ab60e4c87def7b2a467, 0xb524a2ad8763478181afc9a6a5237b6e1c764cfc92279d358cf30126a817fb9, 0x20b5b8999c02dda1e9bd986d3a8269310dae8f495ad1a22328c2db1327df5e62, 0xd0f87e3b308ffe8c5cab894e36f67dd72d078612dd63361c06b35c918fed4ae, 0x123e516fe339977204d7ea7e5c9b0721940a5b4a95ab46b288fcebb742c0ee6f, 0x13ef445954b8bda6124b7131f5728765f5b24bea3a4b1a719f42e595e887cbe9, 0xe98eec1d6ee60242d15ce21411aba7748c5fbfbc4b2a59669d877453e90f675, 0x28bc2cc61c65795020174e44cedfebbce73bd85ef90ffc7d0ef57d92be9dd26, 0x26f6cfe986698cfb0cda65e410fcaa91f5e6634cc34cdac92be5997ea6c28332, 0x2e869b6f3ca5d71fd89d9181de16f10baf67941d5205fd30012c2693365adff6, 0x71eaf58b35bc4789add0d47398fd51465ff4f212311452b14d224331569985c, 0x25ba599e3fec62e63761cb1f8f0b88f2eeedc21660dafde8e28d2c4ede4e57f9, 0x29d42aec4e277a4a6be899fadec8d2b285141c974261737ee82def3b317e7acc, 0xc09feeec043c46cfc9f310a9c7af29b65949c260ecebd56fd21c4324170967b, 0x19d4aaed064ddd3cf448db4647b163e4ffc42821025a4ac841701eff909c69a2, 0x154d5219943607c0ad2e29c0d81902f2449ccb6bebf0cccd9f00d768ef4a4a25, 0x5a46832a472d5881f5b6c6af3b3c7244dfc262d26aa99310b86776084865f43],
    [0x12ed3c938a1a941913cbeb7aae8509fba1eb1430644d805cb1e972cb0caae255, 0xf4008ddaa3cb4790781f4a43f47aa9dd6d0ff5b7ea49386bcc7e5eb4c223850, 0x14afde25d9c7c4c30cadad73bec5f16f23aaebfbf02252ab3782e5305a05664a, 0x1fd6769902f5ec92dc9d223729140f1d86298ea86b79135e555e181c93ea0dbb, 0x223b00f6eff594404f0e715ee50d8fe45789f59e69852fbd2ec09fa7075ad477, 0x2c91e163cf931ecaf31262498ba3a05a6bdec82ddad854718a3b0576953006a6, 0xa1ed5a879c3f93c97f473cf91ef298a36663f945b9de4f6a96f3e383d6804db, 0x39949e437643cd66d863127f972a141c87ea87b0f8dde03ee6a1389f8fd23cb, 0x15f119b61366767f99f8adf87ad3a265c23fd6d25231225294e4dcd88cb813c0, 0x955ba3f22afba84ee95daee6cdd841f34930e50cffe46a0d8f1f1d090e538fd, 0x77e3946ea83a1c5a40a4267392a8647ead43799ef57d193239bd84df63d0ef, 0x189cebb8965e5675ab5098629371e090d7ea71dfe2c0be2719bafa8254473d4f, 0x1d95a2e3c248ffdcc48a60572facbb666304d758e17f20eda18af7f165f805cf, 0x1b0c7c49d1d3c697de7d506105f2ba6a89f1c5e66f1a7678827916fb40841afc, 0xcabaff978d024a91d16a77c0c2a0c5a9ea86932d5b2ed345de9fc53eff156be, 0x15c4161a6b8eaeba137c8ed19853fd0a812354501ee854554fe5ca09fa3de6b5, 0x2d3b3c81a276c60417d23026abf828dce4ce0e0bc30a70027030f9840a81f23e],
    [0x2e7f93b0e053956ec07f51a759a6ab45d9dbc4a234a99a004536f9eaad4d3643, 0x202c588a2b1f831cebc5aaee90a74919b362b0cee330f377a661e09e625a67cd, 0x14f40239131b135a8621e452cc29bf8c072ce99afdbc1f1635857680c4a00d23, 0x2b6a722066a70dcedd0237b5f86397539706fdeb806b1fd938dd1c6a5e2e2a74, 0x19d05a3830cd481e526ffea5140125b351f3c67286814c865675cea8150faa84, 0x2c60e42430d3a18c9959cd15ac338a3f86087fdba76b59646985f868e464c314, 0x75f31295b0456816345ad96438a1e464ab8200e3c097cd82784d4a02f6161b2, 0x2254ae810bc4f5fd1c80e7f1f382befdbe4cf1dc0d08eed2da5653a99ec9df4, 0x2bb02cb5ab5f83510e6008e0b126fbf481faac0c723cc6a1d9a93207fb41ad75, 0x124562d31cbefb17f49b057eb72da830c8ed679ad37e68179c53fa35c36ae188, 0x6d1daddb4c57fafae2433ed66ca2679470726afe109a7ca54d1f820a2f8e620, 0x1dcb16c9ff1605e40eeaf0d956cf517fe8d7dd67b45a0338381d0b6178e5e800, 0x2cae888bb8a4e7884f8dc77b78b8bcc518c2369dc7dd0831c52f5a18d983a6ee, 0x1aeddaa595cd8d8111753be2d0c2a9b2b6ee514f93d7ef0247814c11c1cc82ef, 0x3bbbce2fd15d120ee296d87fd411cd2f2e9fb5167b779d46ca4213cff8ee3b8, 0x1ff10b50b527b5d4596c00cd36d44acd4543283de5a3d5fa3bde6993757540ac, 0x2c6588a782d3d41495202b01e275a52dc247048876030b97eb188bc8c95bea2f],
    [0x76bcfd22092b15190c2515979f4f33425fd46e6a2c4b96065a8029b55bab99e, 0xdff737984ffeef80b1bf1b2d11f167ecd2f677c582dd3a035086bdd721c3b5e, 0x4a3737a6e8cb0a148004effc929f67895169437f651699f07594cf945214fa6, 0x78a7c32188f532a4c6c883faca8c182fc2c062a5c0ce8c8b8626e3094cb3eec, 0x2a99e58fcfc4220ca635edbbd69dd45975329a3187e48f4be928c61b77ea3c55, 0x2613630a06d458dc16fcc937052e51a36d7603ce2a3797a5dc5ac66d0cc35416, 0x2f2cbd8c08c74f519114b76c677b99f491c634aa55560e65680a212f8b1e1a5b, 0xd4d0abde9a960015ada3fcf2d714401352386f30d3949b2b0704419bd899a5c, 0xf2130d528371e30d4ea703299efd119511e3bab05f14f91909eedc0d1de5879, 0x98319242a6948f82ef14b12c7fcc28ff96ba8026285a147a86592115a52160, 0x62fea91867fb6a828bcaaeef7e8a085ec7a3c346082d5fe5a0a241bec5e73d7, 0x28c475d613488d080e34c514343a465255c7cb468caf0f5dcc387a47a60c5066, 0x2317df00b3fdc06d82f96dd415a5e074297527bd14a79e6ad4a6f29a65f854c7, 0x12f26183503055b22756be3f077fad071b61b2543b9a875e4c62ed90ca86b1e9, 0x4ffc4a88c90d5863bfad30f22a75dfe4c0a1a00077c141977427ad19fff78d6, 0x2a4687fdf0a54977806d379417b414dc5f8b7e43681c86997430d4e2a4e899b0, 0x2ee4bee3e70e20712d209c95b2cc387f961f29603ab7aa78867ce239b32e83fb],
    [0x147975e6b87359c26cca580d1f39e8a4705eb9ed7b763bebfcaf5b9085f80c08, 0x1e0746b013d22fe39f8996c30a6a1e35b720c44b15e814fc3b3d7c059d2a8737, 0x25d46a2d30b4b72ac0e54fd9261cd3258daf3bf09d107bc501cbc09759886522, 0x6622e462d0153d160be1306480a1bb8735003c0c4480eb0b3483da638b688dc, 0x18b349544606b6d2f880d4d65bca18ec7205c958478871efff8db8757f02987d, 0x272c5e77398cebde63a29c487aadf21d6b39c96407c637a9abd6473e237ea8e1, 0xa08d98be139e8abfb2783aa1f2038ffa76acfe80937389af6e17e444e3e4c33, 0x1cada2dc7078e2ef24d603f5968ab6f1eab545b4ff38ccbb51479b2a42c051bf, 0x2c97988a1aba401ea6fa24992af259f4a6a5fccc4fe18af6111b0e93769eab84, 0x1d6a9118e09c7396169439ed85bc0bb43f199cd5826272ecea77ed58f6cc504a, 0x9414d9c15fbad6efa8653f41d7d4f2942e4370349fa231bbb56e48e35df957b, 0x5781ccd4ee064dbaa4ae321fc1605f0194e48d168fcdd88dbb39b1c1bc13f5b, 0x23bcb1987352d71ef4b0cf992aad1aae71a880db4312f3aea4c97aff2117452d, 0x51d85aa02303e3414bc8ba2e3224c22ad1ebb80accbaea4234fa5ce3e5641fb, 0x2deb5f01fd5e2b8531f703a1575822a3764b7b6320b0b60fdead5dd8a1d2a9a4, 0x25bfa2550d3de62d3a22f92a65d94c44067c6566f4962b3aec52cb591a7b6b9a, 0x2a5c2c4c572c920accbbf7226f58a9b7ba775df5123f3ff4b51341991baf53b9],
    [0xad60e977aae9462e02bb616d42e18b908a2be9a072d5a2c71ece96598115a75, 0x247e497c5bf20e61fdf6ae0ab5280855dc7bba1032375a2d875091577a397d25, 0x183b36babea3585d6c58f20c76dba03dee715ec0c441689e37979ad7f5f04af2, 0x141ca6eff6f538f57699ae3ff5a2eb5de77ec1018b61b8e4a7e53e5fc1307ffc, 0x1511cabe9037f553e220d55438e1077c2bbfa78c98d66a60290ab591acbb76a1, 0x3a5c4b959a3856e65a4b40e5aa3648a6665878e1682d8fdf7e1fde59f7dea28, 0x77f1a52a01940023421bdb01ccb56f05fecee81a7ca3eac403881553e1dfd78, 0x87dd493da1d10094af32aaec2e2d2af080f159d4fc224cb369e1b4a13297b2e, 0xc228fe72bee2e4b8f347d321d0f358854d306e2582b7592d5512c4cd036dab0, 0xb818b7f6007898e60bb94735ca6b1387cab9d75e92a7472902fad5617b7bc7a, 0x2505f41da9f86d7f99300cd529f49ffc8f42ec8a6d5dafab4600f91a024cc8d6, 0x27a327c22e4df06ab45d5a6abef43b28ec1e4cb0da4bddb700daec55b19aa891, 0xc73c0aedb840515e1ffffbfc4a6457d909e342b73532e06f7638265eea38ba4, 0x283adc34f2044288215fc3e9c0ff9d498ba0a67ea570109a8265bcb0b605b020, 0x1b0c7ff0e4fd616f2bf2da23162ef0d9c58fda56be0d4f378a2b93a2a97cc916, 0x970dc3096093f61f8ceceb15b04490cfaee733b64fd27a9f1623cb1a7f93903, 0xebe5b7e7328e80b52ac80de9adbac046a99b4102925916ec222f4104c2f92bf],
    [0xeb1395379a8e276552b04dacb8f90e0015a81988a35a979897bb0fc78ea77d1, 0x6babb46ab92e9704fb2408e1f06bc2bfdf9122901c2ef867b5da8d08e06c071, 0x1369386554233d26293aca96e38aec5168d284265aded58eed3168a1699f8529, 0xd02a527d932d0f5611ad9acb325b30711c4bbb8771c2781f21f23352a3c3f16, 0x156d4dada9b399ea2fd7f540123a265cad1b3cb2e682b804182b89fee1b2ddcf, 0xe362491cca0ed0f13b3ebb6527f6568d84bf5a52972b4ee493cfb4944d9fb78, 0x1c9cb689766bd35d4745820fdabb8f67300492a2fde727acc51615f8f75c37e1, 0x2a6e580cf64428f5bcf6d62c512e8b7aab5990b963b8441c5dd02d367fceb878, 0x1be0f1d4398ff3703b15ab603444be8b9afe8773771a19abbd4ef940e1818972, 0x2f19105021a324aba332ef1579e08bc219c8bca0c7cb2aa49baecaedf4522477, 0x12260a4d0c2c8cfbc64be9f9d51e7ec21b8ea9e7f3a38e655fd276b14ce0d59b, 0x519a7ff9e05ab1320a810da884ccacfeed01f6fa59007c3df28dcd42f3e64d0, 0x69761951090972f3a5dc6d5617f62da6ae95c3185c35e33c855ce08afa3b279, 0xefd47cfe97f97071be374a80ef1090408eb233162b35d4990d5b3a933fc057e, 0xbffde9f636db94acc6264efce432551b6c410c0b0e4636fedd07e690fd04c1b, 0xa2eb632e191cc8c6cb424e382067a99738b32d7f2b62a63b1f6a6a475784c26, 0x56f0798d99bfbcfde2934d2e46d6e0be2fd5dfd82226ebf70176834620630f8],
    [0x1915bcd732449c95dacdf259e36e1cdb3dd4cdf06e296a309f8fe51eec61e7e6, 0x2980392958ee067ef9084ef18c959734718cf2b2c83b92369727b6ca3f3740e9, 0x19b433cf00c5b4d088df012da0a8bd3e4ecca42ccb77f4441960be06cb2e71ba, 0x18912d592dba73b6056ed424dcd4b84ff29a574c4ce208cb21268f37ce491c4f, 0x24f661b921ae9339a945b183ad9787c994a332c0bcad0da2c1805c318106b3f6, 0x10a13b75dd5d69abb581eef31836b7a3e3fca217a657853ff62ac62c1f148c9e, 0xad57c503454d16ab5b0295725ff30ee86752c7353ee29215e5fedb979b4ba67, 0x677af046938b360d7695d7e2f6ae0f00a5d1dc99d364ec2d50ee129fdb51823, 0xcee0638d10b1083fae1c0bab16a3326228b94c6524f153c96559292c0db26e6, 0x538c9d8d2e2ab38ff7200820b64afd035761fae3ff3327924a51511436efc8f, 0x23c81bd2c26cb0b984c8fc0b0b172e1b15bbf941fd0a0557460b526521cbaedc, 0x26ef309d5dff5bb1430732255c2c9b6f5be97c5b74f5e934c5896b7909dbfc1c, 0x25e5299f373d65df5d6b504087a05c1fdf334c4a606a27a78165b1ad3a547d8d, 0xcdfadce4bdc8e0b453ad59573ffe0baf54f32c5e793a28060724b96ab0503b4, 0x7efad89e91ffe0ebccc66e6ff70ba242bbd898063b588da52c78256c45e0c6f, 0x356109a7e1fbed35c2423c9487b85950ea979a3af3d3c29a99f597c1235982a, 0x1c2ff888def8b9d77049158f4690fe94f9dbd7296b9d436c19662484003e8195],
    [0x22af2424d1179d9874d1411f5efa14a51f668372f84ea264192f470e683c762f, 0x139f8017ffd94709611e0bf99f6124e1fecde3b819804a58cf6c1e600aca6228, 0x15f05047807c2e85bbb63382a1fe1a24b2658a5dfbb181307cb47f95e66c23e, 0x1ef98497c9b2b0b5311c6c1edba8788be3c9ff222a5f8ebf0f27e4f78e15549b, 0x16250d6aa15a9494183f1010b0fb3f79ac5bf23d3f8dc32cddb11c0c881b4f7b, 0xaf48621df9e4ec78e3eef8631d566414110eecbf67ef067d72c357401523b41, 0x13139af42c12724c0e681d923aef8568c05be2dfde7de75bdbf68538b4f304f3, 0xdbd2668db4c28281e812c967f594f8e21bcdea18169681c6cac5c34f713fd43, 0x19b0e2bb211bd6301e63add6dad1699bf4573f7473f84f236aefc2c5cdc8d8bc, 0x2ab8f09ee584bf566e89bcaf6e892980748d6a28ba36b2610323206bfc32636a, 0x151e36689312ae49e5167afc529f1df2656ea735d75e223227343c8e7e54261b, 0x1580f4d4c5158463c838efd48c3f7eb754820431af76e3cd7c732b7675b8ab18, 0x1edb781a83ced753fcceaf16634606a463ada555651d60bd57bea8a061373367, 0xfeaca5d311b7cdb68089775621e42797e15c98152ea148bc803bf86770e0b67, 0x1c1ddee57cc743b36794655f244bacec9dc8d54d6218b2ccbcdcad9b067885c6, 0x1aeb3948b6a9029ae142ab2af2273799a8044934c84a554544b6fca0eeea9b0e, 0x726ffde988675e50bda0cbb94903efb2b44defdfc654683c8427f71ae027c7d],
    [0x1517701cc56cf7eef55d0a49fc12f0600b90873b5db3508e420f943a26f707b7, 0xdd0c481d76391ca3b08d878c09656412a9d07986ab2e1a643460dfeb3f1cac9, 0x759831e0b6f9b3bf2cb5d3ae7a91f27644bedcaf48dc3efbf7977c47343d931, 0xd86374d029a4025323a7e9e47bdd2dca7e6aa436a769ee42e16f69ffff23ab3, 0x1da5583b974639b151499f74440cc646d44fcb31fca86c028a2f534c7c9cc9c9, 0x2d21390e8a5334e81589878af73af2e071a1a75bf70604a05aeffa39e858d19b, 0x34b612003ab15ce40cdf7b7ce684411d85b530c2b6e41e6ddb69617e73a3d19, 0x20206a1e94b593e5c986b1e0248994b3ee4b6158d97d672fec31e5cfedaf04d3, 0xf477fc4d4b955f628106457e034dedb0501804c75273aaea43245e9559a23c2, 0x2eeaab49efa5f4c2228db449e32024f6b683624b54a64b31f35daf9cf2e705e0, 0x1b7768bb9757c6e790e77d50213cf99fb72adf625bd755b7035158fad030226, 0x1f271095c337a81f567de52856a2b4cf8a337adf58b428aa945348de85886ab8, 0x27b9beee90c1dbb86beb0af3b545d3d912af1dd9af7dbcb075f24cdd3b8e031f, 0x1ceef8c70f1219ef6ae6cb89a8d813b1f4724cd7866ef7d5a2efc695f4699020, 0x15f007ba89f28ccc1ca0e0c6a21ea1e235cc7cd431e9182a425ba7569fb80296, 0x3724dd1e2b826c1fd02bab5d8b17a081fb9eed9ce00126ac3f27aefe00311d1, 0x142950b5be98fc5debdfacb80e933ae97c6c6f3093df509d0afe5de2025e0ce]]

/-- the tables have the sizes that the code reads and load without a panic -/
theorem sized17 : (opt17.sized 16 4 68 && opt17.below bnMod && c17.length == 76 && c17.all (·.all (· < bnMod)) && m17.all (·.all (· < bnMod))) = true := by decide +kernel

theorem ok17 : opt17.check bnMod 16 4 68 c17 m17 = true := by decide +kernel

theorem inv17 : invOk bnMod mInv17 16 opt17.m = true := by decide +kernel

end Verif.Poseidon.Bn128
