import Verif.Poseidon.Check
import Verif.Poseidon.Primes
import Verif.Poseidon.BlsT15 -- only so that the large tables are not checked at the same time (memory)

/-!
# Poseidon over BN254, 14 inputs (t = 15): the tables, copied verbatim, and their checks
-/
namespace Verif.Poseidon.Bn128

set_option maxRecDepth 1000000

/-- starky/src/poseidon_bn128_constants_opt.rs: C L1667-1848, M L3499-3755, P L5621-5877, S L18837-20578 -/
def opt15 : Table where
  cF := [
    [0x148d9e4542066b125da6d69ff3fb676ebd27e6a38a1ff4281bd639c97af6ffd5, 0xb60a28805324295fcaf51bb88d9692372cbf4eef1cba8b85cbc059346691a88, 0x2d38f812ad1d7ac79c32fdd57a56edb861885f20fa4bc6d0d942c2f41e8e4a7d, 0x25738acd1163580033367fd8f1ee199d7eb3c37891e06bc20e6b476a0357588b, 0x247f6967fca42689ae8e20b5a7a198d63086549b78c1620a51f5d36824ccf43d, 0x2e22813077a668b2b75249b8d515a3dcd93502006694245bb087ff0732708b93, 0x1523ea89be61be47e1c36b0e024068c28c48da74bf7069ab2d77389c83d474f4, 0x146695ce138230e087b53ef1bf81601f2591dd344a7cb509f138939369e0d1c3, 0x12d05d9571fa4b4171886d9c2cd44c7d7fc5a4125195e7d28c3c47cb5cb5b7c5, 0x242721147084d4613543788977111f3fde6c89326a556e35bccd2a2e73cac68b, 0xfd921ba8395a5dde833e6dba4173385007b38d1af5e3841a345c9a480c9d292, 0xf0bbdc7a39e5146929f2e1ca9fb4a63550cea8f12109c1d82e601975d581f5d, 0xd65008588b2ee1a4dee0313b6d4396952d901385f2e1afe6a0a0def765dc2, 0xaea567be31e1c42ce33f589d903363a482f21c1c3d8fe50fa6df018a2dc7c25, 0x2fa334757b03dec6be1df758ebe0353317b35316ecfc72934d069f182346bbd],
    [0x2180dd9f972b1eb5e8819a843d24f650e8257e7a8ccf6eef3fa3d744b16f073a, 0x1787a3fd66cb49328100d3574d7070199a6bb88b84df6e9b44afce9798233c4f, 0xfbf506b6714d64dc8623fc0cf426f918053ae81e5847d3367ae7df02293da8, 0x14f57bdb3ddc75b65eb0720e27daa09412b30ecf7b115e8162b9e55faf49f5bd, 0xdab0bef8d2d1adc80dcca581e1891ed800bbf4153eed15ce71ee5e0b0bf940a, 0x25f6be3a9c5f2a6ff32087b2caa01b3a1b7909811f025196f156319239d359ac, 0x25b541b96923b17550e137a4a5bc0d544d00c5da7715c6f00bdffb9bc56d0dc7, 0x2b4ad0860f8c3c432f2a037b0e2f7da7a4a5b3601044ba24a56b5b9a3dbda40e, 0x7d5817bd123f90a4a3c2d77528fd9366321d8dc69988458cc425581c9643af3, 0x13fda3b1d02a53b106c4ba4652cd90f466b97acfd136c9a8431f1dce531aa443, 0x2450fd6b1a17be1ec4638786bd3fca4cca4cd871268eb07b1e5aeeade36fcb44, 0x1c0753ebf63794a29dfd83eb0d0e76f6d1ead583f72f64c0be39aef9e577a0a1, 0xf110dc007ad810c0fae508899bed20aa5cc8dc3d8324f0f7bbc3995119daf8c, 0x30623c2f24a7c6ab307f0e88488a009922fc2b8235fc741526a4d3e6a59228af, 0x1d895817e78f2f1f18e53130a6ed8bd6e1d189543380f691a969483f0ae3148c],
    [0x3abf174d2075102797f61660105cf418ded1fab324bae35d136b17a0254c01d, 0x237478172f073d15dba9d12cae6433ee71521ac294b54d78eace7dc941b2f82e, 0x180f820a7408dee73a72ac02f7dcc75f99a2b9f75a9aab82377d373eddca712d, 0x2a5ebba744ea7a6e8210f483f0b6b61c1feecaa867c8c11aea0488b822772614, 0x2282d8326c3c12e0f7575e1acc4bd941893732e1e7d3c0bcddd35e366edd5f7e, 0xeb67d8e687cb2cba01552ecfd4fd7ffc3d5788cb47aa3887a1f2ec3beeb08f3, 0x176f406cc04bbcc4bbb82c56e4ec20bceea588f1bef8fd757e1e58d47545b77f, 0x1c4d0cec6c8b22be0f1a3e9e32705a8a221d887ea0bee1bea1a8226608905658, 0x1e35dec79f5a579a42f82c45b1a191147bcc4e3fd02f45af412eddae08db4ad9, 0x75c4a33b1289f7923abb46d7a684eeda712004f974ef5715f4e2b504397e9bf, 0x2f416c15f901818152911089ce2a96018e79a8fb7f311c4c6a4d9ee9f7d8a83e, 0x7a92367d210292658449ef3d46ec96b982c3448053bffc8d27b17a643f43979, 0x168799e51ef2e7c7b435a220052e06295f6c08b1e6b0b5122aba31e2d953e44f, 0x2c422cb4040ce223ae9c21dd7331896b68704c26a8f4ddc877bd0659e75c8c48, 0x29966fed42c09b35591edb4cac0574441dfcfd4f52bf0cc31b2e624b7eac280a],
    [0x26ddc145a94457eaf0283876d4ea7d6bf10b7827bf3a684afb10fac1d172894e, 0x13a8a30590a2c5d476f60d9e9ea7a4c1783a5fea077af03299b8c389641bf4c2, 0x21d12e7122c437251656760882eef8f3168c237646f3a58a51c265d8b45184f6, 0x271a6257306b4337cceea57039d404e1996058c68e71d63ce1329810af2da4ee, 0x1980478607e68ab7961860e38dc78da21f2e453f89acdf82ea62ad9295d8f625, 0x260653cfe0ebc0562b54b9599ba00669da343a3cb3a14c64f86149d8510df8aa, 0x2c4fd7be2751f8b6129d997351088081e60585ff012498424b526483f8372f98, 0x640c9db6f458697dfe17610b0692908cc7f72c1c0bf5cff33168c4867c22a0e, 0x925e62b7772164055008f8765b827f251b006f2dd2370535df1a16e872b923c, 0xaf4d8cd74eaebbf7a29bceedd1dcf0ab0d00f8de6442bb8626e7f04b043f40e, 0xcf6a34e2cd376d6b000d8b0a5ed004e7cfcad8987f3650095f4d9740afda335, 0x1e75dc69b7b94f915b925a773280b9b3a2341ab9069eb87c883ac87da102d9e7, 0x26bd58259c27facfca63e248ab6a130ea9893b53928f3d373a0a197c5c2737e6, 0x1511b6c19aef08f6e79cbc7282cf4b5d3eb07aad10b9f5d65e005e5433db1130, 0x26d816f8378615ea31b08673baef673c5151c036a5a34ff11cc0ceaffe4ad982],
    [0x1c38d60817c3a646a15d82ede53a8ef821ffbeb2b16c8feabd6fa7ed02e65c2a, 0x2ab192357923d1198143414d448648ba1f60a917f4806bbc2a4ad3b2617ecbc7, 0x2920a902ac2c11523c9425ea2fcf9cf430b6e27c0ae9f587dc9bbbeb96536352, 0xd4e9bfdc6f8dc1a6ee5aba8e5f9f67ef3b83a526012953a99c83edb0ae1994b, 0x295bf676ef95ef309c1d3f8dedef57582ec317807a72ec10674adcd1b79a1717, 0x232180e854fede1a3359dc8f1a5e14c3ae7b5186fbb1a3f6a6fd9f5252351812, 0x2405a43f35d247ffb75de7586ba2287f9b057bb321bd9ce9bed8c89807d67979, 0x18931b27ff3a9e92903717b2eedae0dfdf33e9cb5f0fb10a35bfa8f3badbcdc2, 0x1fd6e10af1b3189d42548c7ccb93749c4146adf3997b8d377c095445d90af092, 0xc4772ff9abefc798f553554cc392284b2a8ac4b043708c183f18bdf6d69be41, 0x227fd4734e7471641aacf664825d3b15ee10d0283c2dc35364c9b167ccecaad7, 0x132faeaa250b60ef57f7e0ae17f1799fc9530ba5e6f2baadaf01b089595df9df, 0x1fe24af9ab6246e0c85104cc31ba59175c60b155647623f893718608efa2047e, 0x2f376b18215290f25c3fb987cc89569a3f18ac443fff16989678e205871becb2, 0x2f2fc0ee912aa02875b096e48336411eeeca6f3de85152f51038ca291bc0cb18]]
  cP := [0x2cad38124d882410c386b4eb1445ffe1c73f7b789a273a9cd266bc232e4c68b0, 0x52002de9c04553df4716c46a80102ed453be8d5bfd9b2f0ec7c1d3002a7e7b2, 0x302d680ad3444e026b06cd6e4bf62cf7df234ff9e5a46c48c17c2937507cfccb, 0x2b3a9dccd38768197abc3b4cb640ab3c01206f49add14d1d705c371c7f705afe, 0x96a6e47d4345707b5c25e86c8a690268f5e831e6df4d864e1f3fa90f2d8537c, 0x2e2b005a0a54d0fefacdc8c153e84f5cbb50ebca105fa0f0242343fc4893783c, 0x11c8ac2a7f796c7852e23e76cdb576cdf35bdaba6918f90cbfe7aa2265554a95, 0x2c2e66451aadb830f1c91d8554f2e39e4ee19b15709052851f481629bbf12b91, 0xdb078c9e2f68eb7d8f869554da434b9576f186dd943b1f586b9be61a172f960, 0x79328f87f73198430e17dcd7613bf651afdc86b514295f7c238d2f267618abd, 0x57924e8f3e798044d6591af796b74ce96bfeb676de3313eb50e0810136b8b09, 0x1730b8bb9dd03d8326981225e8e51fb9237e4c03fbdde5f0ee12004339b6b9a5, 0xd121b54def21112d91a5bc9fed5249f5dfbde7c63bf2aa63d14cb59b0dccefb, 0x13924c1b5bbe6d5c01944d682370c13cfdfd90f17b55f07b05860713ba9457bf, 0x1cfaf7ae08968c76279003598eb1f7eb6b76ca3efbaa873f21e3e0ebaa637ce2, 0x20908d07c87e65c8c66ae29d2ef20f8b8049e304a818e769a3c3c63ee4eee0d2, 0xd225f408959d91768201fdc03575a68e7a855939852c02cf64e3348fb383d42, 0x112785d72b09b749a03120b3ed7cf793a99ce5710afd2f07d1eeb39974f03340, 0x2dc01fd745f8ec43d61a5b355b459750010ec7e6b4a13acdcca627d7f6f6babf, 0x16f35ad4dc8075f6c173b9588be33839ad67fa5883783b0ae6f0601de726afa4, 0x1bbc143e6c93e6741dae37037285fa42ef8dae0d6fe3728b9e92e79ea566b277, 0xdf7e17da597a37884ec03429b49764d9e8cda46fd656a122f8c61d9123d4aba, 0xd73b0c0a745dd49bcddd632d4e41f57b39c28db722520c24cb3d9ced0d8ab33, 0x263f950c95141a28873f4ecc0d18c82b89f60e7042cb3e9f128cfc5f03e38580, 0x195e19715160d996ce7464f95db19bec2c71c02faba0f2c6c5ce0ad748fd3d3c, 0x1cee7204151b6a47ab8ceffea244d1928621fe2661b5c095d1cc24c1a6579693, 0x29d7696ce5bb66f2bea6d55ccec4dbd464298d8018135f734d115430cc82c42d, 0x26c47c18b71c8e81dd025369e12e24ccdfcec6cab974c0f86da98deedeacedc9, 0xfac9631760c0b7f0824bf81492797db8cb3f5e4918040c4af17a4c042b116e0, 0x7e7ea789ab2f31184f5a93820b08a4f6bddf02fe83f7c42a6af69a6328de863, 0x20eb37fc65efcf8d87ab26c7cbd24ce2b597e7d9a73fb6f2b9db3e0775534bc0, 0x20f4028b63bdfeba4e2dad61f4232d2a584560aeb71bdc2f6c3929a7600d64aa, 0x60e204b7c08f1784b366a37a86d0d8d90c386989cd167fcfabc8c2741aef9cd, 0x408cadd2b0c8fc39ccbe8366e16edee16ef6fcb00bca0b843681ed56a6784f, 0x1722aea32703f506f24c5551e3b591dd24fc4ab9d188c149fd1b75e7b90dd353, 0x2b056ea316811928d984e2796d56842e444501dbaa8cdcb546af5de36364f4e3, 0x276f12a02aa48133e660f6e93ceecfa60a529dbb444a4553824b981e3396d169, 0x1199c8941c5f8f8ed0cb67c02c5e014364ad7f708222ef17e82378e4c155a8cb, 0x28a3d2a547967bbd877ebb18ed238e91706b259a1723c1e345de5b545b8a943f, 0x244dde50ec65e0e66cc3bc269ca9689e25a89c5269a4b7fd5137e9ab6b7b1be3, 0x18dd271a54f6e5ac3aa02025470b4612c9044be00c51b80e347938a528fa9d70, 0x218e424622d7d41f3362cf743106e890d8d2108695e25d279a2e88beba3db8a2, 0x1f05c5f5041b178a54143a02e8850a9e94625955af047d9e658e7cde580fcd4c, 0x191da8c6357930716bc0fc614b80b71ea6b2540d14bcbfcf251086764f3f6e7f, 0xd54bfbbf8a8cf7c99b0aa8e6a688b964e50e68f2de8ce26038e155ac0632fdc, 0x22e1e8bb2d7d1216a9814ff5454f064d67a9c56e4bebf7700cfa1b651decf8ef, 0x1f0fa78dc7e2300fa36abd2a40c858fc10ae1455bc43695d121c187a26dfe7c3, 0x151c8de5c4d6b41254130c6977f790f13b73f6fe786f47d32d6a0e098dc8ca10, 0x191451e550240b9f0f15a5f0ebbb360ea9b98c6730e1097fdf6b7b8028266433, 0x88c58a21c4ac05f1169de675c2c543cdd22bc1dd06c42fcc4eb890bf0e518c6, 0x1e431a01a34cf72247817b3c5684f042878c6d8f67ebeddd047773744bccdcf3, 0x8a6ad0a360a0f2558f78abb268a4c7dce19ccecf989a34ad2abbcea4f50986e, 0x2fa7d3a514d879b93b93049fe276e60716c547d4f290126c15e8b666224acfa3, 0x2f352d9675da8d7c81494e015133a5b8b4c62020898be4468de2fd81a4c2cef8, 0xf6ebe0388d424da0c79ac329f4b571cc3fd8d5bae54d596e6382da769c4fa6b, 0x1fe4cb5bb70a9da24e0f598396e434beba5ed2e9ad539951dc93a38c37fe3fb6, 0x29f316d8c7f3c8e7929d30849ba99edf66e61a2d414e6960081d0114f45c07bf, 0x4febefaae3e20b5358213eef06d52c7b7817a4e5bd8db4902d2ffde8868564e, 0x4d6b864cd130aef3a066bace271902047aa0564eb05701efaf55d1f218eecb2, 0x159747ffd019c389e54acb68074802edf33332662d5dbbba9b67a3c21dbed46c]
  cL := [
    [0x2116bfbf5067716afcba7419b07b3315f0ee9c8ddb034a6e6b5fd2e78793ef3b, 0x2ba76cc7a25af15695fadb8fd7d436d91635eb3f251b2b46dc317c8f5060c4c4, 0x238465fd273e538d938139210520a07f2ce3bdf50e381959486dbfd4dd0b35c, 0x5c340a5328ed50d2b10d24af11e763ccf9d30906e5bfdc2a0f23fa8f23edecf, 0x279ab61cfe4f25485cea4bb3491598d816d5734e391bd1a3edcbbfee0da1c6ba, 0x76e2fbd39d4fab2ad6de8d53e70194771528f4ca4018fc56c68b85f041568d3, 0x75cf8404428a1a38f04accf51f5ea6a7f7d7cf66ee412149c23bf4c4e61fad2, 0x1b45baff5397fea5757900b2499c0aa66447e5e6372253457b9d2472dfc8622b, 0x1a39fbeff40b73bbfff7232c26d92db4afe3286cff840d193b4256a66432b09c, 0x1a4d4e0e68afaa99c0890c322d58e46ebfdfc24808688b64fd23ddef4e70c7f0, 0x24d619da14e5505a0466ebd24a766f2af1fcc6fe2dc4bb58440f618d8c57a7ab, 0x274442dd02cb4d494bb38c28a42fc02494ab3eae56e115cb3c65ae4aa728716b, 0x26a9f2469481a594f9b546553c12df66c0fdd4b4637370cbe695cab374f5f115, 0x19b6db087b1cc1c4b765e70274236d981d5b022a6cf0d3aabd478eda2f895894, 0x231b94b5e1f8eda3405c1a9a05024fbb79f8722847c8c4dba6af33b0b5e8d072],
    [0x276a571b8b2cf637ae48734c01c30a91890729cb137862d09b0dee2f255c5681, 0x63d0dc1ce85c55433a780bc6ac9fa8bf4511ce6c37a121b6712cd8905787751, 0x1b5766499bbbe4410e990a078a5ee8d6ad5c4ba9d0468a056c10e0df4f3af63c, 0x121b65097837a750d24e9dca2ca61b8ef80e1ef478c3d4f1cbff64d4256da110, 0x155bdd180e1446723320311ebf6ce1668158921dec0c5d9496888eef28fa8396, 0x2c8541d4945a6610c164b4a4546b2f3b9bbf6dc9316b5658927b635d8bab8589, 0x34a08d31b52da90215ae00874307d421ea20c786605ae7fc87d0be172b8c3c4, 0x12552fe7124ee6d20886a7268d73a94850f06a600448641df55b08e7933077c7, 0x2d19c9d4694d594c5382702070e7057a9f0c7f7bb2ab83ff684810de0e2106cd, 0x20a7d7794bdbe939ba166d34ae843e1d84eb4632122b7fca26f4e341b0e28b29, 0x225c213c0a3c9addf32f0c5bdb33fd6957691135d84757b4c44eeba59469e561, 0x2eb542a5c77f34c674c1df077e89408f5481f4133e3ba62a4b449cf64f9b2537, 0x303a003af9c1e54d9d3189920396d0c752c9affe1c17e3fdbaf67b3811fec7ec, 0x2c42a27e94cb62ffb6c169979d09f39387a9e9f9b6e9df71c9ff4165a8ed5673, 0xae6ba5ef2e7dd64e3f24af20271927e95859827e9a9d32aa247de70c5af9835],
    [0x4c58d44d2b14455273dda0c92739446ed59599cee1a505d0cb3631118845410, 0x2a5c4931de9f553fe4e020755d8b5c10c12ebc234ddd501d6f45b1b2058373f0, 0x2fd94eb892152b5ac3b73e6061f3a4f952198f3c330e150d4f44c933e6c8fb38, 0x1b5395c281e1bd5763201cd1c72a3b5db71a99ffcfcf7db793704c0bb4d53c94, 0x26d18b9ffcf39ae62f03177f4639f37f569b80500e0bb4553466d67b46342b82, 0x2c4eb768a6db2db295d215ba0f81dcdcd77e0e34bc123791c03ee7d391812b38, 0xc2e3f65db73f4058ec7c6cc3c3ee5c49550dc106c35929f0bd2d04590309313, 0x28f15a4dfe1c74ae128ab27ca3208dffd9313d4e87a759136eee3e194cc925de, 0x11ecc3e8d929c5be84af974cce44aa80bc74a16f13e9b9627f705e3929fd2119, 0x239d451ea3e39517351019674cbc2a84c6a7add8fa6080371768859e9a89f275, 0x2a2a9313720b4adb8e4f5795c3224053b31bf2d6016d9096e56cb87f01f81124, 0xc0089ad49e3644745a0e3596312b34ba6c0faaf19e362bcb56f4a7974c6db74, 0x2ee82c31a946f5d71be03b9a041596afe624c9c6a6c4907a8be5dd274c3d1524, 0x1ae0e9d39c6100a8ded3e7ecc34988b75c5338dc936c91c6f1d95c405c07bbbe, 0x1f11f75c7d0ac841001b3123c045526e98c203d1a6caa18d635f2f2bfa735738]]
  m := [
    [0x4523bf1a8f284c6d95b310dec2b54e0e00e59b571dd9d46b6201c18e1b56dfe, 0x113ad8b46c3eec20c9965b5a7b2e8a51529871d0401b4de6f63de9e5211623e2, 0x1fc50a16dbdfa1c3b99038f47f81a1c5d1ef6e7b221d4ccca6e821220130e000, 0x1214a9d6d7288fe85651a8cb83048c7669c83b5ed82ca2642fff01e852a44b4a, 0xd421a7c25af5538788f49475836712af5da156f88c5867568cd958e305026cc, 0x2de8ba83d2b6ab6a711fb9230adee1cba46de8c930c86d266acb8c1cb9684e24, 0xea7be82f1cb493b1bbd83ab7ca285bf0a1559ea05c3f59827b3b013d0a91fb2, 0x1e3ae7e5775d352651d713ebdfcebf9ca8e905cfb792bf7874239450f914c8c5, 0x5943e3618a32cf050018a4e2375f4d027b8c14ac82a0de57cbb90c5122a64b4, 0x603755180f66e98215d61e5346b116cc00cfd058274d7d969b3af95e78bb335, 0x19817db66fdb8215ecf70476c4044c3f41d78ac5a549c684e35845947dca0b11, 0x73965f7a9ba8cb33a955d42da55fd7c37a3f0226b029d36dcb3fbea95d642f3, 0x9a550431430846b6694125b5642b00607f36a1a29485361a3cf427da77eccd0, 0x68eb4e9d6e0a588b61a6ad501f380da0f009067666c0853d156e33d59c43515, 0x225e00a0da5a7f7496b70d0923a7cf7ff332bff06958cc0f3fad439874f6024d],
    [0x19a92ac6087ab89982fe5650e5e799f91003fd8b45400748d2c25e40f04c578d, 0x7930cd5256f8ab77ab92b08bbb5b195a44a2382c66e27514619efb94e649110, 0x2d8d3d924f2897199e38eafbc7e101d17d7e563488a9f3198060796ae84c1b08, 0x1c0de2bfeafce164c9838067a8df6340f9d97edf0122333159b714f45c3f13b1, 0x20e4a28303dd55e5cee332f30eebafbd7932e7b3531d942454c344b8b8c17cde, 0x1bb15ee4d492a8e2cf1b10db1b738c6780066ea8347abe536357a723f6cf57be, 0x2ccf31a572412bb7d9cfa637707853217e7db5550b1cc30a894cdf483a3b63e3, 0x1d492c34b245bc12941bb163c5118bfcf85bc4f344042b2031ed8662a1f6ffa, 0x1c9b5c2c07fccfd9dc6b3abfe05675fc997eb7b8cbd8d8b4cb7e671615b0ecce, 0x243930ba01dfd3945f2aa02d588922b47c1bef2ff8023a849b4ca66a1bfe98b, 0x8f328e5e66c0b879b36c233f598bd8578d18e2da9f019f0411731524f42d90b, 0x284a2f083ee32a6663081c800713e0f2395e348dcecc89fc81aa75a5db2ba12b, 0x19772e83816fc2c49b96427c6ad0573347fa49a5df691252592aebc390055a35, 0x2dc5900039d4c8523ac379945cb9b58a54e01dbacd67f0c4baee85d353d3fe97, 0xcc378b44e58f668b45832fdab4a49372731ef2415c37f40b5ded5594aef3cca],
    [0x302608d750f16491df5a285f5f7f6a5ce6b554f5dacf0b69d450b24bbb4967d7, 0x28f8144bdae1b904ead70b3b72c7943037de6b48490efd3177783594edd28b9f, 0x2aa9aae62cdb852490c650ff9e27c9b33d4cd4020ca66f5e1a6b374e662935bc, 0x1e394d80067f0e10baa95de0d99b4e39204a18727d1401b476ec976b5f173a82, 0x20bd028c958d57b79e35218fe34e469ebdaa8e8e714e918d58191f65046b972a, 0x27fa2120431379cbd86205ff114f34dd2dbce13e1c2a0a8e46a1dc27e7b686fd, 0x564651bc1179170e3c97afbc4f493617017b43b213eeed86b9b1bffe521fe86, 0x7333cbd0ff13c8ade1febe72892d9ad435c7b451aa72a8c05a7082395882865, 0x290a7ae732f4754e0cb91923c9248971932607be2e829163f11612ff8a955b10, 0x1eb520feac62e4545f4fe7cdb675e36474b8b1fd19e15d7c73a2b1dfbb23fed7, 0x259a2a1f046844724cf992aedc2635f6680f55e8a0fdac695ecd05fbc2cbbd19, 0x8f78e6dc59cd4694c41abbca086569a9083ca8cc800bd9134e4d48ed9d89dc3, 0x2d8ec6adad3a646843c88cda01285f8f32d29c6b1025cb5421422bf8bdba7fce, 0x1b72ac4374e95b7b7d28cd2909507f3006e8352d4af19e47b0b909682a03200e, 0xd7d8273de237ba2d4d5e8051c5bd5e312d298b6726ffbd3af7e732af91dff27],
    [0x1a3c7daa6b4af5662d0d8407b287674d83eae5b7563405f48def49981c98c424, 0x2474f543d1f2f33b5ef3fbb190651135a59390c8a3661fae2df1d3f14432b608, 0x1848a60efc89965073b95773f467666687e38d59be208e8377d31903921057e4, 0x2ca2d8b0a793d90ed318cdb5f697193137155bcfb942d82bef558be5fab359bd, 0x6ed98a185bb2358f334eb257ae5e3183599c054c1b4e2022569b8368da1abc8, 0x1ab527614a37c2ffb00c0fad360abaa447ac1063fb9fc656d0148cdce2d7c372, 0xbc769cd7b34fcd1b454abff0c00b89b540a619b87c95444679c3ac6be84d450, 0x29ad5236ffbb598a2f8d238703608db7a497a7453ef9d579fbf05be38f8f76f1, 0x1434ece209d491280c5ae05d7e26cf92d99bb7289a5c1cac09a38ce53b6e03df, 0x255dfbdf30553413a1f8f5113d60e98583838d13e11c1ee02b25a387ea00cccf, 0x67d9294b4072b12c368c2816a53bb16b7e7e2a79979a416f2d02af862abedfb, 0x293ca8a06c5f179d938065ea47f80f65ff21969a9429e400aa177ecf6b6ae853, 0x255b96258dc8e1644f1bcaecee773632f25a6ea803cd32a1e01f82573775f6fc, 0x1f2a8dcafe79fd0ea22bb1563c3b28b23c5c4d7591d45e06744b3b379d426618, 0x22ebe0a315e07be4b0928885f52449b011b3967e519e438c424cc0428c35726f],
    [0x2db1c9855ac29acc679367dbf70f08d98894077df2411f91ef68dd90177c1e9b, 0x21715a84742c02d057ac41f743b166da023228425681950edfaff8581201a097, 0xc893808103549d2030cbfe0004ea6655e24ee71a1f8c1f072d5cf6e17ae2499, 0x28427ab007a68c7ab12371f13bd7dba0acf7e97ea6e64ae52d5219210fe8a2b0, 0x51deb4b234890e31f5ac8e69a1e532453774ae93a9e9360fe009ed377ae9c36, 0x170cee2983fa3d3ecef2f806f40eed8d8e135ceff076fc530bbfee876c9e7f1e, 0x244b6b63f8041a5975f4640b18c7d067e4a0627f18751dc906016b8893c35123, 0x2e72b1b114dfee7e8d7f0161255c6895fa786070ce62d806c45a22d7d98a0a30, 0x228e7399b0e05802852bdd5d5e09966f03c4c3aff53c683eb2f69e0fcc21c0bb, 0x18451132581b9adf996c6cae15b92d2e4c09fdc7d6c27b4426f32b5e66a0b723, 0xe1d7ec2a54b11b36e65d7551e9a875a88ccc7a6c0470e7c26e199670a0859b2, 0x29b68e652deac818824da0c2a11b408d7a839a2e8576c55bfa5f1335ffc5b93, 0x186e1360041193e12f38099b0e35e767affc3410f6a8dfce9bc75567e39bc402, 0x19294dd22da673470377d671fabdf42cecd37ecbc018386a438706d6106b04a8, 0x2ed3cf0214f444d436655e03af8aee2b4d96961eea06e8133bd6e8d3e38234f],
    [0xf06ee47558f182d810bbcb214a25da7f70a567a0464b348e1b30eca7de99d27, 0x1ef0e0c1f0b5f67644c486fecf02238cb7f4fa63a082a3c030daddce65a4b82a, 0xad80718c6e9d1c67b4a37b9e103db32f225fe42a9ba655ff065618b87b82aea, 0x2cffc378d2cec76ba7080b37fc671a96328bcdfc4630fcc2f2133dcf29c70dd1, 0x21f1f6a630471e32a8b9ac4b7ed4b04c56b96a71ee20a66a5458c6b8d5c6d346, 0x288851770f1a13822251da91c84e123593fae1c9cbce6c4ff2317e70bb658209, 0x2ff4ee110ee1be62e2715dcd119c95b95413376e88ec3ddc3f06fc9db8c27a94, 0x2ad369a84b57f7455ba31064001ca7779d2b4b96b0b4a91f156abec366aab786, 0x24f0fa154fcc6d6459d6c56f711f25e38d57e90be7b8046c9e001815edb41404, 0x7221cad39d9b5f8db705a8723038b92b6baf87284131735eafbecd533dda6d1, 0x173b3b349ee888d934aee9c14e889cd7d785d1e3e4f1eb72a5c2e56c48fd54c9, 0x9bc3e40bfe5f616fbd520f3894a0fdd37feb29429fd3a5015953171de3a70f9, 0x29cb31e1afef4f252578aabd76f23a1320aac90d4a0a66c2225e3d94cc48d22f, 0x1932bc6bb488b736e0d4bf306d41e622e66c1d685aa4598153054b40f75c0b00, 0xcb6fa0a5e11b9192a51904939d45a05af8055bdea3f379faac29d1309830e85],
    [0x2166d78d948dafa963381cf1560d00bf3a0a1c288a743344c8643a58daf8cbb3, 0x278e8dac8c56b28a23dba4d90fba91eb947f5092d4a7a9ec7802f61778488e87, 0x20d87476f1243f490246f88736ee5fd6d33191f0561271487e9693fcfd7a649, 0xcfcaa1d7d382e1fe1fcb950e14df202a08793d7185255b025d562eb8d97544, 0xc39dbdf6e6d24a91a0a45f922c894be252baa127d9ac76909f86dc0bcc68a66, 0x1795384e91bafa554dedf5156cd799e11210ffd2afe817b5c63ad5b85e7fdd06, 0x2666ec1a67daa7beb057aa0e6e8a10396601a21884372369c012b49aaf849049, 0x15793f31caea39de315dc5bf5a3662ad5d8e1a12fa1a7280f2efaadafa97adf4, 0x18800bda17a89832fea54f26741d86c6b6fb9e15b02e7bd065533cb5661d2a95, 0x156f6a09e6a81d8eecf4dbf21646bb968b2406786cd1dedd4cc732b7532f7fe0, 0x2977658a10de6e7921ab9e34bcf07bbca61a72549ae57d0c15691bd143d4d2de, 0x284181093e43419789263736e544817111fdcb559a43773f05186608acc542e4, 0x200fa20ed1b871313900c01f8b697760d030d8cc0150fdc58e04a0d8a2b344b1, 0x8d1d68b8437bc980aa7c59d83393b162a0827de74070d2d34b4eaedc17e7e60, 0x39598a1443c009678602b8dd3474f276da5d62425083ec628a1737e8cca3e7c],
    [0x2929be9bfe3f93cd34fceae665d96b1de1afb26bcaeea2f4edc454c50cbc4401, 0xfaf33843e6733437e98995e6f7bfa6feefa73d7410d8585918c347f3cfe92a5, 0x134b86642ff202388f4fe37356ca4f0ec3805566b7d4d412d8937a359ef9b401, 0x1d8724c5e641d96f6e372771b0a776bb742fd3c08e1ae250432246cd3bd01bde, 0x305614aacdfd4167cd1bfdd8fcdece6892d84d4a65e86e6f7c6349fb75e48b96, 0x2cda26473cfdcd185ba28cfdaa15e7de2359646a0287ebe8b60d702df009010c, 0x2b0666971fd911529e70ef918d019f44b5c9d77442b6d1866f6e76832d478847, 0x56c55df543a8d4043a12f409cd2c4bcf43a770f3e38c3fc79ad214b42da834c, 0x16b11f24502aa4cc3b0c2562a18a24ab8f986431b244034d3fc29555402b5f4a, 0x18ea0ede9010c7bf0fac361b5b8e7f97c75ed93a13a7ad4a017d920c03c98686, 0x396097733de5a1fa4a548749b73ff7c426f98d9e5ad16920614d337897f6b1f, 0xb9d5a3a957eef251ae9c26e53423f9be6f2efc24bb18756893a9d80e56a0825, 0x1a63a589d1710aa705136cb520c2f1c44d778e490c212d4b72e9f1538e5555cf, 0x1c0343816b8cecba48519b59b0fb6d4a9bad309ee38311dc3e8cfe8bad75dfbf, 0x1af56e6575123f99c5d7ab7b83770f0fd60fb9f4038c2942644069e3c243793d],
    [0x1076d439c67997c37c6c1fda9a37dc2f762dd577946f36fcfdccd7898ec67cd4, 0x2ba437d6ae6c588c6b71506c8b508347e634b65cee317af1fbb9cc2a997fc006, 0x2c04878b4cb8156e9983d11574ed99dc7562d3fbb1878257abbc68852fdd2680, 0xfee8f9731397974100834649ee87a27ac92be7a3810303460141aafb542a429, 0xef9ae65eb922605d4260ab2021dfbb4774cd5ffaedc1b79dc681208be6f85c5, 0x27ab4b40901465ef59007114ecf1fbfab6157c24f402246b86a60397267308f3, 0x2bb5bf03cef933e4ee87f511de3985cff0323ab7b718d4cbca3f429addbf3052, 0x1ee10e28c612d9d6ee72f1274850c3e829be5c06f5bb293280152a5610eb01e3, 0x20a9d575fea891302b106439ab03a8a951d8b2ef2b562991946eb2541f1fbad, 0xb73119c98d25eb6de14246b1401bef485c9dc6accedc23494b9526a39d53221, 0x2a66defcf489c23eec5079a0ece1c5341027a59e7c592e760184b826d70dba9c, 0x4aa8e91dc30f9ca318fe24718fe595871f7897e92d57f2d87d4b1bcf9a635e1, 0x133369b3bcc73ee793e869360cd50d8df60fe398ed9d9c0d0d03e669f796e87f, 0x709eab96cc6255f2ae917914f25085025490c423284916e23b608638ccce29c, 0xe8d9c0707dc5bf80a2f08c343c69cc659def86630af3141a003acb3d3e90c08],
    [0x185c9ad0da87cf824624d02bec3ba4665822a0f6b3b25deff3afcc687ce1321d, 0x24a6c1919f94aba9db98a5af38feaa5391cda79f9debfaf118670d7927e41db0, 0x1783a45215805ade9d359232120b183db54b43f9a7e8fb8dcd95ba9bbabbba59, 0x116f239abe820737b5e1e82b2ace3a45cefac489a6bff084e323036f54277108, 0x1adccb898e5fe18b5c29a4708c4b112b56d0fa5d299b5edc07d6f5bc00428b8b, 0x27122781df7bb05f6ae9e14e8e99da5c23dc77cc06108c0ebb061e5d1be93626, 0x2e37a7440e75b649a0799cffeb7f9dae38fadfc7cab6c5585e4a84f437729d02, 0x29f356dcec3b79523c0589a7046ef0758486828b212146c3f5ce987af3fd719e, 0xf9c05f609ad14debeaff107b95accd60e62662259905105abfafa9e8e08eaea, 0x1c66828552cac1443334ed70b7fd7fb525f907ab64479d117864c92e911986c6, 0x10f43368c0567f405aa6aafcf367e3e68beff957c4b0cba17c30c62b3f95490c, 0x253a11c66463a6dcafd8399fca58ba27febbc307d8833c666e0d8df072c5f69f, 0x1e99516c240d42bcaaad9c73f21a46193db8433349203035eea30398f9df7893, 0xc67a06b33cf73882b1c7152d4585b78223d85c77cddc2c7d3594824c5016565, 0x1f6dd8e85d3597bb6d37b47a1f063122014c888250b38cf8e82e3e5471ef84a9],
    [0x2702b1be39e91044fb73926c1104719f4c037aa4151823ceab24f0cec49f4648, 0x4d80e7ef7e27a2b1397678ac42abcc6e2662c880503e4643fdfbace67273b92, 0xfc96302e8662de23cc5c8c228ac8ac2dcdbfc488a59f4dd41e3f27095f7e195, 0x2a31cadb918d78b96dcd548b394425a42e2aa7a28a6b63e509261bfae6fa25b3, 0x18a2661c03ab9b0d8f7d01091c7e563efc033196747e34139d3f5cc7ac001e9a, 0x26812acd03db3412cad4bba1aef71bd44b0094d318ace0366c79e729ff0eb2e6, 0x371f0d49346df2d88b9f1ada8ac99dd8125cfa6c30f3738fb9932a853268e, 0x27cea9c43fe0bf1ce9e53c0c026e839d80a7d869136603102cddf63cdf28b975, 0x95f1db43c827e6f0b9cd4fe929e7b8c78c93fd02ec9e0f10992feb753b4ca07, 0x10a66268dd9a2f368e95507efc2085eeeee8ce977ca1eff5b2e3d94bc342ff58, 0x25a2a43ee612663dbd61814f2deb06ed005a7414f99825f8be66f542f95a7b2f, 0xe4fd498778c2c76a02d0d91d8f89825856e706f598337dfebbf3ca33397968f, 0x13d84ca7f358aaffb1ee8ebae81c32e01adc01e90d09c9451af36e31af82170e, 0x740c1e9b8ed16e9fae204369c554cfb72007dccfd2530f2e34d544003ae5994, 0xcc8f90bab68e6de84845da1899bfc52440bdddb940b208301ae94a95777cb72],
    [0xaf71a51cd463b9faeda93803cdc03186c7781845252fdf4e0155709d93dd375, 0x17f6a3aedb0005a9b0a258e31b8e6e2a48f3f9551cef6812a49075aebb8785f5, 0x24b22e5ce671ce79dff8de16d7cd2bd6375d7ecaa016ecf59cfeb246dac80720, 0x240caf6d7ab2f7b6ab3d15efcf3074f5b2142a1e804f25012d988454809e096c, 0xf8aeec74144d00a3ca38bff10bb0f3a8dbff4af6197847db879745aeb57b5ea, 0x213d29d4e1b6c01fc0d109ea6169490076d131d8e034b3040f7bd9c3c373ea17, 0xd0327b593042de04f58e0ff93386d1608d33a86872c1d3e7e089120aac7a4ff, 0xbdc078b1edd9cb1fd2c2a01a97bdf7d458648439fac1f28509b41a2dc9e7740, 0x26bc00d9cd25124442832d97abd90866d3fa7a401bf38bd95fa7ad526548fea2, 0x1f14aab5a59ad452cf692b123c65873dd80ffc188798a4570eca792b3f2f257e, 0x182f1c93c6eb29867b1559c58207a6aeaf40b66eaaf579ca6bd7ca40aaeb7abd, 0x126ec8c200262c45d1133bf9da5f1e5fd62bcea1e493a080af1bd283ab86f122, 0x5a78464a4b6bbca6e96d839827bfddbaa9d924840aef6555de643df167d4caa, 0x2a84c424eb58f9c38b4380af38e0458468980988faa1f0d4c6e723845678523, 0xc0dcf2b13552ec55c97166be347ca2f93b07e2a10164096d353fa280c796821],
    [0x28667f9c7332073e293c80b98edffae01af4f67b4c52ab45e49db8b30f182d28, 0x1e62029129492c8bdf8514945950681361591a9f5eedc2449e5f229c85bb97db, 0x52c33fce08d4a39fd805156c8affb84349428ba4920cfd2e7902ddcf9b0557f, 0x2224c85f0c0b4093014db1e817d1ff16918f15e0cd231b848a48cf83324c4144, 0x1f53514a97e8b57204e57bd6b1b1d9555f3b50368154154e67c2134fd3151591, 0x2132f71ac89892c984a0a73653f2d45222ada34181a9e6dbcea0d63961f934f3, 0x4dbc4c8de708e59aa4b2116e53944bec97ed42309b4a184561d8f32d291f9c1, 0x2565a17a6bc56e87b0b63664319b8a47bf662c1f49e2ec9251be4fdf33d90f4f, 0x173e80596756cd9aee04bd6dd9dc15e4b8ebbfefe3771d9819bd4d444726f79d, 0x1d34655b5776e24701621acb41324cacb50165e019bff1e65f98304f7d822a6, 0x42eea616d905025147a482eb436a3b75535c9869b76d6cdace118e15c91fb77, 0xcf030b10a1b4291e576ebabb39c583fea0fa6decfa98cff7a96dc06cb77da51, 0x260ef13ac7e80fd2db3de9eb942edeef3f5e252d4c04508b1e1b130191ad0df6, 0xbc367fd93ceacb599c614aa28068783a5d27eec1fc8fa1765015b76dd82f5cf, 0x1f126117a949dff900fa5d111a0ce2661bd9d5444577c491a9951cfb58192d],
    [0x2763c33f5b2d7bc3a23040afbcdaf998bb13254c272a5f8635a12606a59c2e5c, 0x16bae774867656e64fc95f3c249f801f150fd7ee28d195bad9eae43743875278, 0xf0d475225c99702bba4fd01276102b5cabff7bd4d147c0e3cdee4c07ac31b1, 0x39a288951a0381e3aaf598ef132853b5d694716c20db87923f0bcf14c914a8, 0x27bcd639c47482d2dc8b6d13da19fb8d63f3d6c875f6fea486da6ff2ee11e107, 0x121395023931f6bb3ef28b6063eb7a2ed7839e083fdb92c1e5593c83edff5f53, 0x290ed9ae7479f9be13af13f98bf88507e6fdf018710e4859fd2e48cc66ff9b24, 0x15b085b5eb678f8cedf21bfb30e2d64ae1cbdd7472449ed24e6034101c658868, 0x12a643f4a327acd2454514dd469551e36ab0e3f24ecc3b28a76dc1f38214fe38, 0x16a1eedbbea79c5411a639e3bf0e90f6e3f740f141599af8e6a43a2069572f95, 0x5ce7f592dca2148e198554fd64db8c479f29d23f1f16daf3cb8930d9456e4c5, 0x110298fe7f2bcfdac0bcdc3affeeb436d7b3a377453ae778fabd37a9acb299a7, 0x14829f09d4beebbe6fc30545047243fb3dab99c62aab7364a7a5b427457a02c0, 0x278b58503e0b9014104f8c446bed4c6de575c72d4dd9db3d1866846979aab9b, 0x138f67fbd9cb91ef5206d48cabb269ac42bd352cf371e43311bccad89acc509e],
    [0xf81a8d8e08758e8a32aa8292666c4cb6ba3f5f06c4dcf4fc502ff97f03a85a6, 0x10f0172799be23a8fc3f156adfb6c512ba415e35167b563bf7b186fd12a41e57, 0x1183e91b7ab7372f157d4c477691eeaffc9e8863fb2d806570c67f4b1858fc54, 0x17620d438499f6c0a66bb577add4cadd66ad39e3377d302bf83d3bba126b2aca, 0xe9e8373114ad25af97d28e272fc42d8490373cab582193b874a10428ee6cd21, 0x1f665ba33da4ab9d9806caff77ced39c9be254fcc4c5da8f570096111fb109b5, 0x135aa38339bd927dd5064e4d572df55811b226bab54b0acaee511d60aedb02fa, 0x22bc96cbe7f8cbca81b29ba7df848dd6599035ff515b6d485550842e1a35a1c2, 0x11e1b0af7f5fc9f049877154ae173a1a72c7bc3ba192e438a9d0fa81fdfa4900, 0x14de448becba6ca0adb21b07455d2c2864c7b85382267026e28f0978822d65ac, 0x1844a81d4fab57aedbb4c4628e2e47fcb2922883eab0b2e1de16f248de4bb902, 0xeef04f24ae210ee0a94bc5621574783e49d4d93365a2b3dd069fafd43055452, 0x1328467c87ba73028921a89333bab97f8b24fcaa72f43837cbcfe5dfb7a945fe, 0x791d832e976b66bdaaff450731ff35d998595ab9748f695bb45d2c0fef06930, 0x11492ba406435f35623906ff45df11c39efb59fff09f501fb893d717e34f9d61]]
  p := [
    [0x4523bf1a8f284c6d95b310dec2b54e0e00e59b571dd9d46b6201c18e1b56dfe, 0x312e3298297ce9b613e755220138a61f6fcb449e9f297bd2ab37fa4b060c4f8, 0x237ee46d48fc4719f3b0c74d1ce32d25ee1a406c86226b14963597d77d3b26d7, 0xe643d3d4ee78128b65244451e50daa769353d675b70cd9f3642127c70afc096, 0x276252adc5f9add05d80d4d975aa6c8506e5f3615ad04dd19b6a8fdf44554816, 0x40e4596ca95fc409132c1497cce79ce1293bf459cbf2e0b1ceda174d0e53e65, 0x6efbf7c9bf4c721cb0ebff67730a41eb0d4498251681593f54d16da5cf2e24f, 0x460e5c59d6292faa4ffea5c4f0f5b618c30291ef6259d2d5bf756df87a5df8f, 0x136b729f22d1ca74db0f67b12512925ab8597467cedf52e6d289407563cb253b, 0x28aaa152884edf31944d72dc318424c0da3492c9f7154dc8fbcb6537cd7e06bc, 0x23fdac37f71f97739b9ac6b9862be4bb4075a31e9d2118c7f4ac5074bd7f2692, 0x767aa1fbc4ea303a476f04423458ac3f6e45404c9f22c30e2ee5dbd7c9348a1, 0xcc0452c4e5cd956ef1a3b4ae5bbcaa7be7acd4c2f72d22d65077587a91c0b01, 0x1ceb88c33c35ed1e6738b9ed039e4ab506bf7ab0f08a7aaf7dab0caf13eb0e68, 0x12a998baf33d6fbf6fafcf03c462c8a5ef7704b181abf2414b689f9eb08566d1],
    [0x19a92ac6087ab89982fe5650e5e799f91003fd8b45400748d2c25e40f04c578d, 0x27dc8579136c0e71f75b1cf6f5083dd8354d115bf414dd1fa540e5f39f7afc72, 0x20428c044d22ee0bcd7a3e6fab424e8b80af5027762db1e96f6580139e2bc093, 0xd17aad3b6fbd4fd8bae145159eba2a61ac1244b3fb460222167b77139c9da6d, 0x180d3e114e0939812b91fb0eff3e0b6109043c1d4018d1d2f9cbc79e384618e9, 0xcf213b1d3f6fe0b137e4524b963bed40993416f8f1b174fe697fd55079f3343, 0x190b37e8c9b7bd5ee60d0a8537d47a1a377f7a5674c75a99540baee608fd8f25, 0x3034b01c2fb47a98674d730818419829480394df38d331ade2700d39138a43dc, 0x6b1dd2a5fd27efc3cd1aceab1969f68e4959b36a0da5ca5b42c10abf0d230a8, 0x488a359cb7c3cd4063adc6ffe91ae4613f72a681535e35b7b96bc26086bda29, 0x153a1ae9f00d026c31b3462001a07a114b4276497c8144c42af93d11bb383d0a, 0x16c499c243fb5cec60a76c3292e05a6217471eacfd3ab2b95b409a367f5a77fe, 0xec171c476265c4877db3554fa9f482a8d6b647239b89e48a9097f174d5c5b56, 0x445f4d9f49d4dcb1ae866956c374e1a3cb45419e00f5836b88e5ad16d639eeb, 0xd9d065a53ec9ea1f2f08c32c30a37cf2b7ad1614e60aaf3b91508a3ffb3b301],
    [0x302608d750f16491df5a285f5f7f6a5ce6b554f5dacf0b69d450b24bbb4967d7, 0x298a90da4f4bce9de81be6912c6ffb796d04c14432c8c40a105a28b135ae2735, 0x16065604a60cf2d7e406310a514e428a734b27a86e2def6fedb3f714c1679c58, 0x1b8dbca850e849940b154d50c6ee570c32444d12c847c2016b35149230395060, 0x2e93afeb1b3520058245bebe0d269664b12e730fc45bbf46cb66044d57b5bab8, 0x2eed04ef2e97eeb4738187710d3c3d598e60a7b9e6484d4b4a2f0983d2970945, 0x1b76f377622072daa3d1619b1bdc692333d5345b67f36f430cf516ef16eda936, 0xa20b0fc9107098578122aeef4dd1bbb7ef353e400ff70d382ee8abb7c481e01, 0x8e34a0ccd379ed1c637f8272a3a4cad64937438043f4ba7f5e5f5b0adf687a1, 0x1d48b6efe372666fc8519de0f01a8e5d360708e47dadce1fc01000e7dd4527c4, 0x260f8a62766f0e259aaf537577b1a99d50bc02074e10f624e91c36f3bad5491b, 0x27ffca574c26cda5aa09d071c5894e0ed95cd93036e2193e84b4e5ea7df06b0, 0x2d723e71184abac895077f84c811f4135f4d7acf5ab28f532990182a43873833, 0x278e3dfc235e7b04caeb106a14460dd6a7471b6f19d441c1f738aa625c45f28d, 0x20fd0cdac44c5b5c22cea47ac2b0d7565819a0e8110932f0e04c300eb32b223f],
    [0x1a3c7daa6b4af5662d0d8407b287674d83eae5b7563405f48def49981c98c424, 0x2ff508346df0d408d3d1109b26123bde5c4558bdab26d9cf3c6374a6f9291864, 0x13674b5d0d749caf2d93724d234c9a3a7b9aa8ced4f854b853c07a6d575b7ff2, 0x526e69c73070647cd5d45609e6f557bbb3b4cd4ced38e3982fe8fa217a5c22c, 0x26ea6a7932de98e85daf38c6a9a75cc6c016aa9eb31e78d7b5af1ef3936cdf54, 0x2ea7c830de80ac304f4a4342818cac408fbe27c811b25a9e6c1c2cd7a3a63ec4, 0x213b177aacada821231c6bc2090ff354d629cc89617d52a340673497b0c9b294, 0x178cdf015d8bc8ed5294bb31b6299345cd5a33e5ea30e4f03f4b6bbb2aabb2e3, 0x28548c8bb786f47791c98c20d6921d39d82a2c98681cd10f1805d4b3384605c5, 0x2a7d9ae2a915561a62c884f5ac71ef11815fa7345f61466abaae9bb172382462, 0x131105c4381b5f577a61629a53e074ae66a120d7ef9bb5c27ac675bf90676156, 0x185c152024c4fd6afd5f7f6f95134da079ce1614a9f4e03f2043914281041384, 0x1ca9f045f715d29458cb1fbdc8d84a668938b789bb4e9837cc7a2dccf90cc569, 0x1f22be26d5167ef4bb00117f8e6ea1f2866e602a986289bba484ba2f1e875591, 0x4bbff61811db870b42bcce9be11642d53a88243f2f8271b60897565ba6a6a60],
    [0x2db1c9855ac29acc679367dbf70f08d98894077df2411f91ef68dd90177c1e9b, 0x1347afe5529f60fe7a738494455139994ef976212daeb0289737fc17d67bdc30, 0x17832a57483ab46808e944495407d84b427a250d2f4d8adedb0da2bf8b00f21c, 0x18aff8fe5a1798ba94632917ad3e19d4d8eccb81195395d89b7d631cf2962663, 0xa3ebcde6fceb125aee70284064b2f3524ba816c151fb6245e07cc33c13d97f5, 0x17230666ed67a7740bdd76a96b3ebcd29eca4301e827b218ea24a4a56cf11eae, 0x2efaf6a0e622f10e54e08e0e0acd1e4263ccde6164d805fc5317f9eb83418c0f, 0x2f1240e45287424dd94a661e56b89f0e5a11b9e15fcf896d04b76404ee53148d, 0x2bab506569e55b5d04ce7afa2434a095d3b43f0329b74519f88c1d63c705ec41, 0x280c7256bd6775f497c95849ff56a53a8cd9b01a60205fd41702a10532a7ceb1, 0x3de768cf69223497fd2ea181708751bcb42a0e8cf3f8580ba7d0a86fff12881, 0xaceb3f030450738e2cd5f1b0177872a632cce047ce9861db835554b1bd9de83, 0x14b711d1cabba4675d177f17d623824b3a28229a551f320b3355a9e3f9608c9f, 0x24bb09e90e64f5c63d53580b531079784e4d59d287c933d613aeeaf59add06be, 0x213b22a447492a79d3152f0ed7ff35ed7f580591cb2dfb8d91ee9dbd67ba64ad],
    [0xf06ee47558f182d810bbcb214a25da7f70a567a0464b348e1b30eca7de99d27, 0xfcd2ff5c8f0bd2947b6fbf00d0b81ebfb76064cd51bebbcdfdb6209e6634bb9, 0x302b344f13b30ca0578bd6eb52afb66c031b33a229b18a61a98395a95cc4a77d, 0x22b451ac56f38245014eee401568e5cc508bdec222355ab1f7194493ad7f083, 0x1b3bf735cc8f4d38d737f7fb6d87d70646bcf2fdaaaa2a02fbd0e7585d24f37b, 0x1df0e1d73bee56ad584211352e7cabb7c748edf107cd8c5750c6293ef7fa1d87, 0x994b0fad98bd40de62c6a239fd21624a196ff95d2bbfa22e0416be5694d67ea, 0x4cd761f316ecc1b03668f55b6a6a9a82ba2fd797ecbd57013176ac85d8517ec, 0x2398afa197096947d567f16acabed2956bb62acd9a5d898be5f7e154b5ce331a, 0x1f63018449c6f982d1364b473737e009d0004837e9b417d100aeaef53e5571bf, 0x1b531701fd6b02b680ac96125396ebf4df7f83acf2edfe833893eeb5f2c3a848, 0x1412ef160245006ba8ffedae4e0a1aaffb7da57e70128959a5b5e1503b4e4087, 0x3ea51d0d3eae6f814251d648892fe5985019645a2d39bb4d4928e6b4dd9d702, 0x181a8292b083644b0357e5c5b0fdd3162877cd14d98c3ae8e4e01fa39b19f468, 0x1aaeca8c009c0588d25f56bb9457a2cb260b14e88c8e81389479edbd174d73ce],
    [0x2166d78d948dafa963381cf1560d00bf3a0a1c288a743344c8643a58daf8cbb3, 0x2fd8655505991d7319eaca4c4b736ee81976b7b325c494ab80c69db132e55196, 0x14b1c418f3c123d91e084f3867dd62b9c73866a494c0646054f7d152824cb0b7, 0x29e7183a40f1812fd9e690cc6991f46516c6a11b6d63dfb275bdf45c2e830daf, 0x2d6e071c9a8c12592824b246bc5024f68d7f15780b8e81cb917032ea3448c77c, 0x2bcd6ecd21d028a8af782686b423a5491be09d311e8b8b311a76c6fa3b6e846b, 0x2995eda96f028f0d823d390a39a08cec8844eb9ce6c8e081c573263505dbe1c, 0x190c2382ceb77e73d72488efff7a47394c9eabaa55e913b3876f5c7425e5072, 0x1cb68d0b5a7d1e5ec01d0604e9ada4e8b0e5d657e0c3a4b981d9a89585b5b1e4, 0x17258254d8e0d6f925e7c0185f2098d534afb0760706557c11cc93481dd34dc, 0x559f237de62143ce58c3f3ffc6fd45cba5c2cc03d7a5b004324a2673ff6d5b6, 0x2d1bae8c0c7b65e609125c9900ed01b4fee0b246e1d5b40f26a321cfe962044c, 0xbb07c4601eda15ffa0c7ed3e9b5a7331deae9260915c930d39745da694ded96, 0x29a3328fef53e260a43f8fde8842280d1b74ed96c3233c5058fcf5748459fc26, 0x2694a19e4af7c2b87a94dbccdd1b3ac611b1373131cd5a9d70bc7837d8f820a2],
    [0x2929be9bfe3f93cd34fceae665d96b1de1afb26bcaeea2f4edc454c50cbc4401, 0x19edbb7a983fcd768fb267d9c4a1fea3ce0b2a2b9b443f0aaa46f06e589d14b6, 0x2c1ddb439b10a092b3971318cad5b08debe8dff603bef4532577c495be1a724e, 0x28449718fd137470b9cf97b815c2140dd1c972ba998e2fe4822b7c0b33bbdfdc, 0x1f0655560b2334547cb948d9d6b9b5907c788a38ef864ae0673a78094fe7ee7b, 0x136fa4ab79c28e0be9bb475e8d02fe991a4c3e1963f8f02bd99fc08feb8af068, 0x1145dc67ca067f540d071fef09cbb91e1d3deb8202530be3829f4a74b97c83a, 0x2befa2b6dee51479054fd8dd18588a47a402dd5c3c4edca0c6c5fe3cac3058a5, 0x1589963f1ad9685037a5090e0a726b46f0d68e01b41fff4e51d7a7ee3ca0384e, 0x2e23caeb146870890855c6e35016e8fbc54757333d84d986487193341a6942b6, 0x5749c39afeb687fbf56b6749a6d2422caa3b4a4a98b702a4958b7e4ecb2d37f, 0x178880d1f6ff2f9b8e1ac338c92a0c8f92803e7f4c277c589d8f4d96102bd7d8, 0x2458edb63177cd46b51ff3f5054376a76640b495d598e472877d4efb647a629f, 0x15ac4c506f0e4516834191a3a6aa8cda30a2b3882ddc8d063ec7a9c38c4dc014, 0x24a5f8b16d150a9683e69c3ae603931192560079eb25d141ff7c2cbaab4dc9c3],
    [0x1076d439c67997c37c6c1fda9a37dc2f762dd577946f36fcfdccd7898ec67cd4, 0x2d9c1650b528398e8d52dbc23335384e54aee2432d635c70a02d96243ca0b26f, 0x1b2c5206d50be044598c5897e0b4b0221bd37b510a437fe5a1b4c1c69c601b6d, 0x2edd1fa77896a64dbbfced0977e08337ee4bf613f76e8a2ce26414548b231653, 0xcbb908762517b41e306b6909833d5a107634426f22973fe83f00b0e17f13296, 0x24cbb3c94a026a76c045e4c6edfbb1367d256acf26d02cc09412eda7f59a7ecb, 0xa0bd0ea059162db49db00cb2a940d57b4a174de0f3aa95507bbf8bddfe17b1, 0x1b2b047e9e413d748553f99dd8af9b25efcc5e22d45fe891dd28f8fbc2fb5301, 0xcb96ace8a27b43f9e6227f6712da13e1fdcf8f3f9908a3a1c26a35a05b14922, 0x29ac01ae36569271195fe075de8ddfb4380c3a02d43d7342a1fb5117b8de2a53, 0x42ebef9c6a4cdbd7c6cb04d45d2e0c2aaa80deaf78bc1f58ef40906cf3d0210, 0x2e38bf07c16b3203bdbc7746fe5f9179277cca8363c860155d140ec63673791, 0x207e9157c54acea4ef46af721cd9b2f57447ed4e87be8933f1d0b6d814d6ff2, 0x167fda86032760fe696b4920c81f53d843f93d6dd536f230d2004eb414bffadf, 0xfdd5ddada0b045a445aa344bc61b1ac05142e1b5641aeb7e767de15abbc9bf5],
    [0x185c9ad0da87cf824624d02bec3ba4665822a0f6b3b25deff3afcc687ce1321d, 0x99fe609dce91a41f172017be2754fe99ebf6c15cc57f31bb6f5b7d807b1f7ab, 0xd8b8636d4598fdf5326235d176c94628e61b4e7c82e78b4e564850ca2b2375a, 0xd65ab8a42892dbf60587c701d4ee79885301867045a954e709a0b39a96e3432, 0x1ff952bebf30d706276910172a3cdfcafb099480002dd0fa8c68288188ffb47, 0x1b317bd89d4ff133f75ab4d3d0b76a79ae01b0dff996cf34a725196ce703c17e, 0x124794d78885d5936bd03ff734b5c1adac8a4a596ad9f82102c00d3a684dd7c8, 0x24ffd623daab9fe13588a1c00b7f8c8f1ca8caa530a1c7131b466d950f2518ca, 0x2b38ad1a7b652e9f8bf0ef32be28b745c099922eb755a34186ac9090567d8bd2, 0x19babc734091a3be933427e66c377144245e7db110c6a2baa986003947a240ca, 0xd0289a40cf02926cbcb2747a0e1c1518e9c4f704df6aea14276211c24086080, 0x28bd66c5e1338f9704ff07003bfc744bccc39f7ce6c8ab5a577dc903cd264016, 0x170f77a7b3b9caeaf5659fce45eada32edab843510f0c1c1918e78d0f6f250f3, 0x4bf7c50eb8083a1b1aed2f2eb1e3e6ac6dac94088c526643d43fc4ffd6750bd, 0x2cacaf80e8db29ba80807838954a59a587b839dae77fae26c3766144af1c1731],
    [0x2702b1be39e91044fb73926c1104719f4c037aa4151823ceab24f0cec49f4648, 0x13b4dec836bd9ccf38a503e625ed8e236c54e696c74637ae6a3686a805695912, 0x1715f73ecf73e36f8e513b1cc9ab6d82c38edc2000876f5d1bae037be5c99715, 0x133105b55e6c880ddfdf28747478b9cee5fda98c7ebb0dda7501a2798386f9f2, 0x2c728d02ad11c999b2b9b9ea9e57d496572871e774331ae56374f238082b27ad, 0x23ef277dfa1c0e0d94bc61cb2e8bbdcea30f4d4024531391a4c3e9cab4543b3b, 0x16431ad5871bcae4168c2b861ef4b0b01935d119758db9aae06c00bd30db4df8, 0x28db93b12307f5bee8a6c0b7bcca8b2305b688020740d4345fae2d04ed2505dd, 0x21b0ef1e524d8d9ebbfc6c2c749d0ec90fae708de520385ea8bf0428508c5d5b, 0x19d13c633e260305a71528af4eaa906ca4427977dc0c747c8a6a4503fef43e8c, 0x23d809de14b02c1069c3e14dff538b910e484afeff400b2c1d24fb0e0099cbef, 0x13fcf2fab4b4b66a25dac0cd517fec58f5ac1850d867be3be4aeb9854eb30efb, 0x161967aef1a7f7907817e10adad374693d3d1f981ec444384c4db438195d4daf, 0x1694d5ab473f9de3701a254240a02a4743ed5291b9208af4956404ddb30a4380, 0x1c710c033318dcb32177032074580a3504f248668c7c53de567b4830f74c9ea8],
    [0xaf71a51cd463b9faeda93803cdc03186c7781845252fdf4e0155709d93dd375, 0x5fc3b1799e5b191257c7a3bc75e9fa97b164f3f4edda6ea6649c83267be51a5, 0x1c4497521275cd86c918551760f4d35becefa8ed08036c9c18d83815a9fc7f8c, 0x1c65c1b912286c5b2274387fa7965d6b2843b5b01b806bbfceb590da531c68eb, 0x29d4202e4558503b0449242495fd9ad2381705256affbba80117b4c2287175f3, 0x2933124ced84942c7077b2ac393d14464d517c7d8f1e340694ed5f1acbdff129, 0xbd580f80ea79136a9b520cea04461da846d9f23e62277f13d6b3aa6ab108ad1, 0x57b88d83808d3675ba199bfc5780633adfaa44c9b1e32463d66b79e1c6dff3a, 0x3a6c87ee34cdae1ddd7982cd318362e1a278dc9cdf1cd1dd03b6c36aff836, 0x22692fb680511799b8ceec96e7ca0e1cd21de90f94856acf334ffbe2fc262053, 0x1d85033ba0c5dd804c5237c31ab8b09684c635b8b7578c50c246b15314926871, 0x2b52e9a0a9a535ae05d79b8b555d461f148db269f49e38dd8ec6f8b8da106aa3, 0x2773fcd9cd996f38297b95daab22c1e79f179f4c79fd4bf6f4abf8725ecd5032, 0x18ad7311ad63af100808f64bdc63392bfaa0a3881ab03c3157ca8140868a70e1, 0x19b88372c544a69321b273cc62a95b006931a64222cab4536e797e578a56305f],
    [0x28667f9c7332073e293c80b98edffae01af4f67b4c52ab45e49db8b30f182d28, 0x1d0cea849dc7409b3b26de35715b32db618691bc123cd9c4c5e6f40b4a1e49bf, 0x161556e03e94c7156607cba64c0bb7fa00bcaa126df8afb5d42976c03b7d5e0d, 0x419c20a2ef9d70e930629591eae4c63276c5d79d6948e98f2c37acc29f1a4aa, 0x1d4a3584e3933abffe0977179b8c112f2cf08e409d33362df4775d1373f4d366, 0x104bd1b4c028b287ac3fea1ecdcbabdfa6a065e9772791c3de84d945542fc206, 0x267ef84e628bff8a9a85df724e4c32cbd3237d91bd65c43618d86502032a3694, 0x2d361efa8fc65b03d45507cfb53549b3b26a84ac50b3593dbc052806ecf59fec, 0x1285c484100d70c992f6b6953a9955f56957e9a17641679bdfd388b6bf60ea42, 0xe1a46a527394539c39e9f1e4426d3188c0d9077021790734ec0126d0828fbc7, 0xef206f21658db03fc8d5d6be5b18374247aee43b3f29b430a6fed7fa5102a84, 0x2ac3db07d831b461f38204aa0454b1edfc1a0de5b7a6e15e49c63bc7140c3327, 0xeeadf9b5fd85f9405991af7f4cb2bda816e5aca76103b34b891502f921d6096, 0x2931d38792a3769da52491346c7c6f8f106c2735ef2a1ca03725396983a0049b, 0x131154cd6dcbb9b469cd6860b861699845abcc41f428331b1d2beebba8ceb767],
    [0x2763c33f5b2d7bc3a23040afbcdaf998bb13254c272a5f8635a12606a59c2e5c, 0x27ade810ab16b1c9d9b363d48e397adfc79af3a4836ed63c650053ca057a03c0, 0x177d3d44dd549944ff5772d4742603e163124583cfa4b673ccf1a25454ea3be2, 0x2c0de2ff6c43c1d034459dc8458237d808fb0ed445eae2cf7e972c83f006995, 0x27ac47846175fcaa604d687cd2ed41f2ca52905b2eefa79eaa8583ebae76291, 0x165a3778b89cc7da792542f4c9a6dba92b85175a60d3661beb77852b238629b3, 0x27e08a80dc448a0ea08c79c9198e57512968df40d45f08c26ac8242d126aedc0, 0x1fd804ca6b5d2a3cc76ae1f125a0bee456764db7a553f48bb47f468f3c57a95a, 0x174de7ca0ebe6a1290ac6a8076d51b85fe8fb4022da95a59a6e9f1fc2fbb2efb, 0xf3deafe2fe6fbae9417eb6b144885051e5d1642e49b37469d39a6bd6cbbdbbb, 0xecfff476860b104100ab4d0dc92d93b993024a1c0d6d50b339243e9ae67ccbb, 0x2cee2efaf90a0e74febcd521cb5fc61304ada5f8760adc044cb684f341b646c7, 0x140214189bf9a4001311fb36b9e5d27a3f3ceba32a457135a3c66d76e8403553, 0x2a90f5ad074f3e239345c3d75b7081804b34fdfc2fb9f720a6448818946ee976, 0x1c373710856290660f38b96ad9baaba487a10183260e1d06f9b9935d36e9b0b9],
    [0xf81a8d8e08758e8a32aa8292666c4cb6ba3f5f06c4dcf4fc502ff97f03a85a6, 0xc3bf8b042a0fc9b018e64d500484eeccc8086ec911012ee19a8e94c97b1f8ba, 0x10539e3badcbe0386b58327fa5ec50e92d483bcb819b41b21dd7c54eda76a99c, 0x308a3fa0a2d7ab2ef746509f2fb76d1a5db994586a54e9d109448f18b281b31, 0x3ae04f50079403a7c6f13c02d0ecbbce7631eeeb2f9f284dc7c2a52fbff4770, 0x6bf4105aeb7839b9deb71934169cc975451f8d76f834499b281eb6cd69c071f, 0x28cd5b5220315f32a404bf919a9cd01a3082f5cf1ed6e92dd79a323bfc62df5, 0xdb2421285ea7f5979122022c62e752e1b15c491cca462b4e71b7bb0661990cb, 0x200d26a5d00a2c154aa75036fc4e24885f7d8e3ecdfa19beb7cc15767eb2de8b, 0x1a1c643b8d0510676c8afea7a4c4af98432406731046ca882a497b29a7c61777, 0x1e80c6db7632f6d64766cce10b56d0762622eba0de31b6271e95ac94cec6ef32, 0x16c8f7d85e411d0f9ba685f0fb815c6ff517ab5463c74bb9984dfdeab8299477, 0x20830e9933ab9c82b1d99369207399eb347fecd8d8ba430b5925038cc3295055, 0x256a4d8167c0f602f9f3b663dbde4a7cd3d47353587b017f4f03627650b813ff, 0x11139f7a6884d0c2efc32997248db307bbc0cba48037fc518478e9634fcc745e]]
  s := [
    [0x4523bf1a8f284c6d95b310dec2b54e0e00e59b571dd9d46b6201c18e1b56dfe, 0xd4e118218c553f4fd17f1dbb39ba942efd76cd18298bd6b72e1fde271c74372, 0x1c9814a36ea57e27bd838375e1c1a562dcd2af6a66aad460bfc8afcf3d63ab8b, 0x1c573e2904e49c6abed20981459d41c560544306978535d6becd7106ed3e41fb, 0x9e39b302efe7ebc4307cd009e6bd6f7b5128a23298b11eb8e73047cf2f2e920, 0x1fc427692601beee8d5f6bffaa3faa89af61a2ce7a048f9a596cf2c38ac2cfd7, 0x1e5b7cbf92351abd6a71a235d9d2ba54bebc40e693a66f3b893174ccac29766d, 0x2ee69d018063e4752c402c2255b267a05e49736814f2c9b7247240d61e8b684b, 0x1eaea919368dbdf57be4a55db999baf940ba81052b4e4d5b8e7e16253274f5a, 0x297f770923ed719ff3167e17564126bc6dda16c8cfd27aad29dfa7a466038453, 0x13a94e1e1ffd11c4a28c86290a71162f82c03ea2634b67d98c1a5c1d06912186, 0x19cea28494b1210a4098ac0e79d99fb546c2c3588f3cfe4a068359bb6082e56e, 0x13841448d03b83eea61935f4d495503643436e90a8efa58be47c85e581b050b7, 0x2df272af26c5aa5407188de71beb7cdfcf870c778b2093cae868000a2dbfaccd, 0x29fe73f14e2420c982548ec713b85e374c1d8a43c2bc2ddb6302bef9fb2b6e24, 0x9070c4406fbd360eca9c300edbd0a65fe8f59b876c18ae13bde14e3330e3175, 0x2c82ea6755166fd89b688200788ba82d29734ca1b04494d0643b8689ab0b7cc2, 0x26e76b10c0dd0dde0a57f9b731be061ae57c1d964e2e525081e1fa6084632b57, 0x277298f3554969bc6937d1b5d5fdc5821b3c809206a3930ec894caf9a37240bd, 0x287e53a89a23bf624bf6613a821ee5d502838605198c699cdb6ae5d274bb8453, 0x2e9f85b46415dab53d2c1820226d4e7117e6cc96b7ddffa9f6a96cc697256255, 0x17fcc4d649ce2696bb0e00460172bce45e5deb8c57904e5ca0d056c9df3e5297, 0x2c971b630f9a4bca7a950159ff4411578bb39eedee8d9f0171b61ef7febbff4a, 0x9b526beea2b32c93c9205ce33c6dd79824ee0123e0ee8309814432299a9756c, 0xc8311c2fe1acce872212bc73164132f8fc89039b4b297090ef07e1997704279, 0x2ea4d48161c13add4b1dc83b3666ef388ada7a353f3da4c8053efafdd1742bcb, 0x447cfb281dd95e5bcf7a195bc52e08d78aed9e64cc9d7973873d06a42b8964a, 0x2828d9d20b414b800a028afa5e61ec4362ada01cbd66f3a4e018f941a9edc227, 0xf37dee2a8dc76e8cccbcfc527cd8c3383032e1f3f5065e39d2aa70b8fed775a],
    [0x4523bf1a8f284c6d95b310dec2b54e0e00e59b571dd9d46b6201c18e1b56dfe, 0x2ab166f28cfdbcfc32e51fc1db9264b527e40c696357cbdfa6bf90bf09fb97fc, 0x2e156785cef17b7d942ced8e2ee15ce4bbe2ba73c0e55bd50eb898a1bedcf3c0, 0xd4641251d71b781208156ca3680d6a5676f749b7588d5db0464c76ab985a43a, 0xce5cf743d721f040dec40606144f5bcc8b068d2bbb11c3623eb423b1030e147, 0x15e35852381a52021bfaccaff799de57d8dc8606f2465e875c7f9e22a3183ba6, 0x7e9b4e0821320afbbb23fbe3a2027192f2ec891fde602faf446d06b3a770c04, 0xb743d70dcb58a6acc70835a005c7ce366876fe3efe504909b0cb87aece170f6, 0x10643f7d6181a8b5df1e921eb1a841476a937fc6a473185d8322c9a18c487a3e, 0x2928df7c94de7ff8a3770980f0fbe3cc4e4f5908537c40b9e75247bc31e6585c, 0x168d44f63e58a5c713c37e067709bc369c27f428af5eb3eaa79d445b9d073318, 0x2b8845a96842f965343a94e76efa217b83bc1ebe804c7b25e8b3b58dd165e79c, 0x1f44fb02f387d2ce14dd149cd24fb411a7c738157715d6a1be66ec028fc01bdb, 0x217b5aaf9893ae41030f6c64ee6870bc995427c81e04a265e1774401a5412a53, 0x45a1e21cd1e0e5b296cc6e02e249a6cd0eef3f6487292f0f1c742de712a4a4d, 0x1901d160707a8edfbb7d4533914b9b8bb06f565b1abace77f7f761eb33f39e5c, 0x27dee99b80374f3c665a4dc5c89a8e365a5a93d07e51c727ddd6a896c7ef8a7, 0xb1c7058abc3ca4f1633d64c0dd5f068d7fdc10f96e3ca682d1b2ae6e289aaf6, 0x1c495d660ada6c32fa2f107a811730d99ec01d9a17dca7001e659fb8454b9a1c, 0x100885f5765de1733a91853cf668563b88c9c36005cb54cae61a82b6bb65160c, 0x233544636d02f161bfe5bae6e687558cecee34870235d36cace44c6d372f0545, 0x222a180a868a589137d947276e3cbaa74ca5052e685e02c178f64767a4e66446, 0x22b1b89514b6a597c1331e24ec3f4e3232821a7330a525629d4d7e04950fdcd0, 0x229fd163ea1ae80446877d78272ce7c50b8abac8fc591ba25c22661cb1e1d5a2, 0x5efb45e61466bbb89d081dfbcc8bd398bbecd324d5950d65151b80c102a0503, 0xcdf2465b92dd04b968ea8419be7466b0ea3785fbdf1a7550dc5b99e781853a3, 0x2acbe99eeb7c3a167376c64ce28e10b1628cc3f7f480e68dba68bd470f29ffc6, 0x21c173647249e75c7c8cb1d097da2d4ccda1031ccb8be5a1d2c3d392fdea5bd2, 0x426c0054e199f89ccdd26940f3b6e8e30bb744886d5ae6677ce75f0abcb1a2],
    [0x4523bf1a8f284c6d95b310dec2b54e0e00e59b571dd9d46b6201c18e1b56dfe, 0x2664a99501d9fcc7afebe82773b4ea88245d531d59a7a0708522c437a2c63c8, 0x1dc35aa8ae4c95f4a17d44a790157b7f27045bfea974ef5818a2ad557ae4d1ab, 0xfdae6869465240d7a6280616afc83e937cc5821d8cdef8ae9a085395aa708cb, 0x1782b019aadd454d509149e265b8474467c1ac219af05a53b8f671a3d1c7ab8, 0xe543d031bc1748852a333f2e031cbcb39d5715e8637ffa18f18d620de3b1ca2, 0x104993ba9cad115c79a58320fb01233fb0124a73e040581c6621429cf2fd8e2f, 0x2aec2aa10254227e5e0cef19dc491ffae856bd5a9b029d926b60cdee38a2e30a, 0x14395653083408edce60edf4f3232a9614c781cfd7f6fd183ee22e08e9d46daf, 0x2e200704e49142bb68b20d9f7df040a1bd32118b21d44f74dca2b31818693012, 0x2797778f8ed2e9af3fc79ec16f248b6209c03036a7f0d5066237befbab16e11c, 0x25e0e403bfbbb31be8c5360007aa9f2e36a4dc4b5b2b0823f8cbd4349970ba35, 0x2e8423bdead0b3ee1516ec6c5c816c7ea3004a45a0443192427bbc4415251771, 0x2a34015d21144652f722f141385ba0510cd38da886bc0df34352ee7ae76a07be, 0x2a3fee652dcedc95a0b44a072aaa54f5155b036b22bbaf7eaf0b9c3cde42f4cc, 0x135692d47c5a0d4df037949a54fc72f230314fe7629e0dd7987b620c66543505, 0x142093c728ea36edf0844de5e3c4b4f1e1b44b72a413b7b2a758b5be41c8d616, 0x2a0b459ab3f636567fe0f1330ecb15453f62a6993b748edab79ad8cdd0d535b4, 0x330b0a428235522e1d5e4728b882d56a82cfda90452ab9187127ce73658a9f2, 0x2c44b22ae15ba0f22763004e8fcf0af6c602a0cbadc67eff70a74000b67017f9, 0x1c68c04dca5f72aab61b7b60219e29d1183c8d1de5c7c8c09460738b6bf9760, 0x1c74af78ca0448531b773a27c47800cace7f86e68e4969d29a8a12f1b9d59330, 0x14e2ebfdbf9c76e96911a23a9f9c7076b38316393fe11a0a7492e605ec7a9c42, 0x119a85d4048b76c56f636acfce7dae71759828d711dd6b28ed0e9a236e4d8fb3, 0xde9be78e2e3c344a0b76a171b8d7ce1a1d05f25790a2451102e05a91472bf35, 0x1e91cd25f12f2f3cffc2490773f8af707fe1a6843a766a3c44eb5b8fc134b002, 0x20956c83b24ba2bb0086a91f597d0a902f2d74e53216bbd9592d35c438648061, 0xc716d79b1bfa9d016fe75522d771400fcd75862133046a9b1011540d2331e87, 0x2c4f3e61d58aab9d3c10abc4656fea493fb3d6374708cdb2e084a67e2fb6ea6a],
    [0x4523bf1a8f284c6d95b310dec2b54e0e00e59b571dd9d46b6201c18e1b56dfe, 0x15762393eeb335167599c130b4b6d22fc3f053dbbaf7635f39701683f9642dfe, 0xd7579361389b5dec0c5817e57dd5b775c48facbabb151eb0f7e2da5ae19d158, 0x265b9eb82ef9bb6fe2f70ccf516bee6b9be401183f0932784a40a61186f47a42, 0xad7dc8d9d0b28ae3046b8f23c3a7cb614090e05a3c9ec3fe8e2fab367df2272, 0x2a3f87839d7b3e0528e7b9c221379203354304e363684e38f5fbeb698bcb19f7, 0x2834e210d211aeb395ae05198f7a1c475be1cb0d89a8c0877d8e88a9d62fc5ea, 0x8cf6af0f8c7017f0de1cf6ea6947009c1041169d5b57c49938a6a4c863debbf, 0xf9b0115c9097f360d0fb624b14c8b4a1ceff857220a181da4c32f619b164bed, 0x10902d17db9823294cebb8706f44e8752e5a3abfd8218ac27718a4c0fc8a458c, 0x2ffc17ee98848d878ed4315e3ce007667b4f18bd43993e4d969e9cb38d8d118f, 0xf878f0a4df67255f88423ffb527014656515eaea2e9cc36be9c37135041fd98, 0x5dd3e66670174cdbc764ce0711c58f427dc503c798e29140820053da7694d26, 0x2de49ecdb01104151943ace205edcc81ab91a9ef2af4c33ee2aa2d08bad6c023, 0x2cb9a3284c718a566d7db309aa0ce6f8e61dba64a225f746b757ef2eaf0b9311, 0x1d1c9593d0c4ea4ed9a491dc73821969ced386145cff808364bc37335ccf5a69, 0x23a29371ad7760d5c5de4ae5024a4612743fa77b09eb566c9f41d216c9552854, 0xee30c0ca292c3dbbcdc2471f750036531b0cb85eb8464d3f92466008ab94247, 0x1727f0d18b422010f97058ff5e8ac23fc850951774b431a38f60a1d9b5560175, 0x2ac5457bc236f8945365b828183f8266e3d1b5b3dc2d9ca52febacdcde11b71b, 0x166d29ead2255e356ca2170969b7b9b94bbd88bb34ad7e5663f4d3a25a330ee7, 0x2e386cdbee46199b48299bcd0cc8ec486f6c6caadb087b52ea86e51d4f39e736, 0x7937bbf56ef747bfc1543e6cf5c653434e85a225f09199ce11747da5d44a530, 0xae9d9852098390b4a5b9a075d32020a5d61d0a2a05fc6037408840d43bd04fa, 0x1181b5e009f4e51aa287e113ed3be581245601ea27ce4b35219c7317087568f3, 0x2475a06052db24962d86bfe804db3f65205984e5966c1a8695351dec487b611, 0x1e9530a8088a3c241b2e5ced4157949565aa90425ec8b494def155581d6e10d4, 0xc9c3bdd72c3442d12734c0f3bcf2bd1bc679cf8fac9127abfb316fbcae53202, 0x2fca60f1092c4d48164a2e2c81fe134cb4bea555f4569e095389e181a4ceb5ec],
    [0x4523bf1a8f284c6d95b310dec2b54e0e00e59b571dd9d46b6201c18e1b56dfe, 0x1115614e19e210b59b4b0e708130dd845be5bee11aa1ce43984ccb99beb3624c, 0x26643a2ea75d103a87b50ca1690a55117340ab3f4fe78e63f81187f58a392382, 0x699ce3db9d5882c04716cd74bc49c2bcd5cfa34039856d27ac7354b60ab8412, 0x147e382354cd1bd30bb3383eff03f89974b035a00897f89d9545cf501ecfb243, 0x76e68370ceb55cca9757765b0c2eff1e05426fd3b1eeae4de2bd9f49c121700, 0x8064483b1ee3733f6b6e9dae47a7dedf7baa9b67ff8471ced25395fa38cd884, 0x26225db4d7860e869a00f54fa10923c8041cf313eb912318aaf8f4f897401f44, 0x15ba41ce4e4e0b3c6633aa83180dab522a28b25887f78e8acb61b6cfc6f837db, 0x29bf9692a1f8c909bf1d0fac4a04de3804e89c3fcc2b081cd25d44b0afff7b09, 0x29838b380b43fda29e4b8824229a76291808c2a9c4864ba8e5577fdac75a85e6, 0x165e81bf9d1b5b89ed739b99c84c53dc3fca070e83a818d5bbfeed37630a0b48, 0x10a7013127742057201e42ecbc83099b49a60af2365f8bf7cc403a3095ed3fa7, 0x223759ffd12a39e3e384c76802544c3778f14149d0123c1280fbb92ed556d9ff, 0x707296bc5dc73b70944cfa07f21c77042753a479540db83d9115f9fe9ee3e59, 0x205f5d69af9f4bb66c51fbbd99ecd7108c76240f97f758a17e60f46bdcef86d0, 0x1210dd2f4c47992f4d5c7150f1bd9346860046534bec9bcbb3a977802fe9037e, 0x144ccf1aeb8b78de9437aa82f7a82ffcb958529cc51dd5a283635ffc0b0a6c8a, 0xf996b911c7c650ebcbf4bade79e10411e3d4ab0e2ec01fce87928c4c0f77e80, 0x1b46a1b0ed04080cb068fdff6e531b02c002fc3d66b3ed2d656137001b7926af, 0x19fce53edadf9d4cb5eae86fd8b1c68c238aef46a5ca33603367b8de0927b2f1, 0x26b0885672f6494dfb46ed42a401176f2a2f42790725f14adaee8e9638a986ea, 0x2db620812477b8d733297937c52ae01076f5928ec0b7488e855dfc5b938b80a2, 0x20d30fe0ff4f57a3cc6e6330182f23fdd72c24aaf0a5b372a32a19e80a638112, 0x2a5e3d7b9813aa7a0cbd2ba1c425d80e81e12de4060b90ba7eaf832f00f34d2e, 0xab8b6d9abc9cf77de47f36daec39db0f7e3c7a31db631ac6ebfa501a4b3f94f, 0x16c8438c2ff89c19e2f9cdce14dc380a8a31c1f65d059e23931f69b921e5b4dc, 0x13d36ffb25914bff0a9c1b490db18fc8fd7a2ff9fa3b673aa2ccb2a64539c7e7, 0x28b8ee6f7ee1d8d0d3ebe26bf4246e8eb545148ca86e60cbd0bfdf4e9b22660d],
    [0x4523bf1a8f284c6d95b310dec2b54e0e00e59b571dd9d46b6201c18e1b56dfe, 0x10dd321b7a11a2bc96b3f4719b4b443d94e5aa2ddbf428d32e863d7b956aa085, 0x5fc6b8b740e55f5d0690b7e2309f312d089c4555f057172a6214835460a342f, 0x2951ef2c77380bae297a4fbc05ea97de562ed3d80aa8a986359c3ff00bcad10b, 0x2b7c767b440ca0ddb88adb86af53231819ad6c21c222b09a8fc8f9d61108276d, 0xe44d122f91c40d9470afc3e484ec8f8fe6ad0fd24146f1d38d717da4db7673c, 0x1ba47ae303c2e76854d7f399c74f48dfaaa3287c07b9b79bf1fd08f9da703c4a, 0x11b425d8000810e925867f7a9850aa799aa2338185b6f97ebbeb7b481a52feea, 0x27abc591fdfc4152cee25f4fb6d0a1e932a396b72c311c05a99a9f923b1f7014, 0x2a7294a73da17a02829961f0cd5b34c67c909acc3874a238637fb570d4c23046, 0x8b325e346b09a1eef8be7fc3d81867135e87ee9958f16dab759bfba34b0adad, 0x1d8bfded258e085fd2c871a9db0ca38ce5e5d232d2859c9e3da87829057ff232, 0x10321b7d5466be1e92a7b8f17a16a37baba2987ed57399fa903b5385d81b19bd, 0x1385299af14ad7cefe90edbd656d72126e0e9078317306984f201a98e3e87ff6, 0x1b3f863460bd743da42eb33e47d2cfffd9a1855e9fe571674798d3b0d2aaa8c3, 0x16f65f24d40213e86452cb242e20a222d8bda274251b4fbd82dc110ad78f1101, 0x271aae4782989dad19f84117ce0466a52e16551386b42a74552db0c6e00442f, 0x2913b1df62de1405241829ebd6bbf2719510cfde2d374c171f2b0a3956beacb7, 0x102108bf4a73ec9abced652ec51ca12fb06e48b5df049b9e37102ce0a77b657d, 0x206603d022cc8608f807ace7c0ec31d9dd98c202be6d1bc47a4d44df54bb48fa, 0x28c4e8e4ef10710d1e972ee6a4a2f88aa08a0d6fbbd77cbd057ce83ab6b75bcf, 0x1431769f19552b0579c9a23e91e9f017ccef784eaf0b52f33819bfd72ae98f42, 0x20c42490a8ca07d9f39b11e720b833ccc033e1ed16a310d53222877b0630336, 0x27e9b6a362bfbe53ee9fe071410ca804a9bbfd2d2e579b95a50d63a16c988da0, 0x2e937b74fb17d63c90d32c1258c1cb4108f5e3f82246fd704d44233653aab860, 0xb1b6974c506d78acccb5e1b6c9a5583e9c922152ec0d113495dc49b14a61c8d, 0x18554cce997dedb95d27bf135c8bddd3b0c8aad0551a6f372bba51613c0335ac, 0x132069ecac9f244a5e447a1cc19a998073aec780e8236c827a66bf9fc6ccf8a5, 0x17d40185a9458fc6b98948ad7da77f035fd7a3618233a43af0d0e511e5fa37b1],
    [0x4523bf1a8f284c6d95b310dec2b54e0e00e59b571dd9d46b6201c18e1b56dfe, 0x275d28b52043874241a3fbf29f0fc8725346929cb378a7e4e9e8c7a8ac1c4128, 0x168eb99c86d705c289b00227d74828339e88cda8ea726d3d9acbb57ae75043b1, 0x2a76294553220b5ba2abadf6bc42a902641312f0bc1953286b08ba16ae65f435, 0x4f55222eec01a996c9c4c70c11f6375714c601e1547cd47f1dee0b3999be4ca, 0x26afe145a5c9d058fd25a6404e4acb62cb13d299de81fac1deb35ff9f4a40c33, 0x2cd5c836e175ed7a902fe2334f239d499f51b58db73bbf2b1180cfe4c4df7936, 0x29b7a4911bb67a29bd7368c0f42079aeda1fc0d452efb2b129b0ad93fec02eb1, 0x258d09a47dffa2af8a1dd733c8b08f63911dff878a2fdb4794e319d46a63df7f, 0x22e2643fe45193389fd7981bf191826724d5ff1f0a68651c1c98ef02d81f1b0a, 0xecb1213c8df26deaa40d8f6c4f0a1d4e3c72da3dfc1f4370de7dad7e32618d, 0x14ba09c0956dddfe7410192712238658b4d65506c78e318ae769d2732c63adde, 0x2dcd28c30f44c2ee7d8121acb638debab46d0feee4dce60d494acb677134a60f, 0x117c6959729d1d774ce1a8fe1fa28251592f3bd62f86253929ee45ca959e4b79, 0x2c290cbd7d76fc9f9cdcfc47b48fd66ab55d20b7e2f73357e68319367c7fae08, 0x1f40cb5c53ab688c259fc3a2bdb401115330f3b2850955a39764374e5f2b5195, 0x2a58a19ce1744a2411fde6401a6f33d899f9fa9c59eb6375530f45bd8a751339, 0xdf6ce7e1bb5c41d366d6d7d5707c63eb3ae9478043fe167f712758a05b49206, 0x2a32f08c015e3dba1d7193b31362ea88156b370fccf15c48abb7133747833ae, 0xe549b8f127e7ee7a8e67f9dc534fc8e3a627059b406379c63d86a54a593d86d, 0x2ad6b517cba39a16caa6fcfd53d3b8a43758e360c703aed8691d721a523ac174, 0xe000e82e93b69d72b8385885464cb1531c74d6255f1c1156539c89dfc84091, 0x24b57d1e4c920be2b95c0fc8a84f5d5603f0c286e80d71669d60049b94770419, 0x24c65f0e2ad6e614ea9a53b058651459f966152275afd3cd6924a1e990e7d201, 0x1d0ae8c3033577ea4b1f2dd4b68b83620a1ffcb4d5426e9603d4ccfcb6f1fb66, 0x12c81853619d70f737544addf33b8d104af13ee311ed522df131bf24d83dac85, 0x50fefb4229d0fbb58756c49b28c0ad0fee9338a1fb239f8d8ef12e168aa162f, 0x1dc4a881539b03ca1b5493a594be14ebdcb60bcb2b4d1b58868d3a6558410173, 0x1e7e5f574d74633a061ca773e969dce83ad758e4d08c37e3900f62c5f9b805c5],
    [0x4523bf1a8f284c6d95b310dec2b54e0e00e59b571dd9d46b6201c18e1b56dfe, 0x2d030d498dd22e5f9b3761b019f812c2df002ebbdbe5da92f38be1ff1cd97e65, 0x227f6e1b292aeefdaeefeeaa2e7af21fcd012a794ca2c18d284661cb0fb1dcaf, 0x9a991758be8db845ca4b488dfd11e27f0c773c88c2507ad584dd73eb1709358, 0x5b3c08cb06d23cedf2cd4c5cd248514a89b09ff70ff56f90221492081480705, 0x207e60dbdbbbef1f316198b79e4df3e688c3c71b8f82e0480763cf729b6bba03, 0x1d94aa3d4e98c691b3efaae72ae18d50d90ae56629eb00e7bc324eb2362d27e4, 0x2f99f4602d8a7612c573c3ed2232eba3f91f030f8b5c2dc6de3d8aa60bba2869, 0x185a7fb027b40f8efcfcbbde02cbe15567d64ae6ac9bf206781703c07d6272ea, 0xeb85ffa7ee5e9fa96ae4697ca527ee7bbfb69b5df611a1b6b715a30f9b69b44, 0xe6507cc613c091c3f6d563b24b8b78d78262d7e6a470ffd98a1ca6cd0da5ef1, 0xfeb286fa095e4decdc49ea3f57da799b2818746837f591941e67a93f2bdcdbf, 0x157de51c339785fabf4ea584b55e158485bce7dd521c0a25160247a84d13e6b, 0x118b39a323a6ab543f005f26c89c673480204a183a1f68e0100d6be4d55df254, 0x200f0d9065e79bf29e35fa9ce14f0d87038e43ec1c1c2d4fabcca003e2f2d724, 0x271b6dbd7bbbf9d98a9c5c8814c58923aed6e4a31d7bcf8d723561f5116df99f, 0x22594da35eddc1850dc757649b53c126403a907c6113f39e940e363bd2830509, 0x9a6a3e13a6aed0fb709786ffc8a7d560642a59f2cee2dc68781130407455a81, 0xd5de9b94917addd8b8ebc8eface4fdc044380a27446e5d0170c4aa965b8e48a, 0x1ba4f74d7dbf44f967060c619e429485254c8aa06ac08bb8fb101a4c88811cad, 0x2bd393ac0c6602f63ef13835a3601f6c4f84f09cd47cedf02ab0a92f0f59e813, 0x132cd8a625910f7fa7a999d0338010825c353659385ea10a419255dbc0a3456d, 0x2bc9e5ad597c8f773a7ac2dfe21c16a9d5493a1e319dc942e635067ac6924754, 0x21af2adf48b95cc677f255d44aea3d1132115782cea08bb82a526366b7affcbc, 0x1baa899af3a60f883362aa1b88ea17778e258d3defa44fec1b3f4f9c13b890cd, 0x1083673f89cf1ffe18b41d3cb7084270363c519ef6a16484220e30209f83d976, 0x5a5be7182497c5c2ec9e91b1a4af88703cb01ea7e7d8dcc535d72a60611f271, 0xff6f076a63edf8d87f70b60ac0d64f311eb1771d961b6b33867a6378181088a, 0xab810f3e1dce08d5e5289d8d32a3ab20ebe56a1e3f6cfec818462804b0aad37],
    [0x4523bf1a8f284c6d95b310dec2b54e0e00e59b571dd9d46b6201c18e1b56dfe, 0x36339f709425b44b4b4158479da0b011c1a67fc8edb682b0a4437607b9aab74, 0x25f49340da53700404b20e59243b4e5158b8a2dc24acb8f072504149481dc8da, 0x14b076d2ce8f4cb8d8323ec8d743947a7c8fc96f149c0dc4a74d883939d620b2, 0x4a6fdd5c06168268ddb9886b5b9d23f146ee182a155e175d17b07ddce7df8f9, 0x8868cbb867db89dc7895e3c2c06466e0cd0936eca7e35ab5fb8f63f7a4722ac, 0x13639b2e24f941877911b94bb9a0256f480021097c2f8d713c088c628d8fe61d, 0x2487694daea37ed9f66185b6ba5700abd9144c18def2fb87af3a4fcc5b8a6b5e, 0x62db9b179c1677bf6cd17e9bab4cbbc17a113c73c137dc6664bf4938f723352, 0x25d7d897d92a0fafaca382402a1034b20ffde5b709d6092aad0e89ee43f48fde, 0xbc883b75255e0e7b62094e1ca2aa65cb2a2dc7c4b30233f6e057257b25adcc8, 0x1e902b42eb37ffe108655260991d4f28d286585d6e9c172b6d87be8e08eccf31, 0x41a3b254a2c8446d8e99a292e24bc1858eb3d8fc841bc7e1ab03dd5f1c40ebb, 0x21f4b9d60cc5ec13b8e87d116b27d89626bc76c0e8ff4caad5f825f158feefff, 0x246be41807bdfd90b7cb066201cb33203cfd557d218cca9ccfe1451a86f4b258, 0x13760f834ed0e52211b6d9b36080dafe079c30c279777ed992882ede9fdccf3c, 0x24e75fe9b1f75436c465b22fb0520ac1afe2cd26e0a2d7b6476a3c9740e1ada8, 0x210a9a4b2b1e03dd5fd270b8303f7bf9eb268844761f67473372cd665b1f319b, 0x133c572bc84ed9a77b6651162bda90620f004f61aef467671ff8019ca6c09bed, 0x1bc35641ed2b845a94e93bb2b89889d0b9d3338d45503f21f1fe9b0c09394eac, 0x1ee1cb63ff99f240cb1d5f11c0abf418d696a0b73560afd9302a5119750daebd, 0x25e5840c2abad4b937edcfc1ef54894d9556774b1e921d1a437278f8c3386222, 0x137cac7ea18f1785a86b769785cfa6d919af27b77d7e1cf07cb4070275c91384, 0x2e39652c251cb2e6a89166be880e1021996ffc55dde4b823cca3c305a1836794, 0x3ec58cafe270aa7824551c1948911a0412a4985d79feef0324bd63960c6995b, 0x293b947e1e6860bd81442b2c2a6fb3ae59375d12f857b5b8161e0f4bfb430ef4, 0x2727bae7d504f2181e1910bb7eee349eaeb0480d214fafd019662edc067a1290, 0x1be2f1a5593378d6fc1505e59c4c28ffb6cdf5859a5e2e1bb5b49a36051f77b1, 0xb1e3d4a0d6e3bdd411c1f8dd4f2553ae84544b84a57b1f09fbdd26670d4b007],
    [0x4523bf1a8f284c6d95b310dec2b54e0e00e59b571dd9d46b6201c18e1b56dfe, 0x1f1099181737a09a66b13631030982bf438bf84d3715a0bed3cbebecaacac44, 0x249a7a0b3a015a04fc08a2c6cbc7787aba1cc983c94a3d5074f584edfeb2416b, 0x237bace2c06976c536b56fb5acdd2ac51fb2be8c204834b011106f03eb3a297d, 0x20d83c51cb9e2a1fb0a0fa7f32c69cca88e6af24878f21fad622e364a6be6c1a, 0xe65df5618a774c899d19e6a6d8f0aad4a10c347b12ac1fcbfedf7a9f17ed09d, 0x16ab51042d2c056da53bbedaca317fb7543846fe6fb147279b5872eee7821e54, 0x2e2d8b570da9329bdf02f5feb01f2b6e32fb795631c6be29e03a1c0ce31c629a, 0x24d1fd499e7bb80cb2d0ca1fd09039bc4cf518ff43725796bc2b48d237c82e78, 0x6a96b7d99b2b7a6e57cbb355217ecb8637bc3d4ded1e046783a6d5f63689392, 0x19a143f1c5ff5191d99a6f144d8635ee4e4833b0b80a86434a494a6a97273239, 0xd4e60cac8694ce18785f94c5c2f18ddd5eea3cb8a70ab4bc3e533b3baa0c674, 0x3062c4cdaf43e790dea387e5bb1bb16a167f30e644e5411f9252042d516b8f0c, 0x1b378a25d0cd861fbc9491836aa9c1fc169456c2027b34ac1b61a6d7090faed9, 0x21cc1b4f8732b2a733b42718b6a48429df379711208deaa65a7eea4af1cc7d30, 0x2115e1786ec90fa373ee1a8f50768702b3b89e4c0aceff138ac487343d707792, 0x15ce8b9c8e950b1292ee1f80d7e271d3c0b714c1de34b76063624d00a686a39a, 0x1d0e917e058eb6cb8ee32e9da420bd6399f8b2297876d84d997ecf8ab3b0d156, 0x24d9b1d31cd6eb19c0c63513a6c3fb04a43033968696e954431d00f128bd6349, 0x1e4dae551bca600dacc58fd37cac50bf2713052e2a4935d64471f585508f0d9b, 0x11b1cc629721ced48c3494595863dee3de1598c11a681412062610ac859735df, 0x26ef5031ab96b02b00df512752c7165e368f406857478f18d7230b6e4a1c80dc, 0xd83775fafda795718ca9d4777d79b9c4354a73bba6813c415b3b970fbac6e62, 0x20be2cd9b7d6dabd4db0dff89911987ab0479dd9c1c081fa64b97fb97c8d3143, 0x255bcd5c215aa3bb5bd9e05f4bae4a68e152e3118fd09368fab9fe69e23149d2, 0x1947d75ae45108e7a86d0e3e034bbaf27b7fe718451e3a5c206dd5a122a917f8, 0x17af7f16f78c7b517171424fc4f47ba88cf15c4224bbd13afb3bfb05df96d89e, 0xf736ed6532f0b90d30bcdcec9b05d1c59070f105255e7d60f8d3178e753c5c4, 0x223efe61713a8d50c4d8f00ff69c45ea5f27defce0f08a9bc74e7a82084bc788],
    [0x4523bf1a8f284c6d95b310dec2b54e0e00e59b571dd9d46b6201c18e1b56dfe, 0x13a0d52fa98cce5cd43bcb4aae2038de35a787f86d375b019d7279a135ce710d, 0x57d3beb3548cc7650f10f293fc2d393227dfb72422e89072dd8b90466bb57c8, 0x1a6533a65e764adb163780a18df2e7f0233bef0eeb6276895c76a474998afb79, 0x1913a71c0e6f8c87f433ed6ec0bbe2e7397544c0dbed7199c5f4b7edceb06a79, 0x2266891fa5e56d0240ee9871ad7107c0d740398f8cc9165a1b09e10a2b740c17, 0xf5652567afe30f4d5e934d9852bcee7ea0a8fc142b4822d2340853022128fd0, 0x5bbf0f89f5ae6f5713c18b57ab2997abd8bc8c0fce08e2047ffee7ff4e8bb61, 0x1a7bcce0d63b580b6779957d56f9abfe5aa8ec1fe610e952c4259091046d42, 0x2b775827170698c370c7fc1706cd95b8f6c7750f338ac0fcde91ebe40cad9dbb, 0x1b9c97f57c84b5f780373eeafecd7a4ec3e065219785272820672d59e985526e, 0x1c89b9708064d8558f1361c6acba6d73eecd06c4e4a157abcdce2731cbea3e95, 0x9a22dd01ccbf3e6ed2de7d74e16f58edeb748843b19d0cde8756bdf30e7f222, 0x2678274dec9c2180d4f5b5e07cfb42c2489afa4673c61f091a5dd00ab0e6018e, 0x1400af0c777fd9934b9fa5d1fab3576164ef9b31a6c8be59f72cbfee446aa148, 0x2bb2d320c6f15fc80d7c78fd8110e715403df00154b1d275fe6422aae8d68cc8, 0x912b48b8c530838be3512cec8d4c210726e17d660b2a726bdb44f686052300b, 0xfce537edac05ca8b03b6b472dbe1813bfca33c05fa1acdc695c6e91d60529c7, 0x1be4e4888a092ed1691160e4381ccfa8997237e78cbd7ecdf8c12066a49c19e8, 0x28bd303aebbdad8a14ee284102ac2ac5e23680287d8c3587a71cc61ccd6c5b90, 0x110b79c0bf8f52881c24f4e7598c5f5b30112675a2655ab183be54c69f8a85f7, 0x2d17b110312b5b8d233dce3470269203776b47b85d143e1f45d59c1685ccf272, 0xdff609373bc4eed749b401df1e7948ce8c8084f4c816844c29ea7a07cdf320, 0x21445547b6584627b60ff1364308b6d6d1d08615de63a5c2ff1ec7f7764304e6, 0x1ad2606e3877709593699f24a0287e2be54a2ba74f3551ddb1332c7cedad0d30, 0x10c695276f9d6578a7bd5c351c1cab9affdeaf9abedfdbac72ffac057b67d7fa, 0x100f820a8faa0bc1165b8a16f64ab9baa87fc7e94ee23f5a16125a71cb06b838, 0x7bf7f1faf360f65cdf14fa9ff38b2619b616f2913b7403a4fe0431ec15a57e7, 0x7b95e787e34c76215dbd3e1c548e5646bf3a061d087ad6477cf962a3cf73dad],
    [0x4523bf1a8f284c6d95b310dec2b54e0e00e59b571dd9d46b6201c18e1b56dfe, 0x2ec7afda93383730c9043913c6b866c20a5122081a7744f6d6a317b01177affb, 0xeceed2a6602d291aab1064254c70fd4113a09bbf3527f603f67f01336915d35, 0x284b37b2fd2c4ddbb2bcdd057a56680d46b7d69fac63b80c991f14db1ab5b345, 0x10ddbb4173b040104f12ffb5fcc87bf6730ea0c8aee88f9e2c00eaa1a4231804, 0xb87d2c0dab9ff1ec96017e8c43bb5281266fc92231375e78f02354355eb0c74, 0x255c350cb26d49d41652f9a27f8d6c223b8756f8797c0c960aaf36fe91b4c910, 0x2ffb78c0bea2534d67c0b061f4ecb9cff5cdc0bbb9ba0567b35b5434329ce24, 0x16aec970d0f171ac2f7183d67c969ce69cf1f4dc73b38e3a72d8adbad367ac92, 0x2e74c92c412e2d6943dfb7946c80f5fa9ae87255fcdbb98c437b65f97fec81b4, 0xbdb1fbc8b81f57cf6725c95bb9428bbed046d555dddbaeb02b3fb9baa750fe6, 0x7bf15085936894c23de42271ca102d554a45b54ae80fa0c7e6d7aa9c72cb65a, 0x12e18b956f687e1c43f50a6571caeee8bde8d7da9ad5e5e27ffad30f833eae36, 0x2c45b659cd395880788e5215997b77761c46555ff084f24a0d28dacfeecf5c84, 0x2805d6c3bf0de9aa5c7c354947020efa9489995e8baac233ddf04e8ea8ba902b, 0x18187c330b42dbf89ecc0435f0d77a7cec28d256f65047d4a3e1ac8aa6cb199b, 0x2fef8da38b7959eacb7ec6155488836641655c11b8babc8f12e715afff115d4f, 0x88011673864ca6778bb97d51eb1f2962b69d07a496b6b7b370cec217c601ae8, 0xf6e83f3c55d5fb8b6b6c89e176a5a4f81a3a0acba7113ebee661b411613438f, 0x2d59be2aec0efbc67f59da156d934313e8be205c1460699f0e70e7fe5ecfebcc, 0x2aa0544263e125a82d9ca1beea6d9cf22b40afc7155bcb0f1c8b1ac23a24f6c4, 0x7e3a92c9ebc149a74d4180ffdc30e8ac7bd6598d78bb8f3530403fcd9b12221, 0x1827bf9f11d4061c506954039093e66e60041b2c96b8f7e1e4e550582d1ea13a, 0x2e147c8ee46a45f0ecc64de8647e833b1ec708269b37f4e29b17c91b9bab8280, 0x3117f4c71dc298ea7cdc53dc55f0a15541a369691622934416026bb1a65b8fe, 0x122fefefa669bf51b544de5c0aca38753c8f32419b2ece3a97f0232e523f4cb3, 0x18e8e58431e6dd229b88f142f9cdff129883bb54edba0854b29a8add15354d97, 0x12e0b4787edc9f9d3b12781839f3edfa715accb3e527bb66bb08d355b87afa29, 0x2489282bdb046d49227adbf0c44fdd3abf0bb2ecb21a2886336554389d452c2d],
    [0x4523bf1a8f284c6d95b310dec2b54e0e00e59b571dd9d46b6201c18e1b56dfe, 0x1e2fa77b090a5c2e5f1d37e25ba7d06596bfa3b546362103a4ff19bbacf7e9bb, 0x162a1276d397eeaa3cd6ee80478788dad2650b1433b55b07919d966a1b87ce8, 0x26eb2facb83a5a98dd405a0e6a94735a4c04c19ad847c53fbf047732eb114fc, 0x2b7496ef4e35f11f739db9bd69ffbfc416a0c45512e31f86141641bba04f3675, 0x26792a375f1ca2315b76d17b3f2bc3d6a3edc3c54f8ae682171143a91e48f091, 0xbff276591776a997acb59a579846525f8fe7634d66c9477f5406b05985e7769, 0x20e9af0c21b5cad7c87e554c98052eba561458f8f6b6534c4a1a0d0713681866, 0x1f5e270d7be396c13a4f29cdb58c7e4f267423ce2d242c93049edea4b9fb4ca7, 0x26ff7c1cf25310bd71e59d175c3c3a0f068a54c8493c401a3b67030922b5a757, 0x1276fdeb195702a6a855465cdd5b807f685ce377132b625b3f1a5e934636e59e, 0xfb72a4d993f139baa0ef2fb229cda32db7cde0f10c9031ff2f9ce3f2b883491, 0x15a52948bb2ee184cbfd9d2b419836e859f2d39291654c082261a8a1986aac6c, 0x1a9d4106f5a30c459a80769db1359ea4a3fa0e42cb32ea4ff03c9b800dd8bec2, 0x1d9250e3e49f0b5829ce06d877703ee0c8e9a51b516f09df7dac3410d6a7b5d8, 0x2524fab526c690d264888df207397be10a2626b71e97dbc66d1928e358bd243d, 0x508f820d3a3cb5e0d30b4a9712a99eddcbd3adac2b1301f123e1556e975d30e, 0x2ef65d57e70b07fd0a22938cf1065e3ac3996df77e0c100d354eebb224dc449a, 0x26b914f529af1a7e31afa5334e60374474b998ae18e99efdf19e40b2dedd49fb, 0x155837584dbdbc23962e00fa5a6115c10eee76681f25c51280a1bb2842d8488, 0x222e724b780a46377b77fd83af70b53cb39a1dddccb0eae70e4d5dd6dded8da6, 0xd050bd15578fe41175ad1e75a8ad0b27fe8943d894ddd74aed4b463b7f02790, 0x5c5f00321782b3d2fa6fdcb67fa63d1a00a9f63d35f4ecb08481ab535907d46, 0x207a0c370129f953e15836e8f91d7fbde34553f94d6b899e8645c96f1731f098, 0xf875acc749b0abfb86f3bac9e8a8e56be9b9b55ea8815d19bee069150d27fd2, 0x38a70dd168196731fddef341631e16a97447553f924d6c204d440dfddc0b1fa, 0x1502b8a3411c7391414156fc640e8a51a1171ad07586bd6de2be2e38fc6486a8, 0x7984908f8931b938e16c96dac3b58d151c4dd0a92d671cda98e16953c2b7f6, 0x694d96a531fe9e369427b3457bbed265de03924ccb0331d4bc445c4260c551e],
    [0x4523bf1a8f284c6d95b310dec2b54e0e00e59b571dd9d46b6201c18e1b56dfe, 0x17efc478730ddf82a8540cc83c4770636959f1b0d8cf438b239f60df816d7519, 0x6d6d06423d66562ef9caef0773f3fdbdced70fab47b0de7876b7bfc1216df7c, 0xc750b14cdfdecf7394c6039339cd465a8a010272c1bff8c9190ffe3f0018d7, 0x15000d48d85c719b68db8c9ed7e68cd481437c653ce647bb7c965ef9fc1c07ea, 0x1b18af3d53da20198957288dca6a567b798666bc14c13dec46429100e01f94df, 0x16e129dc67d5c08c79c6fdaf38def1b90f6257ce0017488b42ed2d46bdec04d2, 0x1c958e9abba1ec33523e756e8be1e0fac90cf1ed314b37d21a7b4d3c84e574c, 0xa4487b4c046d0e836db729d214a2b6995146b527ea42d9f1b1008d321a4c7c0, 0x169b2c93aceb1182e58c94204e285380af13476c86b6c6ab3c3a65c15fa21c4, 0x797bc2c0b8e08a4eddead0572838c237d0d825e236b725ef88269b0eea4d28b, 0x2179889dc88d5096ee6914c03f347b9d9e7c5cd8c8b9930b5faffac69478b6f8, 0x1057d99f4e9409dc2a83b8940d79e8e1c8e9c1b55a2a10f4261575653bcc89ee, 0x168c49e73137bd006b0b0996b3da6d2562db2a94f94a8e763ea36f950c0f6342, 0x588b7dc72c564a70347721e31544dfac82344701d29b12bcfcb99c951165ff5, 0x30052c56471167c83d58a970764a1bb51f602f45b8fe42494182d48386d19001, 0x284487bda08c8fb308bd9f50b700e107e82ac7ecc25ce91362303a2a2286af92, 0x2e1e79d879db7beb9259bfa882fe3a1a34345451b230d4e27d7cc8358e43dcb2, 0x1fdae630269a40c8ab1a64d8fa09af3a160bc7ec218f7aa5ebca2346c54590da, 0x1d6caaddfaa7d7f98b2a093524361dbccf489a6d2bcc0ea1e2e13abcb025c83d, 0x5c7c0b2bea90e985b2fd8c7e1e9801335eee69801dcd879edb5101739294534, 0xee54de6bffe8629a8fef48dc9de7a50885054a28dc85c6649c42abecd607dc7, 0x93c826c2837f20a15a7dab825f873ca79fee1607b2a1ed279d561b346aa9e63, 0x21c75ffc19ad7b92256ac9ecba8768feb4b6eace676e2f6700c87b8ea6867341, 0x2dec2f08ab0884ac001557f139ba7305a30d8c342d4ee53e4d4e6abe61879023, 0x12612b1a8d7ce43e1cba045f5c0ff9cd61ff60a4df948847a5f352996c0150a4, 0xd0bfc972a52fd760da54a5e78a4d47042f43be8ce046bb4522be2beb644dc8a, 0x1bce51a4e501309316d08e24fda303a3f39e962cf2776588c22381009c08298e, 0x19e6822defe86285515bdee389f08a4cb9e8042ca87435a47443cbdb76d30814],
    [0x4523bf1a8f284c6d95b310dec2b54e0e00e59b571dd9d46b6201c18e1b56dfe, 0x2e931e74616f42a131d4a8b56506fbff77845d8bdd66420beb3325097c35d2ae, 0x12cb5dfc2abb8252e9ff46727444ac95b3ea73f0410424424488e144f8699673, 0xab23891e07d9b14ab6468d8b54083479ddbcc3aa385804af4531058b6f52f21, 0x76c297b77611e733d1e889aa59629450dc9a47d6b0f134ccda083f436d85a5f, 0xbeb7545c1a73b517a6c89f22ad332b7e343bec5aab4aa67759d1bd5c513cc8c, 0x4c7d041c29a50e697120f25caaabd6be874d81442d23142978d9e30a18fcc0, 0x564102c95e897c7df22c2a4ebd2f41df79b27754dc83ddadc1e8fb5011bef46, 0x2c05ce35ea49db3699362c4b4b64a5ba68cc375ad8aade0365ef5421901a5a94, 0x1656b1dd63124d1354b1830de366e2c3e19075d195f6fe6dd5b28a599f37dcdc, 0x2507b36b6b8e24780ab4b7be3c26ad57c16fb9da2edb33c3f1dadf3ad05f6119, 0x126e91f50c4a00292aef54cd15052c4bc6114e85478479b60318e6dcca5d6c32, 0x2f9ab42a46ccd83e7a7005d4553ad3414e5211cc2730424122170c92769905de, 0x25aeb979b8ba4e466651dd441683325ca06867a60d27d0b51bab47a73ef3b303, 0x1856e09404e55249a6d7114a4554ed94bc09dbe373ee994cfe64a06a70b2cb46, 0xb6edf4c57e87dc5eb7cda564eb72f7673631ed91a612fb422487ad732be85db, 0x2eeb7ac6201d76d7272b2b8861c44f18045fb30837baf0040fe472d972a0051, 0x25e7df19e834ef4fc02b6bc24f1e45c42d935dc8e324467f216fb7456e344584, 0x22254c3bfc63bd575812867c85be048ba6f3cd2d2b600594703450a16ba7b35b, 0x1f04d9141844aee56a08a3e8b056715e347c668ccc6f1fda6dabf94b2a077531, 0xff41228c1c85b1f6d2df6e37422bf7ed8b7dbeaba7da63f6f96bf9b3a525fc8, 0x286cc1fd10f3b5e4d3b48d6996d85e284b6a6b215c0b862d5a29972f6ee1b681, 0x2cb3455b4afc670928e65d5aa1461ed1f048865f31b87ff6bae6f1b13303a69c, 0x23dd832c9d5244d3f7d185b3e8b3d759c11b86ce8102dd3811fc743e62a44dab, 0x128a2af0f0d1965fcb13344373cc1bb6f4fda4a5c28cb7eb31fdec881348eb90, 0x2b9f84c295307fd52151b60b7b676d157ecad172fc2a8cc89f8dac7dd6696921, 0x10a3da81ead6ed37cb8334cf6c7d65b69862ed22f485b092bada3c0e516c48ba, 0xd34d3d1a4e840d8e2cebc5d527a72ce929fdc7ef27e482a0f029a7b8c6875f8, 0x5a6ae7b5423c19aa7ec80748ae9c1f5d189935cea5723cffe87ee7ceeea8c04],
    [0x4523bf1a8f284c6d95b310dec2b54e0e00e59b571dd9d46b6201c18e1b56dfe, 0x1578614d9a2967236aeda5f4a4dfff54693efe351787f006c743eb600a936bf2, 0x285c79334945bed5f5c307dd65410ce6d6093d95dca5550146995d79028aeb09, 0x10b5fbbefe482164a1e9c30bb4631861a12476186ebba60da59a8172a24fbc4e, 0x1cdbb43b87d76d420ff6e1adef1ade355edf97a1646107d44993af476b78b98, 0x19733eab4c8e4779cc914f07598df3bb1c2aca04fbdd5a116f864a85f7a81fe3, 0x3009eeefe893a6b04a2d51a027b63406170c305d525e5b959e057825757a8ff4, 0x2fe6c9de6a79e7bb2342a0c0992a9b8488b4bf43da0ce566e53bea4bd24e6018, 0x2d40f2520a5df3a80ddab03db8ed7af99ea054e3a159c4a3fb6fe79a769b685c, 0x22340e058329ac548f679421e17152d6106de7393cda87a9f7351cedd26408ce, 0x5609d6cb0bc2a003ef02b3f62902f51b49bbed72fdf724675ede239432cdb29, 0xa4481c88c41e347a2ef5fd6b915772289c2c90b91b3fff301844dabc1c51cda, 0x14ade810e267932c4023ef6fea6ab0fc56063c5740a256c89e75a17264fa2898, 0x199252b794492b2d35beeae8c1411bd1b5177e17af65c6f86ddd3261c2f8999f, 0x1ef0142a7d35ea276712c1b5b86e1386201c18e3f774321cf69b6a0d2ee3f226, 0x24cf18fdd7098067ebe68731ff580f7c01de7251814a4666ff518222130aa2f3, 0x1087f37b188ac4ae2e05051a05b60e0579df8f4223d874716a6c251ab62e5b0, 0x1f0aeda37e4d1e81150239b71a4cda04f0e4d8d7588ce691721df28fe9f18c61, 0x1184563ea49c28693ec800bf53d6100048fbed518e1317ad922c095d486778f7, 0x28bb14de4caa8db804e9cfd9e92cde9011c829e5cc88a709d1761638c88a0593, 0x5e1f290e1cd58efecd18bdb15575356b84677a59c118b465b9671f81639783e, 0x25f7a0d0ce8b40f8b02ca63dfa95a68e391df9f6d24180cb3cc976b4ce04fc11, 0x480ccb16af84b2184c6f5b529a3d8f444f83dc11781a106ae10da23f61587ba, 0x539296f5b7b7008de45d5c8516fa99db18f1a822529d3266f60fbb9959d4eed, 0x1e424153fac06000bbadc168cd28c2456abc7b0be95eb89d8dfc7b9bba75769f, 0x932c03c10fc912a134329f330f819e8d619aa8a9b6f52599e0761ba32c60e01, 0x1211f6c693e1d0dea72aa0a0c505dcf1f9fd56e16545cae0818d554937473906, 0x423bc3cd7620b919908d77becca14373a0fd5e3e9ba4470d967da7ee65479, 0x2118cbee96964430e47912132f0d6f1c2e6fef1c001c8f55ab591052123d04fc],
    [0x4523bf1a8f284c6d95b310dec2b54e0e00e59b571dd9d46b6201c18e1b56dfe, 0x1f1e2374f0f17846133ddb87fa54430c6c3ddc9c532111de01eda3684f397a94, 0x208b76b6732f2ed681d8ab9f1b5c510c8867ac976a3fae72d5f9d88676a75a7e, 0x1fca7fa1aef782e5f42195a7691e73b90033df38495b91e5c38e820426446820, 0x17f136e334658510bf76430b18584795cc8bef7a11c33a61b5259339acca3353, 0x2c03456c81a5e2e32aaf6ff4f1d5720677c920bce4adb99d1d89a60618da2320, 0x1a5ed510e6e51803fd72011c2d6de4c638d51c6d9a57dee093680dc336f5d34e, 0x1a936bc6777c2da71bce31f6fbd646a3d62a815680203edc66acd1148132029, 0x1b4a61fadb468df53bf54dc94e9a1892f69e693a26623b6c768c9b6f08eb260d, 0x22072ccc189a669fc9c1dec178dee22e6810db51fb07d2e1c4aba223a89f25f9, 0x1970d123b4ed8e8bfb50c817284430e9349f042e456fe5d518f499c071f89430, 0x259064221267af8baa25e034c726164172e8ac0889f3d62d29ef05acf962f9b4, 0x2287530ba760334e46b1a49861dd542fcf4151293041712c8544a467a9071ff3, 0x840062bb032fa90a3eaad025fd47a6353793130aa0b8626565b48035782aa66, 0x1d555f3bbdd6465b30b7da0ecba9891624d6d041bb781264a89aa7b16d346c0a, 0x23d4f39d8b478d9f3fe9c56850eb091e6fb14326aa5cbc9b2b0d7d87c283d763, 0x2901b8a58d07adf7c3080c1a36cd9d70652aea9b07702d07ad0923d758cdb949, 0x2d5fd10271ad1b7fb5f053107e3e769cd3509ed4d501be13cfa1421b5394605d, 0x207c3b106d337e3362d760cc41cdb5be011fce738e5f485d2b46b93c64cf9b83, 0x1492c0ecb1dbcfa1c6635de3f6b7d9eed6613a602d44fee471a9757bc7b42898, 0x1644d335356808c816d04419514ff5ec328dfb9ddf78e623cbbb6b20b4ed3bea, 0x2fa67fff02c7d3ca002389d54c6efc4687da94708f6e27d1bc5825f164cbf4a, 0x21e1ca08175564b26d688202433c40a419bdaf250b832229f4a1f31e8ace5464, 0x2cef2de85c29234f8717a47931f3e7e5d26de54c4009f0cfbed5742defb3bde7, 0xf9101275c6d82c585bb03708869626a1b0edf857aa536ba105733f0043efda3, 0x13d2ac8ccf60c75462050c8f441e1ef92d1b9a842c36bfc82ddff6561efd49b, 0x23a7cbaee856630abc2b423732eeebc1ec3e071391d03f9c9b51351c67943e5b, 0x2d3d1ee5d3afda1af49ea526d8f250430e61921b93adf072ac5202b5fd8d0f38, 0x2c40a0792e0eec8a8ff8b91a36835ff0774e11e3f13120c7a6a0efbbd6ef1f0f],
    [0x4523bf1a8f284c6d95b310dec2b54e0e00e59b571dd9d46b6201c18e1b56dfe, 0xce2acb8e9575bad440cc92c82f19694f1ef1e5f0dc1dfc83c39ed80919709db, 0x255e8b6bfcd73f20e6c4bd3f61ed3b8bd17626c5e5a843858093a7ef55eb1d61, 0x71756e3a68459939af3577f77567bf688b996b47f0003c4509df83345846c16, 0xbffe3446589b3eea6ac107b311307d20faccc7bb45dd5d6849cfdf7ebcec41f, 0x18787bd666cffd2d76b9b7344eed8e34feb8f96edbc138486fbba2cd628ca4b0, 0x24dd90cfbf38861e307d9dcfd5507b2298bf6b2618fa97d7e36b07690fa7c13c, 0x1410db3d1ff17500d908b029552bfb5c44e3cad85b44d8b7070a60c359be7abe, 0x114c5d80f6a4fac9b3962788dc0c542378352eb593c0cf88355d8c8032efdea1, 0x1faae4eaa27310edfbc782b40c6ba0969779c813807d81630b192d053d4d5c71, 0x1c6a9217a08e3d6b4961cfc839d6e8218df84ad042219111f80d068524566422, 0x2779a31633b41cf11d988b3560faa03f2fef06ac2b58f88d89fc5f386f28b6fa, 0x1fef33a133dc716d8477f6c00854b9bbbb087ad39704e2aac12ec22518ca42c6, 0x51d3217b934abd02e647c9cf0f9642b2c35af886b2a45cc7b50fd3268175a65, 0x23e2976b87ebf7b64a5a3aca1926bfb61744e0f4f8360df40500f479e052e17, 0x266d4f55ce9e2183ac237c1cb82a138cfec9b415769742b2feb57d27eba7027d, 0x220ed82038edb07e0f74092c809db76ce01adf533a42b51200f67cd58bada0d5, 0x1739b7715b95db81ac96c21ec1fe7bf0bc6766b37d0572066766e34ee44500e7, 0x270da5e7651be197e4b200aea12cc8b88c633d4086a0320fbd7b25ba6bb603cf, 0x6f6db411a03949e6bb5c0a24f49967f1eb39c35eae012aa873ea0b3447d6f5a, 0x117a292cd83ceb0d341c01e65590f4b38741c3ba51c0d717d273ddaae5c59cbe, 0x263e482df03f958b16c2130b9cea9b74b47ee5d7f070ed5a6ab849074386f863, 0x2803f7d7e3cbdf5be9306a32a90b58cbfc5490d1d74609cbf6384476b29265cb, 0x142c7e2c2e91322de905b8420ed32d6ff157d64e792a38ee29cc9b316fcea3c8, 0x147d7bfb2d88839714acc1080d935f9c289434d5d0af4772699bf4732c13323d, 0x24bdce338ee348af82a60c960800094d5794d7a2607d5f3ccdd1fd4fe7b95583, 0x10a0a7c38506d41a52e6ed0c4e14dc1283848beb7de73e0e92d4a065121c25e2, 0x2f5162740cafbc5f21e10a4eaed36ac331b046f846c46a319b54d9e2206c892d, 0x2c74369be037f8a5d985bf78b1e89838e0f7c1aa845979b6c5142747a0bc6b0],
    [0x4523bf1a8f284c6d95b310dec2b54e0e00e59b571dd9d46b6201c18e1b56dfe, 0x28580a3d76cb8ac7d4ded32ed3b70d34ba761e0b09803f10d1196eee812c8e69, 0x19cf15cc84de7c87a59a44d02e83f88120bd3f7d1ab07ffac878a17320f4b2dc, 0x21ffb716f9f4688f477d2b03bfb4c4f57fc37c75b46f85ff3d8da6e028263594, 0x1c5e5652ee5c51f74663b5612d00e002ecaeac6dfb26d143e8f52a7b62c81346, 0x309be74d7ea79ab9868e691afcd53fdd6591a5c8cedf965a1895229eff54a7a, 0x8533bd365bcfcca44a62b4a3d7e1b0963ba990d5bc5577aca90f3edae8e319c, 0xe7b927fe75b3e3322651fbdea1e01e7b5b9a3022e640476d39738a016e11728, 0x2c044e77e1889c9f2efa9d217fefb1003978eaec9d8c99a494ca9c6bae1e980d, 0x16ca28c9c6815d47c13eeb8a6baee797a2f9fe8fafccd65bc714c8165737d172, 0x10e2a1c88ffa4f4f58ef6974b6f612c37755a1aac408008ab7b3b47160925666, 0x2af08e42bfe36b6a795d78d34a4d4bfbba27adc10a144920d5709fdef7977301, 0x1312b9ac40cedcdc7154c3a110803222b42b2b0d944ce7308a992074c0fdc257, 0x1dc24b75a241225e913226bb4e43d43c7d47be4def03fd1b569eacf726f4ed27, 0x13d3a4fe3528fbe42ec423e367bed051490e1b014ede6b776b07d8e15509d882, 0x32d8f0cf21c697ffbd788f3f63ee8fdc1dcfd3ab649b39cb5e11a6bd2a24d03, 0x28c7587692973d407a133b2fb5502ee9a51a4671568fcb05435cf0b5fbe69ff0, 0x28e40378256e3cbd8a7f8cafdbed2021aa49f01a7d7056858bd3eaac1dc0538b, 0x25d943e06d1e141cc39bf61f79e7af2d71ee93b361fc7237a2d9a8abc986056a, 0x17081444189ad527d5b845af2a97df8c7a4293f485b483f9e8ed7021102f6443, 0x1c79729fbddab541d2ecdafb93faac1db19b4de80d06b964cf4cdc81e1e6da71, 0x45619b6eb27ecb55a5fa865895e4bb27712f4e95a84af9bd717b58e500de857, 0xe2a9db5bdf2e81d036943df530d84e17424ec54f39c8039d37dd85ef65e3dc8, 0x2ce50979f6944eb44498a1265db4d51ade51e18ca81bc69c0324103cd4116d6a, 0x2a77de1a9d04ffe3b955ddb3ca44d5cde5ab83aca3057ad21d2275326fe032a3, 0x17cc644fba9e3aa9ff2cb6b1386494c67079d7904d5d02828a84f100798d4ecf, 0x231b0e5dffe1731eef0342d728926ae7c9d14cf32b1873115a3d47b231dff70a, 0x2975aca67d081b04e4e00d824d5007a02f47891c5b0e6d74fe4bdc36a2c3dc35, 0x12dfba0cbb1703dd03aa3c6e434c14e50ce09615152380a14b97bad4aec1a8d7],
    [0x4523bf1a8f284c6d95b310dec2b54e0e00e59b571dd9d46b6201c18e1b56dfe, 0x138e38994513bf4cda526bbb6d9a7ad3fa60bbb5b8922f3fa889be7f81acc688, 0x233a737f744a6f8bf1fd4d3099a005b4783893e8203403271ac14116bb96bed5, 0x1c8af617088b03edd11e2697f3f1d61aea527eb312465a7d1d97120547e5eeac, 0x29e028abd359a281cffcf8e6def73b243c8c0b7dfc781fe16d85c9636647b689, 0x11cebc3218317d6a3fc99fa24c0297c3c917d2c79953fe6b195043c1ef2a2911, 0xd9eff7d690ca6de96fd8d2f757fabff01e7cff5f9af21a331beb5bf3c2b1384, 0x2c10ae179ec436144d591b58693d48867a3080302df8f221f646d00519233ac7, 0x195340f99f3142d58a8374368ba7b0aabe7551bdf4c84114c543733fd41633a2, 0x175a317578f2686003214142b6ac875027c021572904376694f8469ea2da5c31, 0x16ffe892781788c756069f60af49a1edaccddd1252b0add84fa3850c4f80002d, 0x82ea1876cb380488c70f7cdc9cbf6c494a3dc6db449b27b2ad55500a9132673, 0x1cac7d7d70279321973432ff45248a4497541d07c9a2b26eac2938d661eeee13, 0x8755249140b336749da4930b6a82f6f7190eb05c7daf28948aed60049d00f71, 0x207de9d69726515af8d068d0d26537798246579d29ba32be2dc2175e53cdd044, 0x1405eac8634a44a35197a6503a005446b48e7f415210523162c39a8a8df15829, 0x22f87c997cd1bd13a3cbb02d3d534c897528939d9e6714fe0c611c673d67d86f, 0x143d40dbf8cd786ae5b20fdc9242fceb6224b64c187b36a7ca66489c86489299, 0x2fde0b770674587f1be3feb619b4276125f643518ef715e694213e3134b7773d, 0x160ea6110b10e9e3f0d14cacc486c0ba8f9bec3498024257ca96c50b2d2dec4c, 0x15b8418dc1c46f3f546d70d983bc32122e40682185698f7f567f13590a1ace6a, 0x20d9d10cbe767a538eca9be227274944094b9e9fc01b61b657afbdf6bcdff00d, 0x104952b13891c92a6d7f1c5cba983aee4a3dfb31a1772d99192ab343d4e8519a, 0x107209e0e414a0e40dffbdc7b52e2ae3de04e4385a8c810e92ed2bc2f67411e, 0x1bbff156637ba8444d8679abf776687b8dc2462d876f17229f0d0b62b6eaf9c5, 0x61f0e30d8aeca231af662496c1a4a5f4c6b283a79ac0e01bb677cb14fda83e4, 0x3062b61d13e9c6d61471833d8e6b52f8669578314817ac28d650af7512e2386a, 0x156a1c93bb1bb19c46f2d621ed100918d9f3194221788493be08644da83e4aa0, 0x1366584ccaadb9ef95ec40f53e9cc7905204400b52fc6b9c0d21672fabf65753],
    [0x4523bf1a8f284c6d95b310dec2b54e0e00e59b571dd9d46b6201c18e1b56dfe, 0x727060f004a12682948595634ffb74c7351aeb401f8c16c31a333c8638cbcee, 0xb43e5d620c5f01be5a5a3193bd458a6ee196533aa8fea3efbed64a83ef2ff93, 0x711911f15ad7134cb9ff97051a0f73f346b4be3f9754508ffad823c11e60415, 0x62c118ab0b9ee4f81d12e70d751dbff7d7047c895aec5d87b0e1dbfb311f9bd, 0x1edc90b1e2679d7b61040b272d2ecf8d471417e3df89be715d5a85a6759ec37d, 0x2bd026a17123ff82ef6a745e786ce3b69171c73f00a518889c320675a4a31824, 0x18b9a646b8279f3242e40800752742093df705aefdc130e903026d7e6f37711c, 0x2b6d003cb10653085f4ca141b8674a257140e4ad022a6e85a5681cd3f415f3cf, 0x29ca967040bb4ef6fdec0008a3a1821b9a2682629abc6c2f37911be83c4d7b51, 0x29c5fe585036f56f24bf281bbe3891d42d867ad8df031759f34586abd4341cc2, 0x18250473c36c6b2fc023d9f980e9117d2b7d815386613cf518a5d5e1cd98fe8, 0x21ecaed2c0849f445ce370dbbff7a0f4e3ab45444ca614ad818856b057d0b559, 0x50f18bada3b7265d2194dcf45262069827248a1f68fccd800ff0c8f498fcf7d, 0x1056d0bf8e1c158a403fcba81d1b25ed10ce7bbf7436a0f82af53417d7758da7, 0x10ec2167737c5bf2fe50fe1c44e562a4fa629576c43c31c2a067d3f7e199aec7, 0x78d695069c5a1d37c71299f3f5667516b76a4507a4320117ed26b3b6c05efec, 0x302b34000b8a4c5f411458a6c12a335a1e0f345bd012c03e9afc62c8fc07dc72, 0x25110107d94ba32e47336fb64a434e02f723e7a429eb23b8413ba03500c56e7f, 0x239c9ad23c9efd9a7be7489e4a1240870a605c5b8e84021f3bace86281f5fe6d, 0xa71eb71ed1cfc23167804f59bf51324c69d188602e732e5cc5a6e3f73455033, 0x22f12028dd01cbb90141cfdf5497ad73403416e437f063e1ba391cc18bc0bc5d, 0x1d2ad4ea7240a2f71841635c52eb7a7484cb97abd94c70bdb187724db31c953d, 0xafc6833626de473ca08a5538a64a06cf9b604242f029c4ec576ba6a1376cf97, 0x19e01b3ffd3d1c30017cbb3ed8dfd60838f70e001773558fc4a1c9818bd4c197, 0x26db05b80a904a64db20297cc63e2d0a190ec9fcf9d528b9db88f7e079ca4d49, 0x2d8286dfebb09365859e524291676812918ebcd2b5e25131884e71037a5def72, 0xf3c76d71a422101870aca73667ead0b355e8f9a8009aa29941293e5cc105d, 0x2c7142225dd5a38f329349d4bed6e06f58baa1c3dc32a6abd057bab3a45eedca],
    [0x4523bf1a8f284c6d95b310dec2b54e0e00e59b571dd9d46b6201c18e1b56dfe, 0xd4830722141cace7a3d588567117cd756deae9d215cdec0d2c55c7dd293cf31, 0x826bf62570b5a5f61782845b349810b7a481153e7ec33bb3667e4a2c7ce4912, 0xb74da59928d6c22800edc212200770147b8fcbd5d40217cba2c1ae784ac3c66, 0xf5da0d1390cf5d4fead2ae4e463fed71d0b1d5095428572009022a7550864f1, 0x2704d9998e1e17d5a61ea377b1b78ed6d7ec951afeaff523a406624a99447c04, 0x300f822aa4b956ea43ab45b043adc967d41d2f7d67445ecce1bfd3259e62df82, 0x43f2876cf4a9b33af023d447bb90b634b37fd6a432b920e2dad4fe1b9f734e3, 0x20d982fe655c37b7c046a07110e57fa8649939e376a4fd1bb6bff3f13f88dbf0, 0x21d6cba8317dac264ca383630b4da90214d803c503ea5520c5b44dffe2c138dc, 0x873018963b4084347ad81b085693cfca0345ab963f656890c90882cfc5dcaf2, 0x1e6176f2c8c0e6acb5b02f4e54d245f806b9fa7bc126b3435b79e5819fa8c9cd, 0x21d440ca5e509e1ae0476ae546df34414d7abf9152806b4c799177b87b153f90, 0x85ac321a5407d7ee948b0cad303f92751532cb1b55ff17e7267c0c9821bcf80, 0x225fc6208bc12aaa5deba3688931a2bc8617e6b4ae76c1de0e85defe38e2f14a, 0xaa6847f08b61d6fc7ea711789b76255d14b6ad7de89124c962fe57f534be98c, 0xbb3bf6dc922baf1d7a9f555396d78f31cfc3cbbc534c016ba6879d02cf400a6, 0x24118b406a39de6a222bbb99be1828f9d70c24cce6ae452b20644f3a6730b95, 0x23f88043dcf501f06a9ba388b05f1c14ba29078b978e7f9a3aba55cb0bf1a7b7, 0x1e9ff4d090215f88d9af53bbf57282d31a835a8a052dbb19b5c0b366b451cda1, 0x26ff7979c38be718b092842e02cf124d1cec12b426a5ed8351b832385ddee404, 0x62eed7ae94588f149905a7d148f763c8422e7e0b6bf5cf5ceaf80f7a0754fc3, 0x2ddcb93912364f750150441743c32dfca87fba3bcfd285a5cdd854cc312a6d7f, 0x1a61c812aa97e5dc63b827db3b987d759738826488abecce0592af6e7281336d, 0xaf260c0175dc1188ad11222368b122a1f0cb5f71d5df47517f2190748f803ce, 0x6c547f8d368f03ec5aa00693a85d2b4cc56aad88006aca1e46b1eabb84a5d54, 0x15a040ea72ef3252816f453da8dc97a9b417011e9a65b0a8606248591e597199, 0x2e0ae86bd039654fcbf8795450a36958139b3e0941b98778395b8ecbf3b40e84, 0x71936ae5ec7e0ec777485d9400a8c414ce233e07352a9ce683ae41943341c9a],
    [0x4523bf1a8f284c6d95b310dec2b54e0e00e59b571dd9d46b6201c18e1b56dfe, 0x1fc8ace75c85e6d3a7404fe02b03139b6a67dcfe2d14f7af11cc30a2a8ece33, 0x263815b2a80b71e1222801ac39bd44faf23d0e21d2f31fd213d300689a720d8d, 0x1a91fe38ad898189e9dd7ef77559185a79d80481808f4044daafed03742d3ff7, 0xb99a6192c5bbf619624d1c7cc7d90930f1ffb79a6d4cd145bdb58a85f35e324, 0x29df5b722979b8c9c63743c5d997b720d1f938edefd5a7359651bdce60c352fa, 0xeeffa5c228914c03da9a2eb5fc92f23254bcde82c459c81266223e6fcd3d89c, 0x2b3647ce374ceafb0ee9c4f5ed4762db7240d45a5b01f3873f2a4c8b86a68be5, 0x21e2872db7718e97286c2239b5b721a58d89ca37d43dde81d5cf049477dd1c74, 0x173909ac99ccc3ecd1ab2fb89246a648ae3abbe251ce9c0160bca5712c0626ad, 0x2e2fd250ad31b0f543e958e16c10b3cc9e62e52c1a40ec5ebab4061d3880dd32, 0x2dc7cd826f2f2b963a180b5a0fb1b5d20d4a7cbc860679267142a707c6ba48d7, 0xcdf628de6b0bc2b35d3f9a0b2cac4cad27e7e1966c39af983d63e1461592bf0, 0x2bf2f603e91d6eeeb104ac9141798accd525fa3e241b1182753d4ff3f59b1630, 0x49c9676b595755be2f328863936312442c1c07504c5bfecd793e1eba7c3f675, 0xd1fd4d6ff542b060b3b90ecbb825f0f890820144be4bd0334a2eaf8339c9af0, 0x2206a93fd04efa7e79130c0aac582fa50c5ca7dad614331281c3d49ee4c1c67f, 0x1b8b1f32ab840765cb6250f4c9c019d994fa5858c67bd585a5f4a7663143ecb0, 0x55cbd5d71b787fb96fab44c8c6a1eaf3aea505c675c32f608ae0b6ae2e71319, 0x24a63962fa639928e90311ce846f99b35213568b65cc1db5fa65555a0141ea9d, 0x2d41835ec9c8dc848bf62b784a9d029cf7632369d3b6e9f6877c671495831bc6, 0x1c3ebf1cde47404db2c523c680ea3df60668ad37b67fe50298c632b77bd3f625, 0x4d92032856d1eb29140d9825a6cffcccf00f5fea91b85aaeb68d47391a67f46, 0x13fd59cdc2da8766343e9dc78d0604c7a453c4a4639f1e1f66b154605dd00cd4, 0x2d56a2d39a3db620d7b172bd74553d09cfada80fe7b1f2bef3fc4cc115f76123, 0xe8cfc663445dc81cd06b084d36c85d946c6eb49871add263ce14f2b477ad27f, 0x2233e0d00be5b7a77da192a5fdd91db5f196705ea0754e4bd1db5a357b335092, 0x153dcc887f5dca8999d51ae06fdda165dc03e01c67bd8790316bc465ec4b961b, 0x1e3ea34066a170114f0c76573452033360809012bb9ae4c24b6c1fb476d5d5d5],
    [0x4523bf1a8f284c6d95b310dec2b54e0e00e59b571dd9d46b6201c18e1b56dfe, 0x6662bced08b16d3d3a50c9dbca0743d66c2b0d5060c68983d8448ba7e09735d, 0x207357fa70e47358e4df94e0fe2860bb2ade565460c2f2ac9968718b512fd761, 0xd88b7243e4ba947985ab06738bfdbcd72be75c0539fc2c65e016612cf48a0a8, 0x29032f478c7b5fb111f8d32720abc1fa050676c58f783bb6740b5876211527d9, 0x1f58b00a5be5baf9e1da120d8dbc12a767e304eb63c0c05528efad2b95f6d010, 0x5645d027e203626b8a8c15707cad7f9954b915bdf620a343812470c63d6fd5, 0xab572420dfe8794515a8ff4fe71b0838d46a42e63b488bdbef2c6721668758d, 0x1876c13f9de5d341e254b3d2c4bc8c272e270b58c863ffb16324a178986dd709, 0x21ff416c00f6e478e470f77aead4decff3ab847e058e66bb56b1c75379d67d55, 0x104056d5d775740ba150f6807d251607c5072fcb6d204b3a92646b76f97db4eb, 0x2859bc2f280545367b3844134b23d2fb6ca07c51c42eec18800cfc795464ffd0, 0x232f777c06ca70171d09129c01814b57a685224a3a752deefde04487f731dc54, 0x2cab0c414d906b4cdd83f08fcd68d3b3554fda8f17967c89d0b281f9e6e8085b, 0x291dc030472a4633fe37225419e9e26ab406b12c6c78b40bb17a9ed3af85841c, 0x11b3be92352e34d0894a108302d097e94aede2b931b40b162b6792f127d0dd51, 0x1821450cf9950eb2f0ca14ee17385735c0c0f6b58ecfb4c341732c580e15289a, 0x2c7185a2965a3dfe86d2f88a14e66ff3cde5f1a4072fdc5e903a5367012d6bc8, 0x19f8b88431be608148ecc8a862b043c66277c6d244d4bc9b063488d470f91c57, 0x2e07597ce199e34f1a907e135ef8c7f1d43ae46459065f5ef56dbfada7b14086, 0x20dd50883de922f31411aa269a38a809f86ae985da0dd572a02b0a115e57317d, 0x1deb58e4db0e059b5e4233a27f3ebfd5c56fb7c8a2e0952870ff89bd985b7fb8, 0x772b8311e52b960baba8f9ccb8d74d520f5653608ba810243854ca306e9c5ac, 0x26508ad8ff73d70862d1ec04e406f165c53c04a0c3e466a11a2456656a2008a8, 0x2e03dc18ddda2eea605f357d82c0a7a9e05f74d078d0d940a0e7506dd7dbb2b7, 0x2651122e5715b7d5d0d396b8b0a6b3b219e1b5c95a0532623d9976330dc0c7a2, 0x1d2fa1a7f55da05e2e77eb2c7ce09b4f4c0f832722262e7e57108223bf2e4a75, 0x20991d3f8eb785ca08fbf1695aa09c0664465858de5f63e628cfd6dff4dfa7d5, 0x2ae4c4986606935874c81b044f450a6ad91c1c6aba4670091cf83dd34d8bdd45],
    [0x4523bf1a8f284c6d95b310dec2b54e0e00e59b571dd9d46b6201c18e1b56dfe, 0x22d5dcb58b751b33e61941e034ec6a5da20162b44a67f2f2c2a32fb2bb19efc0, 0x18a2197cf988fa8737f9ea1f8f7cf8e1b3da3a130177b80c47efb5fe8ab3ba89, 0x56472b01f8796af3bb76fc84acbda7f174f54c3129f03f6b36d80375bef622d, 0x28a91c2f74f72ecbe75a6fec418b9ff6bf08c731ca114d6609478e2a498f947c, 0xecd04c63ed1ee68ae94d51633155868402dac39e3c8383e8f0d45ffdd1daef, 0x2865c65b845d8061dcebbc8f2e91762a9af0a69c4d7692d60e3dfe98400a40d9, 0x2f50ae99cf9753fc9a1344a654574dd7d4bec32df7d1d4b1cb4d03dd1f7319b, 0x26b34e635792eeb315bf2e03ecfb8b00f7b6bfc137e759436fd0e5285fa5e8fc, 0x26cb59e555d2111646327f7ec9cafb3fb4344b894d7746069794c491f71b5f82, 0x165c43eda77147c1408da412d24ac1314a327a371d2f6c0e3dc2c7e956e96046, 0x172edd07fa59daaeb04cc4a4c783027401ed8b47fc6fbdfce05543136805e1b2, 0x2bc36f035f7bceca4001545d9fd98b0f2eae858e5c4b0f0e219121591762b378, 0x22d96b2e558884ca077f0fa9c41a38155875af1e91f5e69dded36499c5786cd7, 0xf1146e591fc72056c2fa40a35b202e6ae29a5e6d91180713ccf8ebdaeedb917, 0x29510d1143600cbda4f235f0c6c480f436e20daadaf9461a032204de009d6fb4, 0x1dbad14882314499c14316375e9b8888be4351bdf3b96e2651125fd03ca89a29, 0x19d651b0c567b6507eb6a7202081fb6311e8398a80d53195a5b327b7e5810427, 0x196d972248e180296caa0f943f4a034746a000205310b155fd0071bf6a20341d, 0x2e823807f3a2c2db81181bf7761447252307c8c7e088f9a470c257ad83a1fad4, 0xae07a00e65e68f06fb34219cf2f0b819ea6bf147168ab5f982c9513a661e10c, 0x1f3ffa4e4b5ac02fa89072fbfa10d169ff5cf382ed54a86b69fe5ec3b025c3d4, 0x94323f9b77a979d42a49cb1fd0f4a5ea253e908b0e96f47a308e44085f0bb51, 0x7568c62660c919b4295dae1e761a5e9bd1ddbd05f77de4977e99ea46ebddc59, 0x1d28e05e1aee78e0a9c10c97e01193eb1771c3dc84ac0af0b7e9b7a5df35937f, 0x1479d6a6a967e7a7672a01c2c541bb92b677308c3e365b73349327f39f4593e8, 0x6872919996f740aa2559418c0da042d15ccbba1cda06c95daef9f0ddde4a6b, 0x587b0974583ba3b84934a500bd726018b08125f5f007d01856fb2c124e00e4c, 0x2ee0bbcaf6798f8cc107dc4ec3157dfcaec549f36a87c934a83f1c080035adef],
    [0x4523bf1a8f284c6d95b310dec2b54e0e00e59b571dd9d46b6201c18e1b56dfe, 0x76373d256d68ccdb201590f87f661a13d618407140b6ec21bfcffb267e0dad0, 0x13a5be09677fa0af3fb23e95428b7cf9e7b8276baebb1a39b87a1bdc416b270f, 0x227a7259c3b2135612d12638b5ca5973ab9d6aa6d6a335781d81821fa8be02c9, 0x25d96493ac371c2ba8dcdc9bf29b1b512f43aaf38fcc86f17e9d44d59d870cdf, 0x1ec1120411deede740e7e3481b96ce1492b47232b208f15afb2127b41189afed, 0x12067c9f5be28c0974e55e19274c65f752c82287637ffc5104b35799362b0f0, 0x462ea3958f9c42d0b2406bec8e38576c88d964597ae61f1f07d811873c464db, 0x20450babc7a6e637d32d8b57f218412a430fe087706d88eac441d6871f5d639f, 0xb29f887572517d826f977c371341f2819995e65a2929c078cf4a937dc68558b, 0x27d93349e2cac8325e4006aceccfb9ab165aca3895697e42e23b78bb1f172a54, 0x1969ee0572799902a937545397b4fecbb83446841ce8525b714d765fb25d9028, 0x1edebdf580772f616131435b17c46e0e385b3ab83494207efb4d9a32f4667bdb, 0x430dc17c3f1957758e57ca93c94c5623073e5580c28cabafa400c2e5eba5fda, 0x1dfdc9b2152615a4dcc8b252f17d97b8998543e84b9b8cedf8d683d917186b64, 0x48a9afbd6c11ff4a680204e895b655e004211e495f2bc46dffec598bf40ce49, 0x2511be820087db2191a273650de721dbf7abd3ce15bc9e95e2a7153443ca7fe9, 0x1b255c37973fada56a1251fe07d617ce802b4ec2f60a002e1fdd9052090d3884, 0x5c36fe03574074a04ceecbbcf02d231d9d868aae698b20582aa556e6ee34bc2, 0x14071daf49fe401a508085071812c378491178f66712eee8f1cd7f611f8632b0, 0x1e8a45f66dae3bf77aced336508d0b566ef1aa9d582d9a44b9028d2e1a5c28a2, 0x3470d55418841efb8777bb16984dc9d71ca55b601c6a9acbcc06dd8a3a4e4b1, 0x194cd0a75e5edf346e694e78b831d42070d93b69555b692da6fb979a78afce0b, 0x22d1fd9d50ef28dfab1c35553601cebb2dffe723e366e956a2d9f2001517b92b, 0x64a916906b28a8a1a2df80019b67d7e40dc686d00333fcacd63ccf129d1e281, 0xcadf1f120a7ba6a73fb4f5980c5aba2e0e44280b5c9478f5d800e61fc39c824, 0x11783cca91ae0cd06b91cacd517e51d4f2e7fb59202993dafde30ee181115b17, 0x1563d52bb66c227361975dcdfcfd8f6bb9749f86297a5bd3a6be74b8d5bd2bc1, 0x2e3cf2cbb16d4b6a76f171d80a9b92c4b8324721e6c3a29b77e2c9727863314],
    [0x4523bf1a8f284c6d95b310dec2b54e0e00e59b571dd9d46b6201c18e1b56dfe, 0x106cd44586872a1e98d029a76a334797c6950fb72f241e344040ec5d1e766ebf, 0x267c81eebd4f9bec2d7fb13ae6ab345774192825ec38779a8883265df4b743b2, 0x5cde6fbc024c52d0dd9c940b9450547804aa6aae2bf06ab7bb2c3946fb09aa7, 0x1db696f29132c9a065e392e606d3bb4110213b88b7125ca0157a776212418837, 0x269b78b6fb577d3a5463b0b88bfa91ad56c1f7768b55a6908120ebadf7faabfb, 0x1e32a4b9639edbd369aeb322109c919476aa85e28c2b7a8a111f9cd906bdfb31, 0x2387b1982e0083a0621b4305c2faf4aaa0abd33dc265069e9b1d59673f5b1816, 0x16f2a181e0d79d0a39169a1c9389d0b67e50fc5ecd2598d2d875ccbafc659ade, 0x1c418ee3dafe2d97e5b84ecd7625b8598c7323e4beaa809d77cd7a3ab52f5c57, 0x235d1dab5f72d1b0c0cad82e5f46ae1972117eba7612ae0581ab85d4dd9b77de, 0x11eeabcb505206e74ddf6a4417f4d6c302d843dad5e5c1e536004e100f729c4, 0x14b4f6ffdc590f859a491af89cdcff26ec963551676e4e109f333c34a0b3eca3, 0xea3a8bd722b025559ae438ef85f1fa8364cebc831084a3129b7498fc7067aca, 0x26a63daf3c27700bc4e5a0c13c12a234e8a13dab66deb6ff2a8b805b107a4518, 0xdd28ac1c88f9959311bc53387840e131726a6ab9b7fdba12f403a3095034ae7, 0x1221db6f8687604bd35fd586e0944a36880fdd1d1da2b771fc06bc80480d89ba, 0x5dfb8aad4d6b89619e41ed02e593f0de05dde06b6aeeb1ee8b89bafb087234c, 0x10ba8b3d427fe867422065e1b2a8e0d06d567e73717deaec3438fe36b1bddd55, 0x13cc217fbf1b60972234be03ee877b96d287e30fb869bf816662d2887d2dc68d, 0x1031f3acc4288235e55b67f3435fb1915cba9ce0d0d1f12e0e602e2d605497c5, 0x18ebdc6dd67f2d5853541af16af792756aee1dd1132d3a6b1d0734db793a46db, 0x10a4bdea8bf3a0440f456c507069645ab3738171f896cfe3b5890c9a0abebc0c, 0x21e5b46f2b85977f8e4c67f37c30ddf03556eb1b56d8339f046a7d1aa8d9bbc2, 0xa8735e02e11c8a1e0a56b24ebe7a39223e2beccae352597972fadd8f4fd3abb, 0x27d5d5655c3a948d91278714a40fab8da89ca600e748a238014c98b932609fb2, 0x18b4b6e0794cf364c6d4b5fb44a2899d4ab038d6b15ed634c6c12accead7e73d, 0x1b89b8c9a5250e9edb3b9fff6e54be5b8c173bfbecb8eef3847d8718de0fe29, 0x27a5ddf99d9c4cdc9643219a9cd3e4f47f63a581af9a499f8e064f4d2c726a01],
    [0x4523bf1a8f284c6d95b310dec2b54e0e00e59b571dd9d46b6201c18e1b56dfe, 0x237b081a68e30cacc4213ba3d2b153672483ed173125bad4014448763d2dfcea, 0x29af4e6cae10dd99b672d741c5034f91762b99be844b0a938e967009578e6ccb, 0x91bd6b2497eaa902ae05480699f34734c7f74b073af6c4c559bfa3a33d4e6e8, 0x2f7f9c0d61cb36e331f2780b0edda03598067caaf184dfe95613950f8700360d, 0x244d6e7fa5583e36d41ab75c679191497f27583a7ea7f5cb4e87feacf2b4dece, 0x1f174e5f54c883afb9ae5b7e955380190767072e59db3a1e1b90d7035521359f, 0x97f23268924c4ccf4659499274ee72a1a9c83e43178454d49d675f4e5b27150, 0x3d2ab62fef78fb69b7049c41e34e6f1870662b336afbd1518ba776218600fec, 0x2718711c73da1e256d1b5c21c6b2e5e43e2b0039e86f78fe5790e04b3c7938a6, 0xd396383655c27ca25603d88e3d35c3dc6334506a93d6909745e52aa7854bd4e, 0x1c66fd746293e23154ab298c3e4ca0ca14980c6a0a3cbac979d4ed8fdb9f692e, 0x15708a52c8abdc860d066e0ab2a6b5b5cabdf1301f676b07feaf5342a971caeb, 0x2b821cfd139e0da4c55cfbd8b67a7d7a4e7bf5e3ce1932b96f6701fd39e926d4, 0xaafbee598eca5624a31b7f40b836023f364d41b6b24d0d7832eb180a60885e2, 0x15c92eb4730eb68b229bb67da73fff3ca720814450162a81d1a7a56c83c3fc7, 0x2f7200c5afe273cc787b0add86e9e0380db97cba269f59d0fd264b9ef144e839, 0x2eac5180790ad9bb069b4f7e1842ae9fb0b069216c9b412da6094e2a69572126, 0x1b7a0422eaf807c0c824c511a7b52be353c2a3789591deba9bca9a99e4d92869, 0x1662fa1c78a1621b5bbded5e9e5880a86aee481fbc455b3849d16a37cdeda515, 0x28972f5963c0ae4ab2b03cb80b4ae1f1dbd905fdc3c657550648bfefc4c719cf, 0x2424d119a1299933b209b85d4af1aa89f8523801efeeebbfcf49c1b6f95ac740, 0x262a05cbc85dc177e174047c94905083a27b4d887f8050c1b98a07608ac8e373, 0x89d1b0af58744cdb06e1c0636306751f6b6ede06527eba770eabb7195465a93, 0x26d8b08764b7240789d927ad67270da8521ffd23995b67f3b25de7fc60f033c0, 0x19c594f452b69d9aba24aea1f48887b5b2bd351e7bc6984e56c346264e5c5f28, 0x9a984983ac12405239b7d71d7e94ab74a5d7e23b3e651f61988e258147f5a61, 0x2edfe7a5c13ee6fcf27ca3a98d230c3158dc1eab9a12a734e78e69d7bcc5ddc7, 0x190ac6e66fc0244544a3780ae6c5a0d6e56894965b345a1b731cd96c89defed1],
    [0x4523bf1a8f284c6d95b310dec2b54e0e00e59b571dd9d46b6201c18e1b56dfe, 0x24888d5352a17beac4d1196b9ba56563192a21650b6e8cf734abbb5dc6fe0b86, 0x27f1a77d912fc4ffeb051b44845cdca1360b3dff10f646cf4e2e31b0b52706ea, 0x281d4a45a8beb80c2974562cc98785b37551ca4258c7b7292006e387b20d5f49, 0x1d06a2f6b95d207416e97b18e0a33aa504251bd5473313ec4ba4aebdbcac8dec, 0x11dc2b5aac6c6b58904b8370d622f408d4b8a22a54a59f060a9336509285500f, 0xf03457b87c6491c043633bb8f90a9dba8eef6067f86926dc4df4a6145b9cc81, 0x17982901cf92be1b7f477e61747a5450b97ddfe41bb5d7760bd1c25df17eb204, 0x848af60d2939b3983df6d9fe56343916aa046933c4517a6c0c29025a3da1781, 0x1dab170558f1782df01501d1a810d1f491caf3a03a5563c8638eb6649d852272, 0x17c31798bf48cc0a63986b914236ba21a04dd2a2bda0afcf15213df56c46370a, 0x2ebd4bfb0ae3e1f540f31fd15a70e59de4ab8ffacd899d56060ba394e224ccf7, 0x16c3ea32466b179ebe57bcbbe97e3a7f94b0a4b3e091f15e3aaa9222e8b182f2, 0x157740e3058872c28ca7331055f3daf8b9aeb36e9c2d7d231f22171c6315733e, 0x6a974a75d941a54412814d68e6955b7f4da2b281f2a9ac426afe81b98ec27eb, 0xfa950037d21d72090c5bdcb8bb6be911ff4a359f3e76ec625c64f1202bab37, 0x19065585b553aa2649a420625c707e61f7e0e70c753dadf474bda8fba0354fd, 0x183bb2b9d85c3a9368017cd1e1cd884967c0b048dc243f35b6813af5b279872a, 0x271a9d19b99115dff27a86779104a54b252373c18105cf5f86ab5ffcb2a9942e, 0x284fd24cc3cb45ca644f15228d786fb82cbbf3d66f1a276ccc3a1182af4fc1bc, 0xe62b392dc27b2b80a868a9501c9e1c72410bffa12b77732ce1df084ed0a7a30, 0x265311e1422fc3e5cecb4158eba0b249404842b16e8954bab3d80d6805fc4f65, 0x1186e446615d83a940d96d2286d9b411b62697864531172f5e8d3d9ab6a5f9c9, 0xa22515b9c7fdeadf64fb896271bd8d96f1f53bdb32ddd9be7cb22400d69ab77, 0x1343f2ea91b46be725baaf77a092d6b790c1429ba87a3d4105e005b85c901551, 0x2a58da207ab04101d89a09c69f8d8309d8e8a938deddff70e2eea30f4c884bf7, 0x1bddc742015df54718d5a89b181f3a0110732b0ab1e014f63202f6d9eca2eabf, 0x301144f5830574650e6093a4b75b9a34b59066777ed21d2c008f2636177e9b61, 0x1ef4af22668248890aa7ad05b07462d777b0f09a98d8c17d59ed2a127fd2c55a],
    [0x4523bf1a8f284c6d95b310dec2b54e0e00e59b571dd9d46b6201c18e1b56dfe, 0x25b20abb9883f59516afd1b89f80c4b18be2270c4ad70f7f9f9b9188c9809ed9, 0x27c5f600e46a854a26efc7ede1108cef8b607dcfa047c259ec32934669c1d155, 0x1fcb1b54e79f2f06aaee7955186d71564101088f13837f11bf2ceaf9393619e1, 0x1d24da31bcb08eb64df9e69b729ab135cf1b63cb23c4c8acc073a9d50f33bb79, 0x21c0a2bf8c0ea05f8f319e57408ec4ca46f0003325efdeb8c84b23026d9a8952, 0x1931ad5d7ab126465234d8fa1905de0f77eb5858758e6c838d748f23508ac1df, 0x17af6e15929f2bca918d404d56b4cee0ccd8969195f2f3edfe56dbd1937baedd, 0x36b2cc2645cfadcea80c47cab8cdf6eba7fb8fb2bbad631a5cf24fce6966854, 0xf10bbaf98e0b1ce2cca1977ba2e271b89cf46933d4c7a797671c8fb0754e10d, 0x1ae0f9bb7b72a3239de677048151e6dc40637e6559d726158debfe779a72a708, 0x1912fe07ee7840b055e68317eded61b0283418138b9fa2fee286fb999da2e6e8, 0x24a8a1af47ef25f18b39b5caa36c1a6df571d3c833fc1c54fbedad560aa5571d, 0x2d3f665ea69116d266057ea4e9ef5225800a1cb2ec6b7d6ba9f3edbbfe1faced, 0x2c5b2cabc24bdcc0e95d2e54c52c0fd0ceeea439d8fa83c0036feee0e9730e3f, 0x1a79348c882afaa9480c28acb01547d816148bfb8e70f22a0ad3a3f534bc0452, 0x3942e232a30d4a941a32ab45958ac49b08b0a8a416ff6dec7edf4f0dd16b8ff, 0x24de94fdc7fa872eef8ac471ba7719d5f3f534cd988248c154ee122ec2090ec1, 0x13af3a6a5530327a659e6bdb0e3f2643db75dc7e9eb06a5c139d84a2888aefa7, 0xfff230d63a7ea1823e5c5eb49fadbb46522853f0d6eee45948d326f54571ead, 0x1f67b3c311ad5eee7495b1e9ac1236f8acdd8dbbf5b20aded3c3947baa0d7fc4, 0x5be06d2aaece5cdeb721c87ce053e8523c8992c91a1884edcdd72b96e8e448b, 0xf3b86d20e5d8b37d9c47c0a1e0e5654edd5bf9fc4202959848cc3951f58971d, 0x28047bfb585f17ad6e7cde5bc033d8072f3b3e90d63b884df2ea6f3a24d10603, 0x1186aea12da52c270bcaf4bd0f87943cf5cd9ddb63bbbb2d7f34dd184baeeed, 0x1e4d65e0bac14ec3fc7970af0d64f4ca9b932012dbee59b3a93ee42b8e52e06c, 0x265d09835a19ac5c29f4327b9df3f35988ca8893c1ca8813a1f92b555550aa0d, 0x255b843c053e9dd9b00d06db176106b632b4ef0e6e345ed96775e4ae313dae6d, 0x1cdbf2d9c9e1f4099652361d830c6d691ec5eb951ae3164acd715f49aae612a2],
    [0x4523bf1a8f284c6d95b310dec2b54e0e00e59b571dd9d46b6201c18e1b56dfe, 0x26cd056174dc2477de6fde6a95b7805ed343877ab35f7bd16afceaa9771fad20, 0x286c63dc377caf0ca4697164bddfd29a79aec07b52ebe4fff1a4601bf3178ef6, 0x4404a2d97266886b3a00244a049d2232727c70f864afa44d11a2d37ba4179b1, 0x2d7b33ced5c2aff1ad6b4ccd8482024effb1dfdbfa20ceb1f2d59aed40da523c, 0x1a5a78c756a7ee0cce31b132cf6752a1fa0e904e2d6dd9ab3818fbe9426d24ef, 0x26634b7dd87a8c0e9878b1383582b9a3bf658dd13c467e52804ebdb1698044d1, 0x2222ed015dbbe37bc2578814782740abfa00c4118dcadc8e6a656587aa25bec5, 0x243a463d1befd0cce1a46b772f3d11351d47cdd86ff8e0a6e6b8d0f8c7486da8, 0xf4a9dd0ccf52f31360db5fedcde0405406d4ce2042b1856c7c14bac187ad37d, 0x25c6e507371aba88824acd8974ec363c21ddd450a13b130f38eacd5dbc5e8c74, 0x864d7ea740ee93ec7d2ffeb7adf4a03174c89904d9c33a683d8897eaba353a2, 0x146cae6d1bdb0318058f424e893e0892b0a1070de370a5f460444ad2e535a920, 0x1ebcd64df7ad6f0e1619e26eecdfe6e2ff1e69210578cdc6c052e1451e9c17c4, 0x1a7f76a8b9a868b7abf0bbf29992d82728ad277aa0c48d2db00ab45c7a77bfc2, 0x32b7050fdbd512fdcbc9e9f530c139f120df1b53f26240c01dfa397e227d62a, 0x118e701ff219612ffe9524bfa2e515bbe11f2fd581a4371f18d7f45f64c7aba2, 0xae4dd0aa671c0a3dd08f394fc0eda68ab2beeeb58c6c94e60229145f0869468, 0x187cd95af561e161bc1a2954e04a82488721c80e7b970b51a11e318b43e3c340, 0x13c74e83abff731872630e45384b122ed9fd07176f336d1c3e3b87837adc1c39, 0x30392808edc88e0c24a9f0f4a384e3bfdbb65382fba12b4e7ae01b712b5073e1, 0x1bb68781b9f841dcca210b93a99320760e7f3ac43b4ed9d621fb50ebc3440467, 0x514eeca7cd002d04a4716478bf62c108b3f314a288be687fcba7c6d5103ed5f, 0x1a4c1caa217b647d099e3c3de03d9677dc2398277856140804f95848275cb05a, 0x1959d1f1414c9a59879e9489315264b7691dacd96ad16f890ebb2ec8c55f40a7, 0x2c0e761217503c6c0b20014558eb78e6314e607130844c97ee67dbe1940b3d4d, 0x248c9aa70622ffe24240bff18d191276417eff7762d96594e4fdb9d6803b9609, 0x21dba9d46e89f5875fd5e925eeffd10ddfc09ac71634e69c61e9805bd0a07d1d, 0x21280806713dc524e7eb2c697ee2e197d89bd2e73f1817609be21c35dd5bdd5a],
    [0x4523bf1a8f284c6d95b310dec2b54e0e00e59b571dd9d46b6201c18e1b56dfe, 0x3cd1743a3de44e9a172804c7b159ec17a83d2ad838f9a51f5497bb5aefe9666, 0x64682ebaf66d718813a4d06db5e8bdf665dc8654df4af96578526fd7eff644c, 0x27bdca50a989caa4dcad2f45d2bfa7e6d455549753fb3e8c4c3ff2553803b024, 0x263a2119f3bf5d5330c11f3036d2521e40f391da9efb1879bf1af39f5f4dff0c, 0x2df2f13f954b1a7cb58e84ca4f3e2ab7d0f4272b559e58c7dce7ef229213c5bf, 0x2ac40d567d483e8d671c8e194075fdb2ddf9ec51a174219e8c351dce02d32d52, 0x159b9154fbbcadc7209c9978cf5783aa8a47cba1a729bb297182aa674f7fd820, 0x1a2295de4f8dc401aaa4a2b1a83d62fdb4828ced253dacc132ec9d5186e1e2c7, 0x2404bbdf4995ad241cba1169ca4d85d5ad276ca9d009081ee3e2b5181d46d29c, 0x6fd221e32b98c2db6dc1602ead395001edced38761cf45ebbbc340ea35cd7e1, 0xaf3118afd7dcf599b5c65b5a3e74a8ed04faa2791f47cd2cce3a31e541032, 0x2b2dd6d065365f0b808bee0a2f7ec63eacb1990cc04608b08549d65024113ad7, 0x180941c6fd6e1dc8a0aa4fd86020ddc4928884b68074c8d78e52764aba6c9f9a, 0xb86cb785671c76300f9e6d4dd23b53aeb9e2d5b6d209f966986aca09ec59801, 0xae841f0d25bfbd009e0011201b47e2042ea8d961248d90ef9d44a360b317617, 0x1b2f66bcbdb6fc59dda5f34ee11c654d0f2dec29e31928d5b111393c8e0f943f, 0x2f16b66d80614604ae85a13440d46bba9d09d98d5161c878be67a0dedabe3aff, 0x196328adca8167c649b987ae985e9e54c0822077188b8af34b3c518dc21416af, 0x107664f2d3f3bc3ed01013faec284477785f08e9932b4226945efca7fcf56b85, 0x2fc54bc47cdc7f7146f9b81462c64093374c71647d4ca27439406ae6e6f7cca9, 0x8779b3359720a0f3e0898942f611aeae102f875627f2c973c97356554911cc9, 0x2e30be5c5cb07090ca3249386926194684d1f3d2d3ddc114bae2bca9d4a07f9c, 0x1ea45a4f0b12b578b58600b9d085aa8d9c68a583cea665805b9389f8563d53aa, 0x1753a308b286260ee6ec2934cbd59f0f211c11647cbf22f6bf5fa7c154c0f577, 0x102ffeb8a2a94fcde9001e08ab603aa8975edc2465d6de14b73c14df40d61db9, 0x1ae8a9e95ee69c8774f8d3a8ff484788ab272d3d174f526a107b2c8ac34ecd95, 0x166b84b5e6975b9e8d7ffcb7be641fd89c53d1b7238748e85f32084ddaa3aabf, 0x2b2e47acd6445423d9e61e96965da98e206b611f52af1d13becb4ce4966e1a3a],
    [0x4523bf1a8f284c6d95b310dec2b54e0e00e59b571dd9d46b6201c18e1b56dfe, 0x10e7554983562b62de4660b318bcd5324003e95edc617d6b1c23a97b93802e4, 0x187483dca9aca475f85b9f8cbd78aa6048bd2c848caf3973c8feb07573883a99, 0x2c13309dec41b4df5d8fdda2b063e8264c35442bb120e28de7555569ee771f8, 0x11710271c6783060aecd410a60cc5c96641c1cb26591b21632914aa9fd94eaa2, 0x12bbd77d7be4e06b77b5c40e1f9888054041bdf4f8af2c5378e6386337716b6b, 0x23ee2c9a0d3324166028728c80d60cf0e21a7bd9ee90817058ad3b87c6f28cc9, 0x58dd3f4009e8ac3fa07e285bbd7391c2dea81930c732c3a769c9c9249084d71, 0x128d27c4805d2365d84c754621ca2d1a82297ea43dbeda87c0baef506c851079, 0x20f552e4cc3a62cc2f3eb768b69d8549ef4c24d2887d7de0550b17ab4f7b436d, 0x235730472fedbab358bc7dcf25b1d0befcc70746de99e78a6dfec8f626c5a9f8, 0x280c2ed868aeacb6be7c9e773b08c56f43ea871c01acfdf9ff5ce9d4443d3376, 0x1bc74fb92afe9db8c0da68365326cd9944db988b65f46d032989326fd901e923, 0x2d9c89c56578fa5031afd1a53d21212f1c3ef24cf7076460ff533ede5fc360, 0x1e2413f3b8f23a2304735feb3fde9d2d0f88d8aa72c1c60eac921588bfaf69cf, 0x53a4cbf4b57d882174b8891d918af78b40a7caf832c2e2af02b8ba5bf5c1cde, 0x5e736b9e5f8a1b93fe3aef1ee0a69234f7fe62ea998a9f2559f650669d76dbd, 0x1e88d8b3d140ec659d6cb33736a0254e178fc6c0c37d2fa5b36ae4a85b28b5a5, 0x257237c9ee699f5d79a62f2647a3b51c8362759cd955f10872346ab3b401b04a, 0x2b6d25849d6b81e36cd329d20ee973c15cd9b62921e27acff048e7589ddf7739, 0x1ac7317e2e5e3011420558ffa430fcab50b2f3fb778311bb25b1019c88ced146, 0xf3223d7e88918a33250b61acdffacf1965a5ba9807a23cef7c89c837afe5b93, 0x1f733faa9efa2db68363757b1a50f443fe9bd4e3b8639f21f1e12ac25ef00b79, 0x8e2e6b13aa7a352b8c33d0f52939c16819e6a92f7159986588a09e2196efa3f, 0x208995a721ababfb4d527db0b69d35d50e263bb1c7d97b24ac52c2b316b58727, 0x1f91d022a78f70863204042dde629c18af85757bcf4863b3eb916a8af132ba1e, 0x63a2f4c8d518fa72d9ab87e414eb7ccae4ed3ecb6d24fb734d68b43a92e8cb0, 0x2915c64a0bf35200cca5779c140c7f9e888ce72b9c458a9ade0f0108eb2ccf5a, 0x17a2028a54a30e4e0eded3f7d8681d6dddfadf26ef5c43cbd1952e584ad5b0af],
    [0x4523bf1a8f284c6d95b310dec2b54e0e00e59b571dd9d46b6201c18e1b56dfe, 0x2aa225f58d57ec9fcb1d6a6711daed13537cc6db5dbc485b21a8c4b13ee4ef5, 0x2a9a824715fb8db1d5d27fe975f011320887f593d36d6ca7e2be7cc305eabbd4, 0x9bc4b62c4e071e43c1e20d96810ff912dab86a98b4870d66af75d10ab6578b, 0x2d7d326fb2cd64b543ef4afc9d2969abdd53042e6038cf53f12d36ba07c21807, 0x1e66dbd30fe311dac75382ed3843cfd75e560bf2634f4213a0d37be91c269cbc, 0xa6115e876e097c8651c2370fc0c0a79d4f67199cbca00b3c69891c56dc81cc7, 0x2b4cd16c063e8d125a334909b5f9271bef61a5e6fcd117405e24b7a8d505453b, 0x19734eda61ff0dc7c62643d71daeb291cd8f18e1083f82a73ff05e5f8be31906, 0xf44441cb1795b60b9a424df927fb54b55a53c75a98eb90708fea4b42da18eed, 0x1e0b6f3e7526e310b7b870cccf69b9d716929e7b1f078652588617ea0b71feb9, 0x1abfb56c8889d36a1cea7d9658016c9ff5418745bc418d8134eb44e3700d56b7, 0x450b96e26195e4290a1e94d896daa601b0bdf44651b8575602ffea487fb536c, 0x75d3fba1c1f0b0869714cc5b4e54a019e13c5a9b745bf38139f2b0f09c93231, 0x22a1e5663700b7b7af22ac5604b120c3ab73294147889f73b3c986a036fdd5c2, 0xef19ddef71117af6afddfcb5ba454602d35ebb7497d65ee1e7805dd61d807c0, 0x293a52d85a881e3845f02993f54c6af700f6344def2da90a2dc13a714760e224, 0x10f47c70823694adb395246c750745eda7fb57dddf5f6e71ce1a41c2e9839cf7, 0x5b7b0f8a9586e0ecb9df50b8450b577fa537c94ab7b770ccd883184ae2718d, 0x2694639d8fd48e40ba301e56097cb270ca1e4a6d0cb5b09933142aefd1c44efa, 0x2b40678245e68225c4c9d8f78d2e660c5e7fcbac631d1299b1a78df3b283b195, 0x88322cb02937145ffa566b2f0256d5c8dda53b85ff611a658f4de8aa9ca5672, 0xf5f45c91500d38fe1acc462a8622298c1a6f53c735abf1d4a971d3d9fd10cd4, 0x17af880583031ee7067fec80f5b3760f9e19dbbde06343e59591da9080b8dbfb, 0x1248c5b2d3ebd0f2870307d965eda53ef7d83392cf601d95da0eb124b05c35f6, 0x286b506a8883d6f29ebff1bcde7429156792da00142bb1292f378d0f8962a158, 0x2fcf9e1e6970e8b883f8f72bb1c48c53541fbf72f7b43ee9f3273f9102b5548b, 0x17f7f929e38a4357770f905e9cc5ff7e287e043d06054c78d44097a446174e7b, 0x8326d0c8a128c073a72c7d722a129fa450fd429856732886fbda3ef61606bf5],
    [0x4523bf1a8f284c6d95b310dec2b54e0e00e59b571dd9d46b6201c18e1b56dfe, 0x244fd94ac9d2b6a02aec10be6bdfde0707d8a95440b04a34feec4eac0a881823, 0x18f0be2e75ec1ac912920d0403ccfce0ae11a66068ed5e7f0e60146c1eb78757, 0x67d513ea87808ec1cf7f5880f13c4ff07cb83b06a442573c2e74a679363edb8, 0x2fad3ebee463c805024a9884e2212288d97d343a199eb1ed449d7f0cf21fb86d, 0x29e2c3e0e04f7685d1e2cd797de07f3de790cccbcdaf77f1686f159d4e90b0ea, 0x10bdf28bfcacb8635108ea9153bebce77eab04539700acc64c084f8bc3f4a20b, 0x10b6a895914a782aa94948c650f6c045d9a15d2706b259acf5fd4da311e1d425, 0x2cd506792539dbd2f2cc3c96795d96831c21fdca7bd8988bbaac60f254da8ffa, 0xca9da7606615f15506a87151200b468c11dfc0e28dbc306bcddc6d4828ce2d1, 0x20d854f50910c52ab1f923102bd6ca5d82da15ba3f0f54f89a1becb7ce1f94ff, 0x10de4900ee8ec243ca53404556e6dc15caa2bab8dd7f83148dca55a598ea88bf, 0x1b6a8eb28c126c8682542278e4e4b2c922caf387f9f08980c8b469aefbc69b75, 0xc2a3124091527d21e1bfd56cd88f9fa0616f2209454b5d1793cbc1dce9d250a, 0x1d4744f598a2e98144d017acc5fcf08c5187aedea146de6ec74a5612aff8c7f6, 0xbd79ea1a224987ccdd83f9ac4490b76bcbc554fa7c2418e0fe38e9da27dea1e, 0x2405592dc81a66a17567e6acc20cca7179ae3c0971658fb792c0986882e57107, 0x14f497a9e8110eec107450c0fae64d03bc8a8416db391d4c4770dde9bd38d3ff, 0x29f8bb3529da3fe6152c5ef9cd0046568adbdd9daadfca8195ff20a0df7a5bfc, 0x2a032300fc92bf19b9cde88cbe9da3f72e3ff50c62b6342e57f713b118a5fb87, 0x1b59a7709a531a650d5ec2ac01fb09ced8327abd4588f619f36e0886c16c3df4, 0x1fc0a3436f100a4d61ccbc321771ef6f85e421d5663bcb4c01c889ea5049fb5c, 0xe9acd5d917d4160434a8fe7037b041c269eddceebb9129b6a176c8a00910d22, 0x196cc8a225f2c2986abab4268b3d6342ddb645bbcd692863e93274b717d02844, 0x11459356b20c2ca8913d1c0b45087f5a28559190d486f04038c05221381d4aed, 0x25e96c07ab87f3f5c0688608c095a86f80ddff5c250f0f6375a45398034d64e3, 0x15d58252815ac471aee3a3d097d799e9efeb969cccb08c33ae0b7adef18f0250, 0x6546b3b7f85042fde21f23c3949c39c2276f87701537434f147a3cfeec10387, 0x1e2aa3704b080c4cf11798a00cc0c8619c8d5997bc3121a17553be7b2dd65678],
    [0x4523bf1a8f284c6d95b310dec2b54e0e00e59b571dd9d46b6201c18e1b56dfe, 0x19e24f5e120e53bfe7fc01338211f4faa1f95084f2716e5587660295ecea8d03, 0x2ff252a61572b7b92960841bfecc4bf5940bc0d682f1770fc272f70d41682844, 0x2b9ce87d63d943afd940ae87979d5ddf50b784fdf8cd4d1ef0e7c4f220c98647, 0x18eef6bbabd4d2a581f11e2b22a591364f5a4fba59146a97551fbeebb865fc2f, 0x1b094af27259dae5e2f1929f16f00fe53d3acca1867d359d4681ae8a71f9ed65, 0x2f2fb2e00ecc111f573d8002c53959067f3bc7b52959d0269ccfea9729d89435, 0x48c4f81825c5584e76fa65b19b9b9fff7db07039d3750f3a65faa0a608b71f6, 0x20be19e025ea25f85f5998c77a52710dfa5dc65bb2665e58faaa5db7a0c8a92a, 0x222a05083d24105754e3f7fe45ece6add87677e8e64df3f44041618593aaf5f7, 0x14f3d89c38b0249acb03dd0e1130100dde039b1e442c1c92ba36f8368ea16825, 0x13667b7bba6c07aa7e18db6ce06e1308cff4eb1c0aeccc1187798aa1e97967d5, 0x2bc234f4828ddcf587bc65d2a2bd5ad0974f5acd1f790d590d66e8f2ec739e1a, 0x21464644fa0fb22494f8f6a7f7a929362ece3b3eb9fcd77cfbc23b2c9066a9bd, 0x8b65df38447cc47455b407b32c8bc2c740c0b7b37ebc4c61d867b75b844fbdb, 0x2369e1c199639bc505ce0da45601e0a51eff0f26588d74853d07b41a40b5b701, 0x199051763385672f6f8303896f959d2b24b4cfa4d62faeebd54cd43e190c5e6c, 0x201ac20d62b94056b6da288cb5a75fe62dc788a8b0d37063e22318f8c8b5dda2, 0x18157f398ab7dfe77094ab6e91a5ef4e0ec471fa1a04e89969d1c11a2cbdce5d, 0xf33f8f6546777c507e2a79f099a48d743325864e9e90a927478545a21fd721b, 0x23703db4b584d2c4873e7674c6f3df0e16dafd344ffa9431cc3348424e2fbaf9, 0x4501063364805e7a5e7d0a9b8797953e7f08a5caaf873917dfbc3da3c5be895, 0x2ea0b23d55d50d907bfb16497f56a979ac7f460172477dbeda7b450c7625d243, 0x68dadf39001f91f51a0613004e9614a54402b6fcbb0f4b8bd8aa546275e3075, 0x241c7eecc6aa39719bf6c6ac8a980e2100d8c341565d138ede2b374177333aeb, 0xbb9576b315160e6d9e5878bc54cdd9cea38c935d75fdf8b39daa3479a29b27, 0x202599b284bf67ea50cacca315c66218f4c59a49a27e193edec4b9f93bf05322, 0x170070a071a8648635667f8315e5412c48c3196d1d551ecd114857cbff9b9d3a, 0x302e841876fe659903563549979b9e27ca6d36f004a559bd2461d5dcaa40d2eb],
    [0x4523bf1a8f284c6d95b310dec2b54e0e00e59b571dd9d46b6201c18e1b56dfe, 0x2731f1ac5dc030ec117fbad7b53c6b02a6c9e04a17f64bc0e56885fba0c2ef3b, 0x8e4443070b7fcb1a28f620f990800bf0a23bd32146d7eaa824f2b02f50a48ae, 0x7f1ea73f15d8be5ee132c68b1ceb3573909753f86582c57150eb71932972e5a, 0x5d68802b26f0b520b248a7d4fc2461df7756641131a1ad109fa2588c462320c, 0x2c6db9f72cad44c3dd15a83d5ef9eb7216db1e716bd8bef960e52cabbfca8101, 0x26365d95008667a1e1b2653e98f899a378e08643d7bbf706c7d3eedaac0b16f8, 0x52ff974b2d04537b8413b1b0c85065f727ad6da454f909dda0aa5994f7cc2ba, 0x2b769645daa19e2b07470aae4cd88672e7160cf3c07c7b271b60668382810327, 0x25f56a0ae50d333f294efa08376a37c386dc4cf24367139c640514547dbae38e, 0x2f2d49b2a257d8aa58b838af6357d865236ecb76e7db136a09a5a094ab7c53dc, 0x2b173636674e54aa05d0bf2c60c5df0b31b2e801e6afb149eaa2c6fd73d6a626, 0x2eb41bfb627052e1e7373a7392264e7d680a19cde030d8687053755207c44037, 0x1841952650b7215b249cf50f8b6c78511c2983145ac405cebdfa1a8f54b986d2, 0x16569fbfaa5e330f4ce139b103980e0569db854d701d76a233ec9c5a8f7bce2c, 0x60c71281c4ed3a23d7ce20dd30c22aa172e245ce529234ed18a130222a9e611, 0xecd53722d116536580be7b8a5c43aedc798e1110c99fe9d806be2140f5c7786, 0x213c0693e38ab9e0cd02d2447613d5033fce7f5444387652f03e95b9a18dca64, 0x772d0faa6c722c861da9582961e239c0f4554580a5a067f9d9e9bd71f978f85, 0x139feacf69de1ee3d14f4fb9ecd06681b58d4ea37d309f6062a2bb34806e4b0d, 0xfdcd35d68b9a0a9f0d39ba065449a7ff04c9301927aef113c5f34061299da94, 0x125be84a276a6acba551894f5dc8e14f3734797d489cbe94542be8bca82c5e23, 0x2be65bd8dbfe8d435018dda75806ee34820686caaddb53f133ccd9877913370c, 0x78ee87a14ac262c2d74b17aba71d620685987727ca21484bad37052d59d3bf4, 0xdff2aa73f9fc438777ec8be74d494ec8c36fc04ad3f12113624a58ba52abab9, 0x282f6e2312ac752d294d116b0308981e7ed45e2162403c5ff705d136fc05ae60, 0x2791a0a3c213582e9a272d6b667c740e63cd918d53ba444d23d095df767b68d6, 0x17477c566355c80fc784384715356f69c8f104b0154533af3c92e0a8a1319ac0, 0x2fe67e79a807315060135431a9b4426982e90f3b38ecd5d8e0ed7a0cf58d6c1f],
    [0x4523bf1a8f284c6d95b310dec2b54e0e00e59b571dd9d46b6201c18e1b56dfe, 0x957903e40cf2319059c20c0fc70a5f3f8a79a64f3330d165e2c60b5b2e7bff, 0xfc99ae6ab79445327c6d487e32997d5b476717bd26b47b073471c8367a3cc, 0x2962bbf10efd8a8efeccd09ff80e9ee162249389094019af228cdacd2e42549d, 0x25a909692ae443abd87eddd74f8705c80584216d5be8a42c79ca3079fddab520, 0x1c0e8c1b8bdcb489bb68d7239dfcfd5271c4ac39d27e222be925de97750ad5fb, 0xba6ee96962c66ec04c070eb3e71285d8c91cc967d20d72de7291f020f2c35ab, 0xcba1238e9ce747c7d499320e3bd270db14cd796ba829328556f7c98d64c0d5a, 0xc875635083ed6976d068751efdd6cbc3cd65da7c97f642b5361ea734f970295, 0x1697dcd735de9b176c4d10fc5ab1228775788ed4beb16dcb0629efa99a6a7e57, 0x244cf5956b0289a789aaf00f2e2cad480cf0824afe8eae41e259df395bebf2d8, 0x206c3705f63d7b871045c5245bd3bcf720e12e4f0a82fa89a1f913646d38babf, 0x20b58ed4e80e868305522f5eb670ce452ca9b1d541897d51ad7b42c4ecd13205, 0xaf72e95de70f64d621db85a37f69f5712ce06e7596aa97a1188bcd3861d6c2c, 0x1c1d15ca4b3e0508280869c3ef38eee25c3d0cfae188b5f3d59d5c7c5211d773, 0x4af306d94e8e36627df09ffc20ec563aec05452b6b8c1a17e93c8a3f30a9207, 0x2f697c34b59c559aa232e40024bc6da390426adae165002df519d7f2c71461ca, 0x8a7299528acfb65d196dd9a7a136401178a7d03f6fbf5df3c69e6629895dcd5, 0x221f628204240732be38e2d0fd3addb1080248592ccf3d655364e171302b4780, 0x2b4a05f00a373b8fb7938b4f8812be582796986113ba1d80749be041dac49088, 0x16d94da79927c24b7bbd25defd5c0fcd67073d738f31b93ff08bad9078b2a23d, 0xb536adba2330baa9a070a63f86c465e3463d4afcebadf59a233a0319d1bd21d, 0x1c57a599441a0b1474521bd0470a9cdcce3615e2575ee4baaa38a25958cf1784, 0x1f13db4a9d7ce5fdeaebf3a571fa14807e979a23d8f1d426fa16ba9941421c60, 0x12b527cd8c1fe08e9d909cfae1c405f11321538cf59af3a2cee67a06b11d9859, 0x1f2c0fb5f11e6d74db0c30125e48be344c15529c61d4debb013a7b06f07fff95, 0x1352f4a6320fb513348dd5f02ca53ceb1a47d8616892608eff2284ccb7fb1d01, 0x146dfeab263219dcae7613a9b5403759d5122c9aa490e36ba5b4a37d489f8e5c, 0x1edaf73615e187effe0d876478e3682fef5d63e3a12edccc216dc302d776680e],
    [0x4523bf1a8f284c6d95b310dec2b54e0e00e59b571dd9d46b6201c18e1b56dfe, 0x1c28442722fb49d44d40b2b6e86e2218f956de3f4b376c3963955666a8f57189, 0x20e9e5c1b5d8cae475cd16e899d1c9d923d8d20ec60727d9266e66cb0585a67a, 0x2f8dfa1f54af676eea3d05bcc648b8f511ea011b5ad23e961e1b695b4b5267f2, 0x1a1a5037e57e4ae723753d3d22f965ad8b911f613d6b0e5d64ca9050ae43633e, 0x1ba983e3c28f6398d73ca8f7e2963564a9be471ccd5c3eb0c4f8e96635059529, 0xd4adfe4a7dfeb3cf86702e54888304e36057c89f10d46186d647bfa700688ff, 0x15c0166eea20cd705dec4b44aaca007e6c9e4aaf131b47789cf70e53c069e6be, 0xceafabeda1dca814433c969943e534008012b6555b08cb2a4abf43793fe0e5b, 0xbd15d8a31cbfbdb7c36e540f4c70a5eeead9d43a9414023c763d2fb643fbc76, 0x17b69dff9f9dfdbf6bffec7c7ee15eab02eef17254a526022d878fcaffaedc75, 0x272fe422dd56f28e6375cb725ad469069e1e48aa945dffdc1e9942b46307b763, 0x27d2db5651e5293ff051000a36a2c949a7a3e7ce326b8c993845ad572ed1816e, 0xe83466c2741c36fe6f5f5e6e60bad5bfe3ea06a7db58680dc4a518f42b6ddb9, 0x1b97b0489274a5912c53c18137e918d8f7d3985034c617d9d5dae4cb75990486, 0x8b09b027647befc8884bf237a58efd361641e4a25ab1e8831616ad9096aa157, 0x22f46a0157b70196720c57a7636285c4b10854721e4533294283652b1911bfc2, 0x2f1f803aa4a96a296bc8dae8d07335ad018e77ae6d779789bd718e72d8709a53, 0x2245e61dfb52be01fddb5fb4179140e4b5bf8cb1c7afbbb6976382cc712d981c, 0x1683f9bd4b791410d1a889953b716d95c440692fe4b4886107d052a8d50307c4, 0x242e864ffee30fe0a080e21e4d275db8355560f07b7745a4e5aef58d09b653a1, 0x1eb483efd8310203c93a42e06b18be5b4a0cc9612c335cdcc82c104c38b3e8e8, 0xa5b1b4c8982984b6ef162eae01f0a53337c0991c27faeed2b61ce3cf99f6503, 0x10c25a14e51fd3df8e34f70db38cd60124a4f4837d0b024d5a0cbcfa8e316724, 0x17e9f3efea4275ce4dd5a760f4215644cf5fda3659cc82c8cdc1c66ba5336c29, 0x25c1bfc4e679b3b3a692755b3313ada05f6d747365325250e0d6c0c566070ca5, 0x1356277171f1d2a2e677bcb161d9d760648150d1f297247ea842abf2633d4715, 0x28aab6b87f9f0f8c708695594610fc99a820dd994d63ab25829c0eee980d246f, 0x148d7520ea0a3d7ab3ee550cf30cdebe434ca7c84ee346a5b8b6d5d35ae06e88],
    [0x4523bf1a8f284c6d95b310dec2b54e0e00e59b571dd9d46b6201c18e1b56dfe, 0x24170fadfbcf05e5d3c5d0d5d051f71de23175002d1f02002939eb24ce5d6d29, 0x29491e9171d578c03ba302262531a6d8ff03ab25af7db467947e543553b25e50, 0x10acd03b983a457e3eb10f10666a7540b46066effdfbb50a1c5996e8e42879e0, 0x1fb89a866bed5ce87cc2170f998132512ebfde77a2aafa84f288024ebd9e6c78, 0xd98b830d880dad4a0755da7626c0cb7dbc454bef88b16992f3242c9fdea3cb6, 0x1c0d9302769b138d161d471195f06bb20a5a59f53f083731bb4b9407af705880, 0x299bbd2c9b64bffc601a51ce60185e770765abb952375055e0f8c6edc3c1e7e7, 0x1e3e012a3a23cc56b69b92c5a82ddef538fa2745d68bf99e6c4f65670b8a2581, 0x11f5e20407ee480fba59b35af723c3c1e7e60fc4817f92d6394cd7a9c65ec766, 0x26d3be3bd30f29131705a60fc4f5d51c6617919993bff2a9e9cbfe08819ca686, 0x2b29ffafe79893a89844e650ccc01ada03f91f4853166006e0efd05aaf3e3647, 0x1fbe32c5de07b6d625c86ff0062102ea1ae1f63e80ea0473ec747ad9a67e8a08, 0x24e36875d9f11a3fc2dc23d8ae5270150759b92a7dd422d2bb196603835715c4, 0x1859e0cdd36899ba3ea1a15b6a5343985e2429576894dcfcb39b17485e965a37, 0x2e823c343fa815b8850dd85825f5ea80cb32e17ed0a8ecddc478609b094952c8, 0x27ae666b5dbc3dc0d19c32a000a7df0fdf669ef25691627c4d7b17c6f4348d0d, 0x13d3988c983fcb3cb784b222b2bb8d4e947afdd3fb1d0e5bf2ab876eab1ebfd2, 0x26055ed2f7cfe90bc54ebeee9ae37eaf62f11d4ce7ebe370e7776167a51779a9, 0x187a3031170f0e0ccb8ca67fc2cdab2c2a5274613a5ce191a1790b91cc6c5888, 0x979a5a4f896cec804a633285c9457728b5a6fbfacad62593a23aeddefffe055, 0x17a9aad3bfa4cd25d929abf715dcbda7ab2933a6868d33720a5e6c60f88e31c6, 0x51192a624e65c0f7590c37385cb1a0b52b46205d2ae7109e076c08b307add00, 0x2aa14feee17ac6700e5e58952f28d5435fbac37769c3275ea9fd35ca622fe7b1, 0x354581b4a29a9ad673f3c57801bbb6f8a57098c9cf5c15860b4dd240d83b536, 0x23bf29c02d8d818da4257fadea084078a4f7d772795ddcba9e53030e06cfe36c, 0x209923e9cc079197d001f330069b05b75547e48685afb804931af5a3a241390c, 0x6d614256aa7a08f67ea8d06bf03ae83b820669ef7d7c1c7fd992acb22ae6773, 0x1131b48492673e474c8e23277571bd9f9b892b8ecd3b6af754ef83a1f30a429b],
    [0x4523bf1a8f284c6d95b310dec2b54e0e00e59b571dd9d46b6201c18e1b56dfe, 0x17ff3c20af33dcd172bc3042ca7ba8b9acc7c5d35694a795bcc8ae3c35d9e748, 0x273eca5bc74073b2f6761b6b0494d48407c4a021056f88b79f0dc3c475802c39, 0x24edf79bc35300c727d39b301de82e8cc21435e8ff3f34905436bedbfa6f9d91, 0x2cb3232131a5d86145127c61ecc8afd66fcea63e3ed9b1ff1ef3099aeb2047ac, 0x1ea49fb0e46edcc3a90651f6e1a4b36175bdb25505cc998a101710a4fceef13c, 0x1e40d394feff0707116e1d43c523a36ea293d11ce3059b5562ee678a008a594e, 0xfe47524266480df132a54698b09e844745eb540cba498623a93f36e48c63bee, 0x1f113b5d7c4a3e1f1156dcc68358318ce699b352814ae0253672d6c185422980, 0x1aed347277640a0a0cebbc2f4ce523b9a51b3750672eab8a9e689c488bc416f2, 0x1ef98e57380c6a8084a8d77b701e23dfbb56339ef9cbdcb9644460a72a1f32e3, 0x297ab0678798b06a4cc7147cc125baa11a058cf0889354e63229f185336cd356, 0xee54e4f901531d3811aa6575c60409c7e6ad4b475e249fd3334883b438a2097, 0x1b9b0f52375f34b4210e078d4824d0d385e6e412cf177f862aaafc3b6f11deef, 0x261fe98c4a6882bf586ce9c03ba90555d428567bd98761ecb57bf8b1ec408458, 0x28d8a46abca186e9fe9b326c166870f98acf6655eca805b881ee02ed4f3e8134, 0x4da6035fa7dd89980485ac0feb277b1eadc58f522abf010de5bf9d33974f232, 0x1a9738d1389ca170c20ab5bc4d39eb39992acf40d0c4da20ef3e3394ef369b88, 0x183dd4932830f3f29bf1421cf0e03a90321b974c93a2779cc64031c4c0166274, 0x1daefa57c81865e8a1e3163ca39d400cf5ce472f21a1888f300741ca61d61a3f, 0x2ae49d27bf8dae3b5f8499fe9f76fd2f247b3825a8f4e89e5c53596a6ac5b13f, 0x9063107e2a28ad8dec4ee2a43760006c728ea07dc7eff26f34c0e88becd87b0, 0x327db09f5185889ae36e52db244214053b27bf18d3f240552dae62b60badfff, 0x6e61b73f704a3cd70cfe843f37956d0c35cafe6bd28c5dfc1be98399c734fd, 0x484994555a799cbc175bce4f3add547300ea3bf0597b52f08adba0d0d7478fb, 0x1509af8f777631bb65bbe5ae68fb4bfd3e61040cc4c28250704e3e52e393a7c9, 0x2502148be563d2dbed722eb34a878e32686eddc63235292ff336430ca6bd5f34, 0xa90580e651271747716e4e65ea8dc039345e0609e4596fe65fe9539daa129fc, 0x1268ac93435ddc3de28c7401ed6612751f4b244dccfe1a75269da8036a1173bc],
    [0x4523bf1a8f284c6d95b310dec2b54e0e00e59b571dd9d46b6201c18e1b56dfe, 0x11aa913289660f7deb7ccff2f4be6dad755ef59eed4b716fc8d87e247a6fdb45, 0x29e72a16e4534eafdcdd6139bec5eb95e22b7566508e1b748614d450b54c15ff, 0x1a958e6a0b1a339f1d3dcd38ce1328571f35f09abb1686e2fb4c3459f036c58c, 0x2ed8337208e410744d73bfaa8049dd98a673eb4734b2f1e6c50dbfeed2532eac, 0x29377f640a7f6f76b922b18954b3ec12216ba9c13e0010002b59ea34fa974bef, 0x23454f27137134b9af8d43dbeb2f146c9a943bd5ec7fc7642da2ec887e9bc4cd, 0x209816b4da19597eda949b4db4754061c72a3c902f9130edc98b592470b0ee5a, 0xc1eae8b0bf925b0a155e42b2e51678cf5efc23a07e62a16ce7de2b5fa23a43b, 0x86f81d19a31671e41a874adaa71edac75c4eccc6a2115c2ac96bab6e4da91b6, 0x4c599ac0280aed84f94db0e328837392ea3338153ff37de61a7e28bd24392ce, 0x2c4b7cb11e988d5451ea53bd7bc59c1d92a3250e5cb1b81c8017efd00693ae0b, 0x20b49fc26af7d51f043b48670b79a409c4fc366332e67dcab28cdaed5fcb8f32, 0x2b2de9914033de3d614ff1cc2a46234dd1f3605a9f4e52fdf2169986b31a754e, 0x2a0a9aedae2ddb9eabbe22dedd043c670ff098249bca89b2d7b789c1a200e832, 0x78bbcc544330029c5703ad867d374a907efee1f38764e417f6b724ba2156685, 0x27f2b059159be5955c9e227e865d0a8add82aa951ebd9b2fe43545704f0c4bde, 0x7a6c429e1100125d872120c307bde17b721dc31e16763cc096a989c97df7843, 0x10424964905ef646913f708e8d4321e9ae2263875b83e5c65d096516581d4090, 0x2c33aae7d921d4b90a0376b93aef9a02975fa8343dc0026066d791e9030e04a7, 0x1232983e555c7d4bb4288fbdba3df682913813bbe616c9ef9568820e02459b4d, 0x1ab5023e5ffbea8d4fe8e006beeebb3162a26e2a4546f51b1d836d3467816c0b, 0x1cbda131f20b33ebceacff9339451b84854e65775fdc1f5ddbe8c35fab2116dc, 0x2ba0bb8404000f7361cab18e78692a17d953323a30934ab439e23b6605c023a5, 0x35fa0580ae06fc96e0e4af43e63b089591bebe233c526a67973f25cc7fb482c, 0x70babb38665a3546e6e23f8f3b26f058bf131abf19d3c13d6d0588a317c6d8b, 0xb642882c1295343e9ea28b89a62ceebe0b7919b6ca5e18811aa978bc181849e, 0xc68a36f6df8c27deea1f66f891c80fc215aefc646f545d63cadf22ab44b5914, 0x66489b3cc989e807be1363d97207014a2a14052de80edcd15c4e2f88d2c65dc],
    [0x4523bf1a8f284c6d95b310dec2b54e0e00e59b571dd9d46b6201c18e1b56dfe, 0x1026e6257b43e0afee22a0189f28e10718f4cc5e49b3d15405df85d8153e8e1b, 0x3947588e943dfdbd95694ddb3a1ba7f51028c847b8a45164e87b5522418aec8, 0x1b1cb2c496ae764bfde288ea50405ca6ae4ac6f9ad1998b83b7557787120cb1a, 0x24fa4f9ef707a77f4f3742aaac6b8fc5bc59fa8c4046f9d024e3d5d80ac0c38b, 0x21dca28d7160687fbc8d0d144c062711e4207f617895fa46dd87922777ff10fd, 0x82cd14685bc3b3219e1a76ba6b2cd6b8286405a38705273a7faeda1da62b3a7, 0x288c7734ce6cf001742b8e84fe502cf5205a623a3f0fe1d79f0fe916df073c4a, 0xcbeaf576571ebb86d175b804c4655da7603096f9865f983a044bd8ebc416714, 0x257aece5dd9d7be08e83df64b50b5ff1e31e4cb6ef8610c6dbc9eab409ae7383, 0x178df36af677df81aba8a9fa9d31f995378d1f69d782058f7ef769555ad5363d, 0x889c87f38b0244685014312d379ae5ae934531ba20b7e89f6e1e975e96d5bed, 0x28898ecb6a12d999474f7cd98e7d0e3eb9da404cb45de9285115b647caf3102b, 0x1544b607ee25873cc317f6eb88b72ba9371ff52bcb64753b0e90dcef61032604, 0x30b741264c73950635ba61ae3be32eb643d9a78fb6a6f695ad4046f1b29a87d, 0x25052d3381e118c1995ce20ebee9f1cf615053caf4d2ccc143fb1e6c4ce154f9, 0x2f30bea892f8f2b335b8e8bd925f244335e430f0c77a2313013ddd6ed40de0aa, 0xb0d65fa768e06aa8e5b1aea32a2d0eaa75d2548296268d7bdc1c4b7a2234989, 0x1fa1a1014ba36436c1a7d8cea18580c577928229ed8e30ce94dabd98b873fe27, 0x301c506433828eccfffbf89757d52692c7ec633f32e726ade9fb89f7839150a5, 0x154a7110569dce2d4dfbb0c4d590669811751558a06207a1602bef10d3428ee, 0x2f27c0dd673d6353840612d1cfdec89407d7a23e25678d1fc57aaf210355a84b, 0x48683bcd4388885dd3956fb83e1890710c7d1cc5d103b48c2eb7a4e48d3c5ad, 0x151c3648a02ad924ee9afe8dfa7f163033d1683aa8ad9508a6c96ab29c08908b, 0x14baa70addf9eba4a80bbda03d2fce92e571486eda83f0c0fe59a7e4605eaec5, 0xba6cd972cbb3905ed976b62ed34d972444d8211c71f82a79c089fef7a030e4d, 0x25adc9138d823eee97b0dcf9e7142c4d791bab92c10215d5b4f44ee166c44018, 0xf0416997a418d2a20cdac6c53e67640da3ab4b5cad5aa3c9c442efb895b7744, 0x1dc3e4e5d9f2e587fd95028c6372a304d987eda0525879d1b7da7c775f0a417f],
    [0x4523bf1a8f284c6d95b310dec2b54e0e00e59b571dd9d46b6201c18e1b56dfe, 0xcdacd248084fbe79ef314cb06a96f929ce94f525301e8858e6b0ab419a7b247, 0x28765df4d0b75915b2000538e00a7dcc8219c6e428e82f452ce8882e609eef99, 0xe81a5592eedab517a051cb7235c8bf0dc0c332258a65ca6e29a8625a334fe8e, 0x88c064bf7c553c7e4d1b38425883f54d57f18a7f8e9800e06a3c2310f01b2b4, 0x1d24333468728c030f01a3c93fe035e9fe913f3222c7149cc22e21d444fa49f2, 0x81e4d01326c4596d16d5d9df406a063f0c6b323e2a8e406b2788391a6b2addf, 0x352a5a0fac781a16a2d8bd72c9402a3b1d36199bd4ea46125e33c33732ab311, 0x26618bc0fd81464f23f6e22fc19fad753df1b3c076275c95e0ffc437760fbbc, 0x228b70124680c991be94ba0f8016e384609e7a7fdb2ab40d661614d65a52193, 0x1d0ba067834fa54b50347297a3525a6198bfc7d47dd47106072c7901b900a4a0, 0x196b16b4a3f2641cc6b343a57a66867f96be45005df9c9fc9d07710010a1df0a, 0x2f45695ff148cac7bd348b093d94e075a73f4f60b52227eb8ed6048fbc47aeb0, 0xe93289c741402aa1bc152dd82b4889b657db2944dd6cc5c9cbd8e72e69063e, 0x123380ecc6c09da5e9f5ad2d298dc60dd0a9d37a4b67d4833d2fe428ae7a8db2, 0x883e804219d5edfe1b0bfae68a76df18f1ca939207b6b0bfff7bef4309c7187, 0x21588588decbc2f33ff25a389fec95f429fbf43b54ab23ab20d3914ab844eab, 0x182c5a52fe6c6d2aac38a2fc06ffb65595a1ca4110cb09ab6f5070f5962fc478, 0x6a58def11f1c27cd234bd7d9be04610f52b68575d9560d3dccf8ad9b5b741dc, 0x29cbbb5cab2c9dffc5b12c9230afaa59c7d0b1846ff9bbd0e31de3218afb7742, 0x9a1d4f4f00323630dc4f2d326a5ca2823e77944ebf1c22cb9343963c627f17b, 0x25f5157f8a190e6bfbb1eae9cd55819609220a196fd89cd44b5b4603e80e87a6, 0x2f0794e7af6874b7463bf9d7f7f6cd2b9141b2c71754e4a8e487e26b723d0d8d, 0x2a816cbc315eb725995b6ab706c6da8757bec6f588849f85d10b31767998bd4c, 0x2c5fd92cb6990590e62056205768da25c8132d8bed9cc787e73b81dd9ddc5448, 0x2e80276a04b486b1a36aaaf7c15d1b6b4bd48238065cef5eab1c153235ca6937, 0x15257a77d445dde9259c6151c0af6a1771f5c23924a4c4f7fed58669ce49bfa4, 0x1219c007e9664d8a54be73a03262d03bfe15eb3a2f8e7c9194271235eb435814, 0x95144c721ba3b18324e55e532885ce67613444d3cb3e95955d7201d779812d8],
    [0x4523bf1a8f284c6d95b310dec2b54e0e00e59b571dd9d46b6201c18e1b56dfe, 0x101a646241a8315f204d41adb7fad83b1a502ea09e7cdd815b21625cc0ebe09c, 0x19282d6967bd22091e34c47fe72266e1cadc9f58d4f4679dc9255c09c2854963, 0x42b2e9365e95f6b6afec41632d9a933f4744106315e3df2eb6633fb87356af2, 0x86ed6b49511d6bd4815c76513809a77c277e506c3052c2beded9606623a4c99, 0x58a4f66ba158c1aa28b651917f1fbc744b5286b3f6672ad39fe177be503345, 0x28dde10bcf8969aa7a5b6ba1d48e2dcc3f69dfbb224566cb3fc977244a196cd1, 0x3842b61df1832bc6b4e0ea70d7131f7b2561a94f78de3371aa976d05d635894, 0x2c3bedddafb94b9427993c19bfa19472ed8cc066084c7cfa5c5e7f803a7582bf, 0x163541b79f81db7f2742efa3584f07e1e7dd25a19ad934623e14b87f99601790, 0x1846f2e5b96f8abbf20a2a6ed0d9a263337310372cf570a318dc3c91c849f112, 0x6c7a3cee3f4166e6212f93f7d6eff60103cf16e252df30d110cfa0102331b15, 0x25be194f6a3d69e3bf5f0b7cf58030a761e628b1a4de003d9e8a02fc2080ef74, 0x2699fb6f71316244c10b2c672b2fbf077f217e1c910ccef06524af80f9c3fe0f, 0x20e39137899fc0d2c5391fe185394173003faf87cdf3e438798b1666146b56c, 0x22b9615e9d1b58292148c5aaa8c9eee5d540aa62bac93ccbe16c5b657161da59, 0x17a4039cf90fb2c8ca78a2ab8474e5fcd1bcc7dd4974302128890f792960a722, 0x296a7947ed0816212521f82cc836f1b747640ed9311e5a8432b24f131abf74da, 0xe6222d1f658021ae1a8c83fef1078b54fe29719d30a30e33e95530140b2ac5e, 0x24a832d0b62d7fedb241b289e95fc7f4507556c422183cdf1bafd1a516301960, 0x314978ffbd36b1bf6b6efff9ceffdfd22c3128dab03035bc4d1811ed3a22465, 0x23456fedebbef43f154140b56f0106c7b3a5b7cd60f7ce2a085a59d219364080, 0x2bdfd3aa4bca894312e9f392192596efe7aadbe7b2c22aae990c18ce32c56f2c, 0x1767d8e87ff8dde844b861af172f011a8094f2c93f14a367e3f4008414779996, 0x9afea3b803901209c60fbed76494748e3af704cd3d68f6dcd846b5b37efd752, 0x1eef9a7f080331471dd29d7d0106b95b1cf30854c201d0c7354699f2c0ff18fa, 0x1ac0df8788f7b6b264c4b5fb1d15f9f43ccb6914fa627a6454bd7b107398f328, 0x153587dd8856ef1c5ba584cbc5c6206ff27316111bcb089a37000e01fe12156c, 0x1ec3422f01d367deb6566ea3f37caaeba6e6f1ab9b487e6adcd9abe7fa2d17a3],
    [0x4523bf1a8f284c6d95b310dec2b54e0e00e59b571dd9d46b6201c18e1b56dfe, 0x92ab362071be64ee1defe4c464b18ea957003ddd4fb25ef1ce8c93eb0da67e2, 0x2087c4812bd0d03d971979f341256e284a686b63564b913c6203e3a3316a0bbe, 0x15e9d37afb1e0877c55cd521cb79c5f20658f8f238b8679a50abfab5edd498ad, 0x2d3aef5f158c34c12fe84c4d48d49dfc4b27ef3ad9f6e9c29b9516be85df233e, 0x244a3d476b0a0690158a1bedff28cfab8bf6f5ba4491691326e6b1b71bb2650b, 0x10e9d046cdec45124f7bd3aac446b7f0eba568df3462c86c60751ce3e51c3ee1, 0x2590289589edc3112e5d87b4f474904fa9dd4dc4f26298d1e9666c281dd58357, 0x13765e0ca93cb708b9cf1ecb6427f1a0df0b53a7d112bc1a1439c3afc8e8c13a, 0x196d3192651b1e8b5b1cf54e775eea3a4f4d67e60db2f0be380ee48819fd495e, 0x18c81e4ef19c7276d9cda9d9bde0b3d4334f4748c76db52bdc4cb0de91def3a5, 0x25f4226ce2c992fdb6affc2c85c8ca64c9db486e8471f93e30d97045eb4aee58, 0x2a152c83769c9a975382957eacc862459e4227080ef497775273995c3f30c3e7, 0x13bdc6f2694024b1e21e3fe7b281e44a48e32c31ae815aeea28a283187bfce73, 0x18be50dd564a7b862bb9f3fd822a9e6cf8527290d0fffd2986b6efb0e4ec3ecc, 0x76b689cf6fc26746914c11187642ad45b934b9dba8499e1e0f645d1e7360976, 0x24cb96220d02e7d183cd28cdd89024647df21deba55e20bb0a529909ed483db5, 0x109261482d8eefedd9555eaa2d4466e1b9582cdb50dad968f73ad96df83b6afa, 0x24f33850fe4d7019ffafbd669532788d02c6a0dbb39948ada0b07f444aa824ef, 0x175369adaefa269a66baec32ffd60d1be0ee1f39ca8525dcb73a6357860abb2e, 0x25b9fec7cc7f651e8354d7aae86dc9b3964fbdec440c6c8369fea81eeaaae8b1, 0x2d0c8b82de5ce4c55025fcd286e9ca575c3b0b90a7da5f677a0504c05a4b0cb7, 0x227437dd063cea6ebb85f7b564232d22be29cdd7772640936c3698b7c9fecf66, 0x1bbba5bfc8a010cb25f637ba686157eea46f820848fc2c2fc636f933d4014101, 0x14471102a5ec4909add2c73da2c60ca518809f1e160be7dfd14a6e9b397683e6, 0x1b13fb4a716a8661bd984574b55249784576b8346fc245fa7ff1154e748623e5, 0x26344c34f453274463aaf170748550a3e5cd38fb0dfff173a2ffca0a7f2dded, 0x2541b62c8a52ffbdd29ea87ae0919225e12dcabe2104b5f4708708a2cf4fc38c, 0xfbd922b73f16d661458c67bf7b4b325aaf303c5a12902a667a78c8507036976],
    [0x4523bf1a8f284c6d95b310dec2b54e0e00e59b571dd9d46b6201c18e1b56dfe, 0x2355f03ba072a620b568e7d310d9fa639d134ffd98561cdbd2297beb13ea0f10, 0x25ff4bb05b96f0a0b05562057a8db99f97e1e2951137c0c40fa932de73ca19ed, 0x2daf950c80154f6e7c49704d705e14871273499f2f619b86c5c5d157a6203dfd, 0x51cefccdb8cf6928b91c3127747d700e86844f1148f0a34c6d77c5b849fe690, 0x238262ec5467d6af343b33543cd5fdcdf909062c84f812fe01aed5cc87fc476b, 0xb7daca406fc36c69aa958fa616f4838d61a9dde2e45ac8bc788fb2cb21019e4, 0x15bc83c5e68048d36ab9dd5750982c086ebf0d155254d898c60e644231c54e13, 0x1c63961d501d08c43558a7bbb6adf0248ce7d85c46ed8d18cb57fd255d70da87, 0x2509bb8169fdbbd47da25a7229eea6ded1c619d3c047b7838aaace2693656732, 0x69a50d4c1eec1a0ed50274c6fa4867ef658dc1379d8fbf9878d4b35e9fa99bf, 0x15d74c0872e9b1164992ce0394cab9fd723220e0696d28ea011620716be1af17, 0x10b0c815190863422b42d8bfbc68921d1ed561055ae5057b45c5e46be5a6eb4e, 0xc11c306b5211eb36fcbe505a754052252ddc622d02f4420c77390851d6c42d2, 0x150cfca445b9336ce22dfcad1175f597794b2f4bfd18a9780eaa12eef2ee5c55, 0x194de31d0ce18660aa746a9356d96070ce237944e5304630884874a2fba798d5, 0x14c2071d9d7df808b50b19e77e314406aee8b339c4a245b2770b802af790ebb5, 0x15847c79aa8e1c92c18c3bff302c31eb38f001804c8291fd590cb9025a7d12a3, 0xfbba1d54897882de6c7d26203aa96c3db29d788b0bd435c1d354c271b126973, 0x1a3b7ee6c4f24ea92d2228b4b760223f9a34d8f70c3872400920bc066465877, 0x2ce61015cc1e5520a83c0124f38a8359caeda53051194702485e00cc2ed02bf4, 0x2b8be03a29a0e8fb62bbc207e587deb46eda5bdbe99e522e773bf63e6cff6334, 0x105e1aedf0cf9f12ad2416a44fbf458d6237ee895960bb8c25299ac72bde12f2, 0x120c504e8e99eeb16539249612eb1a9687e2f99e4fec80123f0c29378553bbf8, 0xf35ac3925b66d52bde5da31655b11df9975be00efcbca7da24e85509dea2f50, 0xf4957169958f20b8cb24ddd2c1fa8668bb5694fb82c2779a93e2d993c2a4369, 0x7f61b3cc5f1220535cdc630b9033172c02afa0a7988a57c373a91c13263d805, 0xe16429a495a0878289a4e187af2b3b9e0395ca3401938b70f07c0647273ad8d, 0x18190cef50589e6c73faf348b5cd88be8dcbb44f37ecdf70e94a3b4045fb2620],
    [0x4523bf1a8f284c6d95b310dec2b54e0e00e59b571dd9d46b6201c18e1b56dfe, 0x227f232164c4e3c741afa130d206cd84d835e4817c4bab99ceabe0bf4da575df, 0x1b1d09c8b7aea951d45cf1390c95b03c29f6820492ce2478739df09b9bf0fe5a, 0x1bd040cdcfded9e6d08d3d6bbbf55a86aba6aa5c13cf09ff4cc6db28420a1830, 0x2c4d2f16535632f050256086dd4e2c88479a1d3684ecb8c25fcf3096b3e1a6ca, 0xead790bfabc7e81f7ce3b6d68134286977c619a13efef5ac110244721c097a9, 0x8900754358a5d9716c6e2fc17133da9069794fadd42410213b5e30e7dba7565, 0x24c0631f518904d6a003e225b34d3d02e2e5645f7c6bcebcf4f9944fad419f2a, 0x9ec6105a057621f9bd18fe13e9dede1ebedce6d72461dc1c4faabfa1aa7f105, 0x79b0343c865e073462767b20213ffa9443db0387c9506503586ee533302e802, 0x7df63d142bd6c29ee03aca8d1d5428920a7fde6437b949149327c2967d14245, 0x2ff26c8169cec62032f72ac25650a6c94a18afca7d04da0e3291d3ce71a7711c, 0x164edabbfeeda046884e4f8595e438127c32f8467d9de721fb50a816688e33db, 0xbf8306af475136a305a5a78b818c1f2d49ab9fa181c11de516e38a96ebf9f55, 0x16da51bf32b4e134bdb05926f7b975562a7f2fcb671bf0584fb0e4d33f33638c, 0x142930caa1828bd842e28c8790df9d033eefae7b165ddce53fcd46f86d3be2f0, 0x1ae7e0a72e9bad383d09d0555a1f5a0bf1753ce1a17e254b49bef0fc899a6e99, 0x280313df7e066df1cb639a4b30ea2aa78ba46720595d77ee31b55de2a713dc54, 0x1ba62055d4a6b3257fa66b471f11be979422c05d3a839ee6aaffe7ac1c0b247, 0xfddc6ca4b45778c49a7db293c78628431edc830512b7b1c8e5754ed2f39ff04, 0x929d32df53f196e858a97b178b1d47e42247d5dcf37b08b4852ad74f9cc78a8, 0xf967d1490ffa3280071a718013b3ae7f9727755d261fa1d85c3ef7b0559283f, 0xf5490a89b5fc95c115da17e181a7e95b3d3d2229e73581c6bea89a0edf5421b, 0x674bfe177fdc1301f1d49c2879734cae162898d11000050734402c75384c736, 0x18e1ade3d71eef67b1499555516671ec9978a13c5da32b3cc87a373a6515eb66, 0x1f9179afb7f5975be537568da903fe09944e257b2757934ccf2e36149021f009, 0xc11a256c35c638a65f02d745d35712fd303bd7d3137311a1322339402479ee8, 0x2ab557843dbbcbff147b3f03de15fe79e8d40e9cd6cc556b12958bee7a900f67, 0x168dd127ba4582848eac364d737e87bd02024b8924b4adda31a9a37a3415cea4],
    [0x4523bf1a8f284c6d95b310dec2b54e0e00e59b571dd9d46b6201c18e1b56dfe, 0x2c4d427a7bec8d19617045360e52794c7a1a6de79c4e919698a87ec516366cca, 0x36d01a16f30bd802544df169c77ea02c0008342cd8a415e67e49f2ab20538b8, 0x104dada7b72b24405dc07a4feafa385fdd6e87d0eb0d0b0d461bce56c4f574d4, 0x1d189ce1540193127426e68c7efbf6116be294f4e39c2ac7fb43eece2a5230f2, 0x20969c1c5a7537d61331393f6a5a2ad15ebf51efacf6b61f37c08c8ea0823cd6, 0x1727f8b0eb9595229baf305b3fc99c51d538637e2d2ea8931037c7350d5f96ca, 0x1897f619c615a92fc082a589d89a7c522625432213d6a92fad9e2626aa0ee79b, 0x1f62599143f1f32cd4efb433f14ed14544681878db55878f13e69694a226b3f6, 0x118c2c92848d6aaeda5c8b61d8ed6953b7b659a25efae602f9961353f7c781d5, 0x18997289e946839e6c3554194b87e6c0d4cbf30f47bc73b126d6eebe47a1cec6, 0x130da6eb344dee64037fb513703caa96d8aaba83f7c8099308b4e6c82b14cd83, 0x245357b0b612c4aeb12540db9ae1526513e7885ce50ee8ca0b58c5bf54261563, 0x16efacd482e07f1fee18c96ad1725aaa33cac494d4e7301aa173f1c29a625581, 0x1aaf282a0db417234b2f0afcd782874ec2a635899f3ebdf33f4bad118acdfaec, 0xbb16e9a26f6e4449016a392f58cc0abdc15838cec0863a15cf24737b7a9c804, 0x1ab091e043a032a1a8a17875c09930f2f3f8f014966977c7672e052387a88724, 0x17a1b1b5e07302afe1156372691356ad32f77ab95b6dc1766cfdd4c02d260e0e, 0x198f8c2021281502a922a03b04b3418571d4ce4f5359ca251015e477fd983d96, 0x1cd705bc50da7642e8f41975abb2ac63593ce9575a0ebe0ec412e33c2955131c, 0x2f634bc6e688daeb64b11b71780307d998916ea7db4cd7ac0761a03dd3fb1744, 0x70efde061570346ca148955dee284634e28b4f5ef14d09018e289a5b6b5c643, 0x129e1fa03e4374b6aa7cc2ccbc35e20a6124b84f3df49bbcc3f5aa1c25f8567a, 0x872750e7e4e00867ca29aab19b0221191e89a4e7e17fbc0e0a97a6b99d79816, 0x23e8c43c57b9dc6fd6b899818a44200e2544bf0865fdcac5b4256777fc765928, 0x2a6b794cd03c70ef06885cb5ad01698f2340877a5a848c8f49ede93b5c9e830b, 0x94578409d6462e7e25ad9d0816a6f6e2b198c464796c9c8d4fd566df266099d, 0x1b2b611f853458bb3f92b07d97f4a8d0fe323b635959664d7003ace44646b9c6, 0x205b0fa2b6f2ebaad41abd2b1feb4f7af003b5e73f91d342dc196ae182fbea21],
    [0x4523bf1a8f284c6d95b310dec2b54e0e00e59b571dd9d46b6201c18e1b56dfe, 0x18813c17a1991709dfc3d21cef51ad2b5a728731db369c24f53c9c18f7537922, 0x28e2f1491faa1312b2fc0756fc93e6faf260cf3c9a798c4c75567e6e2450f189, 0x2456cf94d7ff6e124cf859d5c41e4cf38e76e96c66356df4959af90e84caa6b7, 0x19d01fae3e6bf2a3d738e5adc140ccb0566748abd79323db3085fd1bd3a938a8, 0x15b9bb8c1653e644f0ce9be50bc599be543d181a965c47b1e55e75c128df6451, 0xaf54a3486b44d6cd344d767948c8bab86a3b770730d578d35c946076ba55628, 0x2c403933d9fdce9b2356ea5599a17ca6fa2c527472702d33a1bbe1dc6481585, 0x1f8600480399291bcdb8f2bd4410cac16f4cc035599a6e7f7fc3896dc95595e4, 0x20853b736e1ef67fc8dd165d3fe11a6734287efcbb6524fb6eae1a66a7b1e8df, 0x2f4630a0f0018b04c6bb77e84776e06e3b2452d47be2d16220ead1da61106b20, 0x2b9036c48f9af1b32085e3eae9f541c4ea7b650f1a5226ea661b9125215e8995, 0x16e06530b370ba9ce030ecc30f063bc064d716de78cd74c2262d483406e0e68d, 0x16965fc262e0ca879a932d721e95d16953229eea7b3e95cbe325b48bbf4e851f, 0x282361e61365be447c940bc7b8caddef10a82e8a51423e7ce17f4ccc8ac6826e, 0xe5f05bc3d2f27eaf48ba6efbb95fd33d29dd9d371afdb46065089f07b5aaad7, 0x45e49d05e82f9c8192a3fd3c936e73ed07f0edd6db0007205695a23c9272ba6, 0x1aec3601dc7eaf614f812cbc025ea069d2ad1eb2b1c8bb602500cdc8b4ec97d7, 0x29182e5f19d8e48e13b7a98a19be4552f09b452d0e93fb876b3672cbdbd48d82, 0xe82f9feb507fd178f0e2c0c324e07dcedcdc0cb2ad743ceeb4e2b62dd1355e3, 0x9c0bf03083c7a7f84dad628b3528a89001d43100039491bb3729319bd75f304, 0x1ac08c4bc322282517d3e9201c601823165882a09f83e43fac846c1620aa01b8, 0x25661bfb76d976aa63291de2624e7f306a50ec4a32128a39bcbb6cfe34a227d0, 0x2dfbf71289f57fad67be3438cc1f0dbc969529942a623a899addfeb77ef1945e, 0x805aaa9f12a17bf01288cca68aec10cf08db6bcf49a8bb56edbffb97f6886df, 0x2bfea7d79a17720df5f215d42ab5736098c83da075facb964eb2fef730b22564, 0x297315ed7ac6f9bc92b4dd4a4052519a5029ce7c97eef84ff11a461864dbf9d8, 0x172960704ca74222cdd9c8ebf1821031312b4c21cbb282c1f11cdee3ec28284c, 0x14b30a8e90ee6a1e22fde21503094bafa3d61004b38a69cf94b493e101a3dd29],
    [0x4523bf1a8f284c6d95b310dec2b54e0e00e59b571dd9d46b6201c18e1b56dfe, 0x25c2fb93758a36327dbeb7dfec90e331cad05a04e5c84e6b40e65987d73ee448, 0x15be6f22cbd5f38ec70f9133e8392e8fdb41f28d831c27bcb36e415fcf9fe843, 0x1d2187e9af970cefee949d0888c73dc41e7e257e327a9f20e4648928551e062a, 0x699ddcb91e856bd25bec8b21980bbb163d38a20d47fa9d813a32324e80ac79b, 0xfced0a1de64093947616ade5773e0f7ba22eac4862322dd5ec787fdffe3325f, 0x27768b29635a400d365c934202e4bded719df8effad85e6eeabedc24a4154888, 0x1b1f6642ad87106cd16ec5421b38c40392423fe0d12f282efc8474efeb957d1e, 0xa3e365d3159084cc673a44044bdd4260e1bd25b74f746772a3c77ef3e48cb9a, 0x24179d5e64991d45a0634da43510ccf0a34059695e151682b9d356411edb7cf5, 0xfbbbb67aa88655564de38814ec6376f4da97ee274586c5287c163d1b0f98dd5, 0x11edd5438d9b4168d6e2bbaed31f31ea464dbab80ed5e702126fd82ed38350eb, 0x1b76cf5e219ed4bc311a00cdb03e28ffbf86542cbd0252d0715bb48469c15dd6, 0x148437b32c2bc48962d356ffcaa4edc05be984134fb75f3956d5d91044f79393, 0x10942207a5f66bb8252988730fb82f23a45be26389489f66da6fa113a40ab0c0, 0x124681e28623f42196e8ad7bb2374c77487c37485bba1a9075859582d10c061b, 0x2f9dc5b15dc408e7e97ead3b9d8cfc654f6914922e33d7bbf4c061cd8583bb2e, 0x11597e8f45721d0f8a2900ec7823302003282aafabbbdfffc64e5f3caa274777, 0x14ee771b1e80f23b2fc58d2f98d43a75dde2a5c7d37fb0ec3a90b661ee4f191b, 0x22142acbf84a03df8d16dd2ea6dad8b4100f864e5dab2f6afaa6a4a36612a4c1, 0x17cca25c3d45d22a57fe904ab20f916d9b1890d5b7f70f56e5732325a790e637, 0x3120041b1c3a4c87445672333283fe28d18f05deb5c7e9fdce6cda7fa4d069a, 0x965b18e93bde84a1d8424a74e69eb6aae7a73fc920e5cf5e86410a46511ffac, 0x3601f2a0058f85efa835c5ef0276719f80779d854e881370a3d4150a68a4b65, 0x14f0454cb6ddaf09579651aaea20532036ee6f54bd9893614b2eadcfc041d756, 0x11844e3d73731aa76edd24afb82a49d60c861eaa25579c45fcb23de6a45667d3, 0xd49b3c8de5c8a009efb91116d019f97c01ee5289ca666b6807fc89fa0697e32, 0x15ac66208d53f730d995abc5cd72d50ad90909c8cdce17c5aa78bc0b274a8571, 0x1c9c5cb02fb78be508a818a070deeb6963c687dce2975aa4593a89ff1ea675a0],
    [0x4523bf1a8f284c6d95b310dec2b54e0e00e59b571dd9d46b6201c18e1b56dfe, 0x210b5dd8b7bfe15189d3aea8e53b5bb7b462204e8eae1f9596bfbf1cab727bcc, 0x1e72e11f21abc22a4f68b374dd8726a2c72f9891deb6536f3a4bed98cec40858, 0x1d0ea48d109e37ba4d144a4251066d6d7b7910bf92f44aefe7081027e1e94ffb, 0x19c6c9e54dd8314a776b1b1e8d423cb2fd5b6d4951f3abdf7176875a0837b3e8, 0x1722bd20050713407ab428b4a1598dbce86e6a04f9093d0d415b546bc1d265e9, 0x1bee9ee0577f4a46e9500f2066dfbffcbaf775211450f521e13aceacd519010d, 0x4f1c326c88072a05332ad14d25ede90d430394bd8e80321dd6869a561282e37, 0x2db49dfe6b2f6f8f38102e019206a908503e268cdbd5fd7689855932394952e5, 0x18cacf5fcbe1e383706c2ae6e294c691eb86074e611439200f39b49db2739409, 0x251e39efdd606e5efeefe439a1d01dacfd6c29729472ed884160d4018d1e510, 0x20ca4abd314e386d0154234a94bc5b85522a1730c005528a74d7f2147e449437, 0xfd8d3092bca7b55b7ccecf94172ad86eeb0336257108ca5a1786cb88be7249f, 0x14a262e3bfae15e0345a1f837f1343b2b245fa3dc706956bdd64a74c48e86e23, 0x21e54491928f3904814373340aa65a0f97be52dbead9b91011fc454b2dc8f6ea, 0x1a41918b8c68ea8d675330f618419302cdb44d7c4821561bf3f75f10824cc06c, 0x21930445fb5f525159a17da94a2dd4d28485794801b0c9a694b03b849e0878da, 0x17535af3d952f2a356554ad0183697eec1c86ed9db1121036de89df8f758c7cf, 0x1a82f3c943c80fe4ee37b238146142decb389d69918a0d7abd97a691e2ab80f2, 0x53b942c6f210f073fa9c58f6e607da4fcacadae35e5bea34eeb6a54cca2eebc, 0xd34f91b743a6ba52c32052bd0623804fc8cf2bd384bc98002434a2c9614337c, 0x2749b7c85c71adfbeb5900b6334c4dabc9925e9885c9a525e74f1edb1e630a8f, 0x2284a0f1ee6a86ff447d51e642951ca76a50fc3f4c0d009228aa67f9a9b1f953, 0x22c7f25053d11e887909b02af7de7e57f5b5f9d37ff75acd8ccdbb74b717e23a, 0x29c30ea916675045cb996f3d2f3662cae115e6822329f93a4d159f18afcfc49b, 0xe555cdfb1576e9bb5cb70a9234a6e9238b912c9d65100f2dd5f3130bf5a000f, 0x2f16e6a9e0bd6fc0b41d91bd065f60dbc36179607545fd58f0b1e6efbc86e172, 0x25f261e99981d3fd2b094a13dfdd14e1ace2d0100973ce0331081826b8c69ca7, 0x14d1b4bde07ea82505ebc4f4f9b599ca214a099e081a286a223bf8309e9b1348],
    [0x4523bf1a8f284c6d95b310dec2b54e0e00e59b571dd9d46b6201c18e1b56dfe, 0xc2161d0dfe1fb1b030d25ba9e72e2d0f9c7be11edc3ee0310dff7dec3ed10e0, 0x1de725c7f6c995721e1a1d0a90cb31563110eeaf81456a3f8a9809440c9e9e14, 0x12389968950116f0177afe2b7732608bafa5e8d50393668844f9db50455729a6, 0x17aaa2062cdde57f4a67c7052c0990ba08b3e874633dd41237cb6094246d678c, 0xb9984737ec0a6541f484c9fe4837a7639b58d017cdccd2beb305a937a0b79b0, 0x320982d756176f852dcd74ce8be156b5d7f92db99df5ccbc5cc96e93d83773d, 0x2a4319d0bc04e4c18b9b105983c8744ca4cfc428f20ea477e9a60441ca15cd52, 0x182b9434e89db547bd499a5122ad77854562962cf0435e21d960d1c4498edb5f, 0x1d26abc0becb0e422d36f4c59b34f6fe77ba771192b2fcadc8cd0965bf0ccfb1, 0x958a9dce1b6a17620dfb54c364af3ee428dc932d81d1dc4669503840dcb541f, 0xa8a70a8379d71136fbe77851617cbf9d52257c32c9c3ca4c8078c90ced7160f, 0x208a9a840025bc0c38b883213fbbb42c311c4d7a3f1c2d53924999892fa9f931, 0x1f1acec1766b25775db439929b1550734fd8204b77afab09e4251a2e1e123664, 0x387e51920edf06b64c6bbf3aa91d6de80a4c3a6a55493c4cb038f55ab379b97, 0x283a3b099b37a60369426569295e1919635a5f557c26e2d9bd62024ed42f6cb1, 0x3a82b07486a61e769d4f4a9691129b1497ead1ea2dcd4d44fdb626b31fa4c2c, 0x15aea7b6a44e01bd2a1993a824bb751773d6ff20d3459974f00602982b20f837, 0x91383aa8ee58024a7d0eaacba661fa0afa042d4490bb02061a005799d8926fd, 0x1c4738d32fed84629967a249121d25afda758ec66b825730f4c0171f05981826, 0x5e10a29beb202a5238338a3cb6f3ad81f78d044a791cb03cfd63367678373c7, 0xe3405582a614f4ec28465cccae382ee3e56fc67f4574846f5a011c2ae4bb316, 0x13c2e18736871254346e7951da5758a3bfdbaea4a37c62f5204e2d833c9ffec6, 0xe892a08fd4d17f277eb16d8cf6ea60a8ab263ed317c20970c54e02655bbbd4d, 0x38c23026542424fca9729f5959d6b7a300d7c8663dc2de7d63c98fb737c885d, 0x242560875a24ccbded928c30e4c78e28f36975b1767933888f3a3eedc4e56759, 0xe32ec6d6c80d3bac0aad1635fb195ab640de35ed9e19e60033751b9b17b7938, 0x127f81d915a7546cb2d35659181f70a31cda6b1c0f011cf3d4d2d908e44755fb, 0x2feeb1c3f308139ae4f23ced4a2bd3df75c7dbe7ff9d89ab31405ff4e1f88034],
    [0x4523bf1a8f284c6d95b310dec2b54e0e00e59b571dd9d46b6201c18e1b56dfe, 0x1abfd157d65b0faade670c600f964a0582539691f909a27f1342ae7f1d1f1659, 0x287edf9809122fe7f424748beab604c04270dc4bb549932ab49db3e42ccf675e, 0x574627cd0b8f02033621b45ee0293376d29811f14dc701b6aac4565c5e2346e, 0x13be344cefe3cb23d84de26cb8dcef9ec21de4e275675cb81d8e071b52dbbc54, 0x2bd04c2debf244a79c22c363e0656dca89ee4a641137602268796e048f222ffe, 0x21671759ce3b7fa3b8dd29ef4be836d011c802e90a5bd2850db423f0b84b8f97, 0x15e2eca1f4f24c534ee99f492613185b6eee35daa601ef5c73ccc1b2183b5928, 0x1ac428a1c403acacea5b19eb5a9db448badb082eaf12a0bdb39e33de1b2acff5, 0x18d056fe0886b5342e70987aa78d6760e87ebf840fce54ab3790159a2359ba63, 0x103478de82699756c898690ad0431b1a62d0779b072728b2e8f9f1c3dc0fdc44, 0x3ad3345d4e0b9af20a5acebcd23f067ccd8aad3109ac7d180430242a083bef3, 0x84a2a0a197a762bd6c633ed789ae1c92af3d189421801e2cff4ca4cb7bb4b9b, 0xb9fac3f1b5b7769bf369780edeae7d4009586d8eed37df7613d8532240a4b2b, 0x2b6c5a5b0b2e999c52d385c1ec41bf6fa8bee62c6be1e4896ec6eebcb6577f, 0x2b891566a83432ef436b4c379f8033c4297d73e413ab6d3dde28a446727d6d01, 0x215093cbac4cd6a567810f829abc65d556c7c7d81937770546c68fee9b0bc5aa, 0x59542cf02d9ed7aee0b72da0ec5092043be68c53e4207e4c9d05cdee2620c95, 0x2c5db84b283b99e21c2d7387fcbd3d71bcc262ceb616379ed537e29d3d4f4511, 0x23a84bc9d5e7f467120927f9570e3c4646a6ab1d7177df4a0972c42588ea47da, 0x1af62c1dd6f9e0526f8c4eb716f2cb087122b6efbab08fe32af30d76825c7e59, 0x240df1209a4dc3cfa2e57e4e0b8369b81ae2d530ee1e022f45476ef3d5541f14, 0x1d663e716dc9e681f325217cdd3394e128afe26e727a3e74df24263781c370a9, 0x280935cb8ce696be4fa88e7502cf01612d955d783b8703024a85cc776ba98bb1, 0x13dcbefa8c14a98bf73e722e6aa233610b00c4687a29badca7ce239074b0b6d8, 0x10184429c03a6a7dcb093b06a4180cf8c2b1ebe3786a5a58149398a80bf85015, 0x2b9b91c8e29a94d655338b761838c1698e4b8cb751a103b0a35bca7380413e61, 0xe8036f74c51d11dfc744f686ee20f62dfb45bf99bbdaf43a5512b087566369d, 0x1e20b85a64e45febbac3f5fbfbb8b1efc111cd57c8cd56e83dd51bf62a4b2903],
    [0x4523bf1a8f284c6d95b310dec2b54e0e00e59b571dd9d46b6201c18e1b56dfe, 0x27d3fefc3fc713f9ddb2e3fb5a4943e55c336d9881f463532e63bd3257825095, 0x64c66b3bb1fdcd169d3d15cd51d5f7b598642e290207911002b652693f48a9a, 0xe9a5387f39fff6e25b4c460cc50c1d9a9d772e889ad7b3d357f016eb7bbaafe, 0x30372e3fd7ca7cf85f5c5fce64deffc2eb2f6bc1f0f81b9447ced714e4dd47e3, 0x1c698c1fb76b93d6036f01961482e8db670da8178aa66c57ea8d6f02218046c0, 0x165745c3218528545f671cd07fe2a521f2cd6a5cc268601b120b9794a583b2f, 0x1bd6ac92ec06f6ac1f1f348ce1f5608e60679a7a13c7d37f881c147233749072, 0x646a2c8ed477619f611baf19f5f2315d030d93485d7c72a057d7521b05126cd, 0xc5d7ece37cb949c5fcf9dfd72b620951ecfa5411f8ac7f9cf6706346077b2ee, 0xe0f95062611089d30cf1641ef9f5142d5c09677428dde2a5b70990ce98862c1, 0x1167dfcdef684e802ee0ad2745b448bc9488677fb4a9f21f4306ad438e8a7154, 0x8b58d9c87ea695ddef4557a17c6c6ce8b34b20ecf1dde355d4f564f529d9e52, 0x2c0c0c0caa80990aa8b3db0b093748f6d4148b7d56d6ac8448363d592d495bb4, 0x22cf8f510e15dbb54dd7aaaa9acbb79d93c91caa6790069822f17eadc58f3bee, 0x1dcbdcc87c651a39a1cbbf4a2429512ef5d3d5d2ef8c2c272bb11943f15dc73f, 0x268f76f1dcf5f445f31a5c3e2f77f9370f0c039da51a0bcf499e89c50dde72ea, 0x12ea4be23cef2bc588a2c5d3f0a473d86fe2e62aa05e4993fd8e3c3a04fc81de, 0xaa8a1b42480a433972000e6b714bd6205cd020e387ab80ce788b4d244893d9b, 0x9c9635e93ef111fc995b0f41181d644507a96adc5036626025d14c67280340e, 0x2f19542276afae3f9bf2d8bc1ff25277634b5e44631c88a3ededd309a35fc238, 0x2bf08e4ad9318465d011b6fad36953dd572e1a06e6ae04acbddcfde42ea6c978, 0x2e415ee818590fff4a8eba14dc2db89eab455471fcb48723a23d28bd07f22181, 0x2ba1b1348857a0dddb145fd370c4a5145794b555fe90aaab30eaabbb831e57b2, 0x2c45b38c22d1834fad94146ecd9e2084fa0801d4d2500d3c9b02dfdae2c686d5, 0x55fde4fa51238ae151360d0bb3e53d6bc88454434e0a3e7e81886971f44f1bd, 0x1b500c091d518878d60bb9c1e46487120fafcc07d99070f6abeb94cf72d099c1, 0x1507c80ac988a1d66a9b7d7e0d489e3dfa903dccdd39cbe30d66e70a4465cfda, 0x2c5389c4c3d7db5534ec96975e24b341bb8a3950817c95fa6886ffa17e3729ad],
    [0x4523bf1a8f284c6d95b310dec2b54e0e00e59b571dd9d46b6201c18e1b56dfe, 0x220d668f431ca31318ddab3a7d699e1daccc2681c19e28782245bf06aa393eee, 0xf82c73508a680275741c5449a2108b0b4deabb7adce05695c6a9a56491b09c9, 0x81d2dcbe555ead7fea3650ec79e20c01aea1bd8694204cfcb53f440ee9f0c4c, 0x12d6def4feb3b9695f3a33305c190d41b44360fe4f7edec96b9ac2ee5d19d237, 0x188a70595236991b549396dd83dc110ab7848143320ffbd8bfbb8d067daa0dc2, 0x1ee5cd9ffc83473d252da6d5f220a32b0f14054ed87e47d163f611b0a03c0500, 0x336f443081e4e4ef2f80daa0d427376db59a5cd44d09c4ca4fced8213c49792, 0x2e31f59a54ad75b935c7968deccae44c7651c6989e7a194d8eb75db56f3c8e6e, 0xfc66fe6e89f9c6b8fcfb1b825a394b791404b4c535db02105a0cf9b814718cb, 0x19392614602253f18fff6c6add01041fbf1ac573c430bafd1be9d0bed661f9e, 0x26bc696c9022801b5558f13a240c2f2595cba3d923740bb15f857012d65b4e30, 0x3e41f8254eea920e176dab66a494aac26a9050a6083321aed3e9c60da60f30f, 0x277e13cf936573c9ea57fec54bc20dcb76b9bb22e43dd7d3f0c88ccc4350d4cd, 0x100790eb28152be3bbec49d19719f1e819559e0b83cd3fa5f55b3f11e2ba7c5b, 0x8a5bcc49a8ef4b71ccba577422b91bf7b0eb873ed4f819a03f84b7b22b3748b, 0xfe17cdcc7b34315c294c9afd7ada649e535d66e18bf207d0627af9b985f0fc0, 0x8423e16c6102fbc4eab76ad8b96e75ab86107261c8be93c4fd3312a65ab5bf3, 0x24659f4e6909f198d2da3d29a4be15ff86b279a012972befc5ab6d55e6d38807, 0x145fb5febeebb5b6feb24341d5ad656cbe31346d4146c778f495fb1948270c4, 0x13ad1e400a7375f25b79fffb3e0ad1d1022bfb6eec76f9f2762919eabe8d63ca, 0x1d087711ceeef2c9423d13cd5d262f9c6d536fb84d1c171bef1feb446ecf88cb, 0x2a914d202be77991a1357bb453bd09062b6073f195f314e552608fafea4fb38d, 0x1660b2ad261b31ed9a13147bc1ee06a9f186e70cd619111a21b51b33d2d1169e, 0x1bcc7790328fa163162a0e8544eed39b1a7a96cd61e0aa49b117ae18af29e75f, 0x2ac02b109eeacd4b06cb5378f08cb37d622a856d0629fd3bc03d8e2cabe54ea8, 0x30616182ee240c6e1792a51a9bfe54aa6851cc10b377c468021dccbbfa60a3fa, 0x37e7fc430f341384ae6aa7f96a7173a91f7d896e77d464e1f8fa8c470e187ac, 0x2c238e1df2dcb6d7c94bff7c9e3a4951fe54db4e926c431fb6332e3f6ad23da4],
    [0x4523bf1a8f284c6d95b310dec2b54e0e00e59b571dd9d46b6201c18e1b56dfe, 0x200ff178d06931904472b00fe23a8a113d17ceb33d6d0c910068fd5168a541b7, 0x2c3afc766aee27aad8b1ba9fb14b3d56e2217c9c7e9ad3363d56fe5b31721680, 0x2128f1a125e0c64edcf0d03a397dbca56375f0fb87ce41480e525c2470391e7d, 0x9c62fdb776c4fd510eea089910bd2537f8efda0286768d88a2c9ffd4b8151f2, 0x20426c548d66b90866a7ecd77278c69e33b3d1ab23f0801342e4064b3be82618, 0x7adcb9b76dfa25de61d2902ce37140c9cfc7d51fb2f8ef8e2317163f06641d9, 0x914a79c6d02adc94876ebafea2b8e6ada5ac238e7320147fdfda370afed4e94, 0x3a5d3e37105e1d08281bb2840176dc462a386409ac1e7eac82be7dba931e9a8, 0x12aa83b029bfb3b8f742e689995ddf71c0aa28984dc073e73a38aa8dd8a72de8, 0x1b293978db1884bd8802eb86d98477a690036f148d0a07b165b9437a87c8d30, 0x29f5d2ca3bbe30251e5228e63e1eed9c906c4d98647410c4a3c74315101fd5ff, 0x7bf47ac1aeee2ae48457ad8031ce6b2c072a65acac7427ef29ec2166c2d1f1f, 0x1316c94951ec5aa5a37e96922334dc116d22f3e3fb219f8195e25d93e62d282e, 0xe5a891e769da4c1b0d10fbde39d81225fa6c48216717edfbd9443541130abd1, 0x10a84451b6d2e943ef60255bb33321f4d3eae64981695a27bd75d7c72cd85d, 0x344e6fa9e638ded4d99a92b2dae4381ab2401aefd50558fd8ea90764cade9b3, 0x28a513ee6230bebef34ead9978b224ec3d8f252f2c3956a781854d04a293d5a4, 0x1e21c489a47bf56a811404304e04714ece44f376ce998e3499ba91fbcb0fd207, 0x2563badf855b5dd41a35570028bf5d97e9430a60962fba0441d52860765a4120, 0x209333ede8112c2a18bed033eec46e7899c53627cbe5d7ff49e932455ab51612, 0x1b740c4dce2fa0cf3af1053e8da92456db1f2e31c99caa6918c8297e3350fe88, 0x2310a0173db9d135f259497b3f27551d01feb64d4e0cf2233f7823c8d4e16219, 0x2362c8df290b748b65a8680c1ce2c43c5fa82837c5f84f8107c12ca823709f6, 0x24bf53879bc6be25827e47537248702baa3a4773fb5c17476e142e70ab17cb69, 0x193b4986cecdda54bf346868bb20f1d62e3e795ae49a775191a01eaa4bf095af, 0x171de60c3b1f06108a0ea4c621016c0400fc9b96af211250f9c25062aa3f971c, 0x170208c0bb8840367fc496ede9af48ef98913cc6800a76318fd8fef208860c19, 0x19305439f5cd0d17d75d1981b097bf61709a427cc09e83e6e983b41bdee4d8ab],
    [0x4523bf1a8f284c6d95b310dec2b54e0e00e59b571dd9d46b6201c18e1b56dfe, 0x14d4a3a0742364a9f659b29349bfa5455751e48da07705179afb0d01e8989db, 0x14507c7d18dbf71926567faf318f25bae7d15d1627e930fbef4dc76068a1eb9a, 0xab92e37d54cdf29da56dfe18704f6517ee8894c9db8e42ac9d3f8c80009e6de, 0xd3a5cce50b706d0e2d5ab6d99cc5ee19d414a99901ae56d8ed2b90c70161473, 0x1faacbc551048977f44fdf37a9c68496027dfb6de98761ce68087ca0892cf084, 0x82e2d6fbcfedb2a32622e4c9f6d4ced6cf0a570062df9b838c4684f4a8f6c2a, 0x15345de0a699ca5370e036b6b65ee4d4d3412d46901b471ca44787cfba69d203, 0x125429d4185d9e71c4e428cc2cd6b98da229e56e941f37b846d46c6dfccba94e, 0x10f072b77d74f20ba0d03b4115303bf37ea98a20a51f03b54756e770e3503601, 0x3a5a00dddccd6eaa0b88cc6ab2ef6b0452a206a04bb5bf2361baa3f2136b2dc, 0x301071c4a6d3e6b3e274dd6ecd6f5889e65e92dcb190e6980d8765f946ea5ff7, 0x497842511b8c65d38dd10ea79c157976239b771f5ee8a72930b45c15b0ce6e4, 0x1a7f3811571bf5bcd0786a27a61702e4165a02f734965b52996a6cbc1abf6248, 0x29b6c15ea8aacdc694b94efd98045716dc81aa60c6ae224970ebd0395a6c2039, 0x1ac6bb7492d1e4f715604b57a281164ac925c56efc0cd0fe495e189914f1478a, 0x1671405a7351ef20e4b093337091a308e1858d50656a24a08993b416dd0750d5, 0x29784e4a72baef66066c6b4a580e5ee0d6010543ff0edf90ae6177bccbe3f34a, 0x15bb878d0c3129d4ae1e3203a7e88cd90f025c8ba652403e8be7241c2908a334, 0x145ff66f889d0eba5e243c1c4780f5ccefc25775a82f555aa6acfbb1e6f44792, 0x2397dc005d52a49fe64bcc7e71398f4668e4b1d7d23e2cd41f5a240b7fd2015a, 0x104fae947bc81f5ebb40171e9ce8e51d91d558d686cb92d39ab245db3b7f980d, 0x11d92195df064b6bc2f2702af25e1d57a49adc4774f769d32b632ad5cb29c38a, 0x1de8fb3988b840fedd6f1ec8f4156fdcadb7781b895ac7267ff16635a57cfa81, 0x27089624e599b1c50dcca8257a778965238f557d50adeee696f52f5656affbdf, 0x1e5b7ee2346227404b1492732b5e6f36722d8bb7c99f2ad8f48c6123519218c1, 0x44744daf2989bde9d3d36878bbd2116fb0e6f03f36ec8c360ac7180c6a87a9c, 0x18b6b8ae538910b9634a54cc1903d21f0e9a4626abe012f424ff26e7a4f389db, 0x1ea586928d1078d44a1a4bdbd2e566b924a14187c428717894ec06f47d01269e],
    [0x4523bf1a8f284c6d95b310dec2b54e0e00e59b571dd9d46b6201c18e1b56dfe, 0x299ee7098c20a8d8485fb78b37b5794235fb37625243103d86edaac65fe67351, 0x173d58cc84bfde0327aa48c131cab0183f9b471f25ecfff26cd950bfb4c4f744, 0x163536baa734cee7b3ed0d01cf2dbefdfa8e8f5b26e6fe1eac9411f87cfbdb7e, 0xc348237f64f9f76bae51d147a191aa505fa9134ddf66975b7f54ca99b377894, 0x23efe24fb00b171697d7a06849d9eac5e14e032631c17ac0dfd273eecbaaa293, 0x1e7878f760e864ef15b4039e253047ddee33b082b6e3ec3828e35c184d455a66, 0x2bef7ad013467126fe0cd58abb1dc92d50314c8ae9410163fbf8c886f86fe02a, 0x2202801fc79b3c1ce769d85ac6bbe8b8225e81bad63c2a26fdbd813eab14a147, 0x12a9c7120c9ac72e58a53bec642e04890a20bd2080b06717d971c5cbc74e9d31, 0x2dc68da29a775c40fe59bfb40d1bf330871f453995f7cdef71b67e14356086e1, 0x110afe2764fc7945d4fb2f8bee04cf7b8cb3859bf62c54bb37d0cbbc8fa283e5, 0x21ef54ad10c3962befed62137a17e8cca0ef4476d68f57cb31290cbd089e9123, 0x1c4faa0f27dd17f4d20fc930a295dc90afe4b2b319b72c7ab3d5d67fd659a716, 0x496dac1141cce7811aa16c3cc7ee5bf926b19b57e4c2a3fef441f6a4f3e5e0f, 0x1124c584f931153f9eb51cc7bf62a908c7d935eeac92ad89be0cf7b3b70bf0a5, 0xd60e7160e15c49ac0535919cfe58b9bba626b7a560d187d93c02a2013d7a25b, 0x1fb86c2a75e7eb166c625ae15189b3395bbac9ca27fc7140420929c57f254dfe, 0x302e9af922d3af8a056f402150e34809253afae3405b769561958e2ece0eb937, 0x208a3e5caddbd869846894744991f2d5b855cf126f2fbd0da3c7655f6c44e6a7, 0xfd167a0ef538adf695b83b0c7e2b65edf204f994296f4154adcb45d5afbd5cb, 0x1231fcf2898720a22a2a98204af8bc2b06e0cf72daacaac1af1b08d1310e2b30, 0xad52af94770e15ede8be17b72e4f2bc1bfe73902d78b7f3a52a254898131b43, 0x63dedd90276c2738935a71b3acef9d2f2dd3b9bd49e54ea8b62261422d3d77d, 0xf58416b4af85510a6f3becec11d8db6c097194ed62d4a04e5a2a295011a3bff, 0x15933b922f212592a806daee6209c9a02ecb21ce2bfdb1353862d7629df1ef97, 0x1228654cad70cfa7a1f1f30b4cb5d9279d2f49bfc233411477c333cb630256b6, 0x1b099efaf6a089382b0231daf9a65505b77b54b6af4491365b9316f988bcdca6, 0x75756cb31cafce46aff3d873280c21ab9253a0c587f5a5e107364178091e73b],
    [0x4523bf1a8f284c6d95b310dec2b54e0e00e59b571dd9d46b6201c18e1b56dfe, 0x2e36976f35a34be56bf3881e93370f08203d1f8b0be967cad4ccf4d9d2c83c52, 0x1650b34e0e8b2ad5ab5de19ff253eaf6dcd3e20d22bc69539c834437e0888513, 0x2154f3f4c1b5b2a42078df70bd1c6b4f042ed01adcefe5b603b4830008715af8, 0x281286cb63e657f78e369c0f6db3c980cdab1e57fdcf32505ccc325e7a9e8c40, 0x3008b3f202e3d206436f7dac2412d51744cccbc8e1ac457c11e0faf6d6060cf2, 0x2c0268fe5d032bcf88a2803e4ddd2f3e1dbfb58915b47d0fca518043272d5b27, 0x22e8ab4fa7bac348cedbcfd376a8ec6512fdf78adf936f6548594d6584953227, 0xbf717c0f092d04fa4598afbcc898ccbcdea3eb9d3d1f5042b0f325ebd57028, 0x1f500e6028390530690b82421f359563c768803db6fb3d0135c5366c9cae12c1, 0x1b9881d9fb9346520e1e411de0696df0a4dac3684a15c02154dc0e7fae528484, 0x24ecaab85ce3beec4c380c207c564f4ba6995c3290f2766a89b73010eacfca19, 0x756a8ad9f562abf2600b8dc808abe6a2bfb0d4352824251e07be2c0e64dca67, 0x2a1d50d0f3da33a873e9dd5e5e2966bd40445c1e6eb9504dd4b276ecfa0b318c, 0x1fad2242540d4366495a5ad4fb69ad25b8261d2e1ee56d56669be07686e9217d, 0x113ad8b46c3eec20c9965b5a7b2e8a51529871d0401b4de6f63de9e5211623e2, 0x1fc50a16dbdfa1c3b99038f47f81a1c5d1ef6e7b221d4ccca6e821220130e000, 0x1214a9d6d7288fe85651a8cb83048c7669c83b5ed82ca2642fff01e852a44b4a, 0xd421a7c25af5538788f49475836712af5da156f88c5867568cd958e305026cc, 0x2de8ba83d2b6ab6a711fb9230adee1cba46de8c930c86d266acb8c1cb9684e24, 0xea7be82f1cb493b1bbd83ab7ca285bf0a1559ea05c3f59827b3b013d0a91fb2, 0x1e3ae7e5775d352651d713ebdfcebf9ca8e905cfb792bf7874239450f914c8c5, 0x5943e3618a32cf050018a4e2375f4d027b8c14ac82a0de57cbb90c5122a64b4, 0x603755180f66e98215d61e5346b116cc00cfd058274d7d969b3af95e78bb335, 0x19817db66fdb8215ecf70476c4044c3f41d78ac5a549c684e35845947dca0b11, 0x73965f7a9ba8cb33a955d42da55fd7c37a3f0226b029d36dcb3fbea95d642f3, 0x9a550431430846b6694125b5642b00607f36a1a29485361a3cf427da77eccd0, 0x68eb4e9d6e0a588b61a6ad501f380da0f009067666c0853d156e33d59c43515, 0x225e00a0da5a7f7496b70d0923a7cf7ff332bff06958cc0f3fad439874f6024d]]

/-- starky/src/poseidon_bn128_constants.rs L7419-8440, one round per line -/
def c15 : List (List Nat) := [
    [0x148d9e4542066b125da6d69ff3fb676ebd27e6a38a1ff4281bd639c97af6ffd5, 0xb60a28805324295fcaf51bb88d9692372cbf4eef1cba8b85cbc059346691a88, 0x2d38f812ad1d7ac79c32fdd57a56edb861885f20fa4bc6d0d942c2f41e8e4a7d, 0x25738acd1163580033367fd8f1ee199d7eb3c37891e06bc20e6b476a0357588b, 0x247f6967fca42689ae8e20b5a7a198d63086549b78c1620a51f5d36824ccf43d, 0x2e22813077a668b2b75249b8d515a3dcd93502006694245bb087ff0732708b93, 0x1523ea89be61be47e1c36b0e024068c28c48da74bf7069ab2d77389c83d474f4, 0x146695ce138230e087b53ef1bf81601f2591dd344a7cb509f138939369e0d1c3, 0x12d05d9571fa4b4171886d9c2cd44c7d7fc5a4125195e7d28c3c47cb5cb5b7c5, 0x242721147084d4613543788977111f3fde6c89326a556e35bccd2a2e73cac68b, 0xfd921ba8395a5dde833e6dba4173385007b38d1af5e3841a345c9a480c9d292, 0xf0bbdc7a39e5146929f2e1ca9fb4a63550cea8f12109c1d82e601975d581f5d, 0xd65008588b2ee1a4dee0313b6d4396952d901385f2e1afe6a0a0def765dc2, 0xaea567be31e1c42ce33f589d903363a482f21c1c3d8fe50fa6df018a2dc7c25, 0x2fa334757b03dec6be1df758ebe0353317b35316ecfc72934d069f182346bbd],
    [0x17322782b3733e379c8909ae7da94655c46dd2b6b061b9253d787a1eaa9b8f, 0x156816f48e3ef988ffe04cc77ac4c89af8fef8482604e7f93b75c1fb1164d60e, 0x2c8ff977a27352b5d7d9ec103fc8f0c727b84a778f41adf777c38e01800afdac, 0x2cc225cb5ee4ba2b7053f98af7b3b488569016ecf6f4943d64ba843092c59229, 0xd34d7a8b8f49abfa48c73b10f293aca19e09743a8345e9e1af9f2d63fead969, 0x2a0355ab04bedea61feae083561067edf1476b20725cf5e032db806d33edc204, 0x2dcaeb4653a0ccad1c0872f76b103bf4fa38f6d63119e1437c798203d29768c5, 0x22d2e63907fc0b6564850122c8e924a972de827d7491e92dd84397b2ebca7770, 0x1593a5b503df48305ffc360c4f49ceb02536c73d76b4f2f774f9da3d5b8dce03, 0x22d45f1203cc11e52b9155749a7c0a0a821da4b063cddc820580280e21026ebe, 0x28f01a0adb5f8f85236e1a129ffafb2cdf86aeb4056eb5ff5a06951d64c3d4b2, 0x1ba602ae9d3c4cbfadd0ae2ccf8fcce759f83cff29bf12b53d6050a7585e6aaa, 0x27bca061d815778ed8719c5f4f54063213c5005a46ed7aed0c979d2ad1557c33, 0x25593be458b75a5369a4bd6a86b70ae79876e95ab93705d244101d5df3e45700, 0x15608030e8bb2a8cec5f6e69489064cd21f9b3617034c9751c53056cc113c04b],
    [0x14ab657ef52773269b4002b7a2cc6d01ea66ec8eb51a97e0bde8ef9f593eaac1, 0x1af18589ae90058d0db1569f4d4ecf74154386cbb6fe90564311b4340b1a11da, 0x1f60106f88fadb4d8f97ce9ecc24d0910a4575c5a710002504b48faa28fb91cc, 0x66027b365d51255f99caab82d5009ae066db65ba103962f7c65f2f2daea562, 0x181301fa387e521e8951a3bf77c5942c5bbc4a8fcc6c395c34b4f491a9068ab3, 0x2dc04cb3a80a5239a13299eea70ba026593f40ccf49cb8ebd73da29a76413e3b, 0x2ba55e1d5cc09043027597e4fc546a18922baf85d6ab0ec6eff1cf13922b5592, 0x2d5b0f0163ae47693ce731568cd67c54b82f249f2a429e585f65400f0c7adde4, 0x374ac4769fa6fd0b8166fd62a112357902308a127645453d72f5249ca5c9368, 0xe767d617dbbe410968708f585dba04e995a8347ef23ea101fea088508403aac, 0x1fb38ef3ce50f158451e37bf5480ba70a91f8fcee93274ab021dfed70f2e2822, 0x14e239aa73b943e39c9b48abb205ccaa4ff59d68f9d325b717791666177db65b, 0x2712d94019540f5f0d61c11c2c16d3dfab0257385896be59c31ff97a37c6555b, 0xe6f524392452ebad40973a980e08f69abdeb214e5eb7830f7284c1d13e36036, 0x29470b692ab4a550523b448684e197e6be9bc885b9d3110c281575c1bbc67ca2],
    [0x23910827d0d4a41ee8b13a711ae19b5ac604401a221417172c3018a49de959fb, 0xbf5862f89a9d3687f2fb246980570d96ed258e8414aca7e0c9df7cee833dd85, 0x270d4863fd01f27b0558468bca95648bc8db3ca55aaa5feb27c286aeadb27b, 0x2dfabec7671e1e932b07f164ab49e69e63f173513f2d4a015ce8de3e168c1bc8, 0xbab26acbc48f8648d736366adaa29fde492480002f5020c6220fb187dae8891, 0x2bcdf080431544a4ed25c9db868837a2d17876fd7b3001bfcc22bcb686483bb1, 0x2064a7ebb7e6ade9cbcc596200eec97ca5e2f9beb2a26acc673b93a218f16ac7, 0x451e58617ec882799b2b33aad34bcaab6a871538c20782009b5da2a377b91aa, 0x2582f9576b56b22907c4bbfa7e4155b4e28ae03876964cd40adb0e255b6c1a14, 0x1af73515b661bd03915b5c3b5d8cec060b490d742c4f48d43ed907ac65ea6c89, 0xeeb619b01645cb31f1f5145d2d1aca045e69f9a89742cf85faa65a8f30781c4, 0x1b4ee6b9a81fbf0c201d0898a6948a0995ebcd080e0cea83ada3d8ed6182ab17, 0x5abe05399288af84efeb848ec61d53dd0f07439982e04e3a5a304166ac1730d, 0x2cc02c9ccd63f23dce9ec2b3587322da4a4cebf9cc9246c700db6612aa769674, 0xda64f9355bcc3ccf87a9696b344e5683cad3f876a5b9e5f715a0d70a973001f],
    [0x2d0b3f3a901f88ad88c2012c2b32f4eb9f02bbdaedf4cd1e37b84f4016feab7b, 0x1d566523ed67e71b5ff0cc5cd17a325d3092bd66a52773a537896e3c6df86c76, 0x37d35446e19eed662a2b628126b2850f7daa087974e21fad3d339d7e2dcc33e, 0x22b59547c33c37e6c300a3556f87dbba667bda84e1b8ef87430a522a576de9f0, 0x196f8d6f851f5bbcea6a1614656b38a30e5bcbff261cef19f6e34066acbdb74b, 0x576d6d6dc692d9ed7232005e63f954d2da11c77e6e919b2b9dcebaeda11b507, 0x9dcfd5fff0be2df5a5265856c22ac231cedd81a1312304f5896f0909cc3e6a5, 0x26f792286cdde888e454c1ddf03592d6d62f4be4843823526509829fcb496163, 0x299921dbb6a9201f8aca7e69d8190238d5e4a82dda743aed85ca235cab80c163, 0x2863a223856bdd42e35069d206a5088d217b5ffba6fba0939ca22858cd770dea, 0xffa5609d1b9aa848721d2e1e2ad6da05d43a241e8e0a7f59508ffa9b1ede432, 0x11d925274d8fae7d518dfecea58a9a57d88642062969e67e457e962e3ed4a144, 0x21c219204226bc43f0db2448349213a9e563e94d3fff28b2e692688d0f5b2b12, 0x2c04ae9f250ba0194bf59eca9404e3af6dcd64dd38e370a038f3fd1e397f5104, 0x223cca831dc760db7b954d41810614ba6e2c62be31e94884d4c7e5ffa67da5c6],
    [0x244b3894104e51a151a671ca11fcb342d1ac225f43abee839469743457133d81, 0x24f71d5a0ac04a387b758c69782449df7b9ccedb6163a7eedb21ef401452f450, 0x2efb360d9ca0e15f52aa4033f4c423e0fa5c175cdd05e4aebcc278a7b8296b97, 0x29ffd7ef3d018c95e8039c2e990e4cfe66ff093810ad4508c30e28e8bb970620, 0x267ff75a53212383ecccac4e8a3bf2fc9e982baf37ec44478601cfaa6f417233, 0x2fbfc4b2ce6c2b08cbb3e3749fb22ff3d68d3bb7d335ce0e42ec6dc27090c385, 0x262f93de20005c4de2f4a5d8d055c8d5f568991b0a862047e5ad94c8868ba3ca, 0xf080be27a791fcd1755754f931d9b87f5ad8c1963a02aa7cafdd1e8d31b94e3, 0x21a735213a8c784976e65ca3bec4acc4224527493cd1626d2346133ab8875ff0, 0x160a92fb6a607d5ee7949fcd5537c8431c449d79aa51bb955845d2cbe684bbfc, 0x79159f6364543eb643f0424461f00135739813840ac74de81df7c9e10c8f72, 0x2286247c58eaa4509baaf85b947e699501d3b5f901acc8475a7d9d7941606cd5, 0x1110425198ba06c42efbdb6e95840d01c00b5d08850f0cd46435cdba1bdccea6, 0xec5a15571950cec3c3193aca015791604b7dae185d7b9d8992e020185ffd909, 0x220f98335597493c2e7f4fe3bdc0cd229d0c81b2d0b6f9e565ccf65eba2877e3],
    [0x1c2fa2d176f4d7070fe45cfe6a8d4bbd0ce685aa196e4ba2372a5195e7ab644a, 0x298c1fe3f63531aa98b6aad02e438a8f278bcad4ed97f3c82a091faea910e50b, 0x2e814b2f088d90012bee74ceef10c7013033af128356dda488e3feab3bf25253, 0x212609944ec047925f31c13d7ca9fd43a4e54a33fb09a6ec9463cb63d2570e69, 0x157bbb9d0546f86e4a8b5e450036ab0a84d6109d5506c85f239267f4ba584b56, 0x138efcdb344b5b40faa9c0a415664bffd77240b5a9cba56b499da2e3cea6b3dc, 0xca50e08d27bea508f20273021f6e839cf124a54361def3c9b2a64595e58fe4f, 0xd34d2d5975a2da9f0dd72e846d797ab312022399e1fe70980f983f1587ef7c4, 0xdd1be4f3fb034d4669a81922fa014c3c1c5c575f39bd809877db2b9fff9744, 0x25540fcc162307e3906abae7ba258e4fa84ff4dd4ff19742a0969d08018b21bf, 0x24f57936979ae2a3b9752d37c017574493524a254a5bbc10213b7fa6b15ad35b, 0x2d9bd62647a45334db73631da9d97a27e8c627e911b83f1962dc3417dc6ce29, 0x1499c2994ad838770ee3a9af64362a10de6c4c5f32d5ab5bbae55ca0b29fbfba, 0x15a6459a08eed36bd3e23157dd59512bbc84847e37e8a4e3f7d7fdbc7be20970, 0x148d65a6a75fbefb33965be2df0989fe031f47478922d2546f1ee126de7f35fc],
    [0x16d2f4865c76d38379fb5ad2efb21e777e01744b4e209c095d332e41edb45748, 0xc86c69e94a003cc454e2990a7ad8167c3bbd4732e646f9f91e961114bc65c37, 0xb12227a310f8622c9acfe2bb3228aa05cee6105c4268c266dd4176ce7f8e21, 0x2daf91d225f915884e6cfdab42acb62d276341987bc3a2541819ec7774d90e8d, 0xbc4e8d555614bac1b8cc99bae7f008cb7c82b5cd1a3c481a553caf8ac373f6e, 0x2375f37d0030b894a1a8298dd2dd59e2b7e73667f31b156e86d9b38617500fad, 0x1e8e3c2bd0d4852e261a3c0fa93d83fb9c21d44b49578330dcb9718cbd54b285, 0x1e80ecca29b345ed88be8e53ca042d6c62afd2a4624cbacb3bd07c85839332b4, 0x2e1f5ee70338c50c456f43077216125fef314c6653c9ba72c75da5b53cfeda99, 0xe9ba31ae136fb0199f9d9e0d8580f5560449f2a8b6a9d0f223ec52c4120431e, 0x24de52f156b2208d81bf109c790f409baa941ab7978af86fbc0f891a5e904f75, 0x5bdc7205a26bf12700656425ebac48d1150e02fe9b4acb07a41609d7168f04d, 0x27f8106542d99a1f903582ad757076e18afce563367b63d5d0973d80993a3d8, 0x7caf2bc3785db7ad681bb6c05ddf24525c19d1519a981b44045a5f78cba52b6, 0x230b844661066c234483c7fdf632449922453ffb8ef379757509addd81cd773],
    [0x1c513a7ff8bdf940ef0d01e76fd4ec19086170e88c64294f737ef20b661982ac, 0xe0e97979ae864b55f27371e6c6e619ab7b887ce3d861fedd84ae111bea40e0c, 0x62d46adc59134784cdaf0c4dfb6c9d7358f315f0948765c8fcbc97ec3f38eb2, 0x2642cee234081127b28b4edb038497a79a2a313a1b749fd2eb67e37794283645, 0x2400b3982c92f7fc2181889a7087c0dc946db2b2e8d86d3450bc254f6518db37, 0x24da88b4f2c2dc7055f4a55f78322392d808c076f2de6cb6a03881f2354e9106, 0x1a3951cd6925316481484ac39b31b83627a5484c259c818ee23a2700c6ceac9f, 0x2ceca27fb996cdba6d6ee1e105fa5df8ba6b67b865931c017515fb42908de010, 0x16081d04bd65bc19e41adef6fd8da7814d2bb0cfdfb2ecce5df82a8bea879e6e, 0x4eed4b89c0ede1bd58851a931e4de791e4c69cf2b1116f8a36b2bc559000e46, 0x1d60021b4137b2077b31173787004201f20b0701411c48ab9e14418fe26ef4bb, 0x1636c29d85687fec3aa4125bb66e5d5f1556557a4860c1df85127790f09a61a1, 0x25c716e5ea5ce2c6a2b671a863d5acb3b2dd4963879f4c163da6a06fb265cc42, 0x1dece00284bc698ea2af97de3d426cf90110bb49be71a393c1ce70ea971db460, 0x292a18569aed3c28685001d40cb42dd8153fa99001cbd52729ca6f8e2c466eee],
    [0x26edaa0ab7f7eeac8776bff120b4483ce9a6bce85d099931ec9322ba1fbf3881, 0x5d23fd0743e0e37089588392c6df0b04d5aef2e5268ab19c2e9e9b3a3af4921, 0x300bbec302c9b8b7e4baa06990571fef5dad26af618d0779b69977a244c589f5, 0x269f2d9ce098eee89e694d53d3b2d9861490cf184ea09baf640f00a39ac72a3d, 0x1122a37fa0c37863431182bb8277bd0e849b2178a816d31c7604fc5219d1aa62, 0x14e2dbbeb30a3a577a0b2299ce9af0539d08eae0748a721880aacaafe1864538, 0x2f926c6773a8c411b87dc5198c309903d9f492af6f0a43a5af2028e549f6c801, 0x1169f110cff49700bb5fee9e524a49e35889c4689e384b927984e9957c587fe3, 0x3fec863f40327b066e68054c87d20cefa1eb13140520d43a679b9e4a147a61, 0x2e87640ceb4012a9ada31482c79a08f64bab2e2c010cb036bbac1e4a87c801bd, 0x3e07a8e8e86a863b1471947bd2e9629149b55502a6acdabf609edafa0bc9d98, 0x23397da20fe1dd05ff21ca3d213fc0ce7ce46c469537c1a2aaf52294d2fd6dae, 0x179733a75ce11afe8a4842f8509e49301f7428d63ca83973b8d8156fd82ab69a, 0x10c1e8a0ee811326b883ca8e10f3adb124428ffcc5c7dc79e83c7907b2a1eae9, 0x24df93681b43879a4bb61b5c6280f4d5e1360287945b978e59b183f0233387ab],
    [0x22140f342fecef8e27e3458443baa7dfcba7ac35cbd4a1a09ad87c7f63d7bb5c, 0x8baf85894900ec08322259d5175b370fd4ad33d5f599d609c95e2d15c26fbde, 0x24de9488081b84914effbe7d56004598675363e34b41fe0e9b78107930312e17, 0x1f25291093856f64a271dbd8614931b97c31f8ec8da7121b0bb82caa71f453c7, 0x11eabe4c7efe3aec592a5cec6b3f6dd1095f9d384ea0ce040262eac0f053c919, 0xb77db0420ec1e32b9ba0e9904a28921f236ded48f3f49aa2d761a631c25038b, 0x1689e35a0fde7b1d3a6e6d149380ffc6b7d9772807a553ab7c5073eb2e3ede1a, 0x162236b343c2c2f7f48b36f3e7a7ec97c07cccf22e3254dccc4b3a30f33c69b3, 0x248c951c9505d2cf2136f6b24c2b749c7751a01ab1cd83934be12fcbb8d05c86, 0x9487042f01494c2af046b94105b70b1b8e5ed1ac5f158408309a66a77a6abab, 0xa9a97076c5d53411c3e8fff6bb537029080b671324819fb8af33d96d432ace7, 0xc43d5fc0020292fd2ecd06842cfa8373eb9bef8a9d984348b43fa9614b32e23, 0x146d10ae53aaaf595cb8e8eb29ade3e56c92da9b55a3bc24becf2a2f5fab0393, 0x1bacba42d80c66b3b062cb5dda6a6230492d8685862447c638cc9b4ec374337c, 0x16ec168db0372a9144f511c5e860b07113a671b323952a86e8fd40722c7fc879],
    [0x113e5457aaddfe1a393d7625ad05bec40e9d44a7e185ea3af2b58ae695ab77b, 0x18ba814a2a7fdd1206db6a30f7b98f3c45cab593362befdcb0d2a896ac78a7f7, 0x106843bbc36e4064856eb6688d8f3a90a43ffa7f73bfe63072169bf520248328, 0xce790f54ac2d34a26ca17cdd642a31b1d4005c09752c6bc5b433064cee6322, 0x2b4e47ca6f897e337d6d52c1ff33a52487c689bab5fd35620d83c567b57a600a, 0x27219b83ad2459b2df9f73df5cd1d2f8be66512d95c4f3d81ba876740519db2d, 0x22cc096806612553e5047eb6e0ec8d01759b9df23c96f53b6fbcaa8a3616ba8f, 0x273e0a2a56e4243f2133bd90e54692647184a8805fdd2ceb541a220253a78b2f, 0xd449aeb41e8cc9b2f32856f89dbf1409d5605fc557c43c7cf573571d5aeea14, 0x1b07cfc60e61c162dc9f12de253b7f952a9246bd2c7c445ca35b8572e5d719a2, 0xe4eeb512c3cac847535897aed4fb9ed34bffd87c012a117f2a3daa810dfb1e6, 0x27021e720da0286b61c23b748cc7c358fb6882d8100787fbce685f06e11046cc, 0x2eac1fa2d1212624bc5e0090e25ac0e0160f2d7390c790a2de7740775830e542, 0xcc0645876817f8152ccd9010a6f262a516af0ca289330a340db6474ae66d261, 0x2ccf92d23a6abeee6e7924bf0d4a9e7040b715e662179a182fd11bb26fff58c4],
    [0x1b769ddc3111a9d38df31f4809f314d749b8be9fa642d2aaa36961dcde0be23c, 0x2dc09a5638b6194c6d6cb79c56ef205b0be1e7c83fcaef98b1cd1365295c7d2d, 0x7efca9ad6268754a03efb676e593a8c75a3ab84ad9046850654a5488312fd4e, 0x1bb73b4e345b0741548da2aa698783a8c87e923ab1b1008e72d737fbe7f6d9f2, 0x635173b7551fd4fe8306abd764a169bcce6f3719dd606cd0bc1f2b117fc36fe, 0x189dd3b20d3f8f53f0f5a2ad97f300f99ebb84090a438f7738f2a126ea8a450a, 0x265e8dd1fa619461952ccd1d3a96f2aa94906d9df07365c28dd3e93a244f6eea, 0x143a058fe3987aaf1ca1bf2c376b4979310ef54c29a3e668c124e5af437902c2, 0x186ec8f1c3ba70ad834c11cea7962750d76c7be8691e679bd195a65dfe698ec0, 0x2818eb031998c554c9570842180458d149316f14e29fe162600507b1e50952af, 0x8cf9b17dd2cabc22de68072b0f3bbde4beac5cb58b575219c70f93fe1ec5de5, 0xa298a9f044a1590bfb4a6835027c9481a406c765ed5c841878a5c14b1c4f4ed, 0x2f4050e4b3b15017c6c19d417790e22fa6d29269d33b54d801c4af98cf662ce9, 0x1f1e5035f72cba3a0226a0447fcd28c6bb211da5fde9229458c8f7d3974a06a9, 0x25763fbc942135da85faf354f47b3ae9fc27606ad701bfe7de3ee704d8160f9d],
    [0xeb6142bda2a5f26b49f6dedabdcb7a97f20931fc14256aa85e6a3b0599c8383, 0x1f8e3d89b5c97325a7063c703014144af195ec37cb8b09d544786eb6721e8ef4, 0x1a027583e2da7adffb3534095700dc6f7d6ff2a7a19b06d7d69d7eb63da4158c, 0x2823d3822190171f5924b4ffe5383050cb301fbacd745c2e074f89152a53470c, 0x17fce7a205f42f17c80a146aa3528e74a3cfc444a1289cf535407fef6cfa1e8d, 0x211b7a11f1d36c9c10a9b3e78ee5329ae87e7effbcce5968260b64ca4dcd06ed, 0x1861368bb98ea3229075f4ac8ceac511120ec3fce84eae632b03138a44b4bd5f, 0x111b4df9aad81b42dad504cf07cd2956cc4848e7ede8ce10075538f78cb7f758, 0x12df6e0847db8d01b389639603c878d91a19f446117f9a4aefca9038cc9d147d, 0x2d5e474114c7c6020bd7adb6e15337c4e72f6ef15324106e7585ca3f8c116c4f, 0x226e655808a4062f8bb47c131ce125bacfe68e7840f4ba6476841041c2808981, 0x1f01a9d98aad3d9a65a5373ed6d2b672030dc1ca9b46149bbf9f084a7d24f4e4, 0x2f3578cba83aac8a83f34aaf5c651b0571199e3a4de39ec0579e5ee33993fe03, 0x18391d423c454019402cf0ec7b36cc133247eb98b9bb439c9c189beaebfdd5ac, 0x26fcf6ca811edf267bd800e0b00f6b49e60e5a13ca944810a36632595d788181],
    [0x140f9b585984d931fe856bdf451805fca64adfe34d55ba4f4140480bd7a97acf, 0x11e878e17f1f867ade93e914e58024464385abf6403fd4a622e41fb1dc22e3dc, 0x1f997c6de664e9ceb042c55bd22c9232b858e40ff4efeb4082c76fbd62ddd8e2, 0x2773284b6eb1c47f14de71f232989ca9bd6a70aae1867ee095299f6419cee52a, 0x1066b87300af439cab83660521ee9d03b06a17c9a00b5b7a8d56bfc401fa5bdd, 0x2f1309644679307e98d620766a2861cee589e6d55dd970c8c43de7ad84d7d110, 0x2f1043b7f9e4b6ec39aa0764007e50320617d97a87be9dfb8f00b4cc27c5baeb, 0x1b3ac550bfdc6fcf4ef9839b66b3223badb9ecc76ae39fe95c9a47c2a1102cab, 0x70be30e43784dcf7d99e4334102a69c40c7981eeed360d5b9968e7cf19cfeb1, 0xe5529c5fd64e3920f611507fae99f8c877e9257fc367bf54dd073f091a3c651, 0x11d88f7b5649a4b0e1f788c89ef190ed917dbe39ca64cc58cde8633aa479b95e, 0x2f6cbff18a86d8b40f8973b1ce30bddacd2f248a1f47f1f66d3201fd46d93d17, 0x176823962788cb748e12ed59426bad8ee881381024993d5703c2c1079c0b7856, 0x77c3ac1150cda4394aae4e3951f8d0aebdb6fe9e8b336d899ed763745875ad7, 0x2355c7225b6025168045ab1f9cf7d6754e83365563e45a211aa997d1b85e8f33],
    [0x186f0b6b6d6040a7e140bf72b74a71b23c6ddc1e8496e2f733757ae000e90027, 0x14740840516b80d234f76a02dc3127f9a5ffab1b3f2346aa9c9b910058435ed2, 0x2203433be06680bf2ef05084f45cafb6d8e94158c6598ab1634f3ba66dd16e4a, 0x217d3e984355aa1f6df652f101bbdc281c69b7c75164a13fd29776b80b2a9314, 0x1777f06ba3ebc47efa43959fa089bbe8bace64f9a4406937600c273dbe21e4d1, 0x1fd8a54df4e6ed46ab5d2997b9fab040e8b4870f5754364850c508a9e573e767, 0x11d54b8c949efcb99816328db7aeee0a412c7d074a986a0603eaaf5acfe32a1d, 0x2cc41e52d8f986ee77c59b1de2690ae4e478eff25d4f103b15cc05ca7ab7446d, 0x47c5febf774c62215aa7e6cc3439898f576041f19ab3c8500b07d5c19a76fa2, 0x2e9870ed58dfa57d100819116368bbfba81c69a4903a85179cf7a4c2a8f31445, 0x1fadd3bd3a5c6158a4ff3f0aea374f9635f5211730c79b39d039f9ce17ac8945, 0x2a5c810d6c43ab2d29ff1c5aa46e4d982c1b6527b6a2e83ec55cd0cc4d45d1c8, 0x11fafe98343013c2fd3b4364e1e5922db5be5c0f7afdd7b8645d07b4c91d410d, 0x1d1a82a8b25d503eb4ae65d6bf5113049342c0c10e2f3cb8da9536c95b1211cb, 0x12ff18aee2ba37f448e89dcb5071355637d5d15545cf9cf8e60baaf2cb832793],
    [0x11737e654c3374ae5f4eb5c74f203d1da2aa812bb60b0c5cacb5f01c0b0f63e5, 0x1af3faf8b2da944010c5e3b35355ab593d59faae404165a07ce92ee11356d2b1, 0x5ca179ad0da359d92252ff3324e884af25b0edf9bd1700e012f45b683bc2df0, 0x1d6a598851b1ecbb9d3ac470d95ecbd588a3b32303a4cd8a7680ef5df2b95f5d, 0x161720dcea14aad7e0710a67151921bb9d5c40bac136674f862c1c43899d954, 0x23385cd49db575f73550759f679df48cbd1ed1d69932700179df6fd61870e497, 0x1339217149da74d50b25a43cc8027420e272fc136725702f81da8835d0b9f410, 0x2651659ad69b37a47aec09be71481bce3cab23dc04c316118d407005501b0c0a, 0x2873755e5d79969854cccaa36cd8466aaa2e0594e3ba37b8f51bb3a6c9b87d0, 0xbf86eca4c048d59ff3ffd610c81a7f99875ce0ff1e193415fbc2bcc4355418e, 0x127237aa090a414f2676bc5b26776a420d7da6ef914a89dfb2ea434b6db42c54, 0xaaf012593fc014cab8879be8b63e24ea829b780fe9cd91b68892705102dae09, 0x2349511bcf3e14b5acbc973e40063d20c1a42fbe9e5dee99964dfd50869d0286, 0xa13877e82fd54bf79457e703a3c5780eab1970a9b374df6988129c32e2efb81, 0x2f13444c0246613e4a8f06c54b773a553b6ef94af65d3437c04e3f6856ee6e7e],
    [0x149f9f85afa120aaa5db38e1394f536cc1530ffb639e292afb3136fb051171e4, 0x9af1ec78d4eaa552f14fa6e7ed41842a411c8bd2b49c9721dcd6de80e1649b9, 0x1598306c66b69a223a169259386217b9c543bb63b226c2837c835070fa6ee724, 0x52d00ac603ae26edfd7d8945afee2021a7f8cd3719982f463be765d26be97ca, 0x2d0b5bfcddbe9aeb4286aca9d10f9a783176bf8b9dde55008e232b9e8f45b541, 0x22e76d617bc69278c3976145fbec8a11ded70e6bb9b14739d59d7745fbe80133, 0x10e0725e62e660dc5a675e2da60c8f1ce756c162a10b53cda098bb147dafc138, 0x152e5879db732ef026d2748d6b17c21005a23125ecc01ace4b2ad46744b6918f, 0x2c0564cd2043a507901b5054db2e6eda28c94536013ce66ea5767ae453c09d51, 0xa61fdb8748245fbbf026fe3cd6a42b873819c83905c42a5d7a01b3ce30a6233, 0xd86b389e663dafebc5eeb72014ee4ffd205841fbbe43dcb55a0701b42c21e70, 0x2b0ea06ea29b5ebf5946ff05dfa56da1db9f91187ae6789a51283286b7242b5b, 0x2c9d3d65591a9ed07618ddf4f10770596a3fcf25ddf472126c8cb0b3f8975675, 0x5eaea9663cd319d7b6390fd37a5b916d0adcbdea0ef60de5bea3db63e973374, 0x1ceb088dc8e476eee2220df5e89c9943d28f9af36adb2dbad1741f19d064109c],
    [0x1f88c713fa7f9eae2ba80f2acbee56aac81a2454add66b1e70bee1e533bde95f, 0x5fc10c9b3aba423786210a189a8cbf0639448d239088926ab96346cc543f75d, 0x97f99277a3d8fd2d954de6c2d58e33f65208a53bc36d1383c2d17797b49b520, 0x295508a069661a782227ba2a74c212d4728fb8e8695f1b4826f87408ac4d087a, 0x760bd5d3082701fd9e7d17d530a457d41a7be55ce6b608ae2363c3c45db4576, 0xf6c413f51067fb324da04b213fa890fb953332e863df3b06fbfe3d5de732673, 0x1b0a842b23f5f0059a02f26579d95260931b64385be42555370270cb462eb55e, 0x898e5f4d62bb5913fe5fd2e3b75440887d1156f415aee18cd67fc9d728134e2, 0x10f8852656055f6352276424a54ec899fc6e6d87a4299ed0ccb90011cacb1198, 0x15b12eadb1003ae6382b3d338854a5002c15c03d9bb02842e03fbb75da769cc1, 0x58d7f1ccddf26fdfa6ee0afd3409ec103b91f4992518300ac2a7bbf82583fa, 0x24acf431e67a9d7f1bed441756b03a777a99fa7280b11def1061cdeb2878bb8b, 0x1a8e72e3b76468c434bba4f191e90170a642ce7ebbd289087d187c305f13a4cf, 0x155a981f161c8c3c756fe204ff2a25ce0f5346957d69fadc6855c6107e02a8d4, 0x1c747b94dba58c3970414851318a6fdf4c86a5f65e4d91e8d4772f567b49a883],
    [0x259f9119fafcff3c0a98d828daa5d1ac21288c6ebc8e16f4e8a85dfcff442f95, 0x1c5cd1b340400e37a37de09bb20753d4979322e23fdac9c7aff9f8209eea135d, 0x28972ec819ac03e65b0b00c52ebeac03b5ef78281fe543bb3f4e762e7904c6f6, 0x277e2dda293014c5c76662826dd3d76cc7c662d28b2905bbb1ef3a3f5081dcaa, 0x76e05aee9f8c749d1a98b3402f4a2c87be2840659a5182e15ca87f31809c84e, 0x26b2291c31dcdcc2eb55f004c1eab496490d025f12265be835f783a9613adf14, 0x1ecac53aeeb7e2ca436a200daaf1e975be8ac687a8102be23a7f291d9244841f, 0x11766003bdff5ecf352014501776d0a2eee1f7a8898409b21abf35a7092f4610, 0xbecad60e8eab107933f92495ec6e5070b26149eae6bb1005197556225239f94, 0x8cfbc5e1f5efff8fb1736bf118cfdf0fbd81cbe87ea61931dcf0cc70b1c488a, 0x15f63076b20a19f545ea7f9d386c63efae619defd90cfd8347e3e7eeda6b2d6a, 0xa989c86ca97f9467240d9239a51aeba8c7772a4b68b37f97f4fba26958bbe1a, 0xb6667027c41530cfc1cf7c6b60bf74fd15a1186ffc0b77f0976d5e1d4501a95, 0xa87dd205830beedd3f8bf92235ce278e2c8529eb9f1a44530ce1b2626c49c01, 0x24a833d8f5db7cf49e889fe23c518510a895801f7f287538538ba3b0828f8101],
    [0x2a0116295e2074c23e1bd817842586d115cfa7103dd98245e6d364ca9d5642c5, 0x182724024bd1b487a7a886604e4312f25df11bb2963ea152649cedb6ffcf43d8, 0x2ec4fd171e0927dc9331540e1f6639e1541eb4e0cb74c66cded95ba05e718b8c, 0x2bec29f75e13ae7002213bbd81ba9848501d613894596e9fa35d734ffe9ad50d, 0xca8fe863fb236c10ae74ec094a89ff974b5d9cc498546f76c0bf1a510a8f984, 0x157e6adc39e984ff60e904ffd85d4b06c0f7c95d8b224eabb0e1090c080a3204, 0x1337e6b950018ae96f46214425210907e7578aeaa0f62fe3afb9877ee3101782, 0x267f0ac325930461def6afc4f54b6d09e163e84c00a41407938d2d263fd649bb, 0x1c049001366a3521dbfdfce92c324ad021d035767911574fbd4b4e9000ae9a4e, 0x167db26d1f93d91141c48b1a7ecf78ab3f714481594f3eb1dab4a4b78329706f, 0x159fa23e2aa81b787d70facf416079b68de6b8d7c0e234421fc450c2f1917256, 0x29adaf20cf59c0820209a749c61a36b84eb168287f7ac640a37df4a569c3defa, 0x3c390694ba7ab4800b93121bb53a36d654dcea8ff9bda64c95770fa545dad59, 0x91f94292f6b5252572bb419ec455d5435eab1473eebd72d8b20ae3fde0146c2, 0x29d64d0356b6cd07cabc18eb5de28728c246663c60133dd989e89af97f5dc212],
    [0x304897aa5036b3a80774e409994f5d1e71a7836f577839d3b92d938590888697, 0x125e0dd8f249486f133b8bcb9179c5525929cac3ab09bbaefd97a751bcb87e83, 0x2fef69cb9e21aa57adc0749d32310ebbc3921d75f8b5c79978a5e83d66888e6e, 0x1e3af408be8cfe4bbe03849a711fcad85b4f27977733524f2bd35b7166438687, 0x4e655df6114648220f3a2a056805a636307b809779e9397953dbfd8b9477b54, 0x2a43229e666093be6184e292b4a87d605cd3860037fa2aef07486d4f856dca8c, 0x156f9aec7359e5427d5f97a165cab447d27089dce49f1401e96c37e159490cd1, 0x212458241e29a83d0d11c64fdb0d2c5e7036f441e5394a625f52c1100f8daea5, 0x1dd909f5a32a657a89eaf948a11f8eea874eeccf49632b310314d77ed72c6257, 0x19d8a81f4867c40cd292344df8d2dd64b07fead4054107414a45bb504bbe60e0, 0x1f285a438fc7ca62edbdbfa5f9ae627fd1a6b68d4bbbd7ab867c34db73c628d2, 0x6edd2c97cb8ef5db711360743458dde6d45de0fb41c646a72afe0e02033a9dd, 0x2f3771f984d334c7298973e9b2cfaa1ad5989cf379bc41f78b964073955b978f, 0x2abbc43b9224188495cd9ec8479f39d763b8d560df4e9dea1cd7b1618fcec9be, 0x25178f08389153aa236e1da3c3bba5e408d52ba913c3718128a596fc40755a54],
    [0x1b28045d36ce94ca72ad5539c54d6a9a872e66fe6206a251a61df5afd50e3e93, 0x11c1664633f12fd93a35d8553fb8e1ebf3ebab73614642da48f742483c0d8148, 0x19307c6980c6adb7fe1d4539c10d6157310af45ceaa4618c0d4a67f71a4a8c31, 0x14fae46d00733e5f7e8ebfb360853311f021e2a252705453cac23dfcd72b72ef, 0xe3d1455e479d3b99bcb1f8b662a43c885a9911b238e08fc4fa6bd1090369492, 0xf3e285e855de079c2f3c562b5074d095b57268b0ab1aa07c4f7650254087d7f, 0x24ad5850b4f923abd687dbc4afe75ba26039f7d4b33cc43bb55f600be5fd2ebd, 0xa22143eb18217e19455e023bd571d1e757ccc89850504f580e433cb40afdda7, 0xb968c0b278f32e9ee1b4adff37aba3d15d5943a77ac7783353397b72c70d533, 0x276990e5dc0db030b8d88a5828a4b343177dcd554fce8a36692f74ff38f64c68, 0x1f180aceaa766f24b92552242448a01326580a9c2dbe2ae3ffbb530f23ba1717, 0x2dddf4a14757b28de03cfe210be338cfe3b63f8a02d7fb0155ac9c6e3e2b6bd0, 0x1481841108e80996b079e3e977578443ce0ea8899d558dd92c5cf20279795ddc, 0x2a3a6a173401ca83d33b0997eaa2805bf7869cc7deba404f395ee14e06daa3e2, 0x11d7372db5b796363296c6b99040d883ad66f54862b4965f5da0ee0227bbc456],
    [0x33e757e99e3f1ca826c9a648a73de374a11c2838024cf736dd31c5b5f7c0825, 0xe1bae5e746ded510eaa1145574a8468c3a7e2691a7b324a9b9efb36a9cdd4ad, 0x21818b1fbab0cba1ef20245ed99451ca1dcca899222c147b431553016a09dc41, 0x1a2604c6579eb3b1e803427249ecf1742a9bd72a6ad9ac3845191f8c536f7d91, 0x2f41b5d5d349e955e15f50ba0cc3d3e854e9065f8d62461332ccd746bcb57865, 0x394fff2c025027635cf4a7cb7588a6ef587ed994314e9f813b7ab99f8d4c32a, 0xa9d0ebdd8cdc392ba446d6dcd5c9380dff2975f275e30f636dc9641b2a2362a, 0x255498cbe7c9e89580548f0d92255fe9a1775569c380abd18d22004807b68874, 0x29dfb1a35fe5c7f25490b6e2e303d711887051c092a8e642c07dc130ad3901b2, 0x25a5995a98ef0f5402b25b2031698447ff89a9b630094d71aaedf8b5fc4ccdfd, 0x38ff605feedf7a740e890862fd593fb712aa19b4721d0d97b0a85ea77f2b621, 0x1aa20d730f53b035813f1504a853ec87f89bb56b05fb7b34f21deb1aad4c18c1, 0x1124f2b33e05c415a7d9881d948b9e15f5891c816a0495e8e62e89089a29673f, 0x51d3aef244ed3af1880d68658b4fa452aa3f8ab79eb4d1de2a1b827fb5ea359, 0x18c3911d3e25dbd901a7377327c5622522a29f56fcb2d395c4c9ac1e05409d3a],
    [0x9e0a4773ed5abf26e474c8050e9578c5398abfc42d2ae66a72c3957622de157, 0x2de436c8a217f32be5d1451bfbff7e3f6b3ad46a2da58f8439908d285c9afe55, 0x269ad28cb1fac223861da664acdf330c1732e75ce9d1a80071d8f623e668758f, 0x18d5c9f0a8c3c1c62a31a12d945ac562e7f28e951145d700751b59f5c4e046dd, 0x1eec169ea79a149b6a4c5b3ace894f421779dc9e9bb366e8ecdef2eb3c53fd39, 0x982ce518d3d2e3749dabe6b57758fef9eb663a996dbbd91aec0ed84eaa75ede, 0x272007ee9d7ec7efb6c80f25a2110f94d20ac436f7c50c1e2b7f6bdcc76909f3, 0x1072d3d540d1b00dfc923dcae102f2b6ce363e5054b3dfe2bece4f96cd15d647, 0x28bb8d7194d4123767738d6b4d73a05a94c8e93c7e08f808c3a4bdf564420120, 0x4baa18db3db501d39e42c49f1cce30dd5619e1ebd14266857e38a753c63dde6, 0x130c77637bdf1a336d9b4c83104ed1e7b81808142a0bf1b2771b530eed99f03f, 0x2c0ce56da12cff29effbc3dc9b05bd07d7ad42764ff28350c7c48ce48ad4af9, 0x23eac7695fea23aa2f2ec9e1ea7b62caf5e71ed61066009bf93a6ef3f74056a4, 0x1c79be403821f680faf8289807244a6b3c04d0716134d089add44dbb97da7172, 0x5a48abc281f771ec36dca6268f591ebbade05b23fb81e7961c8cdff5d5c8255],
    [0x22aefc1e9a4d06cc764e9498634bda97bf11eedd5850100a6dbc858619d26bc, 0x100fb400e2aaeca68ccbdd4cb0528dd3b8da8207d6bce2d41b4aecc1f0720581, 0x4f0b1d5fbf7c9467e826c385424b91faff7e5f6b59e37651dc4bca500327cc5, 0x6e33a10b9bafa04f20f3e596c0c1d986836b7c16a56ca48669d5a0514270160, 0x81bf056335b1c44c461c4d6fc1f9e032a18b9d2f7f2400724db06385bdf0774, 0x6ca03a97a5618ac671d4d2c18501e5e8588bd793b2c3b54dc154d1f40bf6271, 0x114bdbd88798dad58dcbdb9a1fbdc123ed1b56490a015b7c2943eb5aad9ed1dd, 0x21bd28fd49cb1151be1afac1cbed0b705b76058784ab92fcb3a2258291780489, 0x25516e358045290d7bcce1b4636ca33095142d4b01f22ef7d94e28cf81e9e29d, 0x21dee602b25e5a67889ef243ac9c891b73ebc717c7d8161995d74bf4e5bec07d, 0x205992101ef7c5c3493aebf5fb8eb7acd01319524ddb56fb75dc159a013e9c88, 0x667cf69b46dcfae72f7fe6b5d81e6d1191ef029280803eec032f5ffaeb12019, 0x2b7a9027fa05243ffbaa486daacaef850c4d033b84b3641db98fde01315e5be6, 0x2c7aed13aa9064e06c4dd9299479fd2fbf56f73edfde4a117cb8db54dc76e134, 0x19f76d0c1f5b1efc61c645180c5441b569a90ad7110f51271046c642f78ee4a6],
    [0x4749d2cc3d3c5612d7586ef1214de38f848d8b3d9afa266e153eda3920e72c2, 0x2858e042dbd512d9ec147fcd5cc0ff21570bb5e8da3b20f7f69acbd28785610d, 0x17a5cf2508f786d73497fbb01f1a02dd8beded89a2a3c2170ba1f3b2eb31c964, 0x8c7b3263cfdabea784d21a2d888b7b10d6c95a282a10169c85f22a22bb78e66, 0x1604f8490be24e6adbc37db5d23f82bd706546d4e78c08e39c1580b7c04d46fe, 0x4d2e4db13adad49bbf930ad243167c77297abe1bd73b5d148529efd75ebee00, 0x249361888bdec58dac53f9c01752c5f6ed7bd97fc27b3fd41e0cb90b9b2937c6, 0x1ff257f8b90fc3cc3f483b9623ca26519e4e04ae6dd38ef24275258a7f1494, 0x27e9c91e30b6b5e3c3097ea19fe5341727a2bd8dcbaff38d057313169e3fbec1, 0x22154015dff9dfa94f7a8339f4ff118a8f8176dfab2c88468b2cac7e3914cfd, 0x3a08472944a4c84ee7fe76ac61ba12ad1b5ecea7d14d4dedc8b2f7a878e2afa, 0x227066b89350a8b139e5bf8b14660caba369b0828b4caba58600f80cace84ab7, 0x188541fa12da77e21d041035190e0af32728193188f77229d79a08cde35e11fa, 0x25dd5c1efd162352f25ab776985b0fffc05deb7094bb6d2879d925cba328cfbf, 0x129f292e9cfc7cdb1b2ae2c7c30c3bb491349cef4f7d65812d66095ae9ea2aa6],
    [0x206a809eda7d396d034e89813719a58caae380eb9f221f445b67cd5a7514dd44, 0x2e7f566a18c5c428b55b4b7d4bdaec63f721b59c4a307a7a740458dcd9d05d9a, 0x1c0df0b100e4e728a9e7aa34f6b0db0da6b8fc99c3d377f1560aa156b7f2626a, 0xb875a366710c0691872b26d9a98a498e929acc2e677868c4ccff663395cfb72, 0x214168e91d3b6a94d48476b1b424f16240bfc8fff6742494cc897103ba7d2459, 0x1bab48ade466bf636813634624daf73b6c5d6614340542895795c49716351e9, 0xc8425e1b2470ca424397cfa66665fb861a3af4ed66db9045fbb6a7f761479d6, 0x870e13994fe31f94b82cb4923e820a13c37d711d56dcc718f4b15a03d627d72, 0x14ebbcfca7be17a5efc356904a319f4969b4d4136f1026f57400cd7db424d778, 0x22dd5ea69a5036fd0d4f63153af386feb23bcbd02112d0b7574a6315b4dd5fd1, 0x1e72a099e89eb37443e42de1ff7def1549480852600cf4552fb17466abd89ec5, 0x18fe65ff0f8901603ceaea4a7462fbceb80df62602a9c132264c5aa49de0cfb, 0x1b649fe60a17792252a77ec365ef832fd3722505ee40b08999c728d5c6db2a62, 0x18a42f27632071b87526d95dcb7de26362aa28abea426c73cf679450bca959ea, 0x22ab7ea700db2b287b301d010124c1d2af58f76434b8bc47c59aa88620add840],
    [0x26dada935deef8551a9bdd474985592e2a6e9ea3522c07afc4bf39577211011e, 0xc6f417f88a5fe08839f2e8b9007e2360e1d618e1b46a4979cba59d29b719644, 0x24788ff3b08c4d0fb0b51b9b4358fc0cbd31ca31ba05515855a33a282e2de1e0, 0x1db3fcae24ab59721eff9aca5d5d41ee9d7831a79a45ad3ed385b1322a7b2785, 0x1f45fd57e811d4e574516575d86501ce6be9246f5891ddef62b7ccf835bfdca1, 0x11acec0b13d058dc6c7239eba9034aa33702da17de75d6306f282a1b2bd16892, 0x21acdb05d55ae1f4aad873ec5adb6b6078170063a70cd2e6319ea0cef833cf29, 0x110d9b94d49799b659e142699e767d9564ce45179b522648fa8a83b45f8d76d3, 0x18db2b58b40741f2e007f70118e3a1a1bc2150e04fa34e421db5068de19e3f24, 0x14768c6934126d0ebfbdef341b57ed229076d70348eecdad8647b1d0df7191e, 0x1704d2d2e1876a075b167a65f6cc26d8837f7e2d3f7628aa26d3f7696962c237, 0x2cb8147670f73e2ff79ad1912c835d3d3f2b2381f60eb37444a6c0c173b537e7, 0x908b9e220885b417b58db1da0ca974c2d657b50ae1c3c5e114112a925a7159d, 0xf0d85b4586161eb7e1353fbeb7ab3e31b5b62e720379efe3f6549079ac3e60e, 0x2103faf663c3549c9bd073de214585c1aedbd5023e4a5ae61996f5e22b0a4a65],
    [0x127ca0c64d361063a6c7da37c6c3c2080181b6dea5fb63469156f2fa486e7ffa, 0xc3e9dd099f9ca600ede039ada789f28795ef7fc650e845402fc15f99d48c00b, 0xea05b5d4d88b9b5fe35406f17ca1bb4a855e0a6ee7d60b31e36a2a21f411fce, 0x963c4be071c32fd06a52124c0d87aefe595c1db2b2e6c2c9cef53456bba30b4, 0xaff89c1e81410468fa51e7776f23a077f27446bd98cc72189f641b6456eccea, 0x15e753027d63337a330c260000082ea07548a724dcafa255e67b7745574624a2, 0x1f7acb7ff46a7c623381155c6829374bb77587abd1f9fa6b879df3240954ad75, 0xc62a3de0bb681107c4dc6d9e623d0562cb6784f2403693fdd64622203b16864, 0x16ce582016cf2e1838db97dcbece873f49f8c60722d756c551af3ad3b1a933bc, 0x29cd5e2fd2b684e47c078fd56f852b1ddbb07ebcf995be991e9c2259539fa032, 0x12e8ff93cd5c3d7e0455d9eb0e7e9ff940575c41c35d1e5e441e530ea888a908, 0xf3c400867219d40e6abf2ef22a90901811ec95c61906c730cbe777761ce12f8, 0x2a61f96bc53c2328ddc85e45096c9532c012f4713b8b8c8b1fe1227f8fd760c0, 0x1ca94ab706e569a4fc1bd36c9b63457d5d7235b356be56bdfaef24f99378b467, 0x2bd4a2387e6ec124155de47009789e1b945ada3adac5e35107398bd569524090],
    [0x454150ba34548a851b191fb1a9f3587464de17acfdb0ddeb715a2e64373174, 0x1f22b39bedd115a950f7d784c7031ca0ec3d1a6a67375d7b6ede480c5ca145ff, 0x79a66156cfb99cc17c6d39fc9c2219bb89247b6caf93658d59c6fd0a1d1bb06, 0x17ee6df0822371834c222f954f03b016b8d5ad4db1be66f3f946d5d028e65176, 0x24cde14169b4a758c3a126ab3f8f18077fbdfee0f03fa7bccf999919dd417804, 0x20ad08d3558c9efe03c8895ad4dc88bf8ab5ed4867e1acde6533ea2f86d9fa7e, 0x1d0e87e604d01091898d6e85d2ab9af9bae03ab511a34cd9a620f088fdf8f1e0, 0x310a319952f3f6e25015abcce49fa8110ba383c048413c899ac4d202c36b804, 0x1570b11e64614fd49047279c454078eaa9cfb883a9434a064f763421b26b2709, 0x7a6850ab997ba45837a422c1c0466e6cdaf76fac2199f13f63986b2a19cf2d7, 0x2c25344043642c634a4c011d981aaa7e5f179ce9ea4e921e8d52d0e57169ce2, 0x9f74e8a85c293ee8a2e71f6d23495bcd9de56c2e0034169034eee85596f5a7a, 0x79336363220c753590ab21e164aba518966a7480c4b2890f45272368ab2a97c, 0x1ff046afacd14fba346ce72edf23e540d10842ad7ee3c733467779518a9a70d9, 0x11d64cc17c095e49c45eb1ca2bad482a820326003d49c8cf9e9c02ecb7acb4b7],
    [0x2ed20c0b8e33f57ded5581cf937a4055f680b7d72d65c554c014568087d5772d, 0x259cbd244ea8c9840becd72df29e96fd89b6c39c7be72b16be9f0e43b73eef6e, 0x1e7d2f21917295fc375854225e63ad503e27e8d6c9225db35c2ba375cf4f8fc6, 0x257e31a7b6add90c617b93325bad37127f0732dfac4d0ad93331fa7999212a5a, 0x1dad54fad4273e93971deff7dc3fe74abef1cf6c302a64403fc7683966975019, 0x296a02967a5513e1827e29c77285be64682ab142d13c6d2b7eb58c0920dfd0d8, 0x3012ff61f630a0352b741e63d628ddbed474ae6993acdc0f9e314e8eca590f9d, 0xfcb8fa2167ebb6b4f422131a8ed841306b3a0840f258d68edb477e8e1ebfa2a, 0x135767e5d3112e0777607c1c5b91b1148ba641dcea07e1c2355c260285ba1cc, 0x91943098fd0c94aafeabf4dbc494b6385e39969c06c0a6854de0c7e688c4d77, 0x13010607d24e7a178c43d9bd68212157776321d95438d572a3b6ef77141e11b8, 0x16799d69231b9802789adf9d22468442767461b49d594e9a950dd8d5ca49e7d3, 0x1eb07b70401fe93b81df97a1f4599947a6a812e34498bf2abbeb1d256a28edc7, 0x5cdd9a797bcf1def23e8ca120b900a7626b357ef869644f28afe0c053f3eef, 0x24b20d885cd9a6318269aaea97b2469c2b60f7ea371c6a9c223eeedaecba49e4],
    [0x2986b0ba3a3e232129e3c444e9482584fd83d6d6a7d9bf43120a4c56ee5db03b, 0x1a188537b78ce9f663d64b5755da53cf88ecaee852442767fc16025ff7a66780, 0x8619134749841915bf5f92cc2045ebfb124506b9b25255be814a3b28fbe118d, 0x135cf6c3cd0c694581fc2e477d6538a7b233f89d226373622781b029340f0c6, 0x4f9a5254dff765ca0403efaa2acd9096b7f59fbc20039138660b892c808068a, 0x29bcdd6c672f0a1870708d37e85130225c5fc826e9e62146313fbe1ee2c74d1f, 0xc1d777f8eed911d4cc0e50c3f430ce9a1d5d7176800bedc36f92b7e4a685fe0, 0x1ffe8a9ffbc76d46c2ea2abc0e1fb3831f18c81144bce602811de39623d4a493, 0x216cd3e66ee82b1da658549f4df13ec3f38ce9341673c49859ff0e831827a7e1, 0x6b806883bf69388b148afd73b4880ff63bc57e089ef256e4a56befe78abdbb3, 0x1868f65214ce859946a2a86eb0925a650cc4d47a95b988a3bd98a5406faaec8b, 0x201b2cb3fb0002584beff69faa8a28968ce73207f731336a3d56860bc8d33d3d, 0xf1c998ffd657d5af5f3d1500f9821453743face03ae2ffd055bedf624b76699, 0x1d8d584fd393d2a8c5fa9fb2840012a4e5cfd1fca97f83bf6cca4688b3931f4f, 0x1d4c5ec792d0f9e121c17ff5754eff980a2477f142fbb815901b6c597f5f5101],
    [0x58283d9a82cbfd8f01675373aa63d9279e9bb463c225ae7895a8c51a794bf15, 0x2797be48c99c19a141e57cee32b7845f553923b08474796cbe0eb9e79b05f8e1, 0x2b54896116cc45dfaa47204d5156075d1dec98cfca7447af4e93457ec1d9ec6f, 0x1b2fad2ed7baee3fb3d2197d6a9edca30ece42925f13481e0f780172119fb13d, 0x6b54e3fdd785e099f791c94fabfc62c3cf75963c21a75a60e65da896ea37dc8, 0x2f3c8963365a4058a8be7a91e6e451dcb1d7933aa8484a5aa7359683ccfa87e8, 0x2fd9929dc895930eb098661ed0d152f2868bfea13e8992d08a69253b9e9afc7d, 0x25d1ebe8e9ec0fc6d182b906d747498cb9fa55a298f8f9f6c9b4cc2eb326adc9, 0xb6e6536ba3020bbe259f45ab1c38b2f5d36865b84ac8241720d28cdfbc34122, 0x23b8b4db22e8ff993e12d9b81757d1e7edc6c39dd4de47ef6caca147e9fad713, 0x1c232bf61cb7d3de8b761fda9304c24420b059fd01d42c74693192ad77634d69, 0x6d0184a21f4593daf868d9560e4647b5283892526f6a7f9c5ee2663c666d567, 0x1d96ecadc34f0ef9f5a9c10651d6ffe3fafa6d6c7107d8a92ede406c229def93, 0x25d6954f6b8e584c65d70a0d9fc5b575b5fe34e7ca66d8273928ed4b8fd19303, 0x11560d05817b7116aebc0b0e3cda650e68c0f528f62593af13587d683bf3e37],
    [0xa47bc556a1bdf639aee0eafe6cf7e7b901679b1b14a47dbffa1b19afdf877ac, 0x287af493d2f91efd9e12f3bc7c7c4e0e04dfe89fa9e68242fc418daee7337bea, 0x114980324eef85f90c3877ae83a48005abbab0c3c0f7df46b3244d84019ba5ab, 0x2f2f074c9bc276d9fa172a81e954b616cafaca11090da4c330f3759c68eac2a5, 0x13d19a59728afdda4583a9e180ccb9b095f5b5729e866851982711903adcfe13, 0x260f038a5bf94790b22f2796e77d65d4b53140ab18c617af7da59bb1ebad8f46, 0x270944854b771115be9dae3bae6007838e81311ff77e334755c37c2f8abccb1, 0x29fba9080e2201a4d09f179919d8f8e29b22b7aff11a3c3a1ba8bfd36880732e, 0x735d5519e7f9cfafa9e943ff54f904badd3c07812a71155579d361803b0d300, 0x123d88ba78d5d633ad4f4e78ec2806d642ad8d24aa9ba8d6ea4393d38c5a794e, 0x2f2c3689a6ce7d1c36aa42906dd8b694be752a4d5643cc8635501a987e638daa, 0xa9f37c901456b2a30e8d56d65afaf7cbe90b3a69b47112f6a909ee1c896c0bc, 0x696d1a52cd965c61b8333cfef9f147da7cbdaed71be5fcc0a4eed3acffbd03d, 0x2df64206d9cb7e763d94c72e85da26e6147ca02236f670a3bb97d0705cdbf1ff, 0xf924eeec090b123ae678a47aa3d4cbb2fbc33d2ea10affccbd55bd58021cc70],
    [0x13768e9d6ba854c557124e7ecf2e7b9a6a3bc1e25751c5db50b681b83f5e4e6b, 0x5257f1213538d118ae84b89e2adde7e4003e042836fda32a65aa63c96a702a7, 0x2eddb854c4de05814827157e9d7600e053c686346537776592c91a9c51efaefd, 0xc5b286e46a70f81261a1799c036cff3a138dd31af847eea379bfdce8cffddcc, 0x28ceb1311ae3f2112c59eff2f1de36f027fe748e398e61e2dfb5f41605195b76, 0x2baa3c428d4f39e1dd51172840cecafc93869a5d4d2c451ef261b91d833eb18, 0x12fddfcba4edc48ffa0af927e5d29d678cad43b1e5889e496512423c51c75194, 0x1ffe4a425765acbb4dd8f671f11c3abed1e43cc8729c8d7258a787366e6935bd, 0x518e1167639d7726de814e573f8d6e644de240190eb22da07ac2a6dd1a49fc5, 0x1088088ca3b2ec5ef3406d8b19498409253423a0cbaa579b78cfe22b8d2ffdd8, 0x141132e639be390f54fb46daf1bc33a698da31b6e21241ac25ba91b4a7a2344, 0x2d30e4075796050c0f400440059b3b08141a3c096955c00720f37e3349b10037, 0x6c0f8d2050410d797974e3a22b48d7b4aa0f4c12db7c71a319adec4361941b3, 0x27714059b3ca2531e3a65e024d3bd46869e854b68884a6b16869109a965333a, 0x1143e960033b2837e35911b225966fb3559f869868a7587684cd7210ecace9d0],
    [0x24561022b33523412fb78512e39617226ec874021939d3d0e9b7a401794632b5, 0x225a3a239054ef061e664b56d65efd62ddbe5cfef9f55bd402a3278b94c9bc1f, 0x4be165a533d19b49a0151e7183868a5120a2e6422b500441050b41c486305b2, 0x17258571aa87c63d477d10e64d069fdf231a6e47d4a31ddda4d6e5f1933f93df, 0x2a9a6b89343fc416e297dbba6f6bc3d284db180cdde66ce94b0baea5ff716b9e, 0x14e059588f8f8af22297dd77bbb0112f57e56c3b7d3ea47471334d34e2181b6c, 0x8c09cf67bf4d0fd0c211298fe47ed233e6ab52ebcba1b524f66dad01366ef43, 0x1916ed4b8a5f979154a9199566a8b361cc1007551ad9db45515f8a6c0e1b2705, 0x11ac7a860d793f97870e952b32464cb5f501e215e6691aa5d4b79c1c4cfccf33, 0x2770c5a5b83ef407cb79fc9e556a310bd6aa3f081e6b45d98a7683f60c3227b6, 0x1d412d15cdfdf748f3a97dad82987660dd39a4ea932fcbc51a082233c156d69b, 0x303def2eaf1677b5c7b9cfb679829804d6734dabcd7ad3a774bbfb9a8337bc45, 0x241d6d50be49fb796fccd362aaf45b350bcfd74573d144c73e7ab42e3047011e, 0x114727a81cd91073352f7f803cf621820de779cd7c6c2b9ab87cb5b382737d44, 0xd8184eeeeaff3b2fca1a4cdab39e4951e3a57327ddee51637dc6d24464842f9],
    [0x296998f1627009acc7913af056bc34280345ec6a9c27c73804ee142fe0b2b99d, 0x145b273c11c576c7578a4b02281d9b15153775884bb6e788405c4879c0edc2d2, 0x973e6f51a9cf4fbeca74165562d7a656db8f642c4105a2841b1b93489b1e73a, 0x12e81b001e1e905f9dcea512b51ff63d55488d57cd25ff3add4025cf3a9f67f9, 0x272e7880a179f5771dbe70ae7d7d51ca28914120ea1dc3ab8429565cd6a7cbcc, 0x155b4d3a78b1d705f6ce624bf465d82325fef70167cd7784af872872b348a025, 0x9203e60c31daf6007a9ef20cb2e34eca9d1c9d93e99021e0a383598bfe77392, 0x11ad480fa72db3bc1695c9bd672d2e09a54e72ac9e8ca9f45ff8a1c73f0f75f2, 0x5fe4ee300c48b0cefd03b8707154264cd513c0c883b463944dfed3040c55dcd, 0x182a229d10429db9ff0a5258729e706fe9282c6b7ca60473ea234ca13a31bfe6, 0x1ef4d2b668a1e1ce444d213f1ad4d23de6ccbbf6cf5a93d31687e53e967f9dd4, 0x1cf2d3bf240e01691cc6fbbf23bf48d21eb9b889c6294cc18d1fb79c9b9a53e9, 0xc110171a8f0642ac0edb07f83ae2c79d991a3438366f98c32c2d12f2f94a49, 0xd82a68b0570ac8cb4b70fbf2a60bf17962ff2886284edfe5aab8ffd84314bfc, 0xa31c585939669e5697c6b166767edac74e6359d364e1263134910927648ad38],
    [0x137c5b065b8d3a7161c63bbacd60dec9eb2e17c63dc696a5d157b648554b1c58, 0x90658991cce09af9bf77bf1fc0506346e5a03e3096921e8d436469fd75bb6fa, 0x9b309f6388a7f65393bbe50ebd6110854a91c674ea05189451cf6afd48fdba3, 0xcd217f30eee2598caa7389d2efa182a4756fadecf67b83915aea4b0c36cebb5, 0x2b9a50d2973f4eccfe26616eeea8f7f2a9fc1f09e8d2853869194402179baa7c, 0x1d444efa271e105a83b3105d469ca1eaee6a27534b9a62cc210b19946f08e1ae, 0x16e21e081525d3dbc0f34577fd1436837c912d3924ed75557718992d14dfcf4c, 0x157b7cfd75560a0bead677843c52591d17554d8ef8a015be23e34adc390451d8, 0x1bc4666ac3f4cd1f5dd72bcfd1dccfd8c60fe3722a35f65682091586dd285284, 0x22b10f5c2194d9054221ec2a9cc6a1bfc1f4441871831d5f24d3da686d4d5e9e, 0x51e548469d19290a23fad84daedd2b5495591f22c3dc6bf467f1eaf12a09f50, 0x166e64fa7d0939c9127aa58b7aaf2bea61dfbb3138bcdf3dd9cc986e9ca4f0c3, 0x2e7f8d47107c0f31031de15f840ffc7b43b8f64815dd7c10357e852963f14c84, 0x15598a6b2c7ab91c1ba768585f11d64d4c9a3f609ace9039df753b4cf9016931, 0x83008079d5900cf73ac9f0501ceb27c3e92250eccb88d10d0e01c593202e8c7],
    [0x28e30096654da16fd90ad2c20080fadb0bbad109a3ed189d4238eafd2dfc3c4, 0x14eb993565894d0556189adc509b5945f1275f7078bec96997c3630b743e93dc, 0x203011c30db2185e3fef5336058ff6d9a5d05c557c3de1b627bb4aad651db9bb, 0x637901ac6475b826f073e1386498979efba98d4b5daf92d2a9abb63b5aeaa74, 0x203cb3fdf3cc234a72ed4c8699327ab6cac0e8b7479b284c08c7097d1629ec07, 0x1a1a408f899c84145b135ca0a7a43f35eb3cb77cd512430c325ce44a11ddedda, 0x900c26da8557e0760b971e35af5866c7cc494ac2fbf20d862130449ec41f9ba, 0x303a4550897edb795c6a63b60ea33cc5eef82fd0449b6a2119ab74d55e49c241, 0x1722e5a843482b59b079aecb995c43d6b8275e1413ec08a55f218b800fb3075b, 0x20a8aa1a0c2fb4cd10a82d702c2c30104f00de5ad99103a724deb52e9d801d61, 0x2f980d7eddab02c06b6fb20398e7a7acf6132af1a605d0cae0182294952f5236, 0x181489870649491f84912c75dffdd55cd0dc00b08724ea1fe43147e1996d8fb2, 0x1dd0b954ad2e65acc5ca46615391ae78b6dd2539576a9de4417555356f9794bd, 0x194f79cea624f2bca51d368706521a62dc473947209aa5c50083837c16eec6a5, 0x2ae9c244e4b0bce42b1b55053a4fc96ee7affda23267920a88e87f16229fd132],
    [0x1ae6a6a8c9bef477d15a21176aeb422be24e5d0f0cbd8c9cb37f4b9144510e38, 0x24e0e6a00b175e22407de66815bddd096b42dd73fb551eb810f84e01be304c0a, 0x2f16ab5671089f7de0bbd1e1478e45b9fa6284ff4444cefc8b43469187b83e5e, 0x19dcac9dcf078b6a68523d3bcc3412980e5519ce6db8d12b6dab3907bbd7e0ec, 0x20b0bb1f290136ae88bdbc15b3c864624b07ed3dff579055c1680b0a185f6b06, 0x8e893d8af978a0fba2a42f6bff7f2fe3a74d3765eadff49a82056d014dbe346, 0xeac99d7af74de1ad1ffaa9b5f43eca35d6083495536c0acbe98cbaf2d7bec2a, 0x19e9e6d56923733923a15cd7f8a4350352ea308d6160473d5937e9c4b50b7cfe, 0x18e41764dbb5d20f85831a89fdc14094ed0343216f602661fa5a54dbebc049c7, 0x266dfc6e9d31040cfdd1088840fc0b65172976f58e0640ea6f5eadb28eabcaab, 0x9f1ac1f5d80d143d9cd087273a957f13c9ee26f5b76cf30d3fb73c392f91cf9, 0x1495384c593ec4da248a17aa457bdbe8cf95020159ff46eb973a6b558a6d46dd, 0xa11a63e5191eba16f6ccb4e92bd6389c929ad153c53a130c933a41f46b6b4c8, 0x231a22a2e0f6ab20466445129d96a40feec1b299509949588c0f58a766d9b3f6, 0x3a3eb1110d75b9668d0d8a48da076e7dcd2ed0fcdeb9cc3538c11773047ba5],
    [0x28b52bf6dd8d0c5413ae7bda5f1e6b5d3e4548a4505d08e36f77b72629d97790, 0x1ba18831433cb15405ee724bb4281bba541299cfadd485c6b17f74fce436cf57, 0x1d295967084284a212b841ea2ebf7ff29ddcfae8dbeebd9df58b5f862e7fd808, 0xe863567d788dac1dd5f3244564aed928c7923bab8962452bc7885724a93472e, 0xc214a5053ea609e5608e9a6d54343a32cd02d324f6053e338b34dc0701ab5c8, 0x16ffb0d9b5f3fbd6bdf1d50383723cdd72f3530d3e7ded29883b900083c608fe, 0x20e05835550e6a362606f50251d8ac0706e2fbe57e46b4977e52e1adf3489e2e, 0x1891a8d1b078650521b08c416216caa086e0e98365aa1d5ba41d4ae076807ade, 0x1bd1319ea81a8f89e2da3f46fc7479c5efea1e4237bd5754f56f719b23c107f, 0x1c4efc3b2c0f2669cba549600ac023f7815a95d24f9476589f734ad7b94fa8ed, 0x2438e3bf4fc727a743f4c4409548240e6e852939f03e85e352c31ca386c432fc, 0x28a8d250a0a2aa2acf48d79e043e252eee15f1d1e6a84d58bec3dfaf37f0b855, 0x2a29e7d381d8d8083043970efb8aa561868393850a0f34a0a7ebcd3d7e36bdcc, 0xf9e579ed04df85ea802b488588769c3c0e5376c42a968e8bd0b02dc23472493, 0x2a81dc03f49acba49709e9e780c56aaa9ddeb245fe6026d784c47cdd89a15be],
    [0x207116aee1e7b7022a90ac821435e9f7ecb94f9fb942f7b6ff7c6342a02417bc, 0x11b431f3210818658cbac818f63655dc6c31f00640c487031a7a6699b54a7242, 0x197a50af9dec2014518b3e2fc26013a44f706466d4596f06243f255ba3818325, 0xa6fd02bcdbfcb0200dd89f9b86669bfe8627ce67454b2404d4966f1726f47ad, 0x5fac5cfd5e2f5690704f33b440e6f739fb4ff4445c5bd3a69789db652fae459, 0x27842cf8a4ebd7009ce2d7ec348ff783830acc87479ad4e401efd5e7339d25f6, 0x2278683aef662a07d427d0a36ee6b52ce9628e9914cc53bca5ba4ac2493663ab, 0x294cfee66c7b8de505e0c76e2225619066ea5ebe39af92dba7ab74b8780853a5, 0xc6b60a8e2ba1b774f52c1f598d14cfcd9aebdc8d72d4c87db9c6eaeec4df37, 0x2f5611fd9b8a9cb052d3b6ef2b2ec32d48218862daa4e54d63219fccb9e0ac4e, 0x261bb66ac988ca3a7e2dff027944f8fcb3decb9d985b05bbcb0fc6062080caca, 0xb5e36bdb5742eda03a1d1e3044465a751fa29be2804ee69b38c2f29438624d7, 0x1408760c6504e35db02d76d0b6a1755719c757419a494baa596e5ae0a4b31219, 0x2f898e5947f14b0655f04bce35dfe8b08aa41303f602747748353959b95d7dbb, 0x2d5fad29cbf4c420e6192ff7eaff97862de5523acd6a81ae61197e85e0f220bb],
    [0x24203764364f1ebcc8f52daf648af6b02de9e46293ef2f52b8956269f5a30458, 0x1a8627a7fa552c1cd073aa53fd7cc34fb7120513e2a756ff7335b6ab23d47e32, 0x19edcfd6befb3fb5dfec768b5c4aed2b27dd9311c4bd49edae8498386de5b3e6, 0x1eccece3733c2a81a006975b9e433e6931da70c649fef647f368a67682e1a5a8, 0x13a728b0bfb2b322c8af665a8478913f2f1693b39077eea89eb81de4125ae1e6, 0x1773b5b09655e9bddacb50af4f33f5e75c7eaa8f4bfa4680c4be11c71cc2abae, 0x1d91107ecdd5de37205bfe827e7800c8466f6572bf611a77d4d502242af5b230, 0x109e58922b02d172c8363f88c5b9225cc0122fb980e0d210b84d74a5abb01a5f, 0xa0d1b2d14d861fb04c07e85f40ac8a4af481ca602bd224bacb442290ff74b2, 0x3ad94a5e38fbfb5bbedd2d3617e6fbcff4f5b0bf89329e01e8cb9538f91c26a, 0x235269a08752712471e2d8b204cecbf633f8a1b087b8d50d4386bfdee47fd0c7, 0x63d22c46f6125a208206f6991a7e553ecddeb4334f770f69715b9c31defee47, 0x244852bd0f883825948fba58c795389f82a0c6cabd905f6f6596d60b8a72e7d7, 0x20c9c3fad08a30d64daca24d77cc93e07fa9531a9458b64e7c36e2b8d5de7a55, 0x28f02c4b53c5fbb9b84f9be7f2d1151a3fea40829596152ec7a9591d7b77f53b],
    [0x63282e45c9b2fa5c6ac5fccb64f3a941204d8a7d0dbfb6e2f2063ba79dbc93f, 0x1322957803e814ff656281a896a1b454f83ee7591d04ae45c55894efda0d4679, 0x26f91c6326c5dba2e2332e65e25adcfa80ec44deddb1cebf62f5c3b90fce07ed, 0x1b006a8a282f5fa8fa8268174058fc457bb3e2270dbfabf1a77ab10ff193e1d7, 0x44b4701a897f684f973ef35f913c8714b23a0bc6892398d2999d5b897ddcf33, 0x290fa6dc0e09ec4d9c78594891374807f42e9aeddc710dae63c9e9a824f1cf32, 0x281b64631470b98572a677637e538166edecf6a4846ec4b66857aa8cea9d612d, 0x1bce47add587e607ed688687c0179da17c54ca73f9b4f6091f816eea1727536f, 0x15c8eed354694a3012b822620bc91f1d68c7bac0e6685f0a15c48ef58941a196, 0x186ea82f0981f8ca347f0a9eec056daba176a44465cbd85e7b8eb7bd0580ff85, 0x3014777dfb63a11a3d9b734e7a47a4d3b6ac4fe406e195f3ba32a015817fe8ac, 0x20ba24356eff7ae0b9ceff1562a4a41585aa9ca0d45915204e433f0728b15997, 0x2e6161643b1b31dc3829448622dfa6ac7cd79321ee432399877dc4edb25edb32, 0x24b512c632070bfce3efa8bd2f34bc100f0de647d0f5510269ff2c01c7f29ba, 0xa9aeec22efd017571affa68427722a1fdea69288086f9c693ad2a42e773b59d],
    [0x15c908e364ab93c1611361ad84f06fa11c53c2311ffd1f4694d63b2b982c5772, 0x2562b5739170c5fa1e1cfde87d7a56c2795a1df9c0d6e500fa6b3759eca84986, 0x4135965e6fd02788d00f9ae2183f19e0936288807f48df45ad3ff1a70f69e3f, 0x1fb4eee3328ba9d3c79f1af71a38952c405f3de71458cf48856da83e06a96f8c, 0x18a5e35384d4e479459ad405c05532553c24fed90b8393f3a30b8c38bb2ab3ca, 0xfff7f73e42a52ebbf30b6e73fd4d45c21133e4ce228f534ff6e3410b5b39f17, 0x159a3daa666c332a12c6c56e7b56e626d8eea9f2a36ea6aace95834ce6cc5314, 0x1424875221f68cbd4f0de4472ba76bde5e4c790a7aff782b4eb121419d61f567, 0x18b3209202c6757549296b01095c5cc390d7ae27b5231dd8414e699abb18613f, 0xebaec9cab92b182f65ab68cfab4cf7e1a80a36714bcae30798f61187a6a9300, 0x115552feff175b6e3289516c75c721e15922ceee83425938783434d12dfaf147, 0x22d004875985eeb33417b4ffbccc689588b00f5fb99c76cf605a0a2428a82185, 0xf396a65933c65ad9b540ace1416bc4787aa4b6ca3f7f2366a4ecd95ef12ce3b, 0xedd7d28e36173f0c3b28207ddc0b55fa12e4f54da25e7619871ca8d8439d42, 0xd7d9009c3d6797090e6e1059933e21362d2cf037e251fbfc2b6e18611875baa],
    [0x2e368c153fa35a3d9ca68c21a7ca58a90ba28ab252a18efce5a2d59951d7e480, 0xcd6774ae72e071a0beedbeae7a449ec52362f76e5b0e0a4419eed187a31bfea, 0x13c25853d9680d2e8dc8c684ef48b202e7a227592f76010a20d593ed672029ee, 0x17a717d1e3f5854fb59b7f09e6f8d513e32ddb8946467f7080beb8ca10fba076, 0x8691117ebf4e67180021fbd6df623ca48c067e9e890e1739a9672a2eba49ec1, 0x19cad12c44534134c3feba2082a29dafeb550920f13f376ccfb659e835ce8ab1, 0xb7c75d010ff98ec7b5ad1e3a17a1e092c353c544f8e7f707f5e816519fd6fcb, 0x2055156145c4411db547bef92efbfd4b8a1bb5fe2e13193e0d9c07f39e5875c7, 0x164afaeb4166726964fe5a079a1b332517980c47a33a04ce22f56c33d03411f8, 0x2936c50982fbdb0f56cce6d4f575a31665fa813d72252464c2776a70ecbc2c6e, 0x4de9f4b9d4424cde860ad5534daa8397b1b83835d83f00372fac4e376e6e907, 0xc6553007546816e86c7d90552a6ec216f9a34987be622be17ae4eef454d5a5e, 0x1a7041d055f98dbe2d87333de8a3d0b4f6348f4eb2968aec9cbc7dc3342587e9, 0x1467cef176cb717eeada2b84230336a70ea45e0f4af5c55a44aeae23ca563a48, 0x250aadc3ae989f3e82f4ab1af04ea5ad3d92a98151d06046b6354f98b046110d],
    [0x553972aee593ebfaa45c932bcb153e62fa638167b46555f9a8a74a361f78afd, 0x4e5656b267f8ce0b1a315f9493873eea35c1193f2febdbfecdde494b6945838, 0x19401e900ace225941f6c581824e338ff98d33f2f0b43f3b74dfbc0951eca86b, 0x87253b2116e8fcb45f8eca1b3cefd921105e9cefb33e3cc0bf7da006383b80b, 0x135bd80682f771572bf574f3f714f34105afb21e87d72c40a2f46ecd8518ca77, 0x11c234977200db6c688fc254053ad3016390a025d0ca0975d1337bc077db38cf, 0x16a5b75b970e48a5ec3eedd2dfb08d2b6c95b732dadff1e1c81e81a3dc9b24b8, 0x27edd6afb362a9da2f60335207d7296d0359d339d418602a8c27069d167d23c, 0xc7a718e63c1faf872af76187c5c3f8ffc855d4095f5c55dbaa00533515b238c, 0x184d77c3d6d7236db32d9a3e48c95fd448a5a0c1fd3e5ad15faff8baf1039019, 0x2031859dbe2a3689a9975b41196fdf2eff1a587a9247361e78b7b029763d63e4, 0x305690c19d76dba5dffaecece28218096a32980cde7a9f4205b1989fea80dc6d, 0x2de2fb494197d9c1f1451641efc2473b85300d05c0d27e7ed1816de14c94a9ba, 0x257e7ecb38903e44f1a558b49fd0022c3bdd932598472c8a12602b7a020e4c35, 0x32507176faa049c0dcc74a8ffc7b327ac29743679f21ff553170afdd2f04bfc],
    [0x26720296b4837059257a06bdc3b09d26928102cde57e23e91d1540cfefc4fe9c, 0x1af78e5e918963050a415db24ab45cdfd81539caf74fbef4b800473a6235a0eb, 0x2fc7b7164ff4096593f45cc674765db55d536cd4e86711085fc05bb2a7cffe0d, 0x1a4ab0f4515b49bd3aa4adb03fffb4514d9aec224f6768315bbb2365fe99dccd, 0x1de216e2fada4c24d7fc78f587496c24a8eeb7aa83fcb9cc737919d9eb3d85ed, 0x1aa330dc4e25a8d0c910bfc87a7ad051e48c82e62586179b18c2ce956c8b335a, 0x3d5fb1caad9fb50491a73974c8dcb282e868a605494dd7a1ff9b2df16b0cd6f, 0x45e130424d8e0d943c1188f9521a6f799334f57dbe62cb05ee469438e35b4ba, 0x1fafb6e25f7e91a4f20039c29e947f863c090fa29dc5664d9f8a69261327e4b5, 0x287a56018cd08f5d6293e1652db8cbf40249cdc759a84dd7cacf4979cf4df559, 0x23b3508c33e9cd373874da82d6c15c250aac99d33de516f0351d7c421545057a, 0x1b3745b04ec0f843b9fd872d6dee97c8ccfe952a3617716231198d8bd837f44e, 0x2dd389f08b6fe3ad079bc9d1daed7b1698011d74a913502bc7c7a7e1d739fdee, 0xa8cddb9be00c6e178f3ec831482b8d7dbd7e91b5c8f1da27f1386068e58fb14, 0x2e89a90cc4ade3e2150cad862b6cbc4ad40b8fe6779a8e61efc4827f5e43aa55],
    [0x2703815217d57fb62633da64e4777229bbb663fcca7628ea35101a5a6ef991c9, 0x2d1d570be0820e8d90f6eec8bba76821e90ef209d705604d6e43832dc8760295, 0x2d9053b8863ba6cd46acffa0891c0720bd9b78fa1662bc0f842a1e05de62400, 0x17f4b26ff311b1b4d54e74ffa45ad283565b677ef40e2e4e19a635d638d8d344, 0x2e68020ca82963085aefcd925073a6427050e04906e7930c133f1889d123026e, 0x2574c30da10c274e658dea82f3d5afb58da1a834cd25b7ffa5c59665300b1eb9, 0x15c361a25585226a86655101e0f0f3136c7b777521ac2409e56e666ca449763d, 0xb54e1c8bfe294a08328395dc6cd3a353108221161cd70fbdf118c3954cab9c9, 0x1805115f1d5b60191ec5a8733ccc5b1b5b4a32d81c70f23982df2a2599528916, 0x2934d73dbfda4666b331a0cc2f38f7e83ed8093cf29d111ef74a7a8d7072c5e8, 0x488ec3a6563536696134d8a0a51a872cfc4aedc458c44eb6a7235af9263c95, 0x1319d9b4fb3bd01426ffcb26f256b4f8634e0f18f9597dac37a0f5f9a00cbb47, 0xab5e82e345e304b1a8a0f657fdf3fe03efb006b2e53fc8e776506796c33581c, 0x3fd68ff74722b09cac4d58b377e0818671d9ff52a211e449ab162c3d0cf875b, 0x1e7c552e5a8f3605609c3667bc1f8153099f46ec8edff78bddcff7e42372d009],
    [0x69952e9cb26d8ddd8ef84484f4fff8495601489ddf9cfbc86731ca15bc2b42b, 0x69de4322f390fb4b3c4116596f9a8f51b00f2ecc9ed53b8ce87037a5d8cb36c, 0x122e535351d03790b9a1411ebcd5958a16baf61b01c106f5f158461dba427258, 0x22ff22f011f8c226ece797d1e36b1201449338fbd523fc46ba52fa48b3227b64, 0x1161d30490f1a507df1a75be86a5df94d448a224111f3c313ac3fd273165388c, 0x2ae2fa2fc3962f22ff6bbd4376b6477b2ace3fa963586637d700ae936d92be09, 0x2a9dc09bbf2c43f2dc75ab6f9bfed365703a43b9c358101f7ebcca2082653b20, 0x2f402e60aed9c5fe85b9face12c2a770483ace81132fcdc9fbbc7eff4874c30b, 0x14f352e9dca46d65efe8bec37b89a573f65f0aa8e0c753bcd10d24fd045fd0f5, 0x13c70c3bf42ce34c36893390500b82fb1486a30d3921b4ecb1fa47c085f20fd9, 0x118619bb14a53a21a1ecef9113b10e7c6b7a36d3b38f7e6ce5abaa97fe96bf52, 0x236a45b272320cea6a74280f2a954e3b157174b892d5f3b2ac4b6e5c4dbaf38c, 0x20fd78a9f662d3be07c07b99e4d4cb804974b3fae1ade638d8800e83490b31a1, 0x4992af8b903034facca4002586466136a675222093ac348a7784c8bfbcdd9a0, 0x2354b2ec8c7e8e6d1a93f7307342c7b66dd6cc9313e5db3d06c380feb249193c],
    [0x1ac8c9558885dfa7d7df490e11b102854df3de5b14c5fbfff2f7aa3f31fd2e28, 0x6367597ab7a2e533d99a4447726388c35981b997632e555afdb491746d83d2b, 0x1436363c86ce4a176a882bb26c4b75f5ad8da469935a7fb3be81827d0b5ed494, 0x251e61d00ab4ef232c33d55a73388eeddd65e3133bc4fb3edc709797e9529b18, 0x273656870c7b8b89d38a63a9485663adff3c46ac7d43e61606e26f5191cce0b9, 0x2ec2b54c9aa440e0fa017bc29135eb124aea0970864b8f1d794dfb16f8b8cb16, 0x134c654f5a38eccb1070a5a78831bc005ba6ac7d7a3b76e555580eb1233f949d, 0x29bc8e34b1a10f97997502440979b118c5cf2af2abd97241db406947505080f2, 0xcf3112832c45c48c1dcb5ed866a51365b5bb7949c0cfd9aadf67d125d4f3ab2, 0x78dce521d3bbaaae5c79c768ffdccd8b04e111d8b46c1f2ffa6d2e602ef31fe, 0x162418eba2b1930a1a9a5b9fe0ade663448188e25b28ac81410ff08c22c70f57, 0xbd3b4988cad29012c9dfddc9d2d75812634ee0a07456435f1a0f73c02ea08cc, 0x11e33b5988d6b2e5672d58c5921f7b1cd7290635675b9d3e0cd07e81acb2f58b, 0x72bf81a1308cf51759f27217c968746b32324bc9d429270c10e1671a6f3a759, 0x55853a33d1150e0e106160fe1d7fc65ba18fae5cbe59e8fb6bc8cc7bd663216],
    [0x2083fc1ad350d82f1d43ddd5c7fa475268c2927e0f02e6be71e5090f82137169, 0x26ca79a855958e45e1a89bb4546f838b67d98dc4c8c92bec26a0efd674ca6211, 0x9c669aa0e831572be5a542e8498090ef693900bb4d79a588aadd5cdcbe62696, 0x261cb90ab796a6235a92da9adebbc39dcabcd01874af5d63d90d66037ba3b57, 0x7c14d288cefc862399a1156e7fa72defcfbc0466e0768abce1e35366450404a, 0x2ddcd6dacdcbbfaef37cb2d4c5060f0ef36f1110807fd81c43089cd45a26da1d, 0x162d3c3fce8f30204c522782c0cae66f911e432c8b4476166b35b5f530d3e8c8, 0x90fbafe1f865f43fe3a21609b7d8459fe348d60a4c471dc62a0afc555cc2648, 0x1dbe8e50c293846305c51baa3473e29dace57e6e1af48fbb23d81556eab5733b, 0x19ffef9bd58ca547ac02f4b953cb941def36fd834c1f5ec5a59418b2d22df911, 0xe29b047951b6805c19b7a21ac7d24129ca8f8e2b385731b2194c1905f21e401, 0x198d3baaca379db6105675052a55a31c1fd44a8773a9d7c789bce06e07719d32, 0xee8deaf28778a46bf818104276bbdd9bb48926ce699bd185c649a8b4a7ec16c, 0x303d98318c186c8579d1803984fde3284744ab161f14bc457ba045f3c1329af, 0x265d7fa88c0af3c2ddfac0db3d464c31df095cda96dc391473f833acf4f64807],
    [0xedac8d8183fb0ea31af3b383ef9f921a3c293e8bdbf95598f950a202a677cb9, 0x29fa89d16190d1634704cc096f030dc8cc7c5c9f86d13d95976b6f178ffd2154, 0x234c3e31f412fc1fb7c9a5b70ebe31f33b5987c73555fc0e4ee7e75280d84264, 0x2e053dc186786e4471d0ac6f5e19b33f638dc8f6439077e2cf368d14d4fbae61, 0x1d616ac50587ff0c730b1a099a8daa6e05c32dbb5dc36649d9ec0c1feef2b533, 0x37771eacdc853125cb0bc917610c0c3d3b065560600b4aef883bd173adc47a0, 0x31c46216616ae3241851e82decd045f40a89607c578c6248098b30c546e1e76, 0x482d1d2987d7bfc6d256af3072b41696038a557c9867a8ad267027ec3a5bee, 0x2115d7cd1cf9a84f43fb6426aebb8976578ff3e5646f89f240a48acd16f0fe1b, 0x26da8474f5bfdb9c88e0d72f32227af2c5f4b6340c8ffc96b0423b1172c7f79d, 0x636db5afdd335e31958a70e694e17245df7fc8d148d1cbe19ff880e7dc0af6f, 0x7096b395701facb3492ac24564c468026e587deab49ef63c528f418f7e471fc, 0x148bc6df9f364b928d68180aa6a2667a29adff966cef3e340c3680803333bc31, 0x24dcfecbe203abc67313c8324c6339a22a9a1f72fe944591c8fe003ff2a19620, 0x20db93b902460ab611256f28dfed3e7003b3d3fba36d7bef993f381f3f2230d8],
    [0x44e39201aa990c4e32c94409c1b1410fcfe511f2f5abc94216b0d9eeaa47a1d, 0x2aaf90c30ce60e19085a54153f4675921b8e65e712bb4b0a040d4c11ea6653bd, 0x23fa0908d7d89f3673ea140ed664f7d1eeca765fb236ca8a78ef2bad304a9cf6, 0x1f19c141089be7fd73fd0bcbc3e672f924e9d97fe2eda429fe25f5f1f8c1d477, 0x2fa5b884aa9746b07e87209d1023582478603a994f1ffec3c1d662fe09632dfe, 0x272bd4357d44e2e2c152f694efbbc238125f0f534fc7a8ce7803a7e77a43b6ff, 0x1270fa5808c0ca1433423b90060c34ade01f3a9c81b76d4d2b3cf7158338639d, 0x1b47f9d3f2eb0fcd707a1d29c7f0fc40481fb6bd2e192571358ad06e42995218, 0x1661bc3ed40445c9b8f5a6b74ca52c81e3072117a6b9ddeae562f6f51bf9b8b6, 0x38c8f5bba73df7d9aad4f06775a656a8eb780c0b8783fca440631d87d486e0, 0x3797c94554c71421be0ea2108bd5dc2d6172f9c0b51e818cdf0c998e7658b5f, 0x26f801cbead2c26bc2ee66c9c561d6648f9dcfba02d573316998070d434920a1, 0x1bd9eb0781aedb96c9799f709a0caba80db0cfc155c437d27ded8641de18e61a, 0x1485c83f748186c1b8e237eaeee6f23e093c2509838436c084c6ef0b88303feb, 0x195ed64dd0a8134694858f96fa14afb40218dac40a3304762325b8efe03a9485],
    [0x2ee31061ca7160cfcff414af67dabc5ad156a9de263256b791270a6acf9f0969, 0x15d0f0fb824860bdae5f0189bb09ce4b3bc002a7f86e93bf85678d5c9bd517b2, 0xbfb2fdc19db2d9d7eaf8f2549ac9aeb8e9dcd83c91e67a047d0fa7fd36f385c, 0x179cd6248b5c0af277b392c623b744f865a8b1fe851df27c5fc2a47a0aa1fa0f, 0x19f1469f9c81707666f6db900e8d90123b715e74ac0224adc357ccdea8737fa2, 0x21339a2203afcc5f2cb1fd56d2ee9179637ce45abd2dfdc9a7c561cd7fafb68b, 0xe65726da6be88d5f916154d202ad3dbe3fff5d65ebdc29c7c97ea82d9987e47, 0x2564e8b0fbf65f1436a9e716a5ec7e079eed2d6db71b7d94a2f2434e0068682, 0x2a236647dce4e45c60809cf6d1603baa4362953ef852b8f785ee5e959011ea49, 0x174acce9e73a9ad5ecaaedfdce776d4d1c6b7761fb1599ccf97032a59c5f3f1, 0x10cf2a80803b6802cf2a63a37e127b556b70d65bbb61657f6821ca45a06f240f, 0x16167f9d1b3ab094f67d0cbbf40a315fe39b45e4540768f3fa35dd6d55baf7fc, 0x137b1b07cb60ff07b21aa151724f9bc6a50e4a17a68f2aea512fc1e93968c897, 0xd590eb7aaf8e30dced18ca317ffbd048a9b0fc80d37c54a8bdb7724d8dd645, 0x2d0a63690237ad3469abd472e450c11fe51ee1440d3bb309b2295cb954efd3dc],
    [0x22d55e04ba0d855f42039d18a1dc14dd16305ae516c689d5141a9ce5720b8f7e, 0x1cc71169f322b9595897b864438208b66a71902b73f9518826158d7145dda58, 0x21f949a16acb35194d9e53fdfc5ac01f3491775170254c2cb4b91772f46636db, 0x14cf5351c14c087a59cf5fa5303c5752c33d446b5cff317e4570df7d685aaaf2, 0x10f13bf1727ad7e9069fd6701506f958fdf59fd2d08b0fc5048c9486b43eb64c, 0x632085e771f74df8fcf5ebd07f95373f832cb41ec980897da8a860c05e9b0c4, 0x16fd673aa4b499823fb173d9efece6e6b604ae03bd5a8c677d7aebfbd73bf592, 0x110da915aca9c87a2c4614b1ef6d6f03d8227d6c3e2d63bda028de1a580a438a, 0x1e6f125f3f81a4545935e520f5ebdaf6f99a0c03b485f582fe23a53ac66c1b8d, 0x12c069a83b55b665aa90952fbfa8347ec157c11539f49640d4bd2358da589b37, 0x2b784e2f52c3b9522dd48baf6c3fe282e2682ecc50fb16755ff8a265ef6b882e, 0x1494861baead0058801d47ef56842723c6b96d04d382e47c45473eedebabe484, 0x9dc71751daa5a14501bb2c3cb8b22953f3a3c3c88cbb77b1931181741dc7095, 0x21d3e12c5de6525d5dab5a15000888e8ce36f40be3b49f03b24cffa70c739311, 0x1b0e70929f5772f72eae56c8a272d3195689ec4688d96570b46e19fbb66872c8],
    [0x140fe4a3946bdeaff52c0cd3eff628dc40e30af8fa8534c67a6d07c958f33df1, 0xc7349dd6d791d4871433b501fc3c593352fd6995dba4fa687f501ec8986f0dd, 0x4b0a35cf626c40f82a1f07b916076c0d3598b4414f73c9f6c97442024441a3e, 0x1db02b68964ee9cd52a2936cc783cc12f88d98b60e858cb36366519fa012b388, 0x10e2e956993e23f93c073c7ca4db0bfc7ae8e558f676b89b1ee66086203c0596, 0x1f45de365f1d93cf840280890e369ef6e4c5a98b9a7f8339ecfdf604d5e6f82e, 0x1cbb85bda895dc172232f7d59845c6fc171016b82c91d91f433261fed4ea9c7f, 0x3d3f3bb86ef161295f9134bfe58441dd72b6461b5fbe2d5787902e3e5ab1de7, 0xfff02814d47b34516dd84ed17a200c44ad72f4080f8057da77060d11471e9ee, 0x2e9416d3161e4f7b023ba61c8f6635617855e308d6233b4e85e941f7a5e6c9f8, 0x5c70ee3eeb80db84501c1544c24161ffd5513bca5cf2b5c740011e3793d8ce7, 0x666d733d249dbde4fed105b2ea2d6d4b991983e2b4f58ad54910923d0965dc3, 0x27f945bb22dc180a99a596449e83b32dbd10e78bf4367531ec11e4da936f39f6, 0x12e27af14b7ece9b8bcf7bc1c9241d0d85f9fa47c83153836e199eba8961544f, 0xa8d6c9fd80c799bee076177a1f9d7beba446ab13b7c79956f07d994677946fc],
    [0x8a0d3646c476269077062dc3c447553d61a4648f306d20e56fae32d109886f0, 0x73faad575449ac35cdfc514717251bf168ececf0329752db7403c5463ecd84f, 0x22ee22f436078de048d593f4afbabf56f4a3fd4e07e8a6645fc68541f0e5fdf0, 0x1b50235ad3b1a6f6ac75de3a9f75f4f39866e6012439c9c0179ab032c4266a5, 0x2ecf4f3c84f75ea7b10ec11a6b2596166ce9b5a28a526f80cd02d665226a3feb, 0x27ec7f3ec5624cd3319ab85f7df1380283a59b36ebf18ac38bed751ab1a04bc7, 0xe576250e1560c77cab672af14ebf856402468d2e9b0ac03f3cf29709e13d931, 0x2251f276fde77c998d42b5dad05aa25fe98a908200b440bcb7babecbb77e7ff1, 0x28dccf77c467c7818192d4787e3848bb057c49be099f60291a2f1e48de1834c, 0x1b2dbe9236f5a27ed5c9e3b70e099432d324f380f39158e119069f95921133bd, 0x869920b8f5026cc43cff18be390f74c35586cd2b6943b29ef7b17beed277832, 0x16f4fcb1833619bee667206a2c91cbd91055b10783059b0be52e1b656d67600c, 0x2a50cd6e6942fca74acd134045c28838838723fdf651da02bf3b3d7741390824, 0x2dae4ce829a70182dbdc41a8eda89651110b2c99c60565ae336df2bd2afbdb6d, 0x2dbfd9447d4214f9aacb9f5d2924d545d07310230c1469afa03b283b8c7ed93a],
    [0x10e7bad952c8a632ade1d077490bf80b125c1a05ae4ef7912e69f152d6406de2, 0x28d4ab3097fe8d0377f4a2678261166b5bb24c51f04d768082eceeb3c6b1fb43, 0x772b1c14cb95aa6b39de1d4c24ecb7f08d26343b14ad85821ba29bf5983b263, 0x1856fa356fe94847f57602f5fd41da9d4ca404f858e29e7237568a8f1f52ca05, 0x2457b8229dbdb49c207e5a1208b102b0f86c9f2a76b4a4a23c0d423304bfe9d4, 0x45fbfe6b2c8759a8234e16f0f4c37f53312596fa90b2b7bd27f0b55dc5aef77, 0x17f4e29758239596e70478aaa8b63ff126a74055ac5b80c775c0f924d80f2c63, 0x146cda97d41fea38bc63c955144a65223d4f5652c51bee160dadbbc681252717, 0x15cccb291e3b75673baa8d2c4846ee56da33ddb497661760c4bf19d52503ec2e, 0xdb560c5e93ecd131b7b26a4b777c28234c9d15588cc5e5f2004880f5ed76d98, 0x277091f4d68c4dbc1b8b93570cc249973e892f48db3c356a965816a23b286841, 0x230c0878b8e670672f23598b7717cef1b722a448d9d14e04b81ef722e72bb505, 0x1d7aae3cd8dd3f91e27cab6f15ba2974fdbf72782825f99405a50c13a004446a, 0x2c87e4b81173ce8fd99c9bdf2f0c4bd39e3245d84cbd89d79d8e9fa7de963589, 0x2b3137b3a764d5f3604232cc17dd2e8ab96d46a7df9e68419b4e7c18ebfd5a8e],
    [0x1d92d102f4f430d0e18948b9701b544e5413d0b5bb1e056ee2672165bf52459d, 0xbff74ca04e6568b8feb6a03494311339d7490a75d073368242784ea71f0520f, 0x104fb3aa7fc80f7cd356a96401b415aab91c4077426fb088f2aa972822f9786f, 0x21d5c5327f9c0ac66eb7da87ba7a63a24e47d8e03eb49817ab9f1070d864f603, 0x2f29beb28120d9bdc4e147946cf7cc260bbbbe5ea6421d7d3bad99af9f3b16e4, 0x1661d9d3ab98e7204b2355e05768d6cf4367f30f1446d8cb57576c71d8f83cb3, 0x2b406f2b9f13585e0e5e44db5210add697cbd3f0b523249a21ed63494097bcf3, 0x9d507b50072650b0ffc5c36a63a35968063747bd70a655c9f0e07b58ae4a881, 0x17e38db767cff7dfafc813e9b6773e75d9f1257e8bfec1ea9e8329e80a87a7d1, 0x21b5c11292bac2662798e6098d0ad0f29f8e6d826adf5ee133c21504ce0ab2c8, 0x35e47386120af666c32d7c4fc87052b30ef18cfc2b061937e935b0903134fdc, 0x4f981d3a984ca2d85f9581d7a74f859b61c3e0136d6c450d17768ca1987ca96, 0xc2a23457f590b126af6a4c54d1ada810121f4cb4975d8956d844cffe0a5ba5c, 0x1b5ca14cd976dbd10e76b12b7bfbc28a54ac8afdb669639dd4c5f69f91e8a9d3, 0x183f68d1a9dd706109a8936faad813a89cf3d8473ccdc77b3ce29333b7aa7aa9],
    [0x6a5f95d98b5573df52a7cf20b0e3336680db5eb7833194e82a92ebcc6ab03e8, 0x21403b255d1256c0c736ceec52f224c6b763f8b6d7230b295b4a14e9081ef6b8, 0x2f0d6e5992b021e6c4806e078494d985335a44bd043c27ec8fb96210c733a6c2, 0x2766137fedd6013d86d9c93d3d8e05f9f7434aa2db80d444371ffeca8d5461b1, 0x7292a1dc8afc94852dde4bb513ea938096efe1ccc0b60f53baf031e64ce7aeb, 0xf64f4a028e3419e451380c4fdbdce5b03ff40359207f5bb119c2953433d52d3, 0x1c2b3c6072f344c7aecbdb388daa18463eab5cb5943d2c57afefab51824b37ea, 0x12cdca57b94c8aa6c214703d5c456dfc88159401e7f66d1481b00f36dd8386da, 0x23f505ce933fa0a7486664fb00e5ca54b685208dfb4999dd346e4f26a697b807, 0x1a84bb82ded6255c6ede37585e4e28fe787d20844df3094fd03c82c6f2cc0b97, 0x10a6655befac54448cd2e0e7e52a56c178d3fe670b11c58b16109fb759f4efd2, 0x1a26556d515195ac28f883768f3ea67904ec23f742ce544fba2f854313bbe14f, 0x23a8eef087916f1ed3df07f7a60d9ce2c2a196d4e9c4231d0e9bc16cd0e3885f, 0x109e59cbba700e22ee2fa0b85105e52833c7c70bc6d1e918813aa2421a188e3f, 0x1639528dab1dd1f0e9945b63b79246d3e872c0b1bf637a3b680d98689d997759],
    [0x2313e8d331cf2e342e132d2a75ece0e712afad8b0bb32185d91b02493c876796, 0x3e96a03762ad8273fb05818ab28cfad626ab2c3b01465f8c973b4275f2585f6, 0xe318637b7f15366c44526d3ae3c0d33bda12c294a4876988c28d09a7f7608b7, 0x12a1f1dc357dea2da4cd6a6325cd2542289736117d947b3bf02d32045085354f, 0x117374b586f4692b1682f8d026e9ec7332a43f7b0929bbd51543e21b3303de68, 0x2bafd7bfc204d9e55b8a53b5641e476ee5fc5113d631736b7bfaa349e618dc24, 0x8d075c84ba48cf35979ba012c379abd58827f1bb562155b19bca5a09ed0be24, 0x2b0785443a2d5deee66eeea2b3f8ab317dd37a2358d185dbebadd5a336676243, 0xaf228650aa58e291b19b511225c1f0dc11c5c982d9b9ae57a3e0ead52667acf, 0xb4e7e3454f2b9217698632fd31d95a50126394453c89b6945250f8d36ece0a3, 0xe5f276c143fee910138e17115becf458758ce9bb812d986c7a89b297581ac79, 0x241341f84a8e31629592e3c2a5a33f5a8f853f610df38842b80967f54eb3d30a, 0x20606300d8b0643f6c0cb4b4afdb6d3503efedb23d693b1c3705cbe46c27fc62, 0xbac99db56310e7df296760866502bef6fecd4c90c17ee5dc13a704d17159622, 0x2171b3c348a2df153f26768e206114b0c4968c3c99e8fb9e7d5d069606398f83],
    [0x5fe9945cea71eb802226fe6ca38357eb73e86a76fab2f66d88976c822419fc0, 0x43abc2f359716a41d6c5661950fa31ad11ced0eff1ade02d43af23dde903bed, 0x2a1d4d9bd164d4b3dbccc77591b690fc7fa7b07e09fa5b2709887062e44a93c3, 0x2f14b4a9eff419296a645716b4022cb6fc3a8f3c97cf077fa60140cdc43bd4a5, 0x865168248c7b18aa9b38c76774d180949daea2d647fce0f839df5d749d8548b, 0x26123a0ea393450f6fea67f7c11acd63848efd02d07380e364cccae9a6548d4e, 0x22c637ff2907aba15ccfd3f77be12ed68fc32f8be96698ed7673e881b712d43a, 0x117fdef07c59ef9c9a770756027104730ee9e6b4398745393804a176268b8a22, 0x70153c96b148cc400f9553965366f632ac923fa2dddf69d3b6bbe503ce96296, 0x1e84c7981ee7a8fd3f7f2050c364e921fb310a075a3ae817c00a77f873bc9011, 0x661ff0cde6e581660f5fc3a181b00353bd0baca8016d6f75fca269508ab8d41, 0x15beda5d1eb94bee696ef86d0283ddfe69387fbf0c0ed75f851eb55c9c97202a, 0x1442078783c42616f54d9327f5d43d659713e2c3960eda452dcb89ec3e503359, 0x260670536ce7e64cd31c97b23d5b96c494f93fb3b1c0a9d1ab7de4dddae8796, 0x203890235f209fd4c8b66e308a8702e964c52c2f0218ebabe1db114e6a710817],
    [0xde457d3fc9a6188d5e936679da8606a114ce54513fd11dea8497d55dd0844d, 0x825f2c42df2ca6927ef679536bdd0d813af3070a5916b259eace7f21438ee4c, 0x2fd5b16f89dfebeb30841632b9890f6a5681caa6622d5cc4fe9d3ec8c7a54306, 0x102fdc4167bfb4a2ae4ed738864e5b5c1f3bfbb46f5c0ca926a791bfbe991c93, 0xfdbaee0a9aa49649be987495cf7392f4857a04aad29ff25649e0123a513cd8c, 0x959f84709aa0b385b7d892592d1b6e177bd8a8398ffc6bf07a39b7c0c48a30a, 0x298668206446e92e47d41144e2f4c5d00eefc03da20a0a2a303e5750ccc6efb9, 0x1a798081d88ab9e0bdac032702b4486087383d5ff75c0d68d1f8b9b98e9452f4, 0x23e94711594e7e4c671df90f260ecf63770a76352cdf5f471ddc31e8e0064a24, 0x2dede69a440649fe17322b8bccf4c1ce84b7e051bb82e99b81407ebedbac7028, 0x34762b44e47bbafd5ae3d7f8173d2aa0c1da17291370bc2f84659b4c80f483b, 0x1ea442b0545ba6243d92ea9759a23d73285dd99873e8c3657e6a006a3ce7cc25, 0x2f53038432ee14c75222813f3380f02ea496d77cb9bdcdad3d3c85ecf9e93a7f, 0x19d7dff298825937fb7c4c17d23d53119ae96ed3e397b1df7180fd304461b50b, 0x1e71ffe6e516b57b4822f537f03642b23201e42e5b0cc2239733067ad89023c2],
    [0x1dc46d43c2a715d565df9e9485f3dfe928bd53f8795c8b03a1862773a7cf67cf, 0x2f5469db95cb8cd752a683e4d2870809c1abeb2f84160ff21648151f7b3f0188, 0x2739dcc2e48fb6db002a2f0d724f52cd1700374816e592104575ed422fa2c6c8, 0x2fc5655adacfbf8103fc58c8cb5e10dd30e933ecfba2263b087a61f3868a4a4f, 0x10ff844496fd5a92965630f5a5d51f67e5b6e36a64b2b51c28bf4c7cab403abd, 0x9b32ad8c1e10c31e9264eeceefd619e8129d9c305303e8ed4dc0cdb522a6ef3, 0x29db150d367a5323c352474bb55f235720943dfd6cf968c34b73fac9fbd77822, 0x205e44b540bd357aa8311f36c792e9dd500a3a49de4e367eb885bbf68862b56b, 0x1d6b67db7f8b7200a82ffbb2bd26b18dbd96a53bd83c5b4264edb905d843feed, 0x253677541389370bd4233f8067a78a69d6e9e596f59e282697837cc1415d989f, 0x190842923eb80f2b220cf15e3f8245e4a3786ef2584fe60bc3e45ca34ea43802, 0xf25ded631f016f91448fe7aa2d0d13dd40f99722c508085e3148774891e7563, 0x1163738098b1c787b6ecda0692f277db4daf7872effe8a9ec5230d8d988b7bb4, 0x11600f0ed3eb711dc6d3d9a0d96f4ba3ca2399bf9249786ef73900c9b34e11b4, 0x1c8dbf5547d551e31a77a502b1e0589341a2fb95daed81c5028fef4e8cc16acf],
    [0x2e4a5c1a55787bdc046bee70f4989f8f935de58efa4890d813855631dabc9484, 0x1d6035c010bbac3bcc45493acef7cdf406e2e876eeb32a8851f6209c385a78c2, 0x1d6b6fb9c2f187b1ec8373a18d077d3563dc1e4829c73dbc656340ae0c61b2ca, 0x28480ca625ee02475417fbf4fc651359b034df55b56dc62eceb9a79bdbcedb96, 0xc004ed9c509fd77f0f9841f39f4fe11ad199277daf0c4359f002bc78d974f14, 0x219b95798d9b2ed2d230732cbaf4ca57b7d04074319d71a739fca9b4c083bdde, 0x144f1472c3c7a639ddae611b2eb5be22ee6df25a859a05292ca8307f8618c3f3, 0x2a688177e96545cb91f9cfbb44a7a14b24376781097e9561314cceec16c78b7b, 0x24c898e032f33d7e0748a544160206258c97865be5489896c9790acce9251e19, 0x10abe1e0df0aab96d5d73704068b921ecc1dcff78d605a13727ce9dd8b0eaee8, 0x2e80ae39eca1770dca35a77a48a991b6dedbf54924618756df064d4b33f2b658, 0x15e39e8f8a4c7f890d0cc707e28a696ad69df5b48fa37b74049b50791a22c272, 0x2d5e7a36fe68b184552bbc452beb476a96c7a85fd2196aa9572208a2c02a5632, 0x1439f040b4c907c5082d330ab439de47b4b99f1179ba46ac20112506a82bc14a, 0x2ec996b247a0a8c1682d1d0900f049d70ed0b01e169e75ec27d769a160e06c43],
    [0x124171096fcb5aaa5d1e793c53867134ff1a49c6a90f2521601c4e07bc3495c, 0x253ea269e4499bcb0a140b90cf71cdf924843d35eb286dc03059647f7611a1f5, 0x83c4fab3c20577223fac6f35f8ed59bfe36a4702da514914829bc1ad979217b, 0x2284f546077f31542f71656a454d08bd85e080db4eccc44490f88dd89d191c41, 0x2cfe51e414d5d94c3e2a46358c6b1fb5ead77ac14cf7a6f53b460a7058a8393c, 0x1a85fece3b27ab5241e2a72032ed6e7122414bbee90fb40721011aeb30e944f7, 0x10829aa85b64078a84d4b8b2173e0cacc3cf1f5e3b8f1e1488c1b416bbdcb8e6, 0x475de7d88dde94421892d8c48683402431ccac412efcd56fed01bcdda39c5d4, 0x2e8264478fa612941193367da01857f791b377e2083b3613a5b243cf38e65f9, 0x13496a43dd1cf974965170a2d81bb480d7161d58b5170f5f134ebe721029ef0b, 0x259a81e924ed46c5441edc5a5a75e6c207f73c343e6850d7aef9839bf9869832, 0x2d2ded3e58eb843eb39a3344829143f506dcf9e74ade3b97f2f0dc5d977914e, 0x65fe7a3cefd7dc775bd96d31e758619ddc371df362370eac98599764bccbc71, 0x9ce956b584caea51c5b57a33d13773b71ff03c31fae9bc149a97e281554cf81, 0x1c135b8055f27736b4c89ca09ccb72a37294e06194bacc54deaea9449ac17c58]]

/-- starky/src/poseidon_bn128_constants.rs L12140-12396 -/
def m15 : List (List Nat) := [
    [0x4523bf1a8f284c6d95b310dec2b54e0e00e59b571dd9d46b6201c18e1b56dfe, 0x19a92ac6087ab89982fe5650e5e799f91003fd8b45400748d2c25e40f04c578d, 0x302608d750f16491df5a285f5f7f6a5ce6b554f5dacf0b69d450b24bbb4967d7, 0x1a3c7daa6b4af5662d0d8407b287674d83eae5b7563405f48def49981c98c424, 0x2db1c9855ac29acc679367dbf70f08d98894077df2411f91ef68dd90177c1e9b, 0xf06ee47558f182d810bbcb214a25da7f70a567a0464b348e1b30eca7de99d27, 0x2166d78d948dafa963381cf1560d00bf3a0a1c288a743344c8643a58daf8cbb3, 0x2929be9bfe3f93cd34fceae665d96b1de1afb26bcaeea2f4edc454c50cbc4401, 0x1076d439c67997c37c6c1fda9a37dc2f762dd577946f36fcfdccd7898ec67cd4, 0x185c9ad0da87cf824624d02bec3ba4665822a0f6b3b25deff3afcc687ce1321d, 0x2702b1be39e91044fb73926c1104719f4c037aa4151823ceab24f0cec49f4648, 0xaf71a51cd463b9faeda93803cdc03186c7781845252fdf4e0155709d93dd375, 0x28667f9c7332073e293c80b98edffae01af4f67b4c52ab45e49db8b30f182d28, 0x2763c33f5b2d7bc3a23040afbcdaf998bb13254c272a5f8635a12606a59c2e5c, 0xf81a8d8e08758e8a32aa8292666c4cb6ba3f5f06c4dcf4fc502ff97f03a85a6],
    [0x113ad8b46c3eec20c9965b5a7b2e8a51529871d0401b4de6f63de9e5211623e2, 0x7930cd5256f8ab77ab92b08bbb5b195a44a2382c66e27514619efb94e649110, 0x28f8144bdae1b904ead70b3b72c7943037de6b48490efd3177783594edd28b9f, 0x2474f543d1f2f33b5ef3fbb190651135a59390c8a3661fae2df1d3f14432b608, 0x21715a84742c02d057ac41f743b166da023228425681950edfaff8581201a097, 0x1ef0e0c1f0b5f67644c486fecf02238cb7f4fa63a082a3c030daddce65a4b82a, 0x278e8dac8c56b28a23dba4d90fba91eb947f5092d4a7a9ec7802f61778488e87, 0xfaf33843e6733437e98995e6f7bfa6feefa73d7410d8585918c347f3cfe92a5, 0x2ba437d6ae6c588c6b71506c8b508347e634b65cee317af1fbb9cc2a997fc006, 0x24a6c1919f94aba9db98a5af38feaa5391cda79f9debfaf118670d7927e41db0, 0x4d80e7ef7e27a2b1397678ac42abcc6e2662c880503e4643fdfbace67273b92, 0x17f6a3aedb0005a9b0a258e31b8e6e2a48f3f9551cef6812a49075aebb8785f5, 0x1e62029129492c8bdf8514945950681361591a9f5eedc2449e5f229c85bb97db, 0x16bae774867656e64fc95f3c249f801f150fd7ee28d195bad9eae43743875278, 0x10f0172799be23a8fc3f156adfb6c512ba415e35167b563bf7b186fd12a41e57],
    [0x1fc50a16dbdfa1c3b99038f47f81a1c5d1ef6e7b221d4ccca6e821220130e000, 0x2d8d3d924f2897199e38eafbc7e101d17d7e563488a9f3198060796ae84c1b08, 0x2aa9aae62cdb852490c650ff9e27c9b33d4cd4020ca66f5e1a6b374e662935bc, 0x1848a60efc89965073b95773f467666687e38d59be208e8377d31903921057e4, 0xc893808103549d2030cbfe0004ea6655e24ee71a1f8c1f072d5cf6e17ae2499, 0xad80718c6e9d1c67b4a37b9e103db32f225fe42a9ba655ff065618b87b82aea, 0x20d87476f1243f490246f88736ee5fd6d33191f0561271487e9693fcfd7a649, 0x134b86642ff202388f4fe37356ca4f0ec3805566b7d4d412d8937a359ef9b401, 0x2c04878b4cb8156e9983d11574ed99dc7562d3fbb1878257abbc68852fdd2680, 0x1783a45215805ade9d359232120b183db54b43f9a7e8fb8dcd95ba9bbabbba59, 0xfc96302e8662de23cc5c8c228ac8ac2dcdbfc488a59f4dd41e3f27095f7e195, 0x24b22e5ce671ce79dff8de16d7cd2bd6375d7ecaa016ecf59cfeb246dac80720, 0x52c33fce08d4a39fd805156c8affb84349428ba4920cfd2e7902ddcf9b0557f, 0xf0d475225c99702bba4fd01276102b5cabff7bd4d147c0e3cdee4c07ac31b1, 0x1183e91b7ab7372f157d4c477691eeaffc9e8863fb2d806570c67f4b1858fc54],
    [0x1214a9d6d7288fe85651a8cb83048c7669c83b5ed82ca2642fff01e852a44b4a, 0x1c0de2bfeafce164c9838067a8df6340f9d97edf0122333159b714f45c3f13b1, 0x1e394d80067f0e10baa95de0d99b4e39204a18727d1401b476ec976b5f173a82, 0x2ca2d8b0a793d90ed318cdb5f697193137155bcfb942d82bef558be5fab359bd, 0x28427ab007a68c7ab12371f13bd7dba0acf7e97ea6e64ae52d5219210fe8a2b0, 0x2cffc378d2cec76ba7080b37fc671a96328bcdfc4630fcc2f2133dcf29c70dd1, 0xcfcaa1d7d382e1fe1fcb950e14df202a08793d7185255b025d562eb8d97544, 0x1d8724c5e641d96f6e372771b0a776bb742fd3c08e1ae250432246cd3bd01bde, 0xfee8f9731397974100834649ee87a27ac92be7a3810303460141aafb542a429, 0x116f239abe820737b5e1e82b2ace3a45cefac489a6bff084e323036f54277108, 0x2a31cadb918d78b96dcd548b394425a42e2aa7a28a6b63e509261bfae6fa25b3, 0x240caf6d7ab2f7b6ab3d15efcf3074f5b2142a1e804f25012d988454809e096c, 0x2224c85f0c0b4093014db1e817d1ff16918f15e0cd231b848a48cf83324c4144, 0x39a288951a0381e3aaf598ef132853b5d694716c20db87923f0bcf14c914a8, 0x17620d438499f6c0a66bb577add4cadd66ad39e3377d302bf83d3bba126b2aca],
    [0xd421a7c25af5538788f49475836712af5da156f88c5867568cd958e305026cc, 0x20e4a28303dd55e5cee332f30eebafbd7932e7b3531d942454c344b8b8c17cde, 0x20bd028c958d57b79e35218fe34e469ebdaa8e8e714e918d58191f65046b972a, 0x6ed98a185bb2358f334eb257ae5e3183599c054c1b4e2022569b8368da1abc8, 0x51deb4b234890e31f5ac8e69a1e532453774ae93a9e9360fe009ed377ae9c36, 0x21f1f6a630471e32a8b9ac4b7ed4b04c56b96a71ee20a66a5458c6b8d5c6d346, 0xc39dbdf6e6d24a91a0a45f922c894be252baa127d9ac76909f86dc0bcc68a66, 0x305614aacdfd4167cd1bfdd8fcdece6892d84d4a65e86e6f7c6349fb75e48b96, 0xef9ae65eb922605d4260ab2021dfbb4774cd5ffaedc1b79dc681208be6f85c5, 0x1adccb898e5fe18b5c29a4708c4b112b56d0fa5d299b5edc07d6f5bc00428b8b, 0x18a2661c03ab9b0d8f7d01091c7e563efc033196747e34139d3f5cc7ac001e9a, 0xf8aeec74144d00a3ca38bff10bb0f3a8dbff4af6197847db879745aeb57b5ea, 0x1f53514a97e8b57204e57bd6b1b1d9555f3b50368154154e67c2134fd3151591, 0x27bcd639c47482d2dc8b6d13da19fb8d63f3d6c875f6fea486da6ff2ee11e107, 0xe9e8373114ad25af97d28e272fc42d8490373cab582193b874a10428ee6cd21],
    [0x2de8ba83d2b6ab6a711fb9230adee1cba46de8c930c86d266acb8c1cb9684e24, 0x1bb15ee4d492a8e2cf1b10db1b738c6780066ea8347abe536357a723f6cf57be, 0x27fa2120431379cbd86205ff114f34dd2dbce13e1c2a0a8e46a1dc27e7b686fd, 0x1ab527614a37c2ffb00c0fad360abaa447ac1063fb9fc656d0148cdce2d7c372, 0x170cee2983fa3d3ecef2f806f40eed8d8e135ceff076fc530bbfee876c9e7f1e, 0x288851770f1a13822251da91c84e123593fae1c9cbce6c4ff2317e70bb658209, 0x1795384e91bafa554dedf5156cd799e11210ffd2afe817b5c63ad5b85e7fdd06, 0x2cda26473cfdcd185ba28cfdaa15e7de2359646a0287ebe8b60d702df009010c, 0x27ab4b40901465ef59007114ecf1fbfab6157c24f402246b86a60397267308f3, 0x27122781df7bb05f6ae9e14e8e99da5c23dc77cc06108c0ebb061e5d1be93626, 0x26812acd03db3412cad4bba1aef71bd44b0094d318ace0366c79e729ff0eb2e6, 0x213d29d4e1b6c01fc0d109ea6169490076d131d8e034b3040f7bd9c3c373ea17, 0x2132f71ac89892c984a0a73653f2d45222ada34181a9e6dbcea0d63961f934f3, 0x121395023931f6bb3ef28b6063eb7a2ed7839e083fdb92c1e5593c83edff5f53, 0x1f665ba33da4ab9d9806caff77ced39c9be254fcc4c5da8f570096111fb109b5],
    [0xea7be82f1cb493b1bbd83ab7ca285bf0a1559ea05c3f59827b3b013d0a91fb2, 0x2ccf31a572412bb7d9cfa637707853217e7db5550b1cc30a894cdf483a3b63e3, 0x564651bc1179170e3c97afbc4f493617017b43b213eeed86b9b1bffe521fe86, 0xbc769cd7b34fcd1b454abff0c00b89b540a619b87c95444679c3ac6be84d450, 0x244b6b63f8041a5975f4640b18c7d067e4a0627f18751dc906016b8893c35123, 0x2ff4ee110ee1be62e2715dcd119c95b95413376e88ec3ddc3f06fc9db8c27a94, 0x2666ec1a67daa7beb057aa0e6e8a10396601a21884372369c012b49aaf849049, 0x2b0666971fd911529e70ef918d019f44b5c9d77442b6d1866f6e76832d478847, 0x2bb5bf03cef933e4ee87f511de3985cff0323ab7b718d4cbca3f429addbf3052, 0x2e37a7440e75b649a0799cffeb7f9dae38fadfc7cab6c5585e4a84f437729d02, 0x371f0d49346df2d88b9f1ada8ac99dd8125cfa6c30f3738fb9932a853268e, 0xd0327b593042de04f58e0ff93386d1608d33a86872c1d3e7e089120aac7a4ff, 0x4dbc4c8de708e59aa4b2116e53944bec97ed42309b4a184561d8f32d291f9c1, 0x290ed9ae7479f9be13af13f98bf88507e6fdf018710e4859fd2e48cc66ff9b24, 0x135aa38339bd927dd5064e4d572df55811b226bab54b0acaee511d60aedb02fa],
    [0x1e3ae7e5775d352651d713ebdfcebf9ca8e905cfb792bf7874239450f914c8c5, 0x1d492c34b245bc12941bb163c5118bfcf85bc4f344042b2031ed8662a1f6ffa, 0x7333cbd0ff13c8ade1febe72892d9ad435c7b451aa72a8c05a7082395882865, 0x29ad5236ffbb598a2f8d238703608db7a497a7453ef9d579fbf05be38f8f76f1, 0x2e72b1b114dfee7e8d7f0161255c6895fa786070ce62d806c45a22d7d98a0a30, 0x2ad369a84b57f7455ba31064001ca7779d2b4b96b0b4a91f156abec366aab786, 0x15793f31caea39de315dc5bf5a3662ad5d8e1a12fa1a7280f2efaadafa97adf4, 0x56c55df543a8d4043a12f409cd2c4bcf43a770f3e38c3fc79ad214b42da834c, 0x1ee10e28c612d9d6ee72f1274850c3e829be5c06f5bb293280152a5610eb01e3, 0x29f356dcec3b79523c0589a7046ef0758486828b212146c3f5ce987af3fd719e, 0x27cea9c43fe0bf1ce9e53c0c026e839d80a7d869136603102cddf63cdf28b975, 0xbdc078b1edd9cb1fd2c2a01a97bdf7d458648439fac1f28509b41a2dc9e7740, 0x2565a17a6bc56e87b0b63664319b8a47bf662c1f49e2ec9251be4fdf33d90f4f, 0x15b085b5eb678f8cedf21bfb30e2d64ae1cbdd7472449ed24e6034101c658868, 0x22bc96cbe7f8cbca81b29ba7df848dd6599035ff515b6d485550842e1a35a1c2],
    [0x5943e3618a32cf050018a4e2375f4d027b8c14ac82a0de57cbb90c5122a64b4, 0x1c9b5c2c07fccfd9dc6b3abfe05675fc997eb7b8cbd8d8b4cb7e671615b0ecce, 0x290a7ae732f4754e0cb91923c9248971932607be2e829163f11612ff8a955b10, 0x1434ece209d491280c5ae05d7e26cf92d99bb7289a5c1cac09a38ce53b6e03df, 0x228e7399b0e05802852bdd5d5e09966f03c4c3aff53c683eb2f69e0fcc21c0bb, 0x24f0fa154fcc6d6459d6c56f711f25e38d57e90be7b8046c9e001815edb41404, 0x18800bda17a89832fea54f26741d86c6b6fb9e15b02e7bd065533cb5661d2a95, 0x16b11f24502aa4cc3b0c2562a18a24ab8f986431b244034d3fc29555402b5f4a, 0x20a9d575fea891302b106439ab03a8a951d8b2ef2b562991946eb2541f1fbad, 0xf9c05f609ad14debeaff107b95accd60e62662259905105abfafa9e8e08eaea, 0x95f1db43c827e6f0b9cd4fe929e7b8c78c93fd02ec9e0f10992feb753b4ca07, 0x26bc00d9cd25124442832d97abd90866d3fa7a401bf38bd95fa7ad526548fea2, 0x173e80596756cd9aee04bd6dd9dc15e4b8ebbfefe3771d9819bd4d444726f79d, 0x12a643f4a327acd2454514dd469551e36ab0e3f24ecc3b28a76dc1f38214fe38, 0x11e1b0af7f5fc9f049877154ae173a1a72c7bc3ba192e438a9d0fa81fdfa4900],
    [0x603755180f66e98215d61e5346b116cc00cfd058274d7d969b3af95e78bb335, 0x243930ba01dfd3945f2aa02d588922b47c1bef2ff8023a849b4ca66a1bfe98b, 0x1eb520feac62e4545f4fe7cdb675e36474b8b1fd19e15d7c73a2b1dfbb23fed7, 0x255dfbdf30553413a1f8f5113d60e98583838d13e11c1ee02b25a387ea00cccf, 0x18451132581b9adf996c6cae15b92d2e4c09fdc7d6c27b4426f32b5e66a0b723, 0x7221cad39d9b5f8db705a8723038b92b6baf87284131735eafbecd533dda6d1, 0x156f6a09e6a81d8eecf4dbf21646bb968b2406786cd1dedd4cc732b7532f7fe0, 0x18ea0ede9010c7bf0fac361b5b8e7f97c75ed93a13a7ad4a017d920c03c98686, 0xb73119c98d25eb6de14246b1401bef485c9dc6accedc23494b9526a39d53221, 0x1c66828552cac1443334ed70b7fd7fb525f907ab64479d117864c92e911986c6, 0x10a66268dd9a2f368e95507efc2085eeeee8ce977ca1eff5b2e3d94bc342ff58, 0x1f14aab5a59ad452cf692b123c65873dd80ffc188798a4570eca792b3f2f257e, 0x1d34655b5776e24701621acb41324cacb50165e019bff1e65f98304f7d822a6, 0x16a1eedbbea79c5411a639e3bf0e90f6e3f740f141599af8e6a43a2069572f95, 0x14de448becba6ca0adb21b07455d2c2864c7b85382267026e28f0978822d65ac],
    [0x19817db66fdb8215ecf70476c4044c3f41d78ac5a549c684e35845947dca0b11, 0x8f328e5e66c0b879b36c233f598bd8578d18e2da9f019f0411731524f42d90b, 0x259a2a1f046844724cf992aedc2635f6680f55e8a0fdac695ecd05fbc2cbbd19, 0x67d9294b4072b12c368c2816a53bb16b7e7e2a79979a416f2d02af862abedfb, 0xe1d7ec2a54b11b36e65d7551e9a875a88ccc7a6c0470e7c26e199670a0859b2, 0x173b3b349ee888d934aee9c14e889cd7d785d1e3e4f1eb72a5c2e56c48fd54c9, 0x2977658a10de6e7921ab9e34bcf07bbca61a72549ae57d0c15691bd143d4d2de, 0x396097733de5a1fa4a548749b73ff7c426f98d9e5ad16920614d337897f6b1f, 0x2a66defcf489c23eec5079a0ece1c5341027a59e7c592e760184b826d70dba9c, 0x10f43368c0567f405aa6aafcf367e3e68beff957c4b0cba17c30c62b3f95490c, 0x25a2a43ee612663dbd61814f2deb06ed005a7414f99825f8be66f542f95a7b2f, 0x182f1c93c6eb29867b1559c58207a6aeaf40b66eaaf579ca6bd7ca40aaeb7abd, 0x42eea616d905025147a482eb436a3b75535c9869b76d6cdace118e15c91fb77, 0x5ce7f592dca2148e198554fd64db8c479f29d23f1f16daf3cb8930d9456e4c5, 0x1844a81d4fab57aedbb4c4628e2e47fcb2922883eab0b2e1de16f248de4bb902],
    [0x73965f7a9ba8cb33a955d42da55fd7c37a3f0226b029d36dcb3fbea95d642f3, 0x284a2f083ee32a6663081c800713e0f2395e348dcecc89fc81aa75a5db2ba12b, 0x8f78e6dc59cd4694c41abbca086569a9083ca8cc800bd9134e4d48ed9d89dc3, 0x293ca8a06c5f179d938065ea47f80f65ff21969a9429e400aa177ecf6b6ae853, 0x29b68e652deac818824da0c2a11b408d7a839a2e8576c55bfa5f1335ffc5b93, 0x9bc3e40bfe5f616fbd520f3894a0fdd37feb29429fd3a5015953171de3a70f9, 0x284181093e43419789263736e544817111fdcb559a43773f05186608acc542e4, 0xb9d5a3a957eef251ae9c26e53423f9be6f2efc24bb18756893a9d80e56a0825, 0x4aa8e91dc30f9ca318fe24718fe595871f7897e92d57f2d87d4b1bcf9a635e1, 0x253a11c66463a6dcafd8399fca58ba27febbc307d8833c666e0d8df072c5f69f, 0xe4fd498778c2c76a02d0d91d8f89825856e706f598337dfebbf3ca33397968f, 0x126ec8c200262c45d1133bf9da5f1e5fd62bcea1e493a080af1bd283ab86f122, 0xcf030b10a1b4291e576ebabb39c583fea0fa6decfa98cff7a96dc06cb77da51, 0x110298fe7f2bcfdac0bcdc3affeeb436d7b3a377453ae778fabd37a9acb299a7, 0xeef04f24ae210ee0a94bc5621574783e49d4d93365a2b3dd069fafd43055452],
    [0x9a550431430846b6694125b5642b00607f36a1a29485361a3cf427da77eccd0, 0x19772e83816fc2c49b96427c6ad0573347fa49a5df691252592aebc390055a35, 0x2d8ec6adad3a646843c88cda01285f8f32d29c6b1025cb5421422bf8bdba7fce, 0x255b96258dc8e1644f1bcaecee773632f25a6ea803cd32a1e01f82573775f6fc, 0x186e1360041193e12f38099b0e35e767affc3410f6a8dfce9bc75567e39bc402, 0x29cb31e1afef4f252578aabd76f23a1320aac90d4a0a66c2225e3d94cc48d22f, 0x200fa20ed1b871313900c01f8b697760d030d8cc0150fdc58e04a0d8a2b344b1, 0x1a63a589d1710aa705136cb520c2f1c44d778e490c212d4b72e9f1538e5555cf, 0x133369b3bcc73ee793e869360cd50d8df60fe398ed9d9c0d0d03e669f796e87f, 0x1e99516c240d42bcaaad9c73f21a46193db8433349203035eea30398f9df7893, 0x13d84ca7f358aaffb1ee8ebae81c32e01adc01e90d09c9451af36e31af82170e, 0x5a78464a4b6bbca6e96d839827bfddbaa9d924840aef6555de643df167d4caa, 0x260ef13ac7e80fd2db3de9eb942edeef3f5e252d4c04508b1e1b130191ad0df6, 0x14829f09d4beebbe6fc30545047243fb3dab99c62aab7364a7a5b427457a02c0, 0x1328467c87ba73028921a89333bab97f8b24fcaa72f43837cbcfe5dfb7a945fe],
    [0x68eb4e9d6e0a588b61a6ad501f380da0f009067666c0853d156e33d59c43515, 0x2dc5900039d4c8523ac379945cb9b58a54e01dbacd67f0c4baee85d353d3fe97, 0x1b72ac4374e95b7b7d28cd2909507f3006e8352d4af19e47b0b909682a03200e, 0x1f2a8dcafe79fd0ea22bb1563c3b28b23c5c4d7591d45e06744b3b379d426618, 0x19294dd22da673470377d671fabdf42cecd37ecbc018386a438706d6106b04a8, 0x1932bc6bb488b736e0d4bf306d41e622e66c1d685aa4598153054b40f75c0b00, 0x8d1d68b8437bc980aa7c59d83393b162a0827de74070d2d34b4eaedc17e7e60, 0x1c0343816b8cecba48519b59b0fb6d4a9bad309ee38311dc3e8cfe8bad75dfbf, 0x709eab96cc6255f2ae917914f25085025490c423284916e23b608638ccce29c, 0xc67a06b33cf73882b1c7152d4585b78223d85c77cddc2c7d3594824c5016565, 0x740c1e9b8ed16e9fae204369c554cfb72007dccfd2530f2e34d544003ae5994, 0x2a84c424eb58f9c38b4380af38e0458468980988faa1f0d4c6e723845678523, 0xbc367fd93ceacb599c614aa28068783a5d27eec1fc8fa1765015b76dd82f5cf, 0x278b58503e0b9014104f8c446bed4c6de575c72d4dd9db3d1866846979aab9b, 0x791d832e976b66bdaaff450731ff35d998595ab9748f695bb45d2c0fef06930],
    [0x225e00a0da5a7f7496b70d0923a7cf7ff332bff06958cc0f3fad439874f6024d, 0xcc378b44e58f668b45832fdab4a49372731ef2415c37f40b5ded5594aef3cca, 0xd7d8273de237ba2d4d5e8051c5bd5e312d298b6726ffbd3af7e732af91dff27, 0x22ebe0a315e07be4b0928885f52449b011b3967e519e438c424cc0428c35726f, 0x2ed3cf0214f444d436655e03af8aee2b4d96961eea06e8133bd6e8d3e38234f, 0xcb6fa0a5e11b9192a51904939d45a05af8055bdea3f379faac29d1309830e85, 0x39598a1443c009678602b8dd3474f276da5d62425083ec628a1737e8cca3e7c, 0x1af56e6575123f99c5d7ab7b83770f0fd60fb9f4038c2942644069e3c243793d, 0xe8d9c0707dc5bf80a2f08c343c69cc659def86630af3141a003acb3d3e90c08, 0x1f6dd8e85d3597bb6d37b47a1f063122014c888250b38cf8e82e3e5471ef84a9, 0xcc8f90bab68e6de84845da1899bfc52440bdddb940b208301ae94a95777cb72, 0xc0dcf2b13552ec55c97166be347ca2f93b07e2a10164096d353fa280c796821, 0x1f126117a949dff900fa5d111a0ce2661bd9d5444577c491a9951cfb58192d, 0x138f67fbd9cb91ef5206d48cabb269ac42bd352cf371e43311bccad89acc509e, 0x11492ba406435f35623906ff45df11c39efb59fff09f501fb893d717e34f9d61]]

/-- the inverse of the matrix (not in the code) -/
def mInv15 : List (List Nat) := [
    [0x2bf1c87d9a9d5625d310321c00d0946b4e9fa7988701b89ae370b30dbaa5634b, 0x1625b9df242cfb30755e9de8039fde208de8bbaafa899f445596583c406c13fe, 0x7d2c5afdae3d5a758812dbbbcecaf9a85fafc763b1c519aa2984d1a8158a1eb, 0x11b01759f340debdaeea404e534abbff4b115a658204da118fcfb0b781607886, 0x10a7636f2df4849dbc275d058f89cc56d73270a08f7541e04a36b35e1540af94, 0xe51b8ac73787cce7d0cd8e4b419ad58a01f1480b19f7b8e718ddafa37febd0d, 0x2695c583804604294d3be362133d7cad8b03938b26177facde7930da6d4558ac, 0x403df432e5a1f91bfc12468a65e42e593128874e690d2ae00b4f0a3cabf046f, 0x55b0aea806e36896973da2fe7a3475bbf571be5ec497ab95ac37b107f6d1d2, 0x216d7aee3ba7e28b4a0b97f70d88aa6f462185271d30b33240642ba8be5c1979, 0x206699d802615e91e27b209d7accca61cba3b32d9f8906f3964db01ed76b0b35, 0x1ea841e7b9816ec35b16ef031426734b2971f427dd252a8c06242300c21f06fd, 0x1ffb41125bc56d057dd289f5f33da08b3ec9c55592ef19f8a9a5c4269c658a9e, 0xbfe6dd5b595d85a8de91111ddf7a51b2bbe30d43b468213e0656ceb3d647026, 0xb8872fa3c911db707d51c841199f24584ce268e4e8673139aa1d086f12dcd74],
    [0x16e14821e14eb07213a9701a6ceca9236c4331f2c5620e967f7d0f095877c29e, 0x64cdc0fa938629e253d0e8bbf9204e9aba9ef7576b1add85a56d2d1918d3a67, 0xc5a4aae90d9d3564bd0457f70da147430e45bb6ffb9b018bd52dcd5c88a6547, 0xba211c4075bc8e383183cb71b160a2ac08e08d2937854b695f3edd5a1375efd, 0xacff6d4ada7a78284993e04892e36a1fa8ab69723d4665b2e1590a909576ba6, 0xfc90b442f023606b40db39baac51ddbc73aec8e9026610f268789a564ba30df, 0x18cf8d69b05fcad741c72c47f639f52f5c5bf24557b1ff9985c812759eaf4e1d, 0xb983875301cca8c670b0c6f4db6b4d3a587eeea56279912b23fedf4892a4181, 0x2a632563130e459e30eb1e6d5188136d5287eb134cea65699bce7f800ec8d846, 0xc382a940ad3560252d0693fe74f20fc4e2d47fdd42aca3190e125d00b209e52, 0x256deb176173f191afe93c05a8d7f58bfeed16aff61c4b518784dc387e42c67b, 0xa9114f140b3a34341fd3bf054a4f8e59f3e1831e2aa8eea5e0d39447490dbc1, 0x29ec0f32c44f986a797e845ac3603bba416ac699b4c178a039ea769526806e93, 0x1a6bbeaefaf5b25b66875dffb9dfa00f4328b2abef2dfb06749740e74028359f, 0x10b7c5bfc1b915635992f8afd614d54a70c68d698983033195cc0e8d3cac1c22],
    [0xaaf0fa2ae7814855e2c523742308986ded8ceafe2a3f83e7e7f57c5a0cef733, 0x1d568a1cb056927f207911935da4662e1e232f86e27367c9db8e33e36127953f, 0x1a92242f2d581285807d788fb92780127f4246229cb9d7f50cab9be6e9de7faa, 0xb35c792a34d85c024d3eb50af1261d3cc081138eeb8b4a99cf4c430b1522602, 0x165f6724014484e745cc00fd0f24342505f687a30807468ca7984d0b043df5f0, 0x104657bdbd7b13d0da72dd4cc3b76b96d32da7524ed0b80f6ed828c2688832c, 0x4ed757ae672cbd44bd1c17d1630a062949af7d74c9e5cef506067102ab4f4b0, 0xeb8be6262313f1137eac2955e806ebb5112bdcc9cfcdc95448c835e23077bf5, 0x1d112c1098c6e19903cd47cc0dc1446f14285dc4b2585c8fbb84fb50101519b5, 0x2eadc22ac498ecfb767161b572cc2d2e8d335da7b7ea3efb1b972e1342e8472, 0x50edfe435375d7ebb1d84087274884fb0267b60559606e64b888e03b2a53592, 0xcbfc759fe89f13123e92b7324f11b2af1aac3266c9dd655ceb85fa85054914b, 0x2d62374d3c843bc062a2715186d83897d93ed97d0480ad1ecb0ac3ff14e5e708, 0x1f018dc026561d986b9489dab37e2a53f68588e4d3ba1fe1082f91a47d66cf2c, 0x1ec88bcc164d5c969225b8c9835fb049c2809cd2133d060fc44ce5c09c32e309],
    [0x1e1335b76bdcf2c7cc060b465121eb5af7d299b8c641814a23ad1ea235685caf, 0x9b9958e3885547e18aaf973825f6a00919b185d87487f4f9687c63e5b12cf25, 0xcc363708e43b0742876e2d3262fb64a06cb13b8698fc3f4b092c880e860273e, 0x1c0ac6839927db245ad43f439af49c97d2213eb41cc8879e3773e872d3c857ae, 0x2db1e24f9d672285cce82dbcaaaf2dc6bb8acef07cf9ac1efe6fa851f8e12978, 0xb3c2ab654cd1328518f8a0c2470bc08b97b3457d811df0737c561143c146b04, 0x9f89f1d2010bbdb970b2cd4b03c1a5476f572a486d2c0dfea6742ea9af19897, 0x200dfc10f60d3620ff4d68f555692b537fe87e3360c3be2f066af12a36ebdb80, 0xd238ce63a11505d3c16c36ee3dc1b3bb9b0cb19f44a3c7058c86f7b89d38b1c, 0x16e09c6e944dc2392fb458d7db8fbf43acd19660db9c7864ebe426e5caf5cf0a, 0x223ddfcc536e54430e120a19ef680d83d3c0200bb7238f282dae0fdcb4251294, 0x2c2ff4ef5739ef8f8a72c66fd31af5bc201aa540225453fb679a6d008f49a9f6, 0x2af82ab19ceebaa5a4db4f3d98190b44cab9a701a9ff001f9317bb0fbfbd9078, 0x143c6c9e480f03253a3f0caf9a64ee713debb5ff98aa3b54c32d9e725b088ade, 0xcec96969c02ead1c928dca4d52ba32df0854c2886799ffec04080709365eca],
    [0x1e89d3b6db088ef0deab8c490da2d41fd221f43249ce7a972fc2fac04f167de4, 0x1c8bde568f44bef8f0f47e0b87d68f3986ac67bde9629ef20479c6cf4abcc6a5, 0x125be501729a02c0b905c5a1d186bd7ef60f19882549af431f518270f36ef3ca, 0xaaf648a65514e01251f3b0463a714a3eb18a18e1525cd6dd44b1607c92a658f, 0xf5d32b791fd3be28351039098b5caaae864fdc0b2aba0e0749db67827c37ef0, 0x22db2e358bbb41efa9d867fa249871985dcc96b883b2c32a043d11f660537c84, 0x189ddb0bd8fe107f3d8097099273a30d51d3851d69ed95f328995462d35a3dd2, 0xcbce6c3460835531d165a6681f901c45ba87496e2c1757b1c670fdd6a32417c, 0x1a423560e913d93f065cc8c2a2bc1e88ed5c748514b5c6dce6fc0c601d368467, 0x207e75951d3b88b4293fc63d55798b9d4656509748d0b3f58a51e8b0131c58a5, 0xa6bbed0417b977d1ec3aedcc011c1c81871070d5351d89de70775c40843452c, 0xc0904065d33c3fd4131384db84d19ffa4d5e018e75d252a073d45a7a3a2ac1c, 0x1b4e92786b8c2b0f8d175c25a9d3464411cc9f529113b037ae1fd697f14e72f2, 0x1927758b1a229c26cfe2dd7ba3e6ab793cd4ec9c580951a804c8884e569bde39, 0xae458d1331008d12860a13fe1e6c27274e5829b9d34ba7e7f9d8b45859a52e0],
    [0x8461c4353e9240d947929129efeb3d5e372dd2b0fcd250881f9679504f90a82, 0x2c6c30e51f44902ea53fbe0501dbadffb00a876329d35fee61cad143fb636c18, 0x2fcb65b44d8723ab1a250cc9fc0473fb52e1c963790299f890e9aa5f72a11edb, 0x22c093030aae0dc82ab4464150aa91074ec05b2250dba81213209b206906d71f, 0x185f697cb7379053caf2c11a647a0e14c61c12e6297ae4c2ac1bc9425851c015, 0x226c0889f6a84c7216c3dfc18721ed7d2fed38718eb6d9f39faadb4bdd07e2ee, 0x1e27499d7bf5daeff8f9cefb544f225467292f36c228de327c982acd34f14f88, 0x1d98dfb26d22d9cc8a09b961cabb8193e071df20e547acde6480e4f7dd5523f3, 0x7a51acb4f1ee6337d2216893f7b4fed9f5370c4d256abe9c95f7f155e5076aa, 0x2b5cbe696de8d162633ddc8938898991d240f8f86c6362707dd9a93e392b455b, 0x2bb2fa5e4f56359995a320a7fbdcfea204ff57b0d33b1846933239e62c0f9c2a, 0x13eaf8da208e559d6ff503c1ae2d88ffc96f35f8a66181b5e78c416af671a6c1, 0xeefd779f4d9ee6ec7dddb8bdfa410eac8134e39cc6a6173bf3399a6ddc69c73, 0x14670c8eef12e11fbb33d68a17f634d7794add9766d4c2a94721c8460f9c1797, 0x290396b6fc2f2402276984a1cd6876150c69e476a7ababb1f6b77d85d827b9f1],
    [0x9525a97913360f50dd4a639d07e3c54a609bb670ed22acc23c715ccbeb602f5, 0x192b7c62a6e34404bcbde739f613661b423d75f7c87deb08f4c72a079532a6b, 0x5a0169add4779ede566ad94d1bf3e1e204af1ef9445b9a485ee0a6b80121805, 0x14c076c23972a5f679e8c0b4b3a176a2670105a591f32f30ec1762ce5a5f452a, 0x24cb0c63d8d291fbaeeff84e730e20aa9205360feda616604cf8ac6f4e9c8baa, 0x2b72aedbebbc245d02cf9eeac9cf4d65c9a25d7c3a51afb02d0578b1821eb65a, 0x24123b2fcb65e0490cbe063762cba6f839b3ff48153dc12b7768e0a7d1a126f4, 0x7f904cd96c1744a915856d16073d4950cbf50bab2b1246912c551e41009b690, 0x541842d2fd9fefb1079f66c702ed1f67e3a2366e975b796287db1a3c8e0bf95, 0x29c5c308265c3866bc39fb4524550f2a761fe929e223246818c4d5a150f9ace1, 0x2a12b60d1c321ae7a509a98219e9b839557b83a08fdc5b2fa4f402890c2a7d1d, 0x409eca0066634e51e807909a83938ef72f55032f6d95143830e9333c6fa8283, 0x1dd22832d2f9a5a557942707b6e5c4e025f57747b3c278c29e8c4ac9321ab53a, 0x6e01f4eb8bb0d38b27816af162e89d52fee06eb4dca9b587a437342ef62c95a, 0x7f71d0ba9ca151610b816bc056a2583f62f1afbfda40d8182aa2e59a148ff2f],
    [0x936bd5c5458305717f446194a2c8a96d7dfb9f5516fb4c5d9f3026c3a767a00, 0x15634f778fc8f654f51e2cc2955e03fb2a5c3647a04bda17e0de22546a862abb, 0x849fdd4443901928c505e1d19d4442a6f0a804c4a162353319fa720ef9eb7ef, 0x6bf771198dfa725ec28c122039ce4758b2d014049c0726f015491cf18de7a34, 0x21387df398ad2b569bbbbcafe8fdce40f4d44be6318905dc717281ecc72901a2, 0x14d5d74ee42f2cd1cdfcd43b8fd17c2f6df449805566641b4b6ad9db4268de77, 0x1e4e3da49ff8cdfaa6bb03c07b0cd26684c8ad982fea5f3a23b16158c551371c, 0x1f1317540cd6723d84805512201b7425a538df9ebc6865988dc39039e54c81e6, 0x2bad553775bacdc7163a1c3c6b774154a7f5afb1fb1ac13ceea6d432d92317fb, 0x482bb0da799e0a3717d81b753d43b681616503872054324f08fa93db26be341, 0x16899f71c3aa4bc44d749c1b0622d351360656b6057d496799678a207831a260, 0x11f15e99558620022efa77cf4d1e5735a3212c0277afc1e225e6047fc998f30, 0x118e530951afb5d948bf33d4bab9de01ce211c036b9f29ddb8add0ae9efcf87c, 0x374ac9d3cf7a5e597bb203ecfea94e4ea989a92408ac410b8230df1c8113f99, 0x35900e31233e0f1fced37b3b1da650786cd7df24d463d797c7a432017b7229],
    [0x2870f69166ebef50274d93ec6d32d12e176858ddd23fae298f6d2fb0ea2cce8b, 0x1c5edcc44cdcf9178ebad80714e466cfcb0da3e1147bd16da7d75eb51367f30, 0x528fb340686420a76dbb947df502227e1b45c4539a0fc141771ab4318b0301d, 0x12039c05547337ba8e008b25c49c56475a55391e73940e7efb9c525e136910d5, 0x2992e93a2081e670db6841e06d81e9d8b7155a2173cff6f6a7e00739860f5d92, 0x2d2afe272436aa4ee0b4c7d483bffe37184cc3df90fe8c45bfac6050f8ba222, 0x234ec93ab33b602328090a7bbb5c817b6af0f580ca388aba495c0a17f12727e0, 0x11ed758c90caaacae041a49d51d360ea6d677f09fe5f3026cc7d1d994697881b, 0x2fddccb59f8cb5e161bd86a2440709a5f5bd491b387c391e86947156b6806730, 0x11dc0a45917f8da3181c465b89b3a4d1b1603d5ae53d1eb47ca97f07b2ac8e2b, 0xd60e04e48f7e1b390a736d93b161774467d1f76abcc6d679fc14dc844c10106, 0x1319929428b28ac79fdaa7a3480efb762b73cd2795acdab5d3c71bf4b512f27a, 0x12d59faab3146616ad775f642c7981fb9b16f3ff3029c84396130f7c83ade26d, 0x98c93b956a7baad63c92ac7a761fd1a872e25f5e35b2bb961e652e6d1103196, 0x2463e620fd9b098f4d1518bc5a127adaa7f2fd18569eb1d67f21878972c49425],
    [0x195a69d0d7f64665e267ff194048bff4c4e9e4477cb422c54944432bd9b18626, 0x1cf372b351d81602adcb13e74d00ca2f259675955289317da7b3b52befd0aac, 0x26523fe9257299668e85b52af6c5307b298051217fb2349f0ced05ebc69539c7, 0x24958990362439582c922c2472f00e993fa7780df80d0f5d24684bdf17a2a8eb, 0xf6a437820b96f16003f0e2a1e026cee98af415cde9067cc5a68e6cedacb071c, 0x1e6f242df472418617ba14efb4c218c1c01202ba8f6ad352963f7dccbd748990, 0x2fc5cef4bbc732b8961a967a46aeffaa822ad7d55b1dc8f091cbd55bbe06308a, 0xabc9e8aa409b3caacfdb28c4f0ea296435b3861b555021518ae80929139897b, 0xe79d9f0b33a3606c110e00402817d97eb69ee246187ba8e183dfcf39c9c0a, 0x1541bb571247860fded9e6c41e6e427945f83dc2afd3c942e3c42e5395fda56e, 0x22710a6de6495fbabbb3980a498c037021327f676923c6754426c6bcc16285ce, 0x1fbc9738b4e33095b914a2bc99f9b79437483f58f4d9e9bc99ec584394f8a56d, 0x247b980e8ea70a6bf29c1dd2c8ad302240a33b7e3f4a8e0244e98a93ffb9e035, 0x4c6603f28f3dd3c1cef57dcdc9ebdac7b46aab702115ec13ce92606aab35e0f, 0xb4c02268ddbf344789e95af6f1bd71da8d19dc1f698c3fa653883980343743d],
    [0x291281e69d8d396ec0273a23a22de75edaab4de5524428bafbac00809abfb373, 0x1c5c14e9b5712479f48f352a1873b00595eb87ac5b6a039a1fed0c58c815cd66, 0x9ecb88d6403d9ee1bf92e601c6f11011e8cafa737b130bc9788708a4349459f, 0x1acf37a28eb2826ce00edafa0c957bdcb575671c18f3b7015bd8275da0aea05e, 0x211a7dfbe27e5e8d71ea0306c4a905b29de44efaadd33c3a77ee3859f89ae012, 0x17daccbdddb0c9d10f43905df848e418b54bb5fcc239a72950f75c7676f4224b, 0x2e776515d9b7e7bf50ff1534e72bc25fbe302888ee1032108f7059e0152bcbc4, 0x507360fb31c0c13423eb72642fc3ef5f990e4d01d0fd66a5d3fcfd466ece4ff, 0x1db48bc612ad89abff8ad5f3827596b058314f26c8cb365b95d1acb98f377e91, 0xf1f2985087e6c42d6bd17416990b987d603720c484c693b68bf747ddcae9288, 0x2fd03440a6a7c257fe1a3a611820b38d24b3c6ba7d184a7423e3b692aa465b5, 0xe88336b80bf00e5fbf2f24aa553982415a98e441c026ab964b559ae69a96168, 0x1c1369855a0ec502bc247d9efb6eb65eddae8ef6065e825a75749976f59991e4, 0x1efd9dc691c548ae6db15c254d054f498b87194e90fa045f39b7564e404959b2, 0x19efc8334bbf2264fd7fed729985f884a3c8926a7bb1a3091b65770e4c9ca75b],
    [0x1c0e75957ba1cfc3b5da94f9878d6c1fc8dc7c140f370384c67efc4eb4ff857f, 0x2232dc202ad93d836af1dfabdeecf9c99809b5a7a52be9e39b29988b3cb2da02, 0x2f99b3f66c2868b56e5032dd6f2835a773bd4736306aca2901b13906832838f6, 0x189c4370f48094de795e9e08e1290a17bb0a6596e9dc2bbc2f720017d4c88563, 0x8c59e293d62b7f8fc8d63a435f196b56e8b3a1dae2e54183eab51281062b81, 0x22bf08e0ba2240bc0fb0a81b265890b1149a4de77d5010e2c68374a5c4aef0b4, 0x2afc4b5f0918c68e47cee56f9ee72a7761d670bd6c7a0e76f7cf220c4d963dd3, 0x228dff0f2f737e192a53dd74603137501897995cbd6c8d046c55e33a929222c7, 0x1bb31de263cea5d02162c071fed34dd0525bf33520b1b1360472c4234e5fab96, 0x1d77c94708db8cc7b726c66cb7a449e20aeeae1ffad27fc98f2e4644ec7c0c7e, 0x2e7fa588dec49f2a14d2d1b2fbc7e865be666099419f64f487ca98399dd6dc59, 0x218007687a786a995ab9775ed6b4ad95e2cd900f963ed0bcc9596c47232e6120, 0xba9c54e08a3cb250b778dd655a89eca27ccc02b3e9f33f780d5cc63ee945440, 0x420f105b8bdfa86eaa6504171d762842b2d3ee9570d12e5efd22b4dd2a86dcd, 0x91ee5435920d765274d996dc3943fedc9ce02a85d9209dd6df568ffd4473552],
    [0x1ae2f7f0a90f4f63d1a6e7a6495407f5b770f0d0b83d0cdfadf471aa808fd16f, 0xc63718cee2a01ffc2dadc3e8a332fb0705b1f2fc021b9855f2439f1869b8f72, 0x2befe7dfcf8046c2d986e3aba46a4d70ae70cbe273cc5f1d6d496fb9c541ce17, 0x30544790a29545715459f1decc475370cf0f1011d926976f8efa17703a4a70ac, 0x238678faeb329f73e230c343fb69527eb84fe28d43c39744d606f46143e77901, 0x127ccdbe04143bac9b4253dae4eb45035de4a492095ee35c7f445eded3cf2354, 0x90d50c8295d79457f9ad1d0541bea0713d934018a9a695b112cf3c1632f5290, 0x22e0f4926b8ca0792eb155153477de5d88dc95c0f7925b2e2f1bf3f8a2eb3b22, 0x35d4ea1b6bb2bfa7bb2de9485de1482d67d05a2fb8172eeba86f4ff9725128, 0x2fcee3df7d85e6862f486b1bfb2eebc7a86cab5cd75741ee3ce19fc9a6bd342e, 0x821ac20ea7fdda86fc4632c5cf07c1ab15407a38d6b2517b1a0bab6b6a8fdef, 0x1daad689af64915283bd5b2e12695141773edfedc400b14486b6774b981aae0a, 0x2b0bcbe06973785e6f0dc3fe0b805ccab6c42412a84912a870f8115d80d779c6, 0x103ba88aca14f56d4d8cdea8c94472b74127c43bb4f05c310e8b6c3602843b05, 0x23be780622b7a2ad208e4b2aa06ddada26d9219e1bf7b5f6834c2cc999a31dbd],
    [0x140eb59c34117bfdae2173d7ab077f3430811f256127a29426310b1308f1361a, 0x2cb5240cc75aa5dfdaddb3f0f7b5cb029a24d85cb9dfb01b2e5b6cba03ca75ce, 0x10ce8f0966a1247968d131305b5c4ff680725686b004abaab9e4cf3ae18f77ae, 0x15ad931580c8174c4b4d7e4c1c6e3392333eb67c1c5f74ebdd32ed5cd5e655a, 0x2e05b3ec09532adf0c06a1d03f28f154a74c2a8b7ee735f3c227944159590c76, 0xa08be25440fd09d27a00afe96ad2813ce794a4bc5170cd70bec41d2efe3d170, 0x2e8d03576a9cceb8a928774ed042ba5372689fc7c8949b9c0eab152904e1c232, 0x5c6db9c1bb36b66216a1468eaa525ea7ef727703f4089f586b2296d11789121, 0x1165f56366f20920f754e24e897137acdf29f0c3cfb39b6b6259469bfc81a690, 0x294ba85cea809e18354f9ad90f3e8eb5acff91a1098998c478eabba59b074143, 0x18ae521918f54569e938bb3f9293f61b8d948c3edcff5d2d0a5f2686082e694, 0x29c7827550e229f8dbfffc1db6bcf51ee060ba80b3125133d30b571b87f1696f, 0x184c8048a119089cad98491715fda805f837fb8f671f6c182887f6cbe46504fb, 0x40f5dab80ea882b4c9a81e1060b8bca236e1b62c1b6b205808b90865103f12f, 0x2e97325c8dfd7aada195a4c029d7f85d211c33ddaeac34f78b91f1bcc41d6405],
    [0x80352ba2b08bfaba54fc5ea2cc62ddbbccaddf20c01c0695c009492a7c39b72, 0x1b843265275b743598ed626db4867cf9f37d2b9c4f98e93410e0240b8de02ef1, 0x1ad921be495a4e00b7b5645adc535e70e0bfc529dcec439b35f91cc8b4a41400, 0x18d900d6fb4470a0082b5ed901b07d7a7242723da79b12126e3e81873853d9f0, 0x210f49c8cd45f1bbc1267d6c83465e7f1cc2ae3e8b7cb353aa7362df1b51effd, 0x1838031ed22609aa9e937766d00b911422e53ea9161df687f298d745bc2091ea, 0xe5efc48cad4316a6d30ee830d27f816c2befae4f297641bb061fd877298cacc, 0x30495ddaee021161a5a16172049520d9f12f20ea8edb293af9a20eccbaad4a6c, 0x40a1cbbccb5e1f961fe7d312885a089548293408be8413613c9e82fde46e729, 0x24439e6fd002ca9db7118a1fb569a174f3a0ef8d5bba145a26a37b2cfe297b80, 0x1b8e3dc25af838e17c682bc2542b1cd84a20e3891b5fadb397d867138cbdf771, 0x25f382947efcb39a34f1bfde921955a30cb3224dbf3b8ef694b82367284d18f8, 0x23c5e8491257b84f8e9a89318f68eef0e0e71f5ddd237f68e764779c68e70d94, 0x17349a79c94e2b361bfb4488dcedbfe87a69619c7bce7f8392a0d37748b57a2e, 0x20e7e2ab84593d19b63012f54439ccdd5201efaeb00db1431698e7a95f1a89fb]]

/-- the tables have the sizes that the code reads and load without a panic -/
theorem sized15 : (opt15.sized 14 4 60 && opt15.below bnMod && c15.length == 68 && c15.all (·.all (· < bnMod)) && m15.all (·.all (· < bnMod))) = true := by decide +kernel

theorem ok15 : opt15.check bnMod 14 4 60 c15 m15 = true := by decide +kernel

theorem inv15 : invOk bnMod mInv15 14 opt15.m = true := by decide +kernel

end Verif.Poseidon.Bn128
