import Verif.Poseidon.Check
import Verif.Poseidon.Primes

/-!
# Poseidon over BLS12-381, 10 inputs (t = 11): the tables, copied verbatim, and their checks
-/
namespace Verif.Poseidon.Bls

set_option maxRecDepth 1000000

/-- starky/src/poseidon_bls12381_constants_opt.rs: C L964-1110, M L2677-2821, P L4799-4943, S L12016-13214 -/
def opt11 : Table where
  cF := [
    [0x6bdffa173f743637a99d10591d2abd3b17959fc00ce1863e737a25a26491826a, 0x543758be6769eaf0ead7a27de384d5688ed92fbf9ae37b8224c9369c255d350f, 0x4332af0d69882dd59a1b762cfd6e1e7ac13daf4e7a5c84561ee6931f06691e7d, 0x1e1661e99cb5c598efa7634e7900250e52e50d59caa529236e5fda535b3783c8, 0x4548d0b7c758a674d1325bda54d2594e9a2f9b3e24c9a30d5376ed4edf1447bb, 0x5c7ee86cf8d3ca049e0e8d18d03b254eb2cf045451208bb6d9edb5914a64e789, 0x6eaea59fdaedd6170273db8962d3402759bfbde36001f5f23182802345692821, 0x6806f79932dd7ab889c3635ddce9a2797f7c4ddbf299bb896eb5069793c37a, 0x1147379e6bd9e407aae7cf9d3f4aa4ee59e7ad4bacc0f169c9498d5e9ac7cacc, 0x1f1fd0ee032b95d4cc34853b6611959340b04dfe86cfc1e0240e8e3ebaf9da2d, 0x11a443d09d9df992cc27f1c79b133d2c3e70cd3e5a4973eb9de8dd59b4681fac],
    [0x2bfacf5f1e9e3d984451a5ebeab1c4f9d9247ef92b20bd0132eea23faaf7067d, 0x1176527a99e0f36b480d4578ecaa216e91df6731c14d104216dd1425030dceaf, 0x12e67c954279ddf265c2d3225d784bdbb00efcf552d20a49cc894ff1bb2c2b93, 0x3b03636474623b771ee7612975a22842def28c19cc5a2b21f70cae7826d3ab7a, 0x6e4f9d1a3a990efe6020c9189749e7f3c2155829f67d0dd3168056e561470373, 0x51f3be91db7a5de94598bf645070b69208dbb5b84778f180861840c14e0dd5f3, 0x70e0b33054c4c5fc2ab75a5b93e193d5fbfce6b57f83a6a25b2d27e1770bd97d, 0x6da29c1c64be90efcd3e66a4e964cc8d217bb0bc54b5b406dae5888fe0cb9ca, 0x6cdb0aa4535144d525d7f2510d663eabe0353c6668534af6b7718b88533316ba, 0x1d171de01f77b7ff3920c7addb37d0d536bfc59121a861b12b1bacf6be7d13e1, 0x521d79d094571e406c69b6862b8b8611336b58c2c2c3f7bcf1301d867230c280],
    [0x12562c1a17527e787fdcb0204fc14628843692fd626d383d37e805f8a38a6d74, 0x10044c7e92906189156ef5cba9dfb9b93a98e5e888f99b0ed981b9668b063a6b, 0x4b8153849d8e70542d11fb5d262bc796794f0eefb703f7266093fcfb21fb37fd, 0x33411bb1a23210c8f610a70d787f8036af3f2fe8580f588244bc5fa104ea62b5, 0x3460ce6a0b1d7b90efe04278440738fa39435f3fe4ec4fb32eeffc183eae0c4f, 0x5b07a64a4dde892ef7fdb5645cb861bd36ccbdaa156904de31abd2bbc8867274, 0x2ed54acf4b20fe58027e804936e1a44802f35a9972e191116b64cf1829305b21, 0x64260e01dc6104918596ad23eae048731d8cebe8763970cc91be35d80582525b, 0x51b36f830f0c94862e27eefcc8fe6db2afdac2a081eda71489d527ce7656c2ba, 0x150ab7a1c65457d008f090f0bb7042a3db6d9c8f4e68cbfef694eb66dff3470a, 0x516bd2eb7dc6eb2353ba48ef6b1be49fa7b386562f7d6b3217889034321d5110],
    [0x1185bdf70b553c07f8712caf21c4506850ba50f3d912749d46db508e61bf7171, 0x18d7674ed8a4f3f2a316159b8671ad8f2d9d6aced694f587324a8601ab1f0422, 0x60afc140a8933e79d54ef590e412da0dba7c43b1d7773665eca988d26791d634, 0x2a219950f365445517865a4785e066446ef8b6f841a6fbdb35bbbfd03b45918b, 0x6f97315d012df0a4ced9817525b6900e9e04bcafdec539fca101b4818e4f9e2a, 0x3600f6178d18295c6c34fe42b1d43835ff6b85c12dc1ca50c7a30ecf1470ca11, 0x306dd7818ed33f5058c14bf210fa5b56d4eee50873c34b6bb6eb1ad0e81b1ec, 0x27b355451c0be015dd84227a5e40e1b3b8531627428b0121157160343e87950b, 0x3f37f9d6d0ddfd3d9f8c125d82a926748137436f02dcaa4857d89d99302d657c, 0x6edff12e1c34d1e3b5cea7994b6e2c80801b0c279c2f8dd40da7c0144d9ac63e, 0x42af80d5b326a7458b319ae6648d221408d0543540d9bb5f528fbceffdd7fcb],
    [0x6ccd0a3f3655bf758436e6c28e71d48fc8488cf9bc9a223dc082e1cafc9910f1, 0x48a88c89740fb2a32b063f66508c08b225b45c242ec39fcb313630d5e704a8b2, 0x549c8b1c2de27833921d171cd3a5b4efa810c5aba4324c8c4fa7a6a6f7bff04, 0x55a0b3c78b37387f60731e96e34f9cf4e889d52d2ccdf55d0821cc11ed498213, 0x3edc312a1d4d54db7c9cc00e54c1e093d8dfb333f60e3b6f568a72d9256e824c, 0x64dbb1b4a9468d7908e3fecb0d8ca4d13d6c8b9f183ebf6dfe17079dd9732780, 0x63cd5b4b919803a808860993eeabbe326c78302ef2dca09354e7bda0d1c0a1f4, 0x18a392d453f9f5945018082a8db7ce3c9f242371fe4871cacf48cdbdf48aa205, 0x2046fe773fe4a8d3d2fd2b9bc34b880a8255f0fe10034b490e69891c09a56516, 0x761335f2a4821dec057b3bd973f23f9e1098e3d072a926e447ca17951023737, 0x147bda42016ca07419eafed57fc0e2ddd045f2e004b1f5fd048e5a9297ecd30]]
  cP := [0x6999fa441cc9509b9b83db54c02ffe3a67ab922d9320940707bfb18fa8da6e0b, 0x611575b7588389e23dd0b4d94e8df8468371d9a79fcb82d507dab61cf4a04c1d, 0xbf1ad3960ebef7cfd82f09398fb592cf49ade875a954203203cf63d18ece2a1, 0x2698180790c037510ddf94a6bd5ecc3f7e4a57047332b38c23bffc48e8667024, 0x33a92719b08d57789a9688bbf4f514f226d0ecbde80b2ee560febbcc51415082, 0xa97a74e7c598d59be82ad7f407c953c9118727b895feffac0a566645060f729, 0x1499f09e9f94e1cf873bd0a2792998d26f64733d408a01ff82131daa2bd5f2d7, 0x6d35dc81b99a40b9e421cdd6877067517945a91a466c8cbe3653f85aa99196bf, 0x3c59e2b2f8fecc7fbd8d54deedcc101f645d8d21f2f16f08737998a2621112f9, 0x860bd7951fd4fbfebbb7dc21b1fec06c7fa8eac53cfaba4c5702d1a85d19d04, 0x2379cb8fe6ae45fe8ce0453bc7baad8d95e8eb7b9461d014fd174141067cf697, 0x28d72ee3ac9c7019f7bfc3f0235e12bf507b3b941ae879c7034a47a1bd17b492, 0x3900746fd203bd7a601b915f655c47d323cab8a87e453b65f18307fffd3499d0, 0x5239212b1429fa32665c8216fa1b29ddf4594222d77407c87958f1967031706d, 0x72b0dd98d7ac4c430e06f2624380be1c8733b92e69833c17d6922f727e5e7ed9, 0xd135ab54368370d9442ff05025a9b5db14c1aedafd5366d20513b14368b2af0, 0x271c528ac0607bf5392fc431d655c7d8c9c96f743138010dc37dc94e7d1c898f, 0x1bda59a579992406ed153c1f7eb1a35f1b10f605c4bfb0aa6a1ddb486cbff584, 0x9506103fa852d839c30a121eefc3ebb82419b4b49adc255f80e07c199d44a3f, 0x335622155cf0a18e888e594ef9c7fd186f40a2c297bc4df2e2296e2881c52255, 0x1d481cec45adb80f9a2eb169371afaab5b5365ec8e175a1bbd3e51120b5c89f4, 0x25309d59434c782ea16519cc8d0bd68de3638891b68bf27689a9dcfeb5fdf45e, 0x1a6f7fbf48d02c27cfab4386328c78d20b4f8772d305efb58af9bf1f35b64f92, 0x56b4de9ce42a99d6fa2bbd5b4fec29796e98ec197bc2748e112bf5771b72fd32, 0x71c9dd9b702e0b9f906bd1f45be069fd58c419562aba7c1da7c590174aa94293, 0x3818b449ff5afb72ef5deeb472d2197865340b9b2dbe0bbb05f1735ffb9bfbf7, 0x265c01ba50c6f1d56bf5c269af014bdbe24ad2f85b0090c0246e1efee7c11eb4, 0x48f9777dfb847ce7b73fe7f4b75f5662e00d531cf9b7084ddedc750fb971784e, 0x1916b08fe03f2cc245856d8d01fa7068637dd22f298a3522b585a4fbbdc73d85, 0x2366f82e32bc4b6ba20abd8c3e6f2f074f24fce49effff5d3298350a3b811166, 0x300db7234db74816a0afa040e701dfe5a50d7b5f3aaa8a74d34b4a958dc86749, 0x5a76f9f9b8deff7f590fa2de98886f5bc8989cc41655e5e78f32ee167c57ec4d, 0x382f117fdafcc7576cca17de619fb3e6a690343d53a394c340c3e05980f97f36, 0x5e2842b97e19bee2d46af8c898018f2dfdb32c204518af5275f9f52b4d1a8a53, 0x5b7a3c39c61280d96dc6f46053e9e07969b288908f723efb8c50c213a02d6556, 0x67db7c9e45256b024160eb1e64b6b732c907675f70b34776d1998f31ae75ca95, 0x734492caec7260fcbe33eb01f3a575424292084b2195ffc7746faf6cc62db35f, 0x16ccd8ba603c3dd8a00928cd9fddc56f2e7c046e65aa0d99b7eafe79acca07ba, 0x40bb10073848db1fe8045d1ff4a74987c7753aa032987871760464ad058ca161, 0x6ae771426179b9ca5a05c5c4b7b658d45f06af3969d9b5d55af53ec730dcca4, 0x1541db00e1c27148ead55a5ce02e2a4943287b69cf7cbcf8c5c194d8e069abef, 0x65661c8c949e92fd75ec1b276c75feb0c009252d63622861a9ca2a3126792619, 0x6fc58cebea95911ddb06c75f82944a2a458c11d773eec9cab55ca7e1574a00d3, 0x573cec1d8456945b9c38e88372198ddcd228122a2cbab4ee648643842e88f097, 0x6b4a508688e7f38724156385b218f439319e6682c7caa4fecf7d474a67442c02, 0x392af903e84c6c27615aea411d9bef8b3ce8382a7ea8f6c12cdcb24d95693528, 0x675c05055d6104ead9b62bc0a8215820db2e1adb42f9b888a07127bcdb3d3ded, 0x5716986d9a9d2c3f4958cb3cbc24d94be62ff352338adc5bac907f1d624ef529, 0x25fddd0864ceecd1873b0e2c784038649acc85719815194ee374ca12b0a073b3, 0x300d6e8dfb3fc51449c00c07361825311ea7d1d2e99feefa9493e8ed3e705d5e, 0x11974432c3aed2c40bf74cd372cf0858b397539bb4015a9a437d022323f101c1, 0x1c9db824566642d12b156259d442d59ba936df0a49f71d0d5b76f0c88ea4a171, 0xd40f3520ad53655f4186e2849c1bf54bfceece7e149dde794daf4facdfe178d, 0x1f19cbde7c5dcef2c3704ee6875a87826c805c90fab0fa98b2e96ad046c01d7c, 0x477a7861f16825a3c12615d93c31b047c748f2f1cdbbd26179bb3edc8cdf42eb, 0xff2da46b7e43a2f18ac7da6b65a190d789f42a1e1900a9a9fbd4dfc5ab14c61, 0x27da2adbac7108fc9c5f4b7ce509675ad9349c23738e0555a66ca1cd77b5aafa]
  cL := [
    [0x8b23e5f2c021183aba26a87a1796e1b6dbd12094fd0827a8bca8d69cb120b26, 0x57c4450376a88be5ed8bdac87292d1d3b7e8dbda06d360178a53271d6ab01193, 0x6996ad912894c599af43c6102dc59e15e9789a4bb05299dd8db60382930d16e8, 0x6f2c18768cdb0ef58df6e8fc4c6522e1deb98eb486e3adfa3a6f31465a5e96c4, 0x42b693ba40cc7877a1cf29282f7da5016e3a189cf10ecc8786f714909c2e9744, 0x679ca4ae539e6234c29c9bb8f977132b95eca77823ca85bba62cbad90d565702, 0x28086083a4d2d26d670c81a3993ef6cdba3e11e50c86e61c0ae7e391c66c822d, 0x1d5102d88ceb741ea3a1d2567644aa7a20c4cae363b2100b566946379d4852e2, 0x681df3781acd1cfbeaefe542815e46c60ea24c31c35d65bce22ad34827f06aec, 0xf385aafc64c348745d74cbf085eec58be7e58811cd08bf43c283cb4fa839fc6, 0x2845c3db192ebf1f437e4019b80e384ff2405eb3ae3b223a4dc3c82222841591],
    [0x3d215e905ebb743f1e073c7c272b6460be6da06a1b9a90b602d2854725a504a9, 0x599f1f02b0569fd921c3eeea13725c806fd1d06066110fae6cc366506f6b85fc, 0x5be38a657f3c12ba6a11eecc191e825bd4edacccaf9d733019b5474b15a525ca, 0x5a0ea14a91c7a09115ca28e872b715e949e3929e01e01110d79484c3ba202511, 0x6de9e1a9abc735b163910789b9705adc670d26551c2fea2ebe5e01809d55b3fb, 0x8a3f6fbc1d7e325d37cfed01d36ffb1078edb458eef4e1221a8a9bb020e9117, 0xa78cc5c81d6ee74bd6b62adbdf4be48c3794ca2ae40fb05f30ed6976d08962b, 0x71d815b6578c3c5d22910dd70eb0e15cfaf758958f9b7cab9676ee86cc9bd45d, 0x29fc5ca3b89a61b9b78ca2ed2392d17c8ad82d62e961493026b11e08c6d8ad20, 0x6f64d0383f520a1fabc3df59ba7debd7a2360e4b84a38d4124a89ca19842cfe1, 0x166cb15d804c0b52a29facdf13ab258f4b376bd601f13fbb8187337840d47432],
    [0x1c15732bcc470052f07856858965d6b61ab9d8ac04e768aa2bb17dae968172df, 0x1b2e802468ab43d65978c8bf77a3d1b25728e2f36dbdf8ee4e509e4d1bd92bda, 0x5f6bd23d9026bad8d1c3103212858d53649469839d7ef4804acfbded8a7959a5, 0x11256c01ef39e1ba795a1f361cd156ff72a44e09e92ff7ebe7abb0a5e1ea3cfe, 0x45e139945b62eb0a7a4e0329e98452e9313b7b4cf2123c10ac369ef82895d1c8, 0x26e8c0cd9789fc0331f8644e361d5d009dd966f0b6a58b5ec6dcddedff50a667, 0x66467d69e4bf1135d2482fa54a4adf6cd0c28b5d33fcd224378fddf61c357a55, 0x21672ae2a5e49e9c3de19f380df4f9ca36ca4741ccab7ba3fd7399fd22ac1e2e, 0x489ead385b9a57fdc282c6ec08f245273bfa9a1a5cf7af9adef50a6c45b27d8f, 0x20ee29cc4cb9b0374e3243f261e35d9faabd77c1bda8db2b421c26a87f5f79a9, 0x5d7a597c9cdafb52b352580240c779d809899e9b5691bfeb474c147af1dd4334]]
  m := [
    [0x6963af62e003892a5d1d50074e93217934daf23145cff68aba2e8ba200000001, 0x6a44840c3b7b082cd99fb0b208d45b5a376dd6581553d4546aaaaaa9c0000001, 0x6217dc5a0f85429f8dce7bb808267bb5bd02ed3d9d88753a3b13b13a3b13b13c, 0x4a867dda0877876545809d29bd0c9d27fef9e96fa4913b23edb6db6d12492493, 0x3dd414f92742ed7bd70dc88cd1efeaad81febddf77769776eeeeeeee66666667, 0x6caeccddf703a573b0063a878907ba84fe81c9c2cffe763f0fffffff10000001, 0x1b46fa31af7059b6a2a432d4b6f8e788c868db4bffff9d2cf0f0f0f0b4b4b4b5, 0x46d8580827a75ac891152076b08d923c24f3e43ab8e28d8d9c71c71bd5555556, 0x6dd3abfdf187ba0e815f38736770e79941dc14a486bb13c9286bca1a00000001, 0x1163a5e6130ad2cad47be0679b0b7a00cc8fa566d9995a99733333330ccccccd, 0xb0a7175a27085d61d427619257d20c38e120f9ec30c08c2f3cf3cf3b6db6db7],
    [0x6a44840c3b7b082cd99fb0b208d45b5a376dd6581553d4546aaaaaa9c0000001, 0x6217dc5a0f85429f8dce7bb808267bb5bd02ed3d9d88753a3b13b13a3b13b13c, 0x4a867dda0877876545809d29bd0c9d27fef9e96fa4913b23edb6db6d12492493, 0x3dd414f92742ed7bd70dc88cd1efeaad81febddf77769776eeeeeeee66666667, 0x6caeccddf703a573b0063a878907ba84fe81c9c2cffe763f0fffffff10000001, 0x1b46fa31af7059b6a2a432d4b6f8e788c868db4bffff9d2cf0f0f0f0b4b4b4b5, 0x46d8580827a75ac891152076b08d923c24f3e43ab8e28d8d9c71c71bd5555556, 0x6dd3abfdf187ba0e815f38736770e79941dc14a486bb13c9286bca1a00000001, 0x1163a5e6130ad2cad47be0679b0b7a00cc8fa566d9995a99733333330ccccccd, 0xb0a7175a27085d61d427619257d20c38e120f9ec30c08c2f3cf3cf3b6db6db7, 0x6ea8ab5b04d08339482b9407ac1a7cbf444c4b1a22e72944dd1745d080000001],
    [0x6217dc5a0f85429f8dce7bb808267bb5bd02ed3d9d88753a3b13b13a3b13b13c, 0x4a867dda0877876545809d29bd0c9d27fef9e96fa4913b23edb6db6d12492493, 0x3dd414f92742ed7bd70dc88cd1efeaad81febddf77769776eeeeeeee66666667, 0x6caeccddf703a573b0063a878907ba84fe81c9c2cffe763f0fffffff10000001, 0x1b46fa31af7059b6a2a432d4b6f8e788c868db4bffff9d2cf0f0f0f0b4b4b4b5, 0x46d8580827a75ac891152076b08d923c24f3e43ab8e28d8d9c71c71bd5555556, 0x6dd3abfdf187ba0e815f38736770e79941dc14a486bb13c9286bca1a00000001, 0x1163a5e6130ad2cad47be0679b0b7a00cc8fa566d9995a99733333330ccccccd, 0xb0a7175a27085d61d427619257d20c38e120f9ec30c08c2f3cf3cf3b6db6db7, 0x6ea8ab5b04d08339482b9407ac1a7cbf444c4b1a22e72944dd1745d080000001, 0x64cea7c2c00361cf7a7514e599124c8a328ea4e137a587a61642c8582c8590b3],
    [0x4a867dda0877876545809d29bd0c9d27fef9e96fa4913b23edb6db6d12492493, 0x3dd414f92742ed7bd70dc88cd1efeaad81febddf77769776eeeeeeee66666667, 0x6caeccddf703a573b0063a878907ba84fe81c9c2cffe763f0fffffff10000001, 0x1b46fa31af7059b6a2a432d4b6f8e788c868db4bffff9d2cf0f0f0f0b4b4b4b5, 0x46d8580827a75ac891152076b08d923c24f3e43ab8e28d8d9c71c71bd5555556, 0x6dd3abfdf187ba0e815f38736770e79941dc14a486bb13c9286bca1a00000001, 0x1163a5e6130ad2cad47be0679b0b7a00cc8fa566d9995a99733333330ccccccd, 0xb0a7175a27085d61d427619257d20c38e120f9ec30c08c2f3cf3cf3b6db6db7, 0x6ea8ab5b04d08339482b9407ac1a7cbf444c4b1a22e72944dd1745d080000001, 0x64cea7c2c00361cf7a7514e599124c8a328ea4e137a587a61642c8582c8590b3, 0x6f1915afb28c42ba866cc45d093b19afc595bd2d8aa91829b555555460000001],
    [0x3dd414f92742ed7bd70dc88cd1efeaad81febddf77769776eeeeeeee66666667, 0x6caeccddf703a573b0063a878907ba84fe81c9c2cffe763f0fffffff10000001, 0x1b46fa31af7059b6a2a432d4b6f8e788c868db4bffff9d2cf0f0f0f0b4b4b4b5, 0x46d8580827a75ac891152076b08d923c24f3e43ab8e28d8d9c71c71bd5555556, 0x6dd3abfdf187ba0e815f38736770e79941dc14a486bb13c9286bca1a00000001, 0x1163a5e6130ad2cad47be0679b0b7a00cc8fa566d9995a99733333330ccccccd, 0xb0a7175a27085d61d427619257d20c38e120f9ec30c08c2f3cf3cf3b6db6db7, 0x6ea8ab5b04d08339482b9407ac1a7cbf444c4b1a22e72944dd1745d080000001, 0x64cea7c2c00361cf7a7514e599124c8a328ea4e137a587a61642c8582c8590b3, 0x6f1915afb28c42ba866cc45d093b19afc595bd2d8aa91829b555555460000001, 0x6aa770fa96ed0cdc062af9f2ea24419e803dd454ae12f879f5c28f5b3d70a3d8],
    [0x6caeccddf703a573b0063a878907ba84fe81c9c2cffe763f0fffffff10000001, 0x1b46fa31af7059b6a2a432d4b6f8e788c868db4bffff9d2cf0f0f0f0b4b4b4b5, 0x46d8580827a75ac891152076b08d923c24f3e43ab8e28d8d9c71c71bd5555556, 0x6dd3abfdf187ba0e815f38736770e79941dc14a486bb13c9286bca1a00000001, 0x1163a5e6130ad2cad47be0679b0b7a00cc8fa566d9995a99733333330ccccccd, 0xb0a7175a27085d61d427619257d20c38e120f9ec30c08c2f3cf3cf3b6db6db7, 0x6ea8ab5b04d08339482b9407ac1a7cbf444c4b1a22e72944dd1745d080000001, 0x64cea7c2c00361cf7a7514e599124c8a328ea4e137a587a61642c8582c8590b3, 0x6f1915afb28c42ba866cc45d093b19afc595bd2d8aa91829b555555460000001, 0x6aa770fa96ed0cdc062af9f2ea24419e803dd454ae12f879f5c28f5b3d70a3d8, 0x310bee2d07c2a14fc6e73ddc04133ddade81769ecec43a9d1d89d89d1d89d89e],
    [0x1b46fa31af7059b6a2a432d4b6f8e788c868db4bffff9d2cf0f0f0f0b4b4b4b5, 0x46d8580827a75ac891152076b08d923c24f3e43ab8e28d8d9c71c71bd5555556, 0x6dd3abfdf187ba0e815f38736770e79941dc14a486bb13c9286bca1a00000001, 0x1163a5e6130ad2cad47be0679b0b7a00cc8fa566d9995a99733333330ccccccd, 0xb0a7175a27085d61d427619257d20c38e120f9ec30c08c2f3cf3cf3b6db6db7, 0x6ea8ab5b04d08339482b9407ac1a7cbf444c4b1a22e72944dd1745d080000001, 0x64cea7c2c00361cf7a7514e599124c8a328ea4e137a587a61642c8582c8590b3, 0x6f1915afb28c42ba866cc45d093b19afc595bd2d8aa91829b555555460000001, 0x6aa770fa96ed0cdc062af9f2ea24419e803dd454ae12f879f5c28f5b3d70a3d8, 0x310bee2d07c2a14fc6e73ddc04133ddade81769ecec43a9d1d89d89d1d89d89e, 0x896583f0c9068184fa5784c727dc426520e0c2625ecea5ebda12f6838e38e39],
    [0x46d8580827a75ac891152076b08d923c24f3e43ab8e28d8d9c71c71bd5555556, 0x6dd3abfdf187ba0e815f38736770e79941dc14a486bb13c9286bca1a00000001, 0x1163a5e6130ad2cad47be0679b0b7a00cc8fa566d9995a99733333330ccccccd, 0xb0a7175a27085d61d427619257d20c38e120f9ec30c08c2f3cf3cf3b6db6db7, 0x6ea8ab5b04d08339482b9407ac1a7cbf444c4b1a22e72944dd1745d080000001, 0x64cea7c2c00361cf7a7514e599124c8a328ea4e137a587a61642c8582c8590b3, 0x6f1915afb28c42ba866cc45d093b19afc595bd2d8aa91829b555555460000001, 0x6aa770fa96ed0cdc062af9f2ea24419e803dd454ae12f879f5c28f5b3d70a3d8, 0x310bee2d07c2a14fc6e73ddc04133ddade81769ecec43a9d1d89d89d1d89d89e, 0x896583f0c9068184fa5784c727dc426520e0c2625ecea5ebda12f6838e38e39, 0x5f3a1296990a8256bc5d3a98e3573a96a95bc6b95247cb9176db6db60924924a],
    [0x6dd3abfdf187ba0e815f38736770e79941dc14a486bb13c9286bca1a00000001, 0x1163a5e6130ad2cad47be0679b0b7a00cc8fa566d9995a99733333330ccccccd, 0xb0a7175a27085d61d427619257d20c38e120f9ec30c08c2f3cf3cf3b6db6db7, 0x6ea8ab5b04d08339482b9407ac1a7cbf444c4b1a22e72944dd1745d080000001, 0x64cea7c2c00361cf7a7514e599124c8a328ea4e137a587a61642c8582c8590b3, 0x6f1915afb28c42ba866cc45d093b19afc595bd2d8aa91829b555555460000001, 0x6aa770fa96ed0cdc062af9f2ea24419e803dd454ae12f879f5c28f5b3d70a3d8, 0x310bee2d07c2a14fc6e73ddc04133ddade81769ecec43a9d1d89d89d1d89d89e, 0x896583f0c9068184fa5784c727dc426520e0c2625ecea5ebda12f6838e38e39, 0x5f3a1296990a8256bc5d3a98e3573a96a95bc6b95247cb9176db6db60924924a, 0x6beeeb3bc5a44881038e2168963594284523521472c0aded69ee5845b08d3dcc],
    [0x1163a5e6130ad2cad47be0679b0b7a00cc8fa566d9995a99733333330ccccccd, 0xb0a7175a27085d61d427619257d20c38e120f9ec30c08c2f3cf3cf3b6db6db7, 0x6ea8ab5b04d08339482b9407ac1a7cbf444c4b1a22e72944dd1745d080000001, 0x64cea7c2c00361cf7a7514e599124c8a328ea4e137a587a61642c8582c8590b3, 0x6f1915afb28c42ba866cc45d093b19afc595bd2d8aa91829b555555460000001, 0x6aa770fa96ed0cdc062af9f2ea24419e803dd454ae12f879f5c28f5b3d70a3d8, 0x310bee2d07c2a14fc6e73ddc04133ddade81769ecec43a9d1d89d89d1d89d89e, 0x896583f0c9068184fa5784c727dc426520e0c2625ecea5ebda12f6838e38e39, 0x5f3a1296990a8256bc5d3a98e3573a96a95bc6b95247cb9176db6db60924924a, 0x6beeeb3bc5a44881038e2168963594284523521472c0aded69ee5845b08d3dcc, 0x58e0de26287035620523d04a6dc8e1596ade30f13bba79baf7777776b3333334],
    [0xb0a7175a27085d61d427619257d20c38e120f9ec30c08c2f3cf3cf3b6db6db7, 0x6ea8ab5b04d08339482b9407ac1a7cbf444c4b1a22e72944dd1745d080000001, 0x64cea7c2c00361cf7a7514e599124c8a328ea4e137a587a61642c8582c8590b3, 0x6f1915afb28c42ba866cc45d093b19afc595bd2d8aa91829b555555460000001, 0x6aa770fa96ed0cdc062af9f2ea24419e803dd454ae12f879f5c28f5b3d70a3d8, 0x310bee2d07c2a14fc6e73ddc04133ddade81769ecec43a9d1d89d89d1d89d89e, 0x896583f0c9068184fa5784c727dc426520e0c2625ecea5ebda12f6838e38e39, 0x5f3a1296990a8256bc5d3a98e3573a96a95bc6b95247cb9176db6db60924924a, 0x6beeeb3bc5a44881038e2168963594284523521472c0aded69ee5845b08d3dcc, 0x58e0de26287035620523d04a6dc8e1596ade30f13bba79baf7777776b3333334, 0x21a817cdd2467f35fe5b1dafc0bb5fbf7b689af89ce6bfdead6b5ad66b5ad6b6]]
  p := [
    [0x6963af62e003892a5d1d50074e93217934daf23145cff68aba2e8ba200000001, 0xed9deed9b08282d46d915ff29907e8ee1aeb8065fc3952fe26be9e8e72ee512, 0x4649ba4b1a3410d426023f268af3c16a2c48a031367eb93e0702535913a1b8f9, 0x61c007c61175c30222dfea20326e70c01a5822ef42adde6445a49e19ad8355b7, 0x9e18ecebdb2760c622021bad2a87bf09b549426f9b5684cfbacb45ce846c7ab, 0x5def65747c2ad1c3ee6b3a4af1c47af842ec7aa0f4d88ad689d19d0f3f61faa6, 0x5439c1215107cf188261ffdc8fbf213dffb16aa2b29c8962401d3b446be415f5, 0x473a78a156f316d22633829cb084bc994f550aba7b9ace44388d6d70928c5435, 0x1bf6bd92587f9644f964feea8d15dfc94bcaf216b5dd831995454a18a80cb8a9, 0x50bb6bb865354e68a5186cc442a082030e649993872554dc0b1300c6652a9e9e, 0x5d33164d4ca2e960091d098138052b71b307fdcf9897f1ca618f69c15777e575],
    [0x6a44840c3b7b082cd99fb0b208d45b5a376dd6581553d4546aaaaaa9c0000001, 0x6ca4293f2ee3be0c875d572f9037196e7c341ff72820610acebb2406dde6f9dc, 0x3f3ef91e7b9ebd152016d0b9a0bd53cc185aa09f16c5a961b32a75bd0ff2389a, 0x5d565923961f83ec7164c5fd31273111dbecbdf49c42993dfbb0de9650df711f, 0x4bdfe486b87ffee786f3d027ce6f73a428660804c1482fe3be2d6a741d7e8911, 0x33663157462ca42d4c4d2de1e995bab5d19dad5f9ef28c70f898749561ac0c5f, 0x3d40d725fa43b3e2bc47c1535bb7276dcbeb801d1f9bc5828fb4e530319e12f5, 0x2367f5c518d74602fa4b3c03e3dfd401d36e3124483d1f118b7937e408a4791e, 0x294f2709184ae0bb3c9731879b43ec48647769f24183614ab64fff952af272d1, 0x3c1adb7ae43e9979d7fd1f74d03359a3ac3fa491df5f24a8c1e705ab45c6d920, 0x38f6ede716d67345579db36fb86302af7d0f7a60793ab29e970d54e7f21ad22f],
    [0x6217dc5a0f85429f8dce7bb808267bb5bd02ed3d9d88753a3b13b13a3b13b13c, 0x3f3ef91e7b9ebd152016d0b9a0bd53cc185aa09f16c5a961b32a75bd0ff2389a, 0x4f2372110bb98eff4d4da595e5c7075c62e2012fcb2a1c360760186b1bce59b9, 0x3638a0954f37ec4e45b53518f2d40fbee78d4e5dc834933fdf2000c9d7f81463, 0x5d0b21e87f2d6dfec9b1864c4fed5c79c932381d72791bf296574c421fe847cc, 0x67391d53f5368ced676ab4405ca373e4486360ea75118faa96ce5323abb364b9, 0x2de63dc8b20bd8247ea11087ba5425f8a466b328335549fabf9b2413d5709004, 0x4efaea3d44e0d02c6588a859c2d5ef4201dc2c0d7e44c8d5e424feaacd764b7a, 0x4cbe10478920ff1152d021ee72c7a3d0461780fb82960862e5f786a6110875d7, 0x1b2cd45d80d55bb795fbab73e13a04d922fbe6f1e904a46947023f033895a786, 0x696f60454ed277f4d68130310c0dae5cd86a8fb3feb6a4a061f907c52230f407],
    [0x4a867dda0877876545809d29bd0c9d27fef9e96fa4913b23edb6db6d12492493, 0x5d565923961f83ec7164c5fd31273111dbecbdf49c42993dfbb0de9650df711f, 0x3638a0954f37ec4e45b53518f2d40fbee78d4e5dc834933fdf2000c9d7f81463, 0x8feeb9363782eebdb389c795c77c78a69eab41da12741aca44626a8f59e1c58, 0x72cfba62685f9e9920d080157b130d4846f1550d186833a60b501d4f4d3c3f03, 0x13ebdcff62fec74279529ec2f29330b17bea0cb353311df0a97ab35a357f090b, 0x654d1fa09afa0fced262eafc74880a914f36498e6564a0f7076279d2463949f7, 0x1ec9f5ffbcbc68488a09de032d6c4b47e59941fb48ec16b37d160b051ba0dc5c, 0x2b9b3fafd6afe52b743ef5023bb1ca62d237b26a92a85239f343c9c5ae990b5f, 0x3e3ec0e604f5be66547c679970d6408d3f21c707489d4ea314cef04d6bd96283, 0x66fb1afc4a927420f417015355fedec90837d5fcc1c78b47de434b425c0a5582],
    [0x3dd414f92742ed7bd70dc88cd1efeaad81febddf77769776eeeeeeee66666667, 0x4bdfe486b87ffee786f3d027ce6f73a428660804c1482fe3be2d6a741d7e8911, 0x5d0b21e87f2d6dfec9b1864c4fed5c79c932381d72791bf296574c421fe847cc, 0x72cfba62685f9e9920d080157b130d4846f1550d186833a60b501d4f4d3c3f03, 0x36822061874640dcd8204aba8025002c697b024828f4ce31c434f2246aa71a1a, 0xd92409a257affeac7a3f4541458f926a68d85c85a8e73dfcfa72e3906f7c46, 0x16339653f436a572ad5f80e1b0a84f098e4961c8911913ec8e5bf3652666fa90, 0xa4cdd874ebd6d0f6d863823a79ded412233bb27c1dac808affd534d438b7a98, 0x1b77e7113fd6406df670ef4c99a8141345d938783c5195075f45bb055595f321, 0x5fb2a59f64d04bcc493594ea127351417197680d06fa62d95e81df21ef19f62b, 0x2f20d72d15fe827bad9ffc1a564d7d16476236691869e220b73eaf60a809ea8a],
    [0x6caeccddf703a573b0063a878907ba84fe81c9c2cffe763f0fffffff10000001, 0x33663157462ca42d4c4d2de1e995bab5d19dad5f9ef28c70f898749561ac0c5f, 0x67391d53f5368ced676ab4405ca373e4486360ea75118faa96ce5323abb364b9, 0x13ebdcff62fec74279529ec2f29330b17bea0cb353311df0a97ab35a357f090b, 0xd92409a257affeac7a3f4541458f926a68d85c85a8e73dfcfa72e3906f7c46, 0x1c582315765fc41921ac0a93a31082f1d82f844b5fe39b6304f76f5431938fd2, 0x70fb8e062a15bcf5da3d612efb5f395ff20a5ca51de0ff98c881f0ced8004d91, 0x3539cc1de48bcf95e102d82623a02dbf0f08e3ae9726f7a0b8d44460abd08798, 0x2ad07d42019c40e90ada1856b27bdc98a64565fd9ce34cf693575a4d81176a93, 0x3da8ddd74bb8406620f3be5d99fce49415abb595aca278ae868fb4dca942625b, 0x475e81dac899f48ecc6aba07bc67492e3985506a94eef726ef1e70a3900565a3],
    [0x1b46fa31af7059b6a2a432d4b6f8e788c868db4bffff9d2cf0f0f0f0b4b4b4b5, 0x3d40d725fa43b3e2bc47c1535bb7276dcbeb801d1f9bc5828fb4e530319e12f5, 0x2de63dc8b20bd8247ea11087ba5425f8a466b328335549fabf9b2413d5709004, 0x654d1fa09afa0fced262eafc74880a914f36498e6564a0f7076279d2463949f7, 0x16339653f436a572ad5f80e1b0a84f098e4961c8911913ec8e5bf3652666fa90, 0x70fb8e062a15bcf5da3d612efb5f395ff20a5ca51de0ff98c881f0ced8004d91, 0x2261045ea2f709c58360795a1ee8569e63a5fc79b9c33876f8ff7e32183296f9, 0x61d0502bfd1e3c895d32395d7fde2abd2369d6987aa117b73d4ba7c88a07269c, 0x5f61742c41e630eb36d6801fcb8bf2922b1bfb6678f940be422def0aec2fc335, 0x156f1f1541dfdcc51d61a7909646de0799815b773fd9733fef825bffabcd8465, 0x4ce78593502330f44f27079affd53afc38e908081370314a2752650538c2f614],
    [0x46d8580827a75ac891152076b08d923c24f3e43ab8e28d8d9c71c71bd5555556, 0x2367f5c518d74602fa4b3c03e3dfd401d36e3124483d1f118b7937e408a4791e, 0x4efaea3d44e0d02c6588a859c2d5ef4201dc2c0d7e44c8d5e424feaacd764b7a, 0x1ec9f5ffbcbc68488a09de032d6c4b47e59941fb48ec16b37d160b051ba0dc5c, 0xa4cdd874ebd6d0f6d863823a79ded412233bb27c1dac808affd534d438b7a98, 0x3539cc1de48bcf95e102d82623a02dbf0f08e3ae9726f7a0b8d44460abd08798, 0x61d0502bfd1e3c895d32395d7fde2abd2369d6987aa117b73d4ba7c88a07269c, 0x39f283616da2a5cd3b960f62629ef7d557550da9fd34b62cae855a79b2628f89, 0x2283dce43c1b53624943631fba1d29eeb22bacdbb92323657df92049c0870a0b, 0x5ea1ae4fc06b4c2b19b42c28ada9459b10f637a2bd5d11e7e0b0720ed22b354b, 0x4e3ce9e5d7f6e65088f98071261fdde8a03ec179889c90875e0bbaae4dd5915c],
    [0x6dd3abfdf187ba0e815f38736770e79941dc14a486bb13c9286bca1a00000001, 0x294f2709184ae0bb3c9731879b43ec48647769f24183614ab64fff952af272d1, 0x4cbe10478920ff1152d021ee72c7a3d0461780fb82960862e5f786a6110875d7, 0x2b9b3fafd6afe52b743ef5023bb1ca62d237b26a92a85239f343c9c5ae990b5f, 0x1b77e7113fd6406df670ef4c99a8141345d938783c5195075f45bb055595f321, 0x2ad07d42019c40e90ada1856b27bdc98a64565fd9ce34cf693575a4d81176a93, 0x5f61742c41e630eb36d6801fcb8bf2922b1bfb6678f940be422def0aec2fc335, 0x2283dce43c1b53624943631fba1d29eeb22bacdbb92323657df92049c0870a0b, 0x63b9e520d33caeac1e47c5fd938d5241c59aba5c7b3c78d64e88ff61570074a7, 0x4e4e5c3de5ebdaee250c4748d47094b9d401076bd6ea671048c954f10908c47c, 0x636bb8f8a030b1ebc4b42a530b25babb42d7c1ab4a4a0816acd482d031969fff],
    [0x1163a5e6130ad2cad47be0679b0b7a00cc8fa566d9995a99733333330ccccccd, 0x3c1adb7ae43e9979d7fd1f74d03359a3ac3fa491df5f24a8c1e705ab45c6d920, 0x1b2cd45d80d55bb795fbab73e13a04d922fbe6f1e904a46947023f033895a786, 0x3e3ec0e604f5be66547c679970d6408d3f21c707489d4ea314cef04d6bd96283, 0x5fb2a59f64d04bcc493594ea127351417197680d06fa62d95e81df21ef19f62b, 0x3da8ddd74bb8406620f3be5d99fce49415abb595aca278ae868fb4dca942625b, 0x156f1f1541dfdcc51d61a7909646de0799815b773fd9733fef825bffabcd8465, 0x5ea1ae4fc06b4c2b19b42c28ada9459b10f637a2bd5d11e7e0b0720ed22b354b, 0x4e4e5c3de5ebdaee250c4748d47094b9d401076bd6ea671048c954f10908c47c, 0x56ec79fae54ae2d61bca1f41b2fe5cf54aa28b44b027aefc322f4eeef196fd7b, 0x45daee1ccc84d7a67e628100548702a64ea3ccdc7ffec8518ef6abfadea58fd0],
    [0xb0a7175a27085d61d427619257d20c38e120f9ec30c08c2f3cf3cf3b6db6db7, 0x38f6ede716d67345579db36fb86302af7d0f7a60793ab29e970d54e7f21ad22f, 0x696f60454ed277f4d68130310c0dae5cd86a8fb3feb6a4a061f907c52230f407, 0x66fb1afc4a927420f417015355fedec90837d5fcc1c78b47de434b425c0a5582, 0x2f20d72d15fe827bad9ffc1a564d7d16476236691869e220b73eaf60a809ea8a, 0x475e81dac899f48ecc6aba07bc67492e3985506a94eef726ef1e70a3900565a3, 0x4ce78593502330f44f27079affd53afc38e908081370314a2752650538c2f614, 0x4e3ce9e5d7f6e65088f98071261fdde8a03ec179889c90875e0bbaae4dd5915c, 0x636bb8f8a030b1ebc4b42a530b25babb42d7c1ab4a4a0816acd482d031969fff, 0x45daee1ccc84d7a67e628100548702a64ea3ccdc7ffec8518ef6abfadea58fd0, 0x4e5ddb7817ab6510d416f25fa7c5542b56925935fed7ffdd85e12672926760e7]]
  s := [
    [0x6963af62e003892a5d1d50074e93217934daf23145cff68aba2e8ba200000001, 0x1279c3a45d9e6912035dd2f5243e244bcbf4cbbf0ccbc093f11302ff37691a49, 0x1caa1c0c4e9074193eedfe71506b7b50f065943ee019c1a375137885c6daacca, 0x2168a24229ebbfdfad9486cb738e1edc14fbc782177db2ae328c65eabd73fab, 0x54c4a9b185b5f8b90f4eaaad6f937f2756c3f1ec2e038d113d16491d24b1779e, 0x696383b87918a999e8a7f1a76eca8f5a2c0ab9e06b9c1e10ece7bd39273a5b30, 0x61b0e03bcdccaf535595460e0c4229f1e2ba2ba6d9ea876639918a2355a3da1b, 0x6d49e268f9c3099c7f21366aec14e34a2b39b9d54c22ea8858f6e624d76ac761, 0x50c119a4364bd188773e521907e30e10dc893ab6cdea3f0a6b8287c6b3dd917f, 0x37d2e9b25a9e264b34c476a0cdf468aa1f736497048feeec2c0d66c705578dbd, 0x2f535431734198e3169044a32b5f6c8527c85283eb8883dcbf7c9b5c6e7dae73, 0x65db534e5b5d29f3a5e6d58047366a0f275180f5a776abf276c6f0a8dff16ab4, 0x4dbf2526553a237543cc360c2d5145049c9929c3607cdff00f060505d978a4cf, 0x575ecaaf41b1552c525f7f488828d3e1bba39b3543906ba0a1b6484edcdda303, 0x1e934969a2076129cccbf5eb930fd231678bb16ba57d83acfe5fe23655d2e778, 0x22c198a02c52a58d85415d67c883f668df25c266f7dbf78f4e82d6f6b92cdfda, 0x4e9ad40b9ca6b8a4b2ae71029bd991241f515468ad285039a0cc2d4e745ec084, 0x15cd20262aa9b37bd1212a166255a5f9d08a7a406517cb4fd1be23f1776d3c20, 0x126038eb7f73de6571bc50c71431ee04b764a05e5b2d4550fd6e6726183678a, 0x2896a3f8803d530666f744bc46ecdfd87614ea764e9a1514d1b80302268495e4, 0x6ed1bbf3c34d565a85374a8a4e537384c0c8e8f76630cd1aa4dfe16e5aa2c403],
    [0x6963af62e003892a5d1d50074e93217934daf23145cff68aba2e8ba200000001, 0x3b4fa8f9e8ad9b76e3f727c1fe5a12c890c41cfba502ba79a8b0069780d5395d, 0x19bcf2c4f831bdfcf5ba0399e0265565071a3cfd4548b725b924ba2d2093b5a6, 0x580bde830311c7b64690c3cbbf8e97747191f6002cedc9fc0759fd5114689949, 0x6b2e0432cca9322d17cddfb4054d7164c4aabd2016cd5eca7000d3314287c84, 0x2370a8764fff4ed0730b812b94845e65a585b23d0ea0432abfab1b84000bcb14, 0x43986a5f54384b24fc1abc1f0a90f4e973d816f91a22bd3a3e62669c30d538b8, 0x3e589d02e2a1fe5d76b793ab35886e97e099ee1bd88220bbd75c3e4275088713, 0x1b733d9baa3ed2fc3711b93b2b084d8d1b2e12a7b4ec49156031d064435cfb19, 0x63cf4a54e35eace81a125debec61af9a296ff3757cbaa41482a577fcfe88eb6a, 0x6f79e65819b294cdb593068aecd8d90891ce9cf156234f9210578b4777b0e8a, 0x642e6378a9dfcc02023567dc1aa1369e910b1d1d88ee3942e8da8aab5558c386, 0x1c849ce3e0d8c23985a1dacef119fb91ca3a8b8de429b1309682487d86490fc4, 0x65ac2782cc81116eaad0f02066aa6de3c8a1a904293e33ed2f596eb9380172bc, 0x2ebe0ae7b54b40da296a669cd0e53a3fc97abc5956c062489c4c221f7c932969, 0x3d9a19d9d81dd537213a2ee3cb1731f9e30f7863ef0f7e60ecbff775a9d3d640, 0x4d4013f8e262aac01ebc3fdebb051f70ac4cd8d9db4a28e7c2f5e9f490a934d3, 0x4043f9b1aebfed686962a1daef96534d9b1420739c93b52953014d26a488d9ab, 0x6ba26879f0564e8b5a9f91e38ee1d2e9946dfab64cb48dd5c3e87aa44d3ec8ed, 0x58d28e3c76e6f6af6c9b29a701b4afda4cde178eadf5ba1af6610b7e439eafed, 0x2cc4aa3bb6d2f233d0ec797381d8a99a5076705de95e23541b0c84b05acbcddb],
    [0x6963af62e003892a5d1d50074e93217934daf23145cff68aba2e8ba200000001, 0x153dd3f8ebfb10407fa2273dbd5dcdf810605f27b22a154c12f743e4e638f4a7, 0x59d742586e88e08ca12e22dcc627c91ae36e5ee9ab6abccecfb5c4b7e8e28ac0, 0x359e6ee63b9284ab6d7661ffb2433a7dad3c073beee4323cf558176e102bcb90, 0x447b25f833015ce03201126f47f5dfc3cdcb6e3b6daeed00668dc85c717290f8, 0x41d6d676187e84f0b191fcaa1bd3506bf3614cc405ae8e46a15a7b40f2d90522, 0x29a4fb68114c48b5dae60eb03c5164c923b1157ccfa7e4fc456d9e9fc7b4865, 0x4713228219face0ef77c417dc9d4413b74c24871b0b8e4837727c0ea2c2c9e96, 0x6bf3bd191afbc003e29d83826049cb595831539e9c1bde1d8329ed1b55017f25, 0x1ac9e73dc4bd0bcba2ca2b85692459d24b64120496e32c082d51e7347762270f, 0x1fbf82fe46cd1262459bfbb254f12229c9c3e0688eafb7b51f9df21788ee7f9e, 0x5d8898235241f09b9ef797a1a31e1de656e249273638f7c4e233a4d4e7800235, 0x4469b1377834c1ed0ff93cc275388058313a1403008cbd83cd6ee4de81b4d03a, 0x1d26ab652c2502fe1fa1d2c8e34a4087631611bbbaa66721edf1c29ea4a81208, 0x2f02054056805aac2f9132a973fb6c176cc3547d950b858fea267b79ef81c79a, 0x77600804ffc363c2cef19888a655c0187a4f5be72b55b1658579f509899bfca, 0x5c149dec492ff0a1950483dad87286f4413aa92aadc26af29466ab527b7d8a4c, 0x5b76446cf9a0fb7a30787efac97206f52fde253f82a36b8a1b27c76e628c3695, 0x6e171645630370b139f9af4db8f17c6884827f643da7af7eeb24a324b7699852, 0x700d4dc2e8f619569eaaff84590dca50f8edeca6f9f29585c3baf0259cd9c27a, 0x6877f17ebefc61d009597e9c372f0e78dc6583a76c5dbe6a231902c1c66b4030],
    [0x6963af62e003892a5d1d50074e93217934daf23145cff68aba2e8ba200000001, 0x6f53695a231fdeb4e00d1cd8dab36cc3edae1fccaeb7e3d9b3e281f4d37c8fe9, 0x62a5b89b94658767e1e595a8f5cd3b455fd5cb939dfcf89bf35d10b745ac186b, 0x7282b85fce5ed3b4b1b9f6fa9edc746e19b182988668f592bb3eeee179ec60fe, 0xafbacbcda30ccb7e3a322ee45c74b3acd2721137d53305623c378b4cde19550, 0x717fd9e874145c6fa2cc93c4c206ce85fe44f226b125ae96941b5c510707be0d, 0x407662395e1f3e7d263c04bfcd5793841096d5760c3956a1013678b70e1ebc17, 0x3e040cf37dab346f3fd37dfc73348737a12c3193cfdac2307eaf3eb34b85b582, 0x2e1632c78a785d9aa3ca58c4122b5cc627f5bf49d14c2663dc9b667499b2c0ea, 0x3c7ebef27e1e4e7dc632797841965e41eb16280ef62c2a208b34a91ff07ce24c, 0x466105f35faeb2fb7ce4f7e11254df3d2e450f788edb58e0506e27089d4fa943, 0xd9c7df24657d8c6b9d0580b1047ed7fbb268b8141ec6c44ae26950d3ac63915, 0x50e2a097f7566c8de61e13a63e9372f54406e261ce47b6b5f68e1a64dd5265d5, 0x33d069306ca20eee2d252169b01f37ce5e480b522aef4a5a6258106595ebc01e, 0x16cc54af33eeaf12e5455e3cec9ee801233b903876f57be16a48dc00f0fe8fef, 0x21341a3558b589d0537318baae6694e48779a4ffc9d03e221ad72c7af04995e1, 0x278859abbe79fa0ed257442cdf3c00468d6cc0720948232d65b1196479468a81, 0x475ea7bf7125e5523649d2056433e042d1965b9e77d2eab608d8380250b0d79d, 0x1a76f72b9c6a9d0180bde62c896030ecbc598cb943288cc62368737051925170, 0x62f5e4c793b826c608e8069d04366199eee27bd6f8b90a5580a2271846d41d73, 0x56e6f9d935044b6c4826d7c89fa1c5e35395244c4268dbb7226363bdad13445d],
    [0x6963af62e003892a5d1d50074e93217934daf23145cff68aba2e8ba200000001, 0x646bf09ec66010297c607baf6db8e936ba0bd238cfed5ad940d3dfedd2246d96, 0x3c40cfcbd049c65dd83709100f9555c8555ca8bff5154909484269c8ae4f9a2f, 0x54af1a59a4b6c7a25c4ef03a5f0aaed6675c4a1d5db858984c4311eea7dc2ddd, 0x81e19135b2103f796019ddacd1f56a03ca122e1b5f06db98bf1f6676905d5e, 0x2ac2adb5f6481093d01d271cb1c1f0c91bd3b2bcee4ccc3c1f3475f94de3881f, 0x697449f11ee21be58d55d018f614ddf49453b7cd7d3869372653ff3385ea784e, 0xc48cebe34a6e4c2c22c3a229ab6475e1aa39630c0cae078256f2c6b49703f71, 0x160dcb38575126caab5bddc6e2df18876554b0c9b228d623bd6f5c8f6337ce39, 0xfa22619ea340fd73b41eae0d55edd2ebfe439b68c6a68b61201a7ce9b35b902, 0x72154c7e36860b0b92f1f21578f52c38a5d86938746afbf71749155383d3a291, 0x54ab593fc34adbeecac72d88d3b94708a5d563bf4dbc58a9ab4284d12e2918b6, 0x2e31885acc11be0558fc3ed4a90995f00f6b6ca38150e6147a2339135baa4bea, 0x2f6afdfb01df4e8c3c13f1531bcd0a7ebd7d86ab0c6a4370bef69c11381befdb, 0x1517fe966784dfd60763025c88df460df4bbc0e4fc910b1f24b4076991e19915, 0x2dba42329656d0fd808c7f4366366e1a222a75979a47ef370d993e2195977b1e, 0x42b8d5ee5c6e1d297b7f77a15210dd2468b5ab5a52b68b60b89140c9215af738, 0x1d31e39fc45e2a4529a624a421af044a6cd77c4d86a89cca69a6207a311433f7, 0x37d1b58746d6d4c695056bc1cd47009a0e68949d31acc1109a76ba287cb63228, 0x8d76886a7eab6734d09bad31145fb2955ae42ecda8ee23333b425492f94134c, 0x1c405f0e72e43b62a247ba119ce11ea0c64a528575510a0ff7657b7efbcbe091],
    [0x6963af62e003892a5d1d50074e93217934daf23145cff68aba2e8ba200000001, 0x131588f09ae9e0321761c78349c1b4f8d614657595bfc013539f03479e1ab65d, 0x5c4ef0dc17e53074531f9c8e5dab87ae62a8a9a366bc338eaccf44bd67b416f, 0x337fdcb870b609e6752c0b2a1466c300771f387c68725cb46b19a3bac8682ca0, 0x2d6c4ba0d380999d63acc2f67b269342a38a2f0509328139c44991a8eac54aa2, 0x1246b5757a62cf35398657548195e321b4d234c061bd4268dcf4341ba081d034, 0x5fd864ef7ccaa4296e0ee712a283ff1b328b4a54777ba1b743f0bc8485275e90, 0x4dd925f79526bb5d5a1a92782a70a7d0f0b36918a29130feafd3a33d596efa93, 0x57c9c1a282b58abfe6b95b85b3ef3a653913c8bc6dea1abaead3d393e043fd74, 0xb4ed396a476236dedb4a7e5f2c243792800cedee8a271a6a7cbf46ed17b56d8, 0x2f735e69c4a4da6ceb0d51e71d79528d11eaf5356e48bd87ce371d1716f91f27, 0x8fde49d1a1507464a1316b746899ff4f170eaa1c93598e44716ffb69efe3b7e, 0x1ac8e64cb3ce1ef9b423fe9e34dc06b1de6165d1fcdfb64a6b34bd71b879d07e, 0x98afca987b3aca7ed9a976cbb8fa845143924da65d88e13e61f7bb253727ce2, 0x3d76fa3509c62c82dc860362219ddc6adf2d6b15928c30d7a6095a65338354ae, 0x18eab3bfd70b10c2f625c2074bff4a2e34967962ca5a78a16f603fd579f3332a, 0x6326bce47b11cb29b741cf45adadf3ac5ac8018f4d7669b3e46e5e633731d1a6, 0x251e162866e2a01217f55579adf7e8139e726bafced7ae0075cbbe57c7ddc5b3, 0x691b0b1aa0c48afdc82b28fc345f22345f4ffd34f8196af0a230193ba4f399dd, 0x475179c39c2873f7bb4ddf2902997386a483aa825079b31e5f7b02448041df9a, 0x6f99a0e41ec0f5d52861b7aa4167e1136f18785c63332800a8e4e0ab7e5b72f9],
    [0x6963af62e003892a5d1d50074e93217934daf23145cff68aba2e8ba200000001, 0x1f5708b7222570cb3d47a1abbb5af63b655a01285e618dcfd6ecacde2f4f4277, 0x45c6bc6a6828d64c0e4ec188221c0d3ccd00b18bdb1acfaa75657bc614da4e11, 0x219d34cef8fe6f2b1c545547a0dfa96901451612ab65f32946e9bef30e2b1576, 0x7223b185af695f89d78ae533df51328d369bc1fc95b4c3f3f90434ec9a709149, 0x56a5c9765bf826f0c2a8c1d0b6bba83ff90587f092c328c24c2599f27ba554ce, 0x5a859aa5a471953016783d80e3843a9151f24a91f4daf74deb9891d68f627c90, 0x22cbf7b43cb97f54c42e0913975fd97784a372ab102a89ba1f203e2cfa82aeb4, 0x5d7cff7124eba52eb928c9ea46e7d0b1204bd0a6e63e98155e6cd09dcc909f58, 0x2be520b17489b3b690a7f9ed920bfca790a45346b0c74980c44cb74bef57ec8f, 0x31d32e2d211a757a147a797ca943bb69507dc1022fb5799febd6254afa81b1b2, 0x4bf6c070d8b797ad11e59bd2f256d34989c603765fd85ad6fc95461e00776e01, 0x1f5edda9b630c14df1f0299b9844543fe75d2437a27c19281edfbeb8149313ab, 0x486ab25809de1fa1f4f01e0cffddcd788d44423bf47e4c527e56fc2daa626d02, 0x2c3b869d6e33850ad3242845b16da06a6a1a70a70e211fb4f0acad7dfa1ce79a, 0x368fe552a6202bb2bbf0b390437c094097f066cb634dd90aaa060d0c5775f7c7, 0x1fe96c120fc9d306ef631475a2b30b93c9602b8d808c80e32379191e4c7b3bcc, 0x36cc6260732348131f96237243659fd10b75093dbf88d94e344d7dd0631654f7, 0x2d5b531d20450c710708871c59dce8772c2e73549645448fad19abb916ee5772, 0x39ac70887cc196e523cfa5b6d9280c3b75e0aaf23a408e2205745d6c5c8e8520, 0xeacdb5b0eebe640b9fa83bf4153b750d73fd3833424b78fe17af0b51463b71a],
    [0x6963af62e003892a5d1d50074e93217934daf23145cff68aba2e8ba200000001, 0x2730f84fc9061dfaca69f7ce21897be28aee6184a6a8a6e5e33ab9dc0c13fd01, 0x68b97c9e52a44b43e4242679027555a3382fca768e88b32c2ba8044eae1be87b, 0x250d198fd8d1fb0c8750107be58217d0476db860dbfb1c8cbb8f3512ab12ed64, 0x5ba81143af8fdf5dba4e9425830d1986a45b581f965502a64dcb06826ea4c2a8, 0x2ea497140845d59588a29885fbeb25058ad79a96341287742629449739c33f7b, 0x2809bac2c472e9b6f9e0089d86e416a274ec0a8b927b1b95e89733c572bcb462, 0x6da1028e773249218bec9329cbfecb84b2e9e6855457ca4dd4f97f6120031eab, 0x355fff7cd2523ae1375756756616f7fa8888fd361509c9d70544cb099d557087, 0x10321753e827622263623ec1cac46363d232e11b49d97382cba33bb34b6a4c6a, 0x2ec83591e4fde86cc67aa1d07686d1cf5c30acaf8fec039c0c8e0be4d91ecc99, 0x570714b8919bee13702d55b2c88169a0367ed0e2c11be14f47d8930bcea6f2af, 0x4fd6996561cc1d3b06fa7bdd5a1e16770c839c7e14a9b465a57bddde41a137ea, 0x416b56286a5976ad90782640cc2b94d1b250428969cb07f0d80d99ce35d2e00b, 0x25e4c65a0d1ba37bbce2a59e95a358d7dd3915545eb8d6a0cceae47a51af5b98, 0x1762d98653c66079354d7705d69ae9889248f078097a56221b5f77487a46cc4e, 0x452281acf4286de560f90b377e2d8bae303848f12ffd55c770db9e095966ab2f, 0x6ff34521d93cd69c388131c4e48dea010ed9651211da48de8bef99a38ffaa7d2, 0xfacf9982f00b416426e899e173e22fccff044b842559c25b36d6cfd6f3e2b55, 0x66a6ccc3907bd5f6a97245ca4d61516b09c0f414a6e504f4d2f81e03990df977, 0x7101e4874e2f7fdb58eec48bc08ab123ac72b92cdd5ad884d60384ed4a86090c],
    [0x6963af62e003892a5d1d50074e93217934daf23145cff68aba2e8ba200000001, 0x486875d5f834cd9f65178884b7a32ed05319b7e672b9c31a2a9f79335aa206a1, 0x565d87d239b699eb847def3c542c1256ac5db4d7162c8f79f4bbbfaff54c106, 0x1553b498a0077f7b31096025c130b8b5409b340d9dc74bbc5947fdfb971ee373, 0x54e14649ded27645aa402f1fe6339104ef32eebafeb554dbc221b18e514672de, 0x2b978aace0707e372158fb755b4933d29ff2fc582d93acd119cc5c5df2e51d03, 0x7024e74dffc8fd138765a9f17ccb36cf567c6ac6fd569b2281573362fd870bee, 0x4a5eea05a39dcdc0726dcd1da54abded3849b1eb6e8d146307ab94c5dbc513bb, 0x1d408c4af45fdf02b9574bd8f4dbd31587b6f10e397a3bd4ab80ebb78a31c702, 0x2632b0713f6ad70a38703f1c41bc6841308308fe479bba2f99c503f9e9564e45, 0x67b7367c2b3fcf7d2c1853564eeb070546dcd2f6db1428c73e55aad93d28810b, 0x612a870179c189c929134b3eb932f641692757e568917e1dd13af963fb3cae9b, 0x3b57f90def89efc8fcbe62a9bf50bcd2c00244cbc96bb12963ffc9c6dccd50bf, 0x13e1e94e6ce18f4bfa38d7283b6701147bd6ac3cecb96371d7a5aba886372940, 0x34aee12ce10d1fc56b7be3237b92b76eb9a071e85ef753839cb532dd096c0168, 0x34eaa697a8032aa2e171e558810da778d946bd5a30f573a7078b62e3045130fe, 0x2cf8c93f3ecc3ae620456e43821a1b45a3b1d42ce2ee8d5b90efa9eea2b7e06, 0x4b4c0228cd3f0f4c94c7e543309dc239f7c69254fb7bd17e60aba69b7d99a67a, 0x6f486153751e8fec4531ffa0b4b9ab77b2fdd098947a4ac90fdb68b86d9e889a, 0x39c56fc9cd051707fd5e82363d0ec6bd6c3e48032cfe1107ba5eb23297e395ef, 0x5b31dabb32fb53ad5c6a593516419b0a65b0a268c28a108f7a277af1e2f9c731],
    [0x6963af62e003892a5d1d50074e93217934daf23145cff68aba2e8ba200000001, 0x79760bd5648fa8efb8fc8377676dac13b2aea9961c0b67ec9cf72c226d7138a, 0x38a311eb0bd9d0c3170ce1d1feb3b6381c875d43aa88ecba9b5b53660684008a, 0x46f32b37cde59cb6a6edc12c428be1af56f016b977c54681af52a6027071e028, 0x36508c3d3897922eaf280fb409f2b4c437ed8a9f7e752a80c2bd2d48a83b9438, 0x267c828ddffd5b2268f5ba19cb7f6431ed7c84d39ab09442f10f129f525cb604, 0x1f5e7635fa5dde90bbe59c41030c8d86083d9ed410ee43cd87c1fe25226a0c0f, 0x5af393546732399902188930c7bb412c66e2c9f32abcf48f03e472bddf114264, 0x6c268144f1276cb67fabcd6f3ed80ee1ff39de4244e950c8eb1dcc7514fdd3b4, 0x56ae7a114ff4654aae12b46dacace2ad8c39c40afc97681e57ac700da479a7ae, 0x53bf5dbc932814ceffabe03350879ddc31603bb41d496a65a0b9a7ad58b0fe3d, 0x6d2400002e97cbd4918cbfed64105f41c96db2542c2cf7d9e9f506fce1b22626, 0x1cebb5b36bf80aeb4aed3140552362572346783dc9f75362f81a741ca62665f, 0x446ddf0401eb4f51585649d781b72ef6dec1f418d77af5c65e67f1e935b80731, 0x1edf58126682bef778d4a4b364badc8139cb424594330da2099da98f08ebe0a2, 0x4c1f66d8968d46328718ba7b30eb83f23bcc844ec9bd9ca3d8198e02e10203d7, 0x98304486883c2bcf3d47bb8c04799fdd58b1a7282a05c7a4b27121997952273, 0x49479260792ae255866e41b989a436b83b16ad2bd67f890b99606f404b0bfbd4, 0x3e6a21e4c5cd6d5247136a1eede190e651187c1a3c262af76b9ab94e2424317e, 0x478993a5ba10cf87ad6ce0ca26fa8871bcfece008e0c661ac2a7f6b1e88c660f, 0x6e79eb3fc43897e84ec6f2c89c4467614f3b2f16b016ef3a007b813a9626a465],
    [0x6963af62e003892a5d1d50074e93217934daf23145cff68aba2e8ba200000001, 0x54ea1fef2f380375ec16ef6c211039c1e1b4fa55e7879c3f4773115f72bd6ffb, 0x3897e21fc5121cc1145768103d00b44794fe95ca71c04a3674ca361c4fb65845, 0x154a93a332b0d9ec171d238208c17ea143e5f147226cf9ff13fede7cdddfe4e3, 0x109f47032826c69d6c4ef02ad0df92e548b9a8d40f749a46b1963562bee93667, 0x49cc9c13216f075f34cac0acb847200ec789966cb4a8fa3c16f56de7daa4c8c5, 0x284a9531d04f6572cbceec8dcc75e61f3b178f78b9c9812d8aa8caed6ed8df10, 0x4acd72ea0b793c889ab552435ab6f962696be046a41dacb3b944aff3bef395a4, 0xf59daa6e087e11d4f376d3004edab6a649f1756bf9ed15344e9769ecd1d7934, 0x5a77abc7b5920971fcdf287746ce98c5cc3670bccfcfcec31cc83fc3a4c461af, 0x73242a882efd947a8980428a9c80133149e95a72e4bc5dd57f510efe454c3aae, 0x835df4450fa683c4a74c31c8b89462c83c274dd6e8500513dc590ff049b99ae, 0x2ab2cf70e7426de3fa483fbf847e0dc40a5a4f18eb11ff2557ed3e6076ff8561, 0x739c8ccb28f3a3f55a0150152334477900b64102bfe974dbc34a0bf369cf66e2, 0x6050517a2687826464a1a356eff906b4f129d216ace2546b88149ec7ab9d771b, 0x1a8db241435bd9a2a107b5f773e11ed243895e22427ae6a25e84446d359f0652, 0x6a8015bb2154c0c1300fc58f4ce5900862453cd4ba65fefed71629402653036e, 0x5dc530ced9b1431793a3a3f864dbccae494b29d96cf311e517926dbf4e077d6b, 0x697e25d060560c967f819cda94a628bad5b08edc99ab8b382d8b5fefbe53226b, 0x2e0321fc7ed0fafc359ac4004685b5981eec2e11134a8ec43eb256679d2fe0c3, 0x1f4a97ee2568daa3f1c520b05ed175752dccbc805dfee0cdde398d9a2dcb3735],
    [0x6963af62e003892a5d1d50074e93217934daf23145cff68aba2e8ba200000001, 0x56a92d72d96737d5b2537cb119ac642703e1b58c8960e93045ad4bada274ca40, 0xf21efeae3acc9f1581d4f252930aaf01e46bf6c53b3b7c8ad63f9238d6c16f6, 0x539297cfa77f118e19c653ebe0638c4c0c98fcb1fbb0e286cdd269d5bb8ea23f, 0x1570f98dd03a5b17f6b32854898a21fa31ffda7497e3eb7196c9f7104d8aa820, 0x5cb6b09cbbfb80c227e49a10e97df8fc57b42aae7f1d00364f78d4a7763a1dcf, 0x172fa6122826b78da977e6b5a0d9e52934a9e0a7fe972d857f81b1f801776d67, 0x532a72020edcffc38d0c40f293abe8296104b7ce41e5c8a69eea409c5dde4951, 0x369cf3a5d784723680962ed29da6746b4af5955d7caa88ad2ccf83cb9fc8c7f8, 0xfe3777935e55db39371b7b3bdf16c78a7681d9238c1645a53da9ff2440cf35c, 0x68d33b02035b36fa291d66a09d5a7d5607eeb37f62b3f176c48f4aa834782c76, 0xc1d40d3a1fb5fe67feec38ac027a25d730f9c076814a37be7bad599cf05dd54, 0x3eaf44d76dbdef4420c27d4666dab01ed3de0bafa36a174843bd9e6378e05aff, 0x30556631b3cdfbe785b19b3bc48019c8ad9e87ad54708b5ff594f4ac7d45ee3b, 0x57f6f8e934249486541cdb5fa6ef160e8cd02386758275d8a38907c7fbf891cf, 0x12d6a93c05d5eb357c2d52a8411ce448fc1603c63e4472bfb0aaae16f5815604, 0x6a5a1ea02ab696fea28da587f0b654e7a8ab1fe57749a89ce1c05c58317ae57a, 0x7327a7b23bdb5a99b68568f4f1a67b824fecff7f76b554c336cac4ec70d7d790, 0x1578ff53a3aeeaf829148d01891bfbdbd399aaeccca5462b8b2455590e26e2fd, 0x425bb9b90e19419f492701ddfb7c66511fcbf6a416771fc87bdc56ac50485e3c, 0x260900e52fbd1809a7b38d92355d672c8180ef1ea83678226a0b69bc7c59ea67],
    [0x6963af62e003892a5d1d50074e93217934daf23145cff68aba2e8ba200000001, 0x153c4461012990ad952200154b58e1de65b0778d55f3e27c9f9f4ea77fbbb087, 0x1147b493415a05ed27b4a93354d96906788904358e82fac41d3c9cfd5e46739a, 0x430d7be30a85a380d7df26d1f97fca0ac884e65ca5c3acc7b41fe091b39d03e2, 0x3532ec0c44a19530b4c26d42f6dd1ba4b3a9efec7864b0b3f8885fcda72c2400, 0x5276f5b00eab353fdb6a84ac7b658bfd35d37b132f5d299132134c6eb4452298, 0x2a413baf822b5c6d4c65196d2de82c9d82b89246004ebadf88738da26ebb0756, 0x5a608f4d659e85e4132ca9489086d0637b2864c3cebdf85950e74eb14a917170, 0x7a9b41501cf9ee55aed612b305d93d1fa075b32cd1fa24c66e9fc9e47e95464, 0x3b2f43aebf51c114a771700a4db4463ea9cc55e73c90d4e4d81c01b1b21d61df, 0x693d9927a1c95f446eef3606a1d9ab51b4b428d299062d32ea2018bb27aacdf6, 0x3dd235e19dd6c02a463297e198c91052032c679ab842d51c8d3782e430c2eb7f, 0x4168720481698b61bb0b973c5ad22851afaa163f2b7078cfd3b63436a8c83051, 0x6d384c383f9a1bf4cce40df3e7b1c61e8abac6d8fd570a4fb844faaab2edfcbd, 0x2565b118b9a2e2c7824118ad94fb26236e676b15219e52e82323e867d800bcbb, 0x36d36bce4282717656fb24202cf5b778f97afa211ad990ca658e377410616ca2, 0x738e0392ffd0806e51b6915fda6c556f3516b3099fa54e0e3c9a605548d314fc, 0x3bc7e4d7621a461816cb34924d1ba815d0fc78867b4e9e71a11061e9559d0585, 0x4ade354a43391110553e0826b8b0088d1ae05da72d9d3a794b5350dd2b57c7a8, 0x40780f4d2ef27d54991f7c17784b8ead707827f991372548991fbd4bea7062fd, 0x6fdf32d81ed587d671cbb013d9d2c2896e0d4dff6928aed2d77c09c5091b488d],
    [0x6963af62e003892a5d1d50074e93217934daf23145cff68aba2e8ba200000001, 0x5c7490e0e570e9e8cc75f5cb869eadad44bd12fd8a4385c5f1da9674a8cf532, 0x4bc8c4246d1e2f5d2cb5e09a13a3bd80a570bbe5ccb7104d5e9a20dc44deb690, 0x62b444e3787e708e1594b5e839c6226fce1f392ed4c6863dbe85beb2abcfa4cd, 0x56492df7a3908cc71d85daa4ae5399da72eae4750ddda4970fa01d720022fc3a, 0x58f523a51e269c0cbd32e6e503b43d199badd46963a6335b375f62cf3a7c0ff5, 0x4b74e1c29834153177f7bc2ee4b6bee7fce815e534dadc323618056c1bc96639, 0x62ba85d8636d946bab2ce19742c29eaeabe6df85c7e1e3ad633343207cc21886, 0x3162fd8bd7768fb8fedfe7ba1302fe15d334cf3d121d3b051ef71f380e3329a9, 0x2b49469643446a437e9e22189c412084ad5eb978f7016b03bd435d802c632312, 0x29c1e4a0b20cf313bcc621ecd8153e1df04e7b95b6ae5efc7636468f576cd406, 0x703921ea036a037bc266f9935dc8d71c738efea61f3e33db9c89d4b11f37e4cb, 0x55df9a5490f26d6bf2b1dd3706f24962e8727694a903847dbc908ff81ed45dda, 0x551ee1558cb5668430a54c6dbf9807b559e4660fc048f233ed3146e74b00a257, 0x57aae2b796b3ac60745da938937f2cc0c75414de0cc5f14c34a0819bbbbfbef6, 0x16ec64eee68f01217888244a5777b9f63485fe7a41cfc3126486218b9d5400f, 0x24a5ef7587630961c1a9ca7f523555b499280fc4a7600dc770c6d378c0d532b5, 0x64bde0dd33425f2a0bae9178d60a98f3f300d09c556d4a211818e4eb00547447, 0x513dafa2092928c80ebc55b5c3e98dfbaa111b04f92c21108b24473df2c1dfa7, 0x6cd800604ff65582290f9fd082ef9748988bd126ebf2d067e3b4713d5be1fd28, 0x3f3b7614b74715295c5db88001a82ec0fcfad811c1ef514b7367847b96c1e86c],
    [0x6963af62e003892a5d1d50074e93217934daf23145cff68aba2e8ba200000001, 0x3344405efca654fd2a38348a2a036bbbccc3f6ab1da025f558da4c983c16c126, 0xb94099ec947f29b9cd22778ddfd6a90d826586f844de6eb59333b8a83f280e7, 0x276024d21d7876237a1932a0cacfb66bcecdcde9a63f12724606869fc4d812ed, 0x5fc9718d51f7ed7c244410b74cdc544aabee2063f7c8c8b6955fd73e64c3fbaf, 0x3462425e0bc81073740daac8839aafe9c64f8f10cc4d6965da7a8bd7a74e93d3, 0x409c8ba85b50c42f36c0fbf01011363d3a0de46cc6f96752f0b8dffcd01d3cbb, 0x3b295c7ba59e3c0cab4b37d2bba4e2eb7458d016969c6d442e0569502a5ce907, 0x2622d6186c990091b39b6cca4bfb6f698a1b396497677040944bd43ab33785da, 0x1d584a56f7127f836bf98223a51bb652b5c781953603c0c8c56e2499d372ddbd, 0x6f16c237ace2e02251c8540c7c80e7afb21ff46c6add9386ed633227e6c62f74, 0x336c78eefb4c73c0a578d720190733c779b342fa4be0183c3046e4364381fe6, 0x2bb7fe3c81c6b558f4003d9c0c6eea44446428e7f9148fb7ddd3d9cfb0ca9f80, 0x56def3bde95db70ede8c01d453debf6ac3908b197440c128d776a1e7f74520a9, 0x479c623fa9276473d0dd05837a61f1724064ee82e82ce1da9f936fc80520abb0, 0xfe937f47c9b697be081e4df3f3b79af062ead10b4fbfdccc969039cac5eaba2, 0x3ec6033e1f4422c516a01fe2a6faba24cde76360dce22ffbd60bfa8157992ce9, 0x159e52f043dc7d7b0030825954b08d1a46847b5867346e1da0a52d58d71f470e, 0x55a0b0b9af8519a47a54b1b4175cc5f4b529d2cd31543394bb16717e7c01103c, 0x66188f6dd2208872be499c6a26723ed4f792f255801b9407d972c303196e4c27, 0x51c73de4194381eb316baa8a9d6d06469b8988d3a530089d0693cf085d242bee],
    [0x6963af62e003892a5d1d50074e93217934daf23145cff68aba2e8ba200000001, 0x22fe2f9719702005a6ac4dd9cf6a286efbe3abbb000281a0ef929c9b1505d388, 0x6b5477e80a3cb45ab9cee44ad09a437e80560af061a285cfc7f70176bc14706c, 0x12533c1c035ed62949c8c79ea782d51104d73ea40a9b39ac1eb93e427cb82886, 0x5d96755bdb5290b23c1ff9a32c2123eeebcd7346ac19caa24fc96129fcf96982, 0x5ffcdd3ee26d753527fcb8b1cbd8cc68abd5e7e3a92e750da1ad86be491d67df, 0x57452c99264d10d2a85185eb9413d836c5d41db00b0b39594c532c3e2487c335, 0x1a2abdb01fb5df0760a6981287ea79c48dc69d1ffccd6cff3e5a2e05144a6f27, 0x3991c044a510edd38dc985b0704ce973580ffeb6bd4f04ec33be2414515303a0, 0x4532c56b4e6e3f894c9530a025e29a82da8dadee381cb63824fb9c7fb7883d39, 0x53519f6323c25237ee7b9f6b3d9af22b36b825dac48d24928415d49cc9944a9b, 0x494bdb9de32045c4660f78f874ce9d8d61bdd80e5fbfb6f1d9a7bb685079cdec, 0x551a059e03a2d2851d0da4ef423ce968ede82afaa1880cfe8c6d30dd05a8bdd9, 0x8e9af41c73799e9f23141787c3c5f85880a556d3e3ffa478b641411f4332fed, 0x93e0258a7a7ff1e90857cab3d99a42122ae6f64ba20fca18dcbfa8162b23625, 0x6b22d8585e1ca3fe68fc88d7dbc960c577bc6e07b2cb70297d76f68168c80c2a, 0x3703b0d6061a635beaf598a396144c0db6d951624c434f3263ea6edcedab4c7f, 0x5dfadfacfd8043347d4d234886250531e00aef0bb3153111bda66f971da4b7f6, 0x45cba0007e5ad95e0d99c8ff2264a952c04e14d7409c68d7a8a23abe323eb59, 0x3b080e2a18f1789ec5c5ee245cd473f056ce307483b5e1499a8ae2f0e88f529a, 0x2bdbe754eeca4f4afd5d625b9b22594778d9d5a8c1ea56573aff87e92fbd1868],
    [0x6963af62e003892a5d1d50074e93217934daf23145cff68aba2e8ba200000001, 0x2fd94d62be031831eeb7cf2608a1bb454a9c7889a6a31592998d6a47a1d7328c, 0x2a97f9ef9ea0e0b044770c5877116e8201ce69437e961458a05fe397269a4eca, 0x40fbffb6b4939017d5f1522e8b6646c94c2132607e9d3bda31e0270392132057, 0x5a9ab4ad85d6d6662f78a29747d2ce55b5da096fd9f60b5cf45c6464d70c7180, 0x3d1b99c0bc7aff301fe892a4f27ad067d055745e19574f450f7c0c48e0a6ddc0, 0x271e8d3ed4458807eceaa1f2f448b6c55e0a5de39aa1d92968ff74a8f2993bb, 0x18f7c5edf5ba24f4551f0a68e5af841e33bd61134d51a1c1b04b8aa34dec32ab, 0x31ae56bb50cafcdbc864029cf42f83d42fa987ebd36c9aaf76ae7954f02823fa, 0x1a489ce819d520eebeeb2d29f1db0179e404e83f041df2a2defc39bae4985e15, 0x678cd6b5fe4c9231096a1c4a996c79dae7dd22889112d57a49223df808c96d71, 0x6131ef438a92a18505da3f9f2bc315dcaed42c1ba13ce17ad5bcecfe0e8ee9d0, 0x44e02847c58234dabccf1f3293e145962ba1ccf7009d963b5a4cf90716c6bdb6, 0x311e4adb219afa416cd362ddc09573fc1a8016698f16ad404c52b250e2b0594, 0x130a160eaf1bbc6badab14456bcad6e9004341a0658d48f5abc5875868a019cf, 0x34df7dc04be9ac1753bbf856b05190285502e2165187986115bb5c052edd797d, 0x6a20c82f1bedac5949ceeb3a2dcef13d89ea7ee05182b5d1b7f0593107f350c, 0x6b84a20dce7c7a2c4c17b5373522d1a36f9ec8c54bb71f343449f92359e1d813, 0x1b0ca527ae88dbb9b4f16b0ae12821f0f18189503cb64ff728829c31ba8506e0, 0x30b3b6dbbf368f15812e7a3a742e2242b13a8ef62aedf72e3913e45f35f7c320, 0x9f5b49211cfab1a81a47960d640478bb19e88ab216d9cd76e2e851e8ee4be8b],
    [0x6963af62e003892a5d1d50074e93217934daf23145cff68aba2e8ba200000001, 0x4ccc51e257f1ecdbbd9da0cee07e091a55a8ecd633638ba052d652ac3deee8a0, 0x3eb0eab5b086b1a3cf83c0455c5c50198dc8a0f2996f4e9a719177cd23218952, 0x29b49d46ba4696dcb5330503b4371741a012be2b6ac20acd2d1067ad6aa43b82, 0x58eb2e5198471db83280ee06d00cc1358b961e6d0054df33b6f64405d13979da, 0x51e73d61c660e465cf6b35fb442180b19830725f970ea1f59d5736a03b6fe625, 0x6013da32b379e291ca20e6fabcbdf1b1cf7ed62dca23e693bdb9b5e828b5b509, 0x1642e789d95b37b26b56989c51daf46280a3c606bc04c4380458717b20e8cec0, 0x739e39279a04387af35343f24062221476bad123507d5e6c010886f6ca097c, 0x2ca2346b99a7ef5608b4dc65bf84e4bf37fce1296b69526ce3586de6264aa6e1, 0x736cf2411d1257eb8dd36925dcc1fa97df4875f799e89d03c65cbf1e254babf3, 0x7087b48c6905e2da8110b7a49226e1442e94d7f6639b9e613249856d0716c710, 0x7129ae65729344b4c25d05c49b4f60f5301b9859a44ee49b20bcdca82d6f0565, 0x1e71dff245b9fd25acf7df7a8238b8a38975dafa2f43451a77022f975604a2f7, 0x58650aa1dcd6aa36ff7a934c46c6a2e3445f38d10fb073763df6dbe167fd4cd, 0x130ebc6827137fcc5987e2f6df9255ae105a6f0199ac3544e13f2f31ab3fef23, 0x2e3fc8674ee86dcf5f8db2db1fe8693172ace3577be45a4a31c665f103090b88, 0x9649a741c0b7d49874b30eac7f98146c0fd11df6f9f87e89f772cf9429ef4a0, 0x385aefbbf5288e537af331f9583f10f3602e60f6b122b821bc1afa8cd6b3c30, 0x64356c24a652eca47b37236b6a646f7646d9b0ddfbaf3856443a7e5db06c03df, 0x4e6f52f48caa53d5aecaea56a12a4a81aa84d55a581b48e6ba29d8450c3f7b0d],
    [0x6963af62e003892a5d1d50074e93217934daf23145cff68aba2e8ba200000001, 0x394d23c09a526a1fea01a332dd3f74290898114f5cdfc8e2d4606197fa02c5de, 0x2906093b8f4576bff385ab119c1bd0a7b8b77d64bff18339b68e74dae687eb17, 0x1d277c8d0cdb714196a60755d2c9363b214c6ff38d4d2cd3caa16a8e3848d15e, 0x6ca4e3c7b21ffd57c0dc1b04971a2e858d2d3644c3c6419689c0f70a86ac342d, 0x16c6b555319f8715b1a7c9264a760e819fb31072d3e3446c84802c38a20b0cdf, 0x69c6ce063c26bcde9159961fcbd8fdd70eb97aae2264f4edd4a91588b1a7f9b2, 0x6f3e35f05520fbed3576fd4bbb66dd04304901d70d247e8c991f567878a3c9e4, 0x2cf1ab1e117f8f9fd5afbb07525bc0fed42ee2799f35ae99868f675d75d1a72e, 0x2e1a8a3d91c42dc16d11693e89f58de2a487819157dfce9e5a08de998e42ae7a, 0x50841b53f863e69525a7764b6ee4703fea3deee98486b5a1b036c163ef57d8ef, 0x6913418036fa26fc883209fc6eb4530cf155950768dbcf66b01c54cd29ceda6e, 0x5efc4eabd67d0161e2c52f0d0f437776d80f128387e933832d997f6c50c4be3a, 0x47cd3f554224a69cadb36de583b8f2649481c5549b2e2caf0172c832cdbe0af, 0x607f804b6b43c3a1778eb731197dc6bfaa6691df20221940e06e95697074174e, 0x36a57df38d5f39c21c752aea01a1918f8a929e18e4669d45977cc5ac4de5ebf, 0x4123eb30aff5a347bb87ce156ca042cf07ea432cab2f13abdf00ddef229a3309, 0x256e87de274a4a308b31bc534c1427a9aba33450ca248ad2dd6e18e3e275065d, 0x62c2eba47beb4fe1d2299512252ebda2c15693dad5762be5fa501fd5803575ab, 0x682945d7de8eb4a559982000e771604fe57e54ae6ccbf2b12d6aa0a5cbb6c7ca, 0x1c55c6a80e659ea6045cbced7d4b0bbb487c43ea872d0420570d4e2e9e22e9c4],
    [0x6963af62e003892a5d1d50074e93217934daf23145cff68aba2e8ba200000001, 0x668b082cf9f4c4f19e14072f5091a859f19a539882b3c7fb8dc4e53961ffcdaa, 0x325da6dde0d65bb7bcfba5a3442aff573705077bd06769c6975f05f0a916ed12, 0x3e7217034507e6db3d644a74d669d89bc3f7aa9e10ee5b8a1ea2b1b6b818524d, 0x69ff780531f45f622f47b0512e7662db1be4a6df7aa6f9bd23ad841d6449786d, 0x5da768b3e35c5ab1e4c4915d14f3d2b3559ed66dd3d4da4d0d65edf31824531, 0x6e3cb9d33c9d3f9502366822a5a1f675ec87d9b799c7e47d5189c687bda6c788, 0x4bca049ee7d5f60902cd13f6f80d0db3e83bca04fd1519b50bab1cfecc465d79, 0x6cf95055c4ef6882252d37fe4e3dd96e6572e3c1d773e6c8817669e61f0902b6, 0x87dbfe1d39a026dd7544753629a4d03efa8709cc4ac74816e5b870d78e3c526, 0x35da65ec1ae992e58d5936b55b91990ea84bab78faad077688303c024a976982, 0x1058695868eb934111937815a819e141bc7e18b6b1d80d263cce0fad4190bd61, 0x6237a1496d66769ada91a44c2d7bd8c36c903d9ba834d0ee52b72e7d682c9391, 0x414f66821060e74a84de7ba929963f3310857f0e32b55339910e17a663405d8e, 0x4fc09f5ade78559453daa8c1bd19fa1467031041c9d0f31b969c14c2f956b678, 0xa517dfad12f1d0fd2a89cbea36893f8e02f823d0f2197bfa7f067b9a573c3c4, 0x26e16536d5c68147a78cd793961df62afc6d085a5843f8cde3d4b4dc6b269b36, 0x73ca4ca8c28236accbe1ce5d50dd305857541957bb63e845488e6b604f9b24c3, 0x2b9b7310175884f8a3ede3739a058daf79ea58cb92f0d261a9e5315b2c80f765, 0x4ff33dae3cce970ba6d831319adf6b0f27aac295245e4e8e95c38c55f7616e66, 0x60dad3907bc28e776826bc9b4b9de6c3ad5207c8458c5c094d1474d4947c3a30],
    [0x6963af62e003892a5d1d50074e93217934daf23145cff68aba2e8ba200000001, 0x5f796dfa1a7b717c9f7878303f00f99b9f429b63bc6d81254b406267667fb819, 0x353fd907be8af3c6b42f0aa48ce245310685efb209ff06fa9b35742ce006499e, 0x2f6e2f89c62ebd6201015a5c2674ce25632a782fb850c469c284b444490094dd, 0x64c867981887903ac17a017f7a1445e362358f0743df2822bb2d16d5d4e3a26f, 0x70a2a85bedcf517c651b4e25cb83e79a585567bdc36b0998ec2648e514efd776, 0x565673d860483b2ac5bb06cf36a0660400a893a1440566faaf6b52086957d276, 0x2d758f62105125e742f2434aa79edfa75012495b3c6c942e3999cbeb979134b7, 0x1ad1f6b664514984644fbac7eadee1c81655e18a39dad1146ba1dfe54e5b4546, 0x241f62c7bd64b6d337aa29e403a365bcebaca5d8c76034460239f5d66177cb86, 0x7035144451f9f06a55816555176b480003a691cb95800e3583c6393c53b019ad, 0x5c4d857c0aa5440aaff69c9e48bdc274068d2ee464fb162db0b6893a3982485a, 0x8ced2eb49c15ba51023078bf7f4bd736430848adb636d5aaa77bf39d7355b53, 0x1cafe04974ca3ebd6122e2fb26240a10fe3e599de5e8a52b1b87e77178389bb, 0x20d85564ba1a832cedf2a4c1dd82b8d5aea2570897c8daaecb931682b1596657, 0x1f230446959ee77665d193466a9174241b29f2a1a4bf93abc61d856068a83ff7, 0x5ce61df16335333e4259bf2c299e8e83d5c35aa522daf6adaec2d79bfff4ecd7, 0x25037c8ecc26fc2e6ca55cb0aa18c337328fd420a95fd3d1d17aa6a38988f7b5, 0x1bce094d8db3d87661b9b6242bd6fcbffd86c5314fdc84b5a57637973bdf6e3c, 0x59b34df39acbdf65589c32aa5323657197d102a78856fb61047fa8ad2adb9a8a, 0x16a3e5fa4044f84c5ef69b00c1c613645799abe62eb2f1d7008e54fd67183851],
    [0x6963af62e003892a5d1d50074e93217934daf23145cff68aba2e8ba200000001, 0x118f2f60babc6f0e301f35cde9500db100bf18c0a2a7229028324a74052fbd52, 0x5ab89072226709858ac9c0357824a08ac33a66bf7d2c63800ae12024b46caf20, 0x6ae8132108f36fbfb8e44f899db0a1eb11c2af7f38d2c3bd50bc8776615aa3a7, 0x261c3fe0cc5bb3b2324400166bbe8015ca008f336feb1a521d70868c882d0609, 0x327fbe884515fc2023d1ed1d5ed38f2dfa07061d8edc987bd0c2e8f1bcc0b251, 0x6292a9c782c0f0bc09bd34e5621f47d3923478dc2b027b0228d11d3c224d6757, 0x4c4ba7754eb2070a6da389760f7f94e73eb558df297299652113fbd1b95668b4, 0x4b124e9b10b7f7a68ceb9182a99bb2384b9898b0a2805f00f0023dd6fbdbe43d, 0x17fc5d3b91881593bf42d4b351705f351615b85d00e125e26262609a2fd8d598, 0x3e12a1cc8c0d1bfd291719fb5b2d2b9f6970e0bd21d5ceccd4a458f6eeaebe6c, 0x529e7bf3f7b51c3e65187573d587db68b5ac4fff2b62b60d7955afd22e0d3bc5, 0x5346aaf613ec5c8f5501751678a815f01ade54fcf0526f3ea9e5543f85641d62, 0x314d254897c0dbf6c860ff4f5f159a42a94d19d898a7911b293810daf8b45f72, 0xd59a2bd2aded4e29d2549caa875dc99355e9b3827765654cb65ad8a1b057534, 0x6d83a3e15b9e850c1f65dacdb1728f56166185ae0cb6d1c00e78e814cce8846d, 0x2dd92f98e9e7b80a1a197a82c59c89db26ed3a2d39db8adcfe11fdc9ae261b36, 0x621f96bde3a27dc17d1be9439f8a19793645e0ef88c298b3a41f715e710f34af, 0x462a9b7543de1fb1e0de7d1073adb8e653be0691df6807d5ea097bb057bb1a09, 0x2940837ef1a76f43570ebc3b6422bff9dfb1b1a62fdeb3a2b5768d5c4ed6cd7d, 0x2deb9cb5a83381877e05b553265b7ca072135b0d283e83b592935745d7813985],
    [0x6963af62e003892a5d1d50074e93217934daf23145cff68aba2e8ba200000001, 0x123a2dd81a34a3326b1e09c30236842f90a7a68547930e0fe7b07b650ac915e8, 0x3cf2d597ff484f45cee64ecfc4250f4d9650e6dad438fe824bc6582bc33b19e3, 0x3c3522c2a9c0e39c210ca5b97abaacbaab98b3404bc3b784a85c76a3ffde7100, 0xdf4992643101a4e4a3ddb17623f7878fb5f543b90b2d847848d501739757599, 0x3bb305242408891788424c0df7f940c3050c23941a60d047870e5bcd80c93331, 0x21af77c24375190e5fbdcab5f64af29f3a9910d4168792a374c35486b57fd7df, 0x6aff1980e9103e2b7dd3df464b9edcaba30fb26579ee08afc6ce4c2da2b45f40, 0x2de893315135779476af0b529741363aab82ea360c6fc4b08ee37e37355c1df1, 0x119df12f3ed05bc6cfb8d8c783d7cd1513fa85c9977c058a8ac8ad4a2ba27c1, 0x3084665a9f76147465c20914bda1589fd5925766a252b87c9b529dd55ca52ee9, 0x5e951d66b6c1c0570b19ea30941f2a3585d0324d643b33b7c8e3c3b7beeecb4b, 0x601573d36c72db88ce3ff3829f4cacda1a2b282b2b6dec758a3931ce6a3a773d, 0x4bb185fa735c31327a80b0d8b6d3cfdb89e9eafc7b9b390681adfd5554192b4, 0x134932fccf19ad225a432fccb34f9f3592a76c9ec8877c054039b7e7ce75197d, 0x40908853c6b84c17492a1c42f01e63ff3ee0678516fe5b331e7198795b0ffab0, 0x5d5cbeed48ad24336f8522c15db9c29978ffc05002a2e73e023e9fbb3822d526, 0x690ebc2056b4a73edfacb485788b0a1fddf282d6f57fbbacd7e5f6308dc77306, 0x6134e937a532104ac486234b3040e102925ecab001c4b4e0e6f7c833885afa31, 0x7d7e813650b56f9bce06b0e92a8fefb8ac805a0c8a921204ac7b99a639bd37f, 0x44dc2695a87d89fa04ef5261afe69d78e25befefbde00b87b06df842b9ab2abc],
    [0x6963af62e003892a5d1d50074e93217934daf23145cff68aba2e8ba200000001, 0x66b504ba00b2904ee8b176b2cf3bb3feacae59d494463389b5fd431285a334e5, 0x6752e7a3dde062ee7efbc74c7dab705d9c19af006316bea4716a20fd0925ae5e, 0x628ad88414ca55a60622795a13b7d94d363acd66daae37103212756184338231, 0x30b1ec4bfb182db82783e2beb49f043893ede92c41756e03658bd83a3f276d4f, 0x27314d0ec261d87fe42cc615adc7422fd9eff4de4e38d3f3a9b65f2b36cca4ed, 0x124f41f072b73eb674e1087da1241b5d8f2a1dcfed1335621686e6f7992c7e7b, 0x6be8033d6e3aa3f3645382748c7ba29bda5c70716de3380db986325892ff1503, 0x2d8c485e716378e39672c2e37151375d6cf82eacaf1a3fa08d70c17510b1e2c7, 0x5e2adc7f860397bf5de0445d0bc7d3e8e584e6770be2944b40bd3ad67373f938, 0xded115adf7592f940a2981f7bed2cde2803ec6bed9f7a8f2ef09afa62676511, 0x4480773567e6ed3d13c47a9e44c2f9ff0c5c0bfffdfd9935835f778d2b30ec16, 0x242568859b5c9428aadb9ac2844bf015bbcc11961eefe45b00d34127643dffb0, 0x4f7161e3e534956de2873bde96633da8bc48916559b2f32e176a3cb2084f6ead, 0x65ac0435025d7bbd95f128a5aea8b39b19c9cf57e1d636ef01ee9c3298d6330d, 0x6213718b56c412c373a98f80657385bdd0014862a4506e5c2a6233924e6aaee5, 0x40a5e13383aafab396403b390a200ec5a7f409a87483d685483a6ace1931dafb, 0x391a76bc8895aff661c666867ce09ca650e03c222a23a05f429bd20bed184a4b, 0x6e4d9bff6532168195c6fb0a28aa816a768ee2bfefd321493371026ff65981cb, 0x4f561780b34624ddaec030434a6a766adf37bcda4319f6bb05825b8e85f8b3da, 0x4421bbeb83b5d1425895caefc7e447697547411f0f98018d34b6cffd01df85ae],
    [0x6963af62e003892a5d1d50074e93217934daf23145cff68aba2e8ba200000001, 0x246e3c23803a7d9aa308d0b001f0923d63834c730636a93288202d38a313953a, 0x4318a4c26873555a3c5f4580f7580f01caaa3fad25816881866bd6486ea0437e, 0x66e0262565da9f9a91653488462aac6fcf8125a0a7c66df4f884f02c822bd51b, 0x248381fcd69754cd744cf403c62643a40bb65b84ead14be8d207151b546af37d, 0x6cb01a21435a2137f4e5045a33a007c23e03ba6fdda7f99f68e00eb3ee5000f8, 0x59e6d8eb56c668581406e7d9de5a5450eb89c6de4bc1c396a06d86f3695feca8, 0x721d07ca7f269cf0b673dcc4098b2f20bf28d56113bf4f8e29a1fc5d5952ef07, 0x12357527d69551c30818c75c0a19ad57287959591d8040cf161cd94c96cef9e, 0x5f4a2b80239153514d711ca539c165c6bbf55a045cfae943ef5e68d95f2a6f82, 0x1a4bc33d84f3da08e41066c8fdd11dc99b381653c96b15f6812f0d1f098a78bf, 0x38cc176306b4fffc85e0abc34b14c9c2560d16bef64724eb4949823cc92d85e6, 0x5cf28e4b619ed8043fa783bb8627eaf5d579f90064838819aff56c6dfb501f97, 0x167ed23dc37e28dedc2f2b69120dc4ab4f62ba679013f937ede75a35e65c6251, 0x44ea0f087705845b71c636048967883f72cf1e436ad0d04b980050ac35eb4d95, 0x64667467262ff6f43991912933151b46d5efd7347433ad516a36458b4152e09, 0x4fee602752ae9a77141b8c05719b7fa964c42fef7569679417c5ebcf5e8df4fb, 0x2f59f405a3a5a3b4e4eba5c15f5c23f4f76e31c80fd29c245a20cb33798313b9, 0x3dfe662e391dfecf0d6bd3691b4f513a7af7a9ac9da127db884a02d74e2bc12a, 0x4b8a3af1ff0226c6c02d2022bc91694bc94b822f0f23a1a16d50152ff950015a, 0x184d5733ca34221d30b6339135c957374acb5da83cea3d51138bf8dd0c4db9fc],
    [0x6963af62e003892a5d1d50074e93217934daf23145cff68aba2e8ba200000001, 0x47ab2951a709792bec9dc160048203b4815ce61590834e13a6248990144fcaf0, 0x65f4876f14f30c315cf815c607c519d27cd8bd9c3ece2fd50be4251a1b9b93b0, 0x5b84ef2c70b5b87dc1d9f54affa4d6b8f906defc66eb2a584c556769a391ef24, 0x2d38ccb68e9b52a8b552c8633ea9e6bc5f989c567f7873d0fd7f49c6f243c4db, 0x1dd91e0f9027bae9752e1bdde33b73ef6ca9d0bfc847c0aa36305d22dc5f2462, 0x64e22801c16f0d17db540c6d2e3b942d3af1c0be543d30ee2ec5fec874264122, 0x105d1894be11c2992af66f6bcebb4d08e265c367d0913bd8aa1c3793df337451, 0x135fbadf79788d9e177973d541b0fcffed776aa924be52f3f09ee8d4d1b566be, 0x3d8e744579b508338e5f31a1ac3e81a369550832dd7de81765549d7814d584a7, 0x1b39aee3f448ade7b39ab92420f33f6a042326a41b55df6b612842b8bb193b9e, 0x71d9107b57883bbd128d01f0df577195dfbde897afe28a327dc93f982e0a5279, 0x59c4fc927c8704bd261770b05bae5be0ce636713c9e14f0fa22039abf63a4438, 0x402714773040bd1ad2aa99a1deac1aabbbdee7ccd5adba54c2ab0abe049962db, 0x1d749b57b4bdafce66d73def663a4daed57c13e436ec8ed4918208e783d3ed33, 0x6cb88a8fdb1bcc76b9011abbd2b1f73643518ab79e66f24930d189905fca5aff, 0x293b2d204fb0d7273b5e90ebc0067bb63268ec9f22759da5ce8ee3919f0b56fd, 0x7f687f57cac661e231e95e5ac2718b0c327397f23629e6daec15d7e5741685d, 0x45892a2f33c3de69aafdb49312305fdcda43ac1a46446f1158e700035cddb6aa, 0x30841f23f4601c23274f1997e97aad7331caf81c1a804ec721da19be6a5bf94b, 0x5f3f250020d9aea02361034e805ce67ce783c103017dbe1caa90b43f50e5d1f2],
    [0x6963af62e003892a5d1d50074e93217934daf23145cff68aba2e8ba200000001, 0x5b937c74b72d8b303e30452fabed43950a78584adb7e953e813395487ec1f936, 0x47e8d344d3fdd45bb1980c29c7be766d8a981e492a71504dcb899f2d8f63acb5, 0xf741e73f149a15552605830992ca9ad5e8193427894d00de255b10ce880eadc, 0x570f68d467083ae886790f13a6214d44591b3b7caeffeddf6086c4d2ec4030c2, 0x12d1559aac2dbb9141e6343ffd7e94bff9415a4a207839bd6d2a95064848d71c, 0x52bb439f59ae0fd016e3062a776dd36f76ae3c27166d68d4def2a856079e13df, 0x532b195d16909c5f8d88a9ca73f75d17cf3bc8b0bb25e2926a4755a10302727d, 0x8dc2d1b08b3a7f9fa151fe3d580b723e90e312f3a101377d2e28fb4314477bc, 0x5a84a9677c94d8f3efc9a2644638ef47fb28afc28ed42e3a9bff7e2fc6e59174, 0x5543a6ec1471306d783381f9b9c2acfa383bd12a257c712696f6c25a77a1400b, 0x27e1285c380e966e8bf43e5500ef9105a4c81d4540783ac31727eb230372acdc, 0x4d3b85d2fe4e4dc8854e6a479d6a012e89bf923cdca9250f1e2f6603447a7873, 0x38737f30905ba9e15e46d281d21a7e6645017a4edcfe5100393b3d289d7014bb, 0x13ab46f947e2692dec61b757ae2087f7b9acd5e3b29ea7f59f133ceab0f5ea60, 0x6ee9e437fcc97bb2c3d455bbc958dfe5b954c14cf5501ebb1120144a01b3df2d, 0x2b63dbc82a14e11667a17d7864ce63140a42cac97eb30e7401f3bc97ea5845c9, 0x356f9a2c33eb6e241a33cb3f6353469a7867516705cdfa938c37caa49f57f84, 0x4548dbe6460a1057847e532c050037807a76d0392578c57e4e474cf7f334369b, 0x5c972f4df105bd4423007050bc7e94b06330aedbaff1fafe5df9d64fa9edba50, 0x17c29048fde8176209761e6f34df05bfc21acff8ab4a3dd52127cf7e6650b676],
    [0x6963af62e003892a5d1d50074e93217934daf23145cff68aba2e8ba200000001, 0x36373c2670294e4ca5a823ad0e11d67f13a3fa584b77dcfe52a6113633467e1e, 0x146f2ab69677420c4416f700569aa046e397d28cdd3d0e1b0038e68604b9bbde, 0x4291d14cb66fe17e4927ddf6a034f982d973e89456ebeb2efafa5b52775ae525, 0x2229eee9509286c88576ae4f4c90e8109d85c192490f6e39ba8dfa4a9d88311f, 0x157ea2d45a07c5f0dce0d5937e1b645eedd740305294c8c6f920593ac71ecc79, 0x72435aa5b9ebe8bfcaa5381e23e1be50ee805d273c9af44769cb05bda6e6c56b, 0x5d10bfbdbfc76156b57898e801ecc74ea393ffd3e3d455cc05ea7a81c5e884a2, 0x1489663e91367715d11b1b26645339cc860ec2c9607b013aa0b039cd8db30cf9, 0x1a73255e06075049d8fbf6a1177961bc32945f0ee95c332e502051e6086ac962, 0x18731d309a2db12666961206aa302d5550fa33ffdca8bddc41f930c368ee7082, 0x667428901e174c274691504d41b4f5eac9f80c79f77ce04a0ee049a1a6964ce2, 0x23e8631a541ab732de8871dc5f94f25edd1db84ecd48209905e5897fefbff8c0, 0x5bf98d5393249335d85122b7629355c1fe69ff4bcdcc4c4ed7346d90f5ac6f55, 0x3c0e9eee9f14f464b21ee79c04d70bf13f9191dc1822cc3f832298889b82a98e, 0xca14b1ec0556fe69656edcc1af72323848be81e846816761630827a73681c6e, 0xf3e7264cb0a8861f01a8714232952bcb023bf3659c603307b5cb5d3a61d7eeb, 0x1e045da1d30254fbbaf8cc268774743653ee740d7ca9fbed2e600e09459cd207, 0x5d11671d2d921f225e0dd033a634c82a83bdfa9e14623ffdcb2caaa4ccb04a22, 0x2150b4bf0aec07d0bbe2b49c3550263cd48d1d87ef0540b094385fe58554ec16, 0x6fefb44b0096c0bbc2ab639a6cc8ac4e66574af90638b9315a2f0e7d4fbd4333],
    [0x6963af62e003892a5d1d50074e93217934daf23145cff68aba2e8ba200000001, 0x242b7090a6ebc2ee5b21c72d6bb17883f9a6645a400e5c5f61c1a28befab72e5, 0x213ee03ca5de385eeab03455bde670ff9c67c79683ba9d06cdc29e13250f643a, 0x4da2fcda1e017bfe801090316d6b71e53716e8fe5c3a98b46f949f5c7bc27bef, 0x3af4e299dd1c36d4bfc0a0717f76cafcee16f66395753f2814c1b10f4a8d500a, 0x1b55b8cba99d8f698cb41d540f60d2ce0bde22305a11ca0444a344c47cc28c6f, 0xcb7e39f2e22c341a6d5a162ebf05f5c3f2f086de97e03868245006df6107620, 0x5cdc637084abaad215632a1ab8829f4b6b28e7911244233f46a1cecdc1da6376, 0x208824306f457fb6397c1c0308fcb87538fbe0b6963314161b8868030149a774, 0x639b93fe00baaa1f53e23d740ffacbc5364efe4cc192b50cc5a45e940cb114c1, 0x36cfb1d0058760dba46e8c59753e25196a7a2e6fffbe644226c18e78cea29381, 0x6088d7ff61fb24860a4552c6cba5edb13581876ab74707fc73b55b8e3ffac1a3, 0x489e78f45de2fafba2dbc0442cad4518597692558cf63ca159ec33fb195b7691, 0x124355f33a0090bc86c515206d16df6dc5b6c61665b7a7b2d2dace3fa66a827a, 0x5e598e9d6a78ec1c2ac351089297d5c0ea6c4decb0aff03b087c2fbbe46b40f7, 0x7162abdcc294c90d2f69e2650db1d3acb14f6f751b802124bbef5899a3d57d6b, 0x4d554a0808598143e17f31cf878efb67c7f2fc915dd8879ec2d9e8fa5507f024, 0x404e24945fd593a8e7860dad0d3fd221901d43e9aae3732e1111ce38916bd7, 0x2b41802c4ead53499d1caf4015d6ae27b0d402247e94afe9ed8b9dbf6a30e090, 0x653f8b2b68f76b0f4196c7b5005ffb2e9767544b66b27b27eba5e553c6b5bb89, 0x2587e018e33d40619e96dd075d8d6aa440946844fa35ebf39b4a462f263f83b9],
    [0x6963af62e003892a5d1d50074e93217934daf23145cff68aba2e8ba200000001, 0x8e06ac17ea14b5aa0706590b42d603d97fe1271335e24003a1ccea1b6778911, 0x6ea68e776c13e38ab8a50c91837d24706a765b43359175c178c387e48c44a51f, 0x607d9431c2d37ae752687fb18b257faaf819c5d25457cb9982329ae98c34cf12, 0x1a6fd18a410928738bc72042027cfeb21880c705ee0296c7e29769bdabf66dfd, 0x101ec2947290a6d8c70bb222eae1c665e2f7b3744d9b4fce5725e3940cbf1f82, 0x47010f48b1e9ef8689274a4f9eb0dfb86e07d03885fc6a10381928522d1f0a26, 0xe6ef3298a83eda2d4457c69d31771cb95ccc70c5e94afcef8cd3cdb7bf8caeb, 0x576e261fd1f3304a886f83ba0fd5ecd87ce73b342b523166c02f994e8f9b62ec, 0x54cd5dceb11c81e7dc796814b26e490ec2c0d13dcb2c4e6f47f26926ca650eaa, 0x6c0a62a188772be3e79f3527ec0dbcd35582f0c7f2ae6c99eedf9443138cbc0e, 0x168a8ac6243e36acd5bf514c8655594c29663b7a230a2a2928510126760a883f, 0x57dd10e0aa2e643c0790b102f6807b14dabd559ec396ebd74e82f28299433fcf, 0x22b1a438f9f3eb32926fd9873812f443d76502881c0746e2f648080d96bf06b0, 0x4f492dd169841fedbb25f154da7288e674afe8cdde88ddbb3ada4432badde38f, 0x53c37c43f113db16f6f2904224afd8aa5a3fb7310cc811dd26bc2c9143951cc5, 0x73e9e01954813a77f1511a2fc6845d24917e380870e60dbd2fe8be7d92422760, 0x65307996020162e77d140c1aa0f73434279ae82a7065821638284cda63e5f645, 0x407ac4ef4504157e4d46ab7a47f03269bb192fb957fc2290b181b68f7006e2b8, 0x6181cca5dbcede1e0bc48d1f0b3ebdb4c269eeaeb1c3ae36164c3ecf03092101, 0x1890796a07df06a97514c6f26358e4096e4b9117d9c8da2ec59a1382a1dc6997],
    [0x6963af62e003892a5d1d50074e93217934daf23145cff68aba2e8ba200000001, 0x70f685b8260d7b3d44d2701f7755b9d2001cdc8967ac70f5b3053a5f1df1e74f, 0x631b5f74efad2d24c0e739c49c5ec512e3153bb6dca0a576329fb7c251f6cc15, 0x5dc4dec096c0633efe7544144d7cde694a9effcd19402a00d1e7a3279583a177, 0x6595ca322af2f837ceac7da68cbb69dd8fe29e6d7638ce5cd00ff81f7405a784, 0x63a22d9d539894171ac304a7b5aa0a3b6ce0854604cf26c3268cdae0bad6e63c, 0x1fe6eb5feefa758cdc8253905b8cf3449fe3cd59fa3f7f4f3e6d197ab5cf2ae8, 0x107e5d8b1856b36a49478701b2da0e4b6bacb52b294fbfe9c026ee67aebf3ff1, 0x119244b7c2d6b88ff19449dd413836fe4f01f19ce380b490b6b6ac388bbd8fd8, 0x6d739d8902278f545ab34e4c28ff3278085361e727ce54f0be3d9d127e950ec2, 0xa2fabd34666e28b84bf65da3dc5e517f5552c5b4c904fbdf88bf609c1c81132, 0x68f72c671368f8962537db629dd86b85282cc42ad97c02964c10c8080d7c9cf3, 0x1f134ce981c436a4ad6c136a4f84517514fdf6c8c0c5c6fa6deba1677d3993e3, 0x3b54e3e9fc11cc669f2cc6e56391f08fd8f398982b6646371b9d9e474f7b6818, 0x8f1f3c8053177e163d6599678d57c55a4472fbc18d6c258d2184b73c888f8e7, 0xd2712569d15ad2b062250ebf0183467807c4e56c10fb3c6b8f732752576c244, 0x4e2c1e41cd55d858f2d19e9159d7782fd640a2e9d05af134cd0e83d0c30560c0, 0x5f8bc2df5214d7cfe6483d4dd43eaa5f313722fd99d5ec72b9f4506b6fd11e40, 0x2f2d32cd5bb798cf8f9c9413706e84f4755e3c575b0b66a590d2d7a0adef52e1, 0x19c14c7b122a9e99a98a8832392e6b53cd58a1101bd899d28357091b9c92388b, 0x1bff5c85c92208233392ced4147df978193b0da8dc69e01b0b8b02bfea8c1fc1],
    [0x6963af62e003892a5d1d50074e93217934daf23145cff68aba2e8ba200000001, 0x2916e6385405bcbfc388323f57167fe4db8c7ff5229942f410a95c9b4a0c8d7b, 0x31a14477b22d6404a38488defb9dda1aa7c1cb78894b1548b7f02c602e91b38f, 0x28cf08b48eea6719644c055055a65a890bfa59761e5efe72c305b4e1a0c1aa0c, 0x4d3ba6779103e4fbea94deace16c4621a4d9f253c31f10218586890c00c10fda, 0x6d1215b692556476ed1fde4d3ec4e1247ec9f9a17e165588a444791661aa793f, 0x5ca1add867efd058d9ea382c059ac998649a61bc6aa4b49e62511949d0cbc76d, 0xc00868008b3e657eebeeecb09a7f55fe3fd5810fdae07ded267153563afae38, 0x72e5f4422c591d667cb61585760b5122fadddbd13564f439490d5022f1102092, 0x17537958ea0b1d7822178609f50b9a6d41b17aa0e1c8a135b4d15e7502f248e5, 0x428b26fc5c41566ec431fc83096678a686ce776746c783e1186bf6c65b93b0c8, 0xaaae30475398cbcbaee7ec601775d174e1dcfccb71d340fe2103e29013d055c, 0x38ff3f466bfcce225e29250eb17f03194868f46636d9b94c241a49d491b03d7e, 0x2e30372db7822d7ab5a64c0ad57bc238d661f9f3fddd49b5bb5dd0e2a09bdf64, 0x4ee097a866023221d90e3986b021a1debd23e266a23f54a743a0568f8daab4e7, 0x18d28368f777989384a8b2160459151e1a06c9115948e791aef32a93122a4d5e, 0x295afeeed9fc64a732ee535bddac9388281a276f87a725e7a86d103a2d419a09, 0x1bfe1aa023f13d0927f3b973d67de1f127ba080fa1525a70c8effcef15402bfa, 0x302810c09ebcc0ddf7ab7d6a658eb02fe84f54bb7bd0ce5817a9f438a9c6a1c9, 0x6a11c320203a097a73b69c3673653ab31a0215b1e8d84d84ff0231db0d2f8887, 0x71e1cfbb42fd231bf759e2358a6c5ef2e5fdd738fc789fb6d237a4d3811528a0],
    [0x6963af62e003892a5d1d50074e93217934daf23145cff68aba2e8ba200000001, 0x1fd22f0cccc1b60fa931f99c33db6906249fd91523d6252b212af18217d44d98, 0x2cfa84a38907494ed8c9a1d60da207502234be5929e9a2315ae7c0d2e00f066, 0x16fdea828fd789163c10269928837a4269a61bcd64b3eab9094eb8987f82b4dc, 0x2cd8a644fd19fc3826fa5e4e0eac111b0d4b62a0daeff0eb1728d999fbe85597, 0x2c9752ead0c7e7afa342209c55a9c9e28ae973db1415b7481374e82a294d4ecc, 0x508f6fbd7fdfcb7b5472d82ef9fe1ff0331db386de20a2ae37ecd24c34fcddc3, 0xf6188e18b572ce7fe00b015fd0e21baa5770c6b1d675656c575268dc3d7f25b, 0x12642eb328a797f7afbdbd1b5333ddedfc5717fc55644a3b6ff7796c8d415212, 0x6ec2c59cc8ac4dc13dc57b92a863fad61616aa3035faec95b9cdeea85d658178, 0xfa443d3d8a50db96f1da4e3ba3a81761595703d9bed32adac160d66999cc444, 0xcc9fe9f2ea142de759a826b08a934e904b907e07dddd42b491616903b5c3a01, 0x65fc8f77ffa7cefd677cfacd1cfdfd4da2841677e222b7e83c5fb4008561ec78, 0x1a46d8e184d0b4b8c21c42a97faa6039fdd1dd968afdec05ae2f29cb80224e11, 0x124acbb28ef1820e5d044bd3a88cfa292defbd1b27b6285482c3bbaaf991ae7d, 0x47267542f13f7e9ce5fbdea0a9ef29a32002c22a43c49399c6992f44bc17a255, 0x19e11d205740cc15c2a53665263bb02ca1feb8c97c640846562c6662847c42c8, 0x124294ef3f512c697d0f3bf06e5154f084e5235290696a0d4c6c5fe72d7d8c01, 0x3cc04677d08ae0b71f6edae274547f7c379665ea68f998d90655d91d01554172, 0x153a5522c9e8185dd14f575537293375969614d9f3fe3e769a5d4b6ce7443926, 0x215a15326eef3e22c5ae81d376c201f8f109a3db8446d002026c0b5085f6dcde],
    [0x6963af62e003892a5d1d50074e93217934daf23145cff68aba2e8ba200000001, 0x67275720b3a3165499f83be3b566cce97668d49dd82f5e3ac710be4f34d36b03, 0x4ec820e2f874d1ad4c18727fc60fa14b960b479ba51e26fbfc98ab5b1f3d7460, 0x656acd576f20abdb45c4a27d12f37282f7c08eb72f334e9cbb90e6193afad105, 0x3878cdeac64392b1a6b3313ee9a15132091911f5d57354ebff70abd3a3c0e1d3, 0x1d909b9eca590dd8767bd0383811a384320430498b0153420b38f664f7b155b6, 0x33d6cb8546ce63269ddda94a49d02d7b264a170a932a952003e0a836f9eda8a7, 0x18f1395a831d39505b9ded0f0ee9ca20e254eadef9a890a4dde2721211674461, 0x2a1baab3fdcd2451254e9885a2beea9adc46974e57108ca705c985e2f2963e58, 0x9b8c62faa64452fc6817a98d273b4973e605f79eabb6ba4da408742d83e060d, 0x6660f6830417086dcff0e7ff2540be24c95cca831ee86e9341abae9926d28ff0, 0x7366cf499492d616dd1e99ff788ba11c36ffdfadee80099dfee2aaadb8c40b88, 0xad5bc49067a5cf3394f0db516e67af133291ebe73d0bcc2e49848e9dad81821, 0x3ef169c638039c6808da5e6eb97a211fcce3bc96788a01da0ecd610c493c9028, 0x5ec84e024cc4d03dc112ff3ec3459a593d16dd212a483c807ec8a2d99ef16da3, 0x6a3e99524fecbd94358745549f1d150088ea88e41e17f4f606d78e37ae250f1f, 0xfcd6f37b29b7ef696c995bf488d13a8f0495c2c662163138fb93df4646bb0f3, 0x355a7f9a30c57725e2c208180bd7f7e234942b8c64af87bc1dd970be9460f0f7, 0x29455cb755d1b35482efc38a8ad2427801e35e75f4940f6fe57255393bba7cfe, 0x3549c31e27e0e66178f20848ee04e58c816134b5d8ccf55945a7afedcecef42b, 0x1966e3ad45beb77556bbe6f6abb6c0b2de29655b228be5d0158879d5d9f597bf],
    [0x6963af62e003892a5d1d50074e93217934daf23145cff68aba2e8ba200000001, 0x54d250f0aea776e7f43a914d2702e4ae41d346ca5db6b4a74ee644f57947f4ef, 0xe45fecd4f298621a87d3396a6841dc8b14447bbedf674917ab541e2bb3a34a, 0x33ba3643e1b0213ac0ed2a1d1b0c66949a5afb45a9e016560c7acb779d702a00, 0x4338b58d774cff6147c279991840b1b82971833f6b2102486b2e99d831f0c60a, 0x41a3c26c1face43d1efd29c9a320e7961432c19cc5ae384cb0fc80d9a6b6ac93, 0x3d554e1da9fd5e7a1ab1d3f5711c8bc2f683240b3bb8603f805702e178db10d9, 0x1bec1d8e8ba43c3cfe876f5931a5d3eac08849d40c902c2b99d4f7690b87e63a, 0x727b2188305d9e316493b7cf0e261712a52f468e85ec97d69c4c7350859e6e35, 0x3960609456e6ecbd9af4defaf9e2fcd8f7e6bddb594ea1a60d971b7f6bd4693c, 0x85129cd87f52dcd083d251c2016b70633cf43aff0ae3261a404bc498db53543, 0xf5f7a016456e607eea4273c224d811051e9e8d820c4a8d8ff5e777f51b3dbe0, 0x145cfcf5e5aae1665c511bf8d105ae5c76b0844dff0da26b179a430c4df5cd73, 0x1e116b15eff573b54c814dbcb34b572ea168ea36569b8b28ee6e05e2b94258bd, 0x1335731d71dd73f85ce6709ea7dc06972f8d8c2cc8ad1f93f70837396d7a11e6, 0x5f5e05bce157126bf61092f86226d10217f8253507dbd8952c69729217af7234, 0x4370a725fe2fd234250c77819c7973e872fd6ddc4a799e17021578d6010b4d94, 0x2d6f95d57d363b0e45edff326971d928733834f0e5b1e4af4d7ac76a98217db6, 0x421de8964ec086fa6afc09b79003b4a30aec28b39dfb0014836ef9e3ba6ed04b, 0x1d2a6b0d626ba0684be6be8715b4a61b2a0f2561bff368cd6d5b6536cd52bef0, 0x2d0cd4167dbd8f21fb2aeecfbc7f03c9ec0cb9bd81fd91d21c34dc2c76ff9111],
    [0x6963af62e003892a5d1d50074e93217934daf23145cff68aba2e8ba200000001, 0x622762bafd3439a158b936680dbf2bddba26097f3a1f869472dcaceb29b98e70, 0x4c83cf45b2278b7e7967fc8b5505edfa0854ec2d1e913c73aa85767122ae1e30, 0x4b90f8391380e3716f7337ebe2909d7e9d00f9a0de01b8cf22938add9a3007f8, 0xd4eb6342906812425fe64960ca3d0fb102cc4cc8de3e7fa0f71930e457fcee2, 0xf9f336f56a4e6aaa10dd7f3ec723513a44ceff94a967d3bb875b2c0ef578264, 0x7e35351c4cb4de8407e9ed2d13304307dabe69ccf228b56dc7dafab7b6cd05e, 0x4edc1d66ec11241b9ba6137811dc3b4a292f46efb3405deec3b418413c9d07d0, 0x4ccef2d1f180d90545203c7661fd75e0501b2ec14ca367f72e0fbf0b31ed95a2, 0x261a1a287c3ce5cf3cf3002805f6aded74a93cc1613d832ed35814c9db1adda, 0x6bbab03eda85b9189576784a4c572bdbb5dc291b1f795f4e8c5ed0182866fbaa, 0x306d31c18fb85b372dde97cff9e2064d662bf9403501fe41295cc84080f4a158, 0x4ba90f38560bd6583485577e09c2d52751d377475c8e933d6c89c7f9c6fdfd1b, 0x2d4ca9c50ebe93a4e49831fc4128d09e037179126cc4c955dfc14f6680e02dbe, 0x4e781c3aa38f93d5face99d9ba056caa3c3da5a5394c4fc74f538ca095f09aad, 0x18c4de214089dd31454b56b70954fbeca4661a9b9c05c3340d25510761850479, 0x41d42b13bdc459251c2b37a76eb6a1bada24fdb9442a7800cf066f46c4f18c6, 0x358d8c2c06855ecddc40ab3cf0247020af27228c440b665b06f859c4b392d34b, 0x70c02f428a9aaf50ac90bfa11a09dbf717ee549640ca958cc9dcdfd932b43291, 0x1ae66ac1f73ba9119a3604ff89e4462e5dbddaab7191b39951e9187b38a6a6ac, 0x246d6b67af5b7a958ba8b49f02a26a8064986501f22203e3f86f777ab70d6548],
    [0x6963af62e003892a5d1d50074e93217934daf23145cff68aba2e8ba200000001, 0x411b2bff610b5d68dd3a91be92710fd288490f598b7ced28721227cf456d34fc, 0x284fa25ae755c4a64378edd24a1f188297917ebb5e5c0e6f4aa9f2c02d98faa9, 0x5475c23f973e850d97571ecd4c94f106021ca10cc819f4d7fd6dea758cbbeef1, 0x29a4d0b8f3827b3ab198ecb80c8d23341e476cd48ccc2feb266b17aa41820c25, 0x486c2334ae0bec8f88cd120f3c0064affae8dabd25998c2353e7d57176ef775f, 0x3a3773782e5791e0a02f81043cce2abc5276f4088efcf9ef999785deef993689, 0x3ff61dc43bafbbb001082bfc982d9bb2808d6a6f985fad4628d13ce8516812cc, 0xd589e388705599c0a58c5a43f26904c583a33dcc659fe17c33bf4de72aed6e5, 0x2c41f9fabbe0ddad48e0dafa76ed60fadf30c99f511e2c51797ce40f706fcbfb, 0x6cf7392d9623715ccc5bdc5427f570e57642c5c4db2d278c3f20fa83140b0c, 0x1003f2b7631ae6b3cd225aff6baa8d2e10b3cdcdd5588eda310519152e5c7230, 0x1dd16f165fcb5a4e9fd55672c8772ae72c6ee16f77b9eb8103c96fd2655e008e, 0x50d658c4f473c1e7418b4a42c3fb5d151a0670a1421091c6b906d557f8a37034, 0xd76a52609f6d9845409fcad4f739d0bd4d36dfd060b24be639058507c70cca2, 0x3c9fd12248d566fa89ff4020c8c34f28fbb7a6ff0f518f80fe275d777b01d280, 0x69699f169e4e9b4c088a1026bd770da9fdf6d7082f78a4441d205269d2c70d29, 0x3b0656539b8fe80ca1ca3e39c5605d2dc7548742dff9f8fe73b1a4bed9e312ce, 0x3340c2ce20a7fec37d8d1eba72ce16676ecb033cbfc78db099fc45bf8e789c6b, 0x15347d787fcf84b8b51c0dd8d0b7443c5ceef60f5b3e625586274c6b1737b89f, 0x1c1419a4fd55d1f2db1931866827405b25d8e634ecd2ee3eee99775314f25123],
    [0x6963af62e003892a5d1d50074e93217934daf23145cff68aba2e8ba200000001, 0x1b9d29d7cb10045a732f44af911544af9003903912f3c5802c04025f8e8e34d8, 0x35bd6d9f81725f024f0374b6231831e5bd18b70d89bbbb87444051c3be8dc2d, 0x1079f9566e02b63454c4260895ebbc29bdb1017ec91b86d103a0dc7fbb7a0469, 0x31131ca06f84a45acb9e24801f72b1298df594c23651425d5b9901dccc9b331c, 0x4f186577ae797f2ef9a6880553a9fdea339218104560b0caceb4d3d857126dd7, 0x5b54b4a200faa83002f4a7af689b808030e4383a0242084018ae251830715ed4, 0x7356e68cf707cf3f0b064337e47abee442539be461b27869fbde14b1cd1d466b, 0x57121002e37930ed56c16c46819ecd9615e7855a256f3259f0d52075ca319f5d, 0x6d19d22ff4a401b2521248473252acce59afd6b00dbc8c31a51f0cb091295774, 0x7379b5e98e63199deb078261a492137f61f243bb8e6ea5b73c64b7c83d7f6de6, 0x1a262f00fbf0852ae02bf82fed73b43f1e79113dead601c8b77b4c790a8b1164, 0x2e85ed57d831f7a392d97a20c6fb1d792b272a3c7daaa62b8650589d2888ca85, 0x6270313ca81f91a4c868f5b92d5cc74e05bebdfcd53d11e5c30d2d796f60fbce, 0x42de657b1a6ba669254c372870e157613aabbb404d6dc11365c06d353f52a244, 0xca26f0bfc5f8768b62db56f9a6c3fb9ba21b8bfdce38ffe12fa500ca6da79a7, 0x1e47b39e86de3431b0fad3ff054e062d357840ccc859cd579cbb007daa8bfede, 0xe78e4c51f60f44d3e3f7b3cb752bdf9d0789fba21d0ebf03aed570a7b7cd874, 0x3095771727ec5a38ea9cd7dbee714ca4b0989391a4a97ca2163290d6f7ecdf6b, 0x4bfb9f8f1638517c168f896566c694219f4ebfc970d61d2081722daa94783cdd, 0x1bf39adc9f763b03c4e57ca2f9c75d9fe73712efca628600c62df018044bfec3],
    [0x6963af62e003892a5d1d50074e93217934daf23145cff68aba2e8ba200000001, 0x6ac0e27237040bfe9cd16c96dc6d111803e86ed54741de9ca593195699c7a475, 0x40b19160f69e2e24d9da3ae5d7bc34199028d7995809e77c1c5c87fafec336b9, 0xca57d3d0e475cdbde792634004bb5fa371b0bdc9ed2270931abb3899036f3b3, 0x1679416e6dcf57d9c0f0bf99edd18023b6232777508ea4aeccaf63e0bdea4703, 0x3cb6ad2e41c94895cfdf32962fe480afca1d180b69d4817dc24d13d7a4e67200, 0xd2f3017ece003639031cc5b00f69c2612becd5f7adcb6d3bb7be9c978892cc, 0x6055bec6ade175364e2a6f33c6c8c567f53b1090c4d1591d06707aa23f4994e6, 0x229c44e0069d36f0572c973ce7d9436103bbd033a6dae88e2bb354f2391d48cf, 0x34dbb6ff0215148a4b8e2bb9cc0b3759483fdf25fd12d1350f72625279c7cb34, 0x2db1e34a142b0422bbf09a3875f61f56bad65f87b9cbc0d8089503e2ddca9d54, 0x36704aa4cad8abfd374a3bb83096886fee949599a182ca8eb2b3f7033af2f6f4, 0x20c8a584ccdb72dad4bffb25aa2e0f4973c2416894c15cc920a8f41d8468e090, 0x529be0a14f6e98a0c4b18665e5100616cc75da3c604c03ce6762a217b9914e09, 0x2565c0911a2f479f4fc0ac3bc03c3ba74ff90335fb76c7a80e3774045f69994b, 0x7f42f09c8ed0c1a24ef79d2b50d04b0b6453f53b8322744e65ba2ce7ac0348d, 0x462164432ef53c6f7210cdec425063ec6e31635325ef73285e009fc908a3cd56, 0x2f4ef826dfa8816705a0854800c2830ac38fcb63a2e5138c53c23ada9f616fa0, 0x30b691d28b84ef61f67bed79a0db6139b2d3ac7376f228059e5bb0e782395a82, 0x479c39df212e1f490320a93babbbfaebf9c5292f5775b54152ee35d38136521, 0x1af2c8a38f28da798ca5bfdec0a2245fd09db5817fffc79bffc2e445f49d50f],
    [0x6963af62e003892a5d1d50074e93217934daf23145cff68aba2e8ba200000001, 0x1fff1c99a8f9ffa63f7e0e53898594b29320aaff994e61fdd6d93126ec8a4601, 0x26e505071ec14abdb27f950566129cb07ae7314f449a787e1bbed07745593d24, 0x3d3266be8eea71eb795b0b54904ee1b8864f059a9fbcc5054fb34db43b259f51, 0x5c136f6ee855b424ad78e3ac5875f2ffc027ea0a31a50a4e55a2937a1eae9082, 0xa2c2efc0a3b1735cd1d5cfd2ba7ef1a36fdb5ed9103377fd2d15d277aab7b30, 0x3e26d0a86b93565b89d1c9e6408d992304bacd22b5848469f467f95ab1aa41e5, 0x1549261279558ae62a8b3bc8d7dce16af9b021f7304d83991ae849f1f2782365, 0x57b57d972f6861b37ecb043f144f29b6cfba9cea606f166198bfe4d9d99e0385, 0x3fe6b8728940345e2e7b6100738d658ad02ec3e9915b62006d12bb6581be9721, 0x5798a7da29c4d3b2feb5004b955859832041c41745699c535a188fb5093979df, 0x3b3c1131ce911e817f7ddb4f531f6343bb38e17b34a854ea5a05dd55a9bc696c, 0xb1976316761994203683f191d3e749f5606cb56d83bba2a89bf84de39c3d4a7, 0x5acc696e369c1bb3823a7461f5ed398a2106069cc0c152f8234e2b361e28a36c, 0x1a7ba0a8d69289bd93f81dccf59cd66cc263e858f24a3b1cc9d05c726a0eb966, 0x3bed249cf0c3b3bb1316a20b527ab0955e3160046819bfb840c5742001fd52b4, 0x58ee922d9dca5f717ef9f23ae6cd61cecc09792b5b29bfad2939cfd5cc47f864, 0x920028875ab7b79ed1d82fd9825b4caca1b66994de7c0d0daf3601b349fa706, 0xf22ad146ad2264b358976cf8f071520c67fc32e04771d12f59933885c7ccda4, 0x60214e6d49ef3ac3cabc1b33867054592dbb57b18d6d19b816720d9c73e3298, 0x12568caa94048b1879ea8e22fa5386c5777dbc697dc56ee36a2cc52a9261130a],
    [0x6963af62e003892a5d1d50074e93217934daf23145cff68aba2e8ba200000001, 0x815b055b144695e90b677afb099c23c62cc00be067a853f13faf6ff13c38c58, 0x7124eba2342ce5ddb8db06c25f7257bee253a863c216f2b8c68f3d35a9d7b506, 0x1c4e823a14b8370d8514b1affc948a0e9f33d58416edbd3276358cf2724be3b6, 0x71a02b02f751f73b63ee26dede6e6be3cb20900d4155336a80bf495ccacb74e1, 0x58e45e54411b0db7915dd93a4763af2013cd1fdd9e8f6c105d4373486c8460d0, 0xce2dbd22f2d47efc325ced8b03d69f186fbfa707598058a6ec45352d35208de, 0x24a809c967e09b6a64c13e3a0daebc7e9d13bf965fe59b0263c915db294fdbf8, 0x6628bba49bd613aa61d222b292c14a6f654faaf15019eb3706fa1888423eb7f4, 0x516ad32263cdcad2ca310551fd5ca14f8d5c7dafd86f1c3d99b4dbed9bb26a67, 0x49f5baa3f6df5fd9ad31e66cf9254ef7a213b0c110b9dbbd4825f899d8dc72e8, 0x343013327d1193d56223b4bdba7bfdc482a3b934e66ddd2ef48cd2dc1fe4d7bc, 0x2976c85febe167a4891cfe9207b6c9e03d9d2ef8774d3735a7094b61e775f9a5, 0x1d08bf7c35fb3a6bcdf9983de4d295caab84e550b8d3b0c5ff7555e4488d4c12, 0x6f2b6328b48d6c5b9e8bf7c6da3c2a7ddfaf097889418006c55fec9de70dd35a, 0x3d7d441026a88cd920f0253e937e0c123d4dbb6e1216421df345d0c7b7f7794b, 0x5a86f94ce9958ef63c1036b9493a422157aabe3b28ab74582b86bf943ab59938, 0x48dc1f6a6fd81a1aef24f902473fdc1ca62f4e53ea22a62e251a035e3e960180, 0x2b00d5e3ea9f9e8946b0fdfd59a3afc028cd89a11b8d375f4371139321fa4705, 0x4f05eddb3cadc563f114bbc80949876a6835377a4793dccfe8a50720f74f8959, 0xf2c7f3790257c3f4f86cefe818178c904bb1221a03cf11abd4f3728fa173b6f],
    [0x6963af62e003892a5d1d50074e93217934daf23145cff68aba2e8ba200000001, 0x5d9323742c00842051fea2889ce8cda040d2721b9618c870112fe777927db1d, 0x371aa80466b778d05e93ae63a8337e8de147574798317c66e2018f888076df10, 0x128ba471c43e03dcb2d4d4f75b8c1e5fc2a63ba8cb1c215b571e1ef60b7673dd, 0x51159e9e37bc1b139d9eb5ce6c897c7782a0807dd3e5df9c8d6571471c54e75a, 0x50e054d43487ffc54eddb7a7d9971e1f9f54b84174bb12e5b14c0c08c05099fc, 0x2fbf6e75ac8e6cb27e5706df009890c4b871c3285a95fb1a33fd35493d8ee2a0, 0x54f108b466e910c5b6855fa4b86560ac500561554c6ca14a953fec8275cf3c10, 0x14e9fb00fe6de4018d295f8d8692ceeacdeb16c8e4f106b11370cc91ec6ab2f7, 0x33cd260f6d04b022e67c8c07d3cbc2fb5674f1fc387b78eac824aebf947cf8d6, 0x3ea7967f34eea247a5a1c7af6db3074a842bc123fd76162738dcc38cab54da3e, 0x2207bcea5d96bc32b56ef165fc298c52a59c36b12b39627d976abc6d829c70a, 0xf5d93a80db8c5e2ee80aad6e4e95e6c92d7fc4574215602399272a519b1aaad, 0x3db6d1054027f95818c62f1330e9dcdcfb42f5c65b91ccc80e28c0be70a89614, 0x2b94cea5e9bb1e8e381f3477f3dc1c09ca0d4b4dded4a3b2a1135eb8979015b1, 0x5d0742c1308e99501cd8fcf3ba9fff96368556b4e8c9df8f98a02bf0e814c587, 0x1afdfdeb311518c8d4639b93ca6a3e58ae69b007e6d18ec0a9549875e588493b, 0x255e2efdcc1991953ffd3c0f31749cc83d795152363c3646d60c8d528dc32c84, 0x2e9645b06b58326ed998bce5620a902c79094a3cf60ee106f406ad24c6f1c3b1, 0x1803979dc2bb05360cafdaf060187663ee5b38e8579ca8536a2c0255f474909e, 0xa6a842f3afbda47305e51e00eb071dc7b5c3b390f98f782db7acf682f4ba63a],
    [0x6963af62e003892a5d1d50074e93217934daf23145cff68aba2e8ba200000001, 0x398494c586a4cf8df26aa7719a14584a3d326d2f1da3461d752b5276cc9bccf1, 0x32d1be3c20d17b57e49a813930efca1b96f21188af10568d680ea9e994f3bfc4, 0x352f930260b0d3765849cda91cb6a407d8533680d0dc83c4ff9ee85bad5ff649, 0x495805686bd7519a6b6a24584bad6ad692830d38cef09bf07766407f9f7b7e6a, 0x2b3b29b3a3abd1ef50e486fe26c14ff37aa8e750cd592c94e9ca9ca9da083363, 0x3d35e07c0b9603c2f272fc152bfa1a6f9e9d9913c40c45f46f225c56faacb728, 0x1cb922463b76936f190852b149a662e13309b48de4d5550f54229e9b46fe57e2, 0x42d607fb1941bf39275561c7bc38c9fa6a6b59c68f8f56a496fbd06498f9ce0e, 0x56b6595f1659927e25edf68588696e8aa36245a652170ad12fceb75b1f8f3ae3, 0x2af6c53ac42c66e793e2f0cae452a2870451a431df6b22e1410bb947b24bf06d, 0x5d69420f53e88139edaef417e44287906f98b573b1a7940bdac0e33373afb3e4, 0x6adb4ff1cacdb67def2c9041b42b699fdb5ad2cb0b5b34cbe12ba0f055fcba5c, 0x6c6b700de8973ede46fcbf9b3e62e81881c37b0d4b4b9a5ceccb9e0715ad6bda, 0x2d081c72c1a1fd136cff72ae85a72a9a97edadd9e1101d5d31f0cb9b364ef77a, 0x33df6d724fdfcecd01c70b50b2723cd6d8b82612b9c803fa08041df0ae3b95e2, 0x1206ec196b6963ddb1cfa7f7ce337b7baf6209fe72a5fade05ea2eb08673f9ce, 0x20bb2070c54d053b9e92d965be3589cda9e6646772056871eb7dbdd094d32bdf, 0x85e6266db7b19b776348c6228ed6d156701f576befeae6a6020cb6d7cec3087, 0xd147e35f48e38ec39a4491735858425cd45d2b1c55cd6d3fc3dcfec785a7a4e, 0x18924765bb05d46a27ab544ee99ec4e4e2eb1d118a703d7d147b9e74fb965ce1],
    [0x6963af62e003892a5d1d50074e93217934daf23145cff68aba2e8ba200000001, 0x8ca9ea97c19f0961ddc841c16081c5311931167204bd8978f59b986f8d806e, 0x1ebc886c63721378148e03565539dd57b9f502fd863781ae1525aa04160b008f, 0x1edf5ccbb469a733f29735c16eb0c6b2cce62265a0011ad127a3daa6c7fa1a5d, 0x21a3ff4248888728f85bb465f4559b35e6af1957c44107338985ba636c90745d, 0x6f28712cd93bd9009cade7694fbbd60e3b371bb36779ef1e02d553a9d30353fb, 0x694b0c741a873629ac10514c5d93d4dacb5b473736918f92b3a76ca2313a696a, 0x204d2e25fa5ade42ac16a7b8c35efa48dcab6071d6e183246dbf9bdc661438bf, 0x1ac421539681e6c274bf85232023548f6c4d398af02321c362dfb20b9990b5f5, 0x5756d728ccdd63b559fc8c9265ecd378427041c0482fc94e7bca62b5c7162094, 0x68aa7f21fed3bbbc4e4323ea15c9a9934e794c66816302a1488535417aa42713, 0x174ff3d13e782ba1371a113b80dd06b90192640e7e652872d48df3f27bdd6e9d, 0x38fb3edd18908c987e3f41657825239473c873afb9cd4e43391f10380973f2d1, 0x23dd7414dd480318421083a594f2e5d7a1bc79fe359bc75015f54e3283d759ff, 0x46078f62b8e6afd72690e442369a6c1f11380105955ea24ff9f1fd9770361f03, 0x338b83e1211ce18bebfce56d442c37397080a9081e3340b5b365dd30d4ed7ca9, 0x73b25645a03f05cee217ed86d6a3cacd00f2e63b7db0b3742abfd5376d7ea5d6, 0x25063036db42c2755a39799aa9daeda10615e4848999e1da3373ce839fda9cc6, 0x317a6a71ec95575ba746fa641e65625ad7ae5d022a76730dbcf4235b25f2c85e, 0x375f5134ef3d8d9857add24fef93a327ee6a15b38a40d24bf22881464ece5af9, 0x610b6ef8011282fe5b1f201375fae129809eec878c3d7a862f4be9869efc43cf],
    [0x6963af62e003892a5d1d50074e93217934daf23145cff68aba2e8ba200000001, 0x1e8b46996e51ed429b23e60771245d19ee9b06d6b411134238a4f38ab2241fe, 0x27800a06b53d0ce025d38ce96cfc9f3f550232de8d652cd4ba5b01f5d449969c, 0x3b7ff85d6270ca988f1da960bc628bf2cc0125e0f6906c587fcf6126f32358bc, 0x6fde9a2d3c0c6fc56cf3a0d068108a41de7b9c2da2824677b4317187eebfe9, 0x5d39ff368fd05077e3349fe2ad12789d0120036edc33f80a7579d789d3dc4570, 0x4381d02e8f76f68e3ed247421f5ee319b6ef28fdc72db1c7e9b276b4f70a4523, 0x5b0288dfec84868092ea4e1f8033ea48942cc3e1c97f14ae8b4385cfffa338e4, 0x12e8d2c5e8301b613f8ec6b1f4fdffa47ee338799b080c933d7a0a90ab268b2, 0x4fe42bf398f653e3a4339f49a21fd458f78e209c77e8f7adb1b1357517ea5568, 0x257b45165057cea4d6bc8abb3f3ffeead7a996e85b7b0ba12c1ed944e87f44f4, 0x219492ec859411c8d2cf200795330b2d67ccbdb2d1271f3d5c40382ff8ad391b, 0x1b5da32eaa1fb1638d4140a9b275333278056e78ac45e090872bec86997d6ac, 0x19d9057a51502a4fa1596af206863254caa2c50546ebd77399f7336df3c04dd6, 0xce0b128c8cd570bfaa017a4c4aee85573978f254d59d39a55f72d3aa5264e60, 0x4ecc82c41f74e614e55b183deac8ecbe8f0eddcd09498658db55957c4410c689, 0x56538ea5b154edb7ba49549c7d07c5ef7f3161db3bebe8067ec6a8126e67ac5e, 0x367030ff0bf3cf835ec8990b050a3ff523eac524e059dcb65e69ad5ff77863be, 0x5ff5b383f7c41c86a0317f0c3a37d41e7d338dc85a53208e84868cbabe1990d, 0x37cb951c2850211aede4a76c7f75bbc196fa693e77ad89d01c9699299588ec42, 0x5968e7c2ab722b92d8e02b478f968944090ac47dc9d1e0a9d8d361a68eab19ab],
    [0x6963af62e003892a5d1d50074e93217934daf23145cff68aba2e8ba200000001, 0x312d0110a3741f490212b0eb827d9343ff2e9df3a8ea5128700bf1ca6198cdd, 0x60fa154227705bbd6b45ced8f4c25af705629b3952b284bf87e2d1cd40bf7a04, 0x459174a23a6b10ddc4c43ac4e65935071bf3340330da0c95a2c079de40fbebac, 0x67d51f87134eff98556d605707e52013ed01a1aaf9eb810e7cf97dbdb5f82977, 0x737ba0ce6ef9c5187038cc8713909b5ac871e43759effc8f459b561381ee71d5, 0x69a4f59da233fb91a790296b07b514fa82e8a803881034e12222452f9b1183bf, 0x4d95e9cab679a630f40bcbd191e476d82b65160459211b8086308be4911e4ed0, 0x1a0a1956b7b62d12f8701aa018c973e154c6706c73cfaedb5cee57a2352d586e, 0x9cd06a01039dfecb4af31880fc9dc22cd8625bd81a09a55b3b0e8b98551dd33, 0x90cfe22114733176ef173178c4129515b07ca5b3943d45cd8ed2de25a0dd327, 0x672cb179b6613a5bd66091db29a7c3c1985a0c1c7209bd21d40a9f9a55a79de4, 0x37e5f84f57b64803fc7f499824f75fd4ff673ae51c55d9ded0ed93e7cc84bc0a, 0x4e7fe3108266a13fda2ef86fcc19c8efd39e8c26896281cd020d629b4529eb3f, 0x3ebd561963c2ace5d6c67c906fedbb4c69a399c05a5cfc53364f5b1ab14a371d, 0x6ffbbfe7cd98619be87b9885d903ab1b679cd207487719da6203f73aec1d317c, 0x355b6f8f72d7ba0732ee8419cda5d68b0dc0d2b151f9f58c35980fb0239fc1b3, 0x300df6c3b9959a6fc43613cce3e188170da4ca8a25cd6e8e2d3c627c7a94c24f, 0x49bfae3333171c1ba7bb4ae27b69b1e589ef5e5d4af2227aee45be45813661c7, 0x57f92fb805e18063286f89af038940713e817cea24744b8caa6f30c81b13545d, 0x891f40658423de294788570e90bee9a1c9eafedd1df43be655a04658cefb220],
    [0x6963af62e003892a5d1d50074e93217934daf23145cff68aba2e8ba200000001, 0x3d283e0f5a1b8d8e9ba405fa88a445172edfbbfdeff350e0175553f360249e05, 0x36e685f3d977cf75ec292f10e7f4e41664b342f706bdc958e416bef77d9fcc91, 0x668bc2a17293b79a3cf031ffe6d606a2090dec478cb783714536e5d09663f2f2, 0x4db807f883bfe6ea7bf17b31cfcd6bbf2a250607b72721f41461204a5b0ff85f, 0x52e26e25006258e45142cad9f69cded00722d0b65ed74ef7134c6f92aa5e268f, 0xa35a2a5512c2a419abd7bb30f19f2d35c2d740b1921bd15b14c8664559426d1, 0x6e0856b7fd09c0bfa27ffa749f3fbbf1d3015d9144ab39f2596a7a10ec9af053, 0x1ece100f6815f7dde47b0516946768aadb3baaa9fc1b5e14ed97035288c4e805, 0x379183f2ffa6389621f9f83f113101fbd06829f749b24ec51e5c3ec9aeded226, 0x1204f025b223cb16489938652e23900bd8f8a7a33a64e11216840bcff01f088e, 0x4673a184c36e318cece66f4beb2318fdf08b565d49e77170f8ac5e5f42ccacb1, 0x4068bce1928a8c1f8612107fcf8064ec1f8ff975a32804f1ede51e37baeb7150, 0x4140276d5faaaeae603d26b4ebb34892049ba52703c20135dbffb5441714b25c, 0x378c55ea4e7d3f73c1de3405e738c401e1b79a0a246766da403239e5fc6ae52b, 0x31eb629d33bfa35c496d7cc73a7d9c8c5745edf8cf65527cc0bffeaf82a60a78, 0x5e5c70f75682b041c920e8e68ecae7b437d2e2c7eea9bb21d682f1ac6f4f121a, 0x217b1d5a2b543ca79e8ac2955e9a0d663c19f8c5f4b9596905c940c6062078a7, 0x5438057f8dc0d5375a847e1e3c44dd852deffe5d96137ea2c8a125f93da740d5, 0xdb271b6035d6e9cd418395a850a79cbee54e29ef7f15938e986b9694bd3b915, 0x208b9ab692bbb1a3b9fc06112ebad2d3c98754233fa5bc62b6011232b4cdfd92],
    [0x6963af62e003892a5d1d50074e93217934daf23145cff68aba2e8ba200000001, 0x1ef5fccded5cd4088b55fbf7921eef3b140386993474e4e3beaf046b246ab345, 0x514758bdbe769411f6745a4cd596323fcdd7065f073c952ee5f015c1cd60313, 0x4cc72fb4c3cc4ae64ddffb9b6d8c5c209751bc88b1a627a4b18f8c38ca8a9719, 0x6c71bcec5a04e588da2073420149b4a0d5ce49cf9bf0825c1aead6d181f4eec2, 0x404d323ee62c98cab6b546a5b785415babf336ac797c6c6320ab33032c4bf45f, 0x1fa6927b8c48e56535310de1e03ad027163f46e751092eb26974f35b821219df, 0x55486404c58347791e332481c92f69ce0317848d594c40c7db94a6011ea90946, 0x9a70ed2387a2ccc202aaa09e3744a7baf435537227ee5671dc4bfb21dff8286, 0x7271b96c2a31e20ade824b1ed10b716f56d39317202543ce91af02bb07376c3b, 0x57e5f1e31e9eef7e5ca3edb3dd778f0bd5db42606517dd628a4927011d7ebfd9, 0x574e9ff4be066317b049efbdacbe4d3a36c2c0387372b86377fdcfdef785363f, 0x1bda05a2d105c775149211d5d09ea1f6eb860847d03ed26544d4bc157456b6fd, 0x4950157407b069881ee3f372bda82ee3c36aa8e7756d308e947d29588ddc7024, 0x1b2ed2a41736ffebaf8291f10165e56fd67f500867c4bde2a32758acf0028678, 0x5a0d76996bcebcbb83213b000f61fc20ce6420135faa097e64e126ea7f06aee1, 0x5866585f13f74bfcf98fff05421e60258c8734a4aee20fbda026a46087d9700e, 0x6d173edaca76b81e47df72ffc5471a53faa3f908ba82f02c212e7add3b1550af, 0x2cb639f000bf394e2311f5cfbd50cc9335fd96335eec61dd6267d51cf165ff19, 0xcea592eab53cd2507051bedd68fb04240346a1d415760b293bffb5fbab85fb8, 0x520bccfc396499c69144e6783385d6b0ec722b12d3675e4074a142c5133f8e07],
    [0x6963af62e003892a5d1d50074e93217934daf23145cff68aba2e8ba200000001, 0x2bfdcbbb07bbad2d7c9c1ad0a53356cf0d23692428e87a2f5301dbf898dbafae, 0x2757aa390843e41939bd3c1e4cba4033f26af638c75884db2299841f6c375d2d, 0x5df1a227679af9384bc909538106341cec4b2d4ecfa20663a90e55900d829560, 0x15154965d20e701af6f5ac2d06ef8ac620b4a6a344df7fac6f740077c1c95f, 0x37ec075cde75085f65badbea48cb5cd86ee63904ac4cebad0e184ac44bb7556a, 0x53405de2676b9b5b2f875382d128a24567f313124b9c2b57a5a52ae56594453c, 0x179ffbd62869d7a43810285c4b600f21e337969be8203fe45a9d63b8a07a3492, 0x6a6914c5cc97cb9a849521fa0f42c06a2a1ce87682f1e1eb6d53f0bdffec341d, 0x472649b863ec572c6e0dcd6fcdc0cc4c613ed18ca68654399b84471891734c8, 0x15f3f5bf1f55b9ea62ea40612979c968826d556aa5c39d603751f93496b0eebd, 0x729f4a50648841c5bb9f5e2e88553876f91d75ded69a242255529738fdcc8ae7, 0x6afce6806f02aad9d9f17d03a2f33b477b56ae9ba5c998b71d1197057b1b9cab, 0x6b0f90ca5f91797cb5e241aced61a23c4e0fdcdc6338640145cfabf38d4881, 0x2b606ccb1fbacb0df7a38dfade2292fd8e6fec84645ce006500bd7cb30c4d2ca, 0x4e18eaa7a497bb7fd29da305252bcd5a18fdaefdb417981b37da73af6982d021, 0x44615abb6927cea32031f7a6bdf9c6edc8ed82da15db5bcb40904fa5eb27abb3, 0xbbc05e2cd161813927c534c74b4fffccaa441d3ca3b353de25d9afc6d392274, 0x53bdb1a158483526f547e98bfa866d544349da54bd8fc3743a29afe8bf63e770, 0x1fbc11994f709d9a5f79ca26a81e740d24190df041a99cb4b4158b19756207f6, 0x17f3c1b4bf422880433a4d44ef449ed659f183cf172411a8d060eb1bd23dca69],
    [0x6963af62e003892a5d1d50074e93217934daf23145cff68aba2e8ba200000001, 0x4ca7a5619829c1ed539788c1be0f10b71edcb470db24275149f10ffc3ddf191b, 0x6231481e245739ea94385a3d068758ded6b621a4bbbda0262a5d457ac96fcc7b, 0x36b175ef892c6b8cf20b0b0021fc6a8535e32499d4f9a92513158e35c768eef3, 0x1954b968ecfb9dec50019053b2bdcb5725ae150f63a046bd9081f2c20d91a22d, 0x6671673fe241245812c3f9a0778911586e99058a8539a322511745eaee29e35c, 0x4955b38f36c4469db3878642fa76bb33cf33c0330533af3ddd90eb0b6f327fb0, 0x21cbd9bbf509ba69ac5b742e6b27f6d6b4f3f4fe0c450be16280fed41268c607, 0x62ee72b4a5aebad047002bf3fa232bb9021f8b3c2f97ecfbe2b21cb5f4fef659, 0x41c4270aeb38af5dd293b32bca298ca3305b019fc1e029fa36d2df8c267fcd9b, 0x6a20e220307bd52e302c432bf70d4b1499d71638694feceb051cc46deb7eaf01, 0x9de4e027001cf92f4a9be192e230973616d7e63ab2ca0ed372b02d7ff189641, 0x384d8616708b4f8bfd5972d5047e8f3e4f789b060c2b280f84a514e728f884fc, 0x42b092fbf0e927410eaffa9dbd034ff36985e5a15e4e90d370307059890895cf, 0x44580f8901c7eb72587f6a0c1978b5b4d5119063b2104f853cb31a6b7c9d5009, 0x4cf9eb90e063207db96a195e3d0b9f5ec7361aec40db204dac97384ba3453830, 0x396e529539612297ea4a5d004ae434c67bae7edac4c0f89e41412c8c57d462e0, 0x4a5b0f7062e9658a918661f72d39068ec551eb0201b08cd0f8ad5ccd35270d46, 0x478b215fee58bab188a63aea4bae5f3277cffc032042a67d30092438d6979c06, 0x2ddeb23cceddf372655ffff014deb23d8fb515d45b359b85123d1c087421e91e, 0x297ea8ed0d7dca365f482e54bfb82e194657048a11b87d16c30aa3bd89e59738],
    [0x6963af62e003892a5d1d50074e93217934daf23145cff68aba2e8ba200000001, 0x11a6592680f1835b40a9d7de29ca977cd2af75c54d802ab0e6fd3e073e37cfdc, 0x52e2b13871fed4b6ef31ea319c891567deb7962479b66563162e01c1d5ee3834, 0x1a065469173eec5459f48bd18c0cd2f98e592c192ee8c9dc07a451dbbfbc810c, 0x4d5c660d30f470ee5597025dba0c0a76348a78d454842a6d2c2aaf26cab47c3b, 0x1ffe8b4084b856e80bd4c9235b26c820e011ce889ed6faff1fddf2417aea9650, 0x6885479461e9bc74c62ff0ec5eadf9790c96c47daf78ca2b5c163c176383836a, 0x59e1923126d92fe3663999ab09549f309918e2fa4af1986666ce037cb9c05ce2, 0x5022ebc1d904cf205f6805caa9b2d98b9e703e4bea41cb5fee79aec2a504faf6, 0x3954e16b0dc8749b34054ec2b74ddef967ad6895f5553cd3ac0ba2acd39868cf, 0x618d883b20c7716847dde8964d31d1490590f5cda33ad065d2b227e528158e97, 0x5a977848e072d7b5ca6266a02d1e1b001d449a0990f8fe8a6c338bc78a5b8cdf, 0x304bdd084e9f83d76c9b715ec298e44ff32aecd17cbb32b9e6860f356c2e3445, 0x150380ad21e35b99b2e30b2a12e142ffa0a475847acba3344d557466d8d3fddc, 0x25d87d35b87cf7316a47e3bc178a2a4fb42252df6387e25f1669a88bf9c9a9bb, 0x51d66cd466672426d75b2b0c7ee520b9da18584f048e4b4d39c8884723c4603c, 0x156539c9f93eab1e874f11bfb56777ea961c23f7189d0b2a8422179b33d2ae92, 0x129d2ded0a97a6d715846226da5266e824922807dab94d42eac8bf16a00c1536, 0x5ebd283c14e9e6fed9cd646369cba18d7476c9f9dec848046176875c4faf6393, 0x47a6b2304503158bf9402f735eae01520eb5e5f1d23a7ae20f8f0a49c83fe3d4, 0x32aa41484b118d8da5b12a49bafc1dc72f542ed532052fb664c6568a7535138a],
    [0x6963af62e003892a5d1d50074e93217934daf23145cff68aba2e8ba200000001, 0x1ead56124e33c0d70c273a0ecbd0bd75498d62f1738c7e2a2464136c4dd34d8b, 0x4b7dcd396872f461cd4f723e5bb3089158ebc8bbc36c8716d61347c57999683c, 0x4f96ab7e2283577d482e4bb9ce83fcaf5014d43e78e4f044ce026649a6a19f09, 0x4b85edeb5a1118162f0fd43e149f04dd11b3748b7c597234f94156caf8322524, 0x700c722f2ee96ef1e436897fe9ddaf1ef5598f6b6b2b0e99520059701e61c4d1, 0xd114d796115423b1824d48dc9922f4c5c8b88c53dc955e40e91e3eaef54800a, 0x58bd7792a008244ce11d3b3f26e1a35d69a930affac5be4229356ec63ac0513, 0x66ae04bad337554847f1a8af20a54cf36a73260452322dbc020388c470a64ea5, 0x2370e7c1a76769ed2af9c8f5e837f25ecf1897d22e69c832df3f86f0a6619f8d, 0x2f55665985b97bb17314849ba10e30f564c9137b7f7b5fd51cc687a24f46bc72, 0x3300a7193c9c417b1f19131edcc4ab7e27fdb798fd13c7e1edb0d611212dd1b9, 0x85ca535e0c8e1303107081b26ace1a301f05cb82c85e01f9a175e7014e90d34, 0x4b7eb9968a3abf56d7adb6022b66fc419adf6a6efcbb6332c33ee83b29c198f4, 0x558849e3f007a663e289eb7a0901e1932ced894d4d2f3404ab05fbef04c3d319, 0x54af94127f89a7817863ddbab5b10b4a15e0bca8fc9be82340a569aa95bc6bf3, 0x1011eafc52bc53ac4f82fac625ab2edc608dd8abcb0bef333f5236216b711fd0, 0x54cc5bcf5c8c1d7bcf60ec16a691ef94c325f5b6cb336532d4c7ac8cff6ec7ef, 0x26b2b62f709f9d713a0651d13ba0bd8e4c565c414937baf0d75da965b0ba829a, 0x5f038f833cbd6445b2fd647d5ace2b203dc1933604e3d1843090cb7ade075669, 0x24ad31836b7694b486d6090a8d1a621590fff0d234c628909a4e2a28de0a564],
    [0x6963af62e003892a5d1d50074e93217934daf23145cff68aba2e8ba200000001, 0x6053032e053eb63f7999c9b48b7671ea1145dc34ae19369036f022fc9b6f1c23, 0x3cba42e38297decf7669f46bf6c9fd990da400e2e7fb3abf88c46a60f15cfb8c, 0xf8570368058e08213f8635e34ace9b82f2daf1b17676aa509777b0def52117e, 0x63fb5851a2d0d7588f3972cf1a290e68f62cc331c83d09a048c565bd7dd2fddf, 0x54096316d12a83f792b66cd69ddee1e0019a668fca03e9dd051b64150a88c8ef, 0x9c2a6f9b04a429e6e314defda26e8ae7d96c16732efee633fd499ac22a3fc78, 0x6b6330d5a4d4836940d7e4d4be0f654d5d281b479105e9f4bb8500aed2928dad, 0x10270a3f23f39748f62a2a5823b4634aeee058498596931f518bacf2d35c1194, 0x485c75ca8c90a81638d714270d71235da562b7b3713230fb8f6ecbf705ba7d14, 0x4694274d45c056e59b3ca7772177ca998da6924ce739551a28da96c01450c1b2, 0x6989fc87e30736507b3b7a27835d3f79c370035a870bc8bdf0ca91a98434bcf2, 0x225709b9d63a7c8759f409c332b1d6b2d8b813fe76545d886f15bbd5c94ef241, 0x3dc0e0dd2c1946d5bb2eda04dd5a9cd8720f32d7280d0f4be7b54e921e8b4e30, 0x7eb6ef96bf110621b145809523049e10f7093f32f98da07e51fb07444ffe1c4, 0x43e6c475ffc86553a00328b4d033561438f39f39f4bf25d76b044aec2cb77dfa, 0x213da80e904943bb7f4bddf3d590e09a576a54d2f080362d78dbabfd4648016e, 0x192dc5445bbf8f20f9e4ee0d66c2fb91b011617e1f6aa66e5d8cafaf916fda31, 0x1dba90af505680bb4926638e1af8e893c0aee2c30f48617bf01c7b2251c86467, 0x34c0dc0e3d0635a4d3ab28dc2004567980a5c56d47c01272d473d81fe745f995, 0x5f058df46570f6cebd098be67b075078901b0fa91a5683016c6fa0f425489468],
    [0x6963af62e003892a5d1d50074e93217934daf23145cff68aba2e8ba200000001, 0x4d491a377113a8dc9fd9db2ee530fb5366605885d3d59ef5e092ffa329553c22, 0x47572be46860ea8708e0892aa3870f20b7d1b1ddf2fca7707bc4f21fa101eeb8, 0x4b298e3e5baf410ca78010c6984121f3ba0b22175e659ed70d0bb6f9c6c7fd91, 0x592cf6dd827922b1467b98c7a51e65e61794e95100074feb07fb5c3d4f7aae92, 0x60ec5f50fb20c3e3a93ffae77f5c0c89d17c62a166a39efa69c, 0x4b033008a274ed8086c86ed9f619c056fb369594bf95217d66dead780883b45b, 0x58a6ad217a2d2cba675e5d6fe47a520523fae8c934b01929964337ca9055b1a5, 0x7335e41bf5d72452c57468d29cdedb2e5b7ad92e21323886f62e3f2b6aa3b89b, 0x71c65dad8e4a85bfeeeeb3f6edd12a1c7e45a89ac926f28c8511eb94cce32865, 0x1c333e541693e8ee928be7b65dcc1cbb40b6470e5297c3287339f2687f083c86, 0x37d1fb40067d0a8e09a41679afc1132e588ed2f8ceb7eb07ed3573de58a47ba8, 0x59f21f12bd84a6125205209549460800aaba1c31387eb3b224eeda9a7f0e0e1, 0x500bc8bfc40807b2c24873f883a54d6285c5dd7010898ffe6f82d3fae491b2e4, 0x4bd831ae33f813bea79dd4033589db316f5cffa2c2fe3bf46eec201ecda8a079, 0x61786a2aab69f7cec60ac41d9d413a8eeae790325d0fc7f1fd7d0fce366ef164, 0x21eb0b171692edce89fc3ef22a2dceb03e39c9840defc5c901aa2489db8fb548, 0x5c5e9288b11665f58227b06c612e76e82d2e33bfb55bc4e339374b0f6258c74b, 0x4def020fe3cfe6136b3c244d1341621ac28208809a63dd83c52d9d949ae3d303, 0x2be7c9bfa38ffa6f61a914c5f13937ef6f020195ddaf1a0c79e5179ece9d0d, 0x20a35cc7e594cf5873fcd5514f742a682efeddcbbe391c0540caac6f0ff11d00],
    [0x6963af62e003892a5d1d50074e93217934daf23145cff68aba2e8ba200000001, 0x4d491a377113a8daccd13ab0066be55b351d7d6ec987f8703fd7d87f73fd8bca, 0x50421160f56d07f6e8631f6806ab1f4312c0ea8a80689ef44432c0008886f7c7, 0x14620c8a66f71e77987ab2a493fab388d2cb7b06d9e8712e865e5a359e0ea650, 0x1ac0b075a72457fcf8210a78023907277fb69a8f0372bc4323100f002f1bd977, 0x7b66b6351c14d574278e0f859cda2cb607c, 0xda37d18d7b82cdb5152196a5b7c680a94c671aa018af5e34762f0cab377b404, 0x5f786bade60939ff393eb1e88067360825ed7927f5d2715f9c1d4ce01a38416e, 0x5a16338fe1b9c9f97e327f7469c37c14cea530aef010e6a250dbdcb8699eafa5, 0x113a4d2cda97ccdf235a3b0d153ee5b7e061e858e0f3096fb7bb11b62a990962, 0xe40ffda71cfe1e34970c01889f58dbeac779e177dd29acb9a47dfbed6df9c1b, 0x32140e2c1274875a46b43348eee463c61369214a83cea7657a827cbbf36daacb, 0x50becf273f541e8ea11d8d9917e835f552a728263d8dcf04efd240b6325d3741, 0x4c83cb551110548acf92c30cd1fa3f2ea05ea38a0c14ec561b6b0104e812c86f, 0x2f0859e5565ae5ae1b035b1ba2c4fad92ca508c200801f10a34db21d77313557, 0x3e74cedd755668421c8729b7048c1607c77305ae1adf7588eed43aeb1a763716, 0x6aa56d4b222e4e3760f1ddf4b175d8bb955caa5ef9bce36cbe8fd03631185b64, 0x596319b34818572afb7c030c368584d7ca10189fdb1f3649dc13038585790cf0, 0x1a1b70e810bce0c253764a1da79f05969b1996590eeb94847709120543ba2c77, 0x223f00eb181b4e72e3de3abdc751eee750e2bd7a114fe145b80ebf2148c6c30, 0x20b221c0c37b2ef91dc736b8a007b8aa2b2a2bbcb2c24150f2a5656f489f7139],
    [0x6963af62e003892a5d1d50074e93217934daf23145cff68aba2e8ba200000001, 0x4d491a377113a8daccd13ab0066be558e27e6d5755543d57a10629bb63400805, 0x23ab95f2343075514ad6b8a002f6b89f2d756d8ac4ebcd5cd22c732e3a289d90, 0x60d1bb916915d0b81446d08dbee6d08b7b634de65fa49cbd607dded79d017d30, 0x11d5caf91a183aa8a56b5c50017b5c4f96bab6c56275e28c8e2b114a6e81c382, 0x9d2b4ea631309a5a7b7, 0xda37d18d7b82cdb5152196a5b7c73c464346da5ffffbfa83d71a35efce1238a, 0xed86df6fbb14f9b7042, 0x68cd557b871b73a2c1ba3c8f9693e55e604f8074d792b0dfcc451b4dbfcc9108, 0x72503016f51f421347e9627ecfa3f2bb8b3e2b3cd0d5f96c2303208ca8d6992f, 0x30811948f3a23f4992c5a94dfa4af62deef4332f905bb3d456947ab1074902e4, 0x6f8980046048023bc4adf4b2665bb6a046df2f40f26b070e8d9364d840000001, 0x36695a4dd7e4f185ec03adc26ab7f2e5e8a9bbceac26fa51593226dd27471045, 0x18155eecac91b7e787b3bc1b2dc0786c03928bf5261207def8ec9bf10047c1b4, 0x23d69a05efea2167a6cdf6bcdeabba96180d8c5b4ee604a638fc8cd94a7341eb, 0x6e27a5c06f26cd1f0600dff16c1b6303b2497ceba5c2ad3e5e14def405a7096a, 0x3844980269e67ec6d717e707e24abb11b70d2949ae7b3a2c019eaf626eae0e42, 0x4dde72e0e8bfd3f3e563db71e208584ceb0e0d527fa3d592990b3562a09c2816, 0x52dcf1877657f7501ed8bde60122f2b217bb187a922e731b9db97cf0b676fb5a, 0x4e97ff7a87e2a5e91bb46d425c715606d3eb8a417708fb4d99f2a05c8fb3b79a, 0xa8234d57a4e3dbdb59c98c23edba7ea49ec82e3a2263b76c4cac089ef483457],
    [0x6963af62e003892a5d1d50074e93217934daf23145cff68aba2e8ba200000001, 0x4d491a377113a8daccd13ab0066be558e27e6d5755543d54aaaaaaaa00000013, 0x310bee2d07c2a14fc6e73ddc04133ddade81769ecec43a9d1d89d89d1d89d80c, 0x28c41914cdee3cef30f5654927f5654833f3eae7bc7b340ae6ae6ae6546548f0, 0x23ab95f2343075514ad6b8a002f6b89f2d756d8ac4ebcd8989d89d8989d895f0, 0xed3, 0x25819804513a7b5b1fa1c5e47b963e5c13902d887fff781dcb4b4b4af87864da, 0x5f786bade60939ff393eb1e880672a5ebd6eff89fffea61d4b4b4b4a787889ea, 0x3bc23bb3963e8ea602a0fcd561b223a9fa6c74a4d0d6bbb4fba40fd970f0e6f6, 0x60023e174cddf866325983c0e911217755997d21650c1d6d56c9500bda5a5daf, 0x526f2947f532ee666035465e07c14b1d7d6a1e6ef114019d5996b39224089a67, 0x6a44840c3b7b082cd99fb0b208d45b5a376dd6581553d4546aaaaaa9c0000001, 0x6217dc5a0f85429f8dce7bb808267bb5bd02ed3d9d88753a3b13b13a3b13b13c, 0x4a867dda0877876545809d29bd0c9d27fef9e96fa4913b23edb6db6d12492493, 0x3dd414f92742ed7bd70dc88cd1efeaad81febddf77769776eeeeeeee66666667, 0x6caeccddf703a573b0063a878907ba84fe81c9c2cffe763f0fffffff10000001, 0x1b46fa31af7059b6a2a432d4b6f8e788c868db4bffff9d2cf0f0f0f0b4b4b4b5, 0x46d8580827a75ac891152076b08d923c24f3e43ab8e28d8d9c71c71bd5555556, 0x6dd3abfdf187ba0e815f38736770e79941dc14a486bb13c9286bca1a00000001, 0x1163a5e6130ad2cad47be0679b0b7a00cc8fa566d9995a99733333330ccccccd, 0xb0a7175a27085d61d427619257d20c38e120f9ec30c08c2f3cf3cf3b6db6db7]]

/-- the inverse of the matrix (not in the code) -/
def mInv11 : List (List Nat) := [
    [0x13ea09e8430, 0x73eda753299d7d483339d80809a1d80553bda402fffe5bfeffffe92d7f508891, 0xb5ab592636e8, 0x73eda753299d7d483339d80809a1d80553bda402fffe5bfefffcc181fabf0501, 0x97641f9fd86c0, 0x73eda753299d7d483339d80809a1d80553bda402fffe5bfeffed8c97f21e6c71, 0x186b8fecb99da8, 0x73eda753299d7d483339d80809a1d80553bda402fffe5bfeffea4b0d4a05acc1, 0xc6c9e8ee52c48, 0x73eda753299d7d483339d80809a1d80553bda402fffe5bfefffbdbca25b39be9, 0x9c81b4f2e554],
    [0x73eda753299d7d483339d80809a1d80553bda402fffe5bfeffffe92d7f508891, 0x1a54320589d00, 0x73eda753299d7d483339d80809a1d80553bda402fffe5bfefff2d2231aa80451, 0x3c8e730cbcf800, 0x73eda753299d7d483339d80809a1d80553bda402fffe5bfeff4e96a9f0ae6171, 0x15b4f1b5fa53400, 0x73eda753299d7d483339d80809a1d80553bda402fffe5bfefe32baeea4f896f1, 0x19b4977febce600, 0x73eda753299d7d483339d80809a1d80553bda402fffe5bfeff13f03a64fdb6a9, 0x4ee2689f96af80, 0x73eda753299d7d483339d80809a1d80553bda402fffe5bfefff454243bb45a49],
    [0xb5ab592636e8, 0x73eda753299d7d483339d80809a1d80553bda402fffe5bfefff2d2231aa80451, 0x6a17908fd1107c, 0x73eda753299d7d483339d80809a1d80553bda402fffe5bfefe165828b70002b1, 0x5a029dfa9877fa0, 0x73eda753299d7d483339d80809a1d80553bda402fffe5bfef4f2e0f004e39dc1, 0xeb90f45a46f13bc, 0x73eda753299d7d483339d80809a1d80553bda402fffe5bfef2d6046963f10371, 0x79313cef949a39c, 0x73eda753299d7d483339d80809a1d80553bda402fffe5bfefd768c58e9c023d9, 0x6049ccd370172e],
    [0x73eda753299d7d483339d80809a1d80553bda402fffe5bfefffcc181fabf0501, 0x3c8e730cbcf800, 0x73eda753299d7d483339d80809a1d80553bda402fffe5bfefe165828b70002b1, 0x8dccfc073d64000, 0x73eda753299d7d483339d80809a1d80553bda402fffe5bfee5d7dad6ff741c01, 0x338aee22a1aee000, 0x73eda753299d7d483339d80809a1d80553bda402fffe5bfebb2465dcbc0060c1, 0x3db8a6d7b901d000, 0x73eda753299d7d483339d80809a1d80553bda402fffe5bfedc67b13b51ab5181, 0xbf249b0c8aa9400, 0x73eda753299d7d483339d80809a1d80553bda402fffe5bfefe39b780d8ce5791],
    [0x97641f9fd86c0, 0x73eda753299d7d483339d80809a1d80553bda402fffe5bfeff4e96a9f0ae6171, 0x5a029dfa9877fa0, 0x73eda753299d7d483339d80809a1d80553bda402fffe5bfee5d7dad6ff741c01, 0x4d701d28f424e300, 0x73eda753299d7d483339d80809a1d80553bda402fffe5bfe66fb8d083000d701, 0xccef19f8444804a0, 0x73eda753299d7d483339d80809a1d80553bda402fffe5bfe47e35fc43c7ef501, 0x6a65e04e7b2f3620, 0x73eda753299d7d483339d80809a1d80553bda402fffe5bfedc3910a43c612771, 0x552d97a7594f950],
    [0x73eda753299d7d483339d80809a1d80553bda402fffe5bfeffed8c97f21e6c71, 0x15b4f1b5fa53400, 0x73eda753299d7d483339d80809a1d80553bda402fffe5bfef4f2e0f004e39dc1, 0x338aee22a1aee000, 0x73eda753299d7d483339d80809a1d80553bda402fffe5bfe66fb8d083000d701, 0x12f1ec19ae79cd000, 0x73eda753299d7d483339d80809a1d80553bda402fffe5bfd691ce5919cbc6a41, 0x16e4d6edee03cd800, 0x73eda753299d7d483339d80809a1d80553bda402fffe5bfe2be9d55bbbf21af1, 0x47708fb5a5be9e00, 0x73eda753299d7d483339d80809a1d80553bda402fffe5bfef55a4d0a14d60d61],
    [0x186b8fecb99da8, 0x73eda753299d7d483339d80809a1d80553bda402fffe5bfefe32baeea4f896f1, 0xeb90f45a46f13bc, 0x73eda753299d7d483339d80809a1d80553bda402fffe5bfebb2465dcbc0060c1, 0xccef19f8444804a0, 0x73eda753299d7d483339d80809a1d80553bda402fffe5bfd691ce5919cbc6a41, 0x2234eb228020ae8bc, 0x73eda753299d7d483339d80809a1d80553bda402fffe5bfd1259a594a3ce00e9, 0x11e511ff60245f53c, 0x73eda753299d7d483339d80809a1d80553bda402fffe5bfe9f66e023896cb749, 0xe6b0d00fe73788e],
    [0x73eda753299d7d483339d80809a1d80553bda402fffe5bfeffea4b0d4a05acc1, 0x19b4977febce600, 0x73eda753299d7d483339d80809a1d80553bda402fffe5bfef2d6046963f10371, 0x3db8a6d7b901d000, 0x73eda753299d7d483339d80809a1d80553bda402fffe5bfe47e35fc43c7ef501, 0x16e4d6edee03cd800, 0x73eda753299d7d483339d80809a1d80553bda402fffe5bfd1259a594a3ce00e9, 0x1be06f1eb3e380400, 0x73eda753299d7d483339d80809a1d80553bda402fffe5bfdfce3c2a34371eba1, 0x578c73e11df12100, 0x73eda753299d7d483339d80809a1d80553bda402fffe5bfef2ea2385a0995aa9],
    [0xc6c9e8ee52c48, 0x73eda753299d7d483339d80809a1d80553bda402fffe5bfeff13f03a64fdb6a9, 0x79313cef949a39c, 0x73eda753299d7d483339d80809a1d80553bda402fffe5bfedc67b13b51ab5181, 0x6a65e04e7b2f3620, 0x73eda753299d7d483339d80809a1d80553bda402fffe5bfe2be9d55bbbf21af1, 0x11e511ff60245f53c, 0x73eda753299d7d483339d80809a1d80553bda402fffe5bfdfce3c2a34371eba1, 0x96bf71213927fe6c, 0x73eda753299d7d483339d80809a1d80553bda402fffe5bfeccfebec590453c35, 0x7a215f177a68b1e],
    [0x73eda753299d7d483339d80809a1d80553bda402fffe5bfefffbdbca25b39be9, 0x4ee2689f96af80, 0x73eda753299d7d483339d80809a1d80553bda402fffe5bfefd768c58e9c023d9, 0xbf249b0c8aa9400, 0x73eda753299d7d483339d80809a1d80553bda402fffe5bfedc3910a43c612771, 0x47708fb5a5be9e00, 0x73eda753299d7d483339d80809a1d80553bda402fffe5bfe9f66e023896cb749, 0x578c73e11df12100, 0x73eda753299d7d483339d80809a1d80553bda402fffe5bfeccfebec590453c35, 0x114782a91003cd40, 0x73eda753299d7d483339d80809a1d80553bda402fffe5bfefd6935eef85a399d],
    [0x9c81b4f2e554, 0x73eda753299d7d483339d80809a1d80553bda402fffe5bfefff454243bb45a49, 0x6049ccd370172e, 0x73eda753299d7d483339d80809a1d80553bda402fffe5bfefe39b780d8ce5791, 0x552d97a7594f950, 0x73eda753299d7d483339d80809a1d80553bda402fffe5bfef55a4d0a14d60d61, 0xe6b0d00fe73788e, 0x73eda753299d7d483339d80809a1d80553bda402fffe5bfef2ea2385a0995aa9, 0x7a215f177a68b1e, 0x73eda753299d7d483339d80809a1d80553bda402fffe5bfefd6935eef85a399d, 0x636b1c0125aa8f]]

/-- the tables have the sizes that the code reads and load without a panic -/
theorem sized11 : (opt11.sized 10 4 57 && opt11.below blsMod) = true := by decide +kernel

theorem ok11 : opt11.check blsMod 10 4 57 (opt11.plainC blsMod 10 (opt11.plainM 10)) (opt11.plainM 10) = true := by decide +kernel

theorem inv11 : invOk blsMod mInv11 10 opt11.m = true := by decide +kernel

end Verif.Poseidon.Bls
