import Verif.Poseidon.Check
import Verif.Poseidon.Primes
import Verif.Poseidon.Bn128T12 -- only so that the large tables are not checked at the same time (memory)

/-!
# Poseidon over BLS12-381, 12 inputs (t = 13): the tables, copied verbatim, and their checks
-/
namespace Verif.Poseidon.Bls

set_option maxRecDepth 1000000

/-- starky/src/poseidon_bls12381_constants_opt.rs: C L1266-1428, M L2992-3188, P L5114-5310, S L14528-15954 -/
def opt13 : Table where
  cF := [
    [0x4c4254b349a4b7dfa27570ec1c55bdf49948b10d0472e56bdfa84b3192fd57a3, 0x50a25d3eeac5cf86e7ade0597ddd77409339d5e7eb2b86c7e2df8f07ca5f63ea, 0x1acb850eec29235c0e8e5e1b33b88bfb07ca16b3adc61857bef12fc69f558ceb, 0x500c50823b8f40814d8ccb5c06aed7769f2bc2a4fe249088ac1b5ae37c7ddf4c, 0x5eb54ea13b2e1c0dfa5fb3341e3f1c075aa7418e2708779537e8526b9c9093bf, 0x2c304802bc9e2de0e6155835b7efeed6adb2f4b9b84fcd2f807f45fcab05cff0, 0x8ef90e8d4b0d97cd7f14510365ff025baf0cf12cbbd305a88df3f291ee55c0e, 0x70c347511cfb5c59982fc6061e47a5ed8a3693cdf14699a555e1b5c74e72dcf3, 0x2b1285f961ca8e5d0e8033c638baa936593bfcb0fa7790ed30b17306a91179a1, 0x19561b515b0a50a99a94291409a427d0298bec74381d75c64ec52084b09601ff, 0x26c6b591155761f30cf05ee0aa40ba18045d790631d90380af4918eeac23ccd1, 0x5d4eb2c69f93eb5b4f64821a696ad939c48f45b6710509a6b535ceb815ffd260, 0x6a059008790ac6aad0cdcf0c37ef70930f1d6e5cfdf2833317cc5123ee513332],
    [0x1c0f84b19ab8f2e7b8d9d8b34b184780ca5581c083202047a6feac6e8b827424, 0x5b4c95a700ebda8ba223d09a9939f439d70d3dc7f617e5ad5ade0c6186c2c24c, 0xac9933555a2eb48042c5e1e89ed8d38db092e5c4b160c307e247f8d027381c0, 0x6924af747322c0bb93cc51cc7bcb6d574e8a7c883eefca9bb8d15dbacab393cc, 0x15ba080d48c0ef650d64f6a2f4d3d550693acd62bc2d22d178a100f580bb34a1, 0x2e30e495d4b2c0ca247189690d1139c88c17ea605ad2c5bc8fe65ab8ec753597, 0x518f796f33c0f408d331e5ab9cf323d2245b933a7808d5c8b999b37cd60f83ce, 0x71f27e4f0d4693e8c78bf298549a1196c82d240f818ed44e7afe2fc1670b658d, 0x3fc3f3f74f955ef768378da44a10002a779bbb601f181c0674c3e14d84542f8b, 0x2f3ff3ec32db008084f50b62a37013157872e4f39c167531815c097bf33d8a24, 0x454223ef59366f993e58fd7ce122e49f3e1e954fa307675c23d008b79e02eebd, 0x46c7d6fb7a6310840dc7e7ccc8ff6084469f563707f0a8ca9247b6374ba504c1, 0x5d5524c6b2e961f39961f4c7585cef507e705d53d815894bd1f42500ab4f2355],
    [0x653433b4e70017fdddcb557fcff1931ffff8182fada06630ec42574d1ca291b6, 0x2c5b5538ee4e9d6a79736f8bce341adfb30601ee9d5c2162334b373ee566415d, 0x6daa8e375d50921d9633636e16be8eb23aed02cb15f0e533c5df4262f224b31a, 0x34f147c2c76cf9ab8d3e946b6472b6e0b1131ab3088ec9141debde7255f733dc, 0x32286e192c6ba43a89aad1e0e57013891841e23049685a649bc73228d65a72b3, 0x7ad220446f6acbf32c10c538f69d54bcbd0b16e5fd908b0935401b161dd8627, 0x527898d13fada3e01f144d4156af07759e19fb3c353a71355641d8c6ee0709d8, 0x3c91ffad240ad1aff6d566ed4eab35379b7c22b28a63af9b0962d15c48bc71e4, 0x22d12353a09e73640b7e60079f279b72481b989a5a5c455edc3c858d38d1cd79, 0x639e33dd94652f108d931248d397c729146657468de566ba1fbe9a23421cacc8, 0xc74aa2dd9876e922a9db146540751b8fc2049333491cdb988ce00800b699bae, 0x3dbe7894dd73362b0513c4fa9914b171f0458bce0d55a25b3bff373ca3df21a, 0x12c1caae1ccee50d98ff2eecc6f98a641152808688b1224a4452527105d41336],
    [0x66055940690c22674d4c9e49f67e9aad301bc619cb612b74a74ba882db2fd642, 0x13d60ccdf5b6307498edbf0d24c11978cb7d7877d4cf772213285f5f26cfa2f7, 0x55a6fd1484d3b5df1738bbf1315e3be08b36d62597573ee1338bd8680afd9c2e, 0x3caa5be8129bc285bcb18cdac0f831ed3e7226f077070b9dec900f950983d455, 0x2e45870ed823ef6711ddab4f241c24e2a8de1c6313ec706346152af85c469cb3, 0x2d6009dac638e7cefcd2e8efed61e60d2de0dde60b811de937a597cbe9e67562, 0x641d9588f4b2753eca3aacc4f66aa75de83374e271f9b9c5cb6b505f67913c31, 0x533af322cb27610529d7262afd141c639ed53b8860b0a00233267e185057919a, 0x61011e7441523e8edadf576755cff7652730ee2ebe3765b6cd6c46849bd3b1d0, 0x501cb4eee7b36bad230ba2b8cf69bc28210090b077e428b88245b0f9d56d5113, 0x4e6c2c211071873ba63699e590e732b0424a90402b26e6fe8976bb1def772411, 0x529fc94cf4a09ba62fbb74f09e44588242cc1b0db4b211496ce045250c249a30, 0x12de4ea8f49509becdb9c7261b2566abca569c53c9aaba23d19790225db94ad6],
    [0x9e3a72833abf894a5296ce871efeebcdb8a1e61382a9749b0302a5350771813, 0x368877b41d7aa9be2a3c5399ef111fd1587179820bda3265a6c6205c852c1404, 0x221b60ca29c1facff722033c3d2dbdeca0789663980691052e3f3e72837f4f5d, 0x6d41868611fc41bcb21b90d1be97fb40c11df5454e69837dadaea90fd9d848f8, 0x6082fcedddb5d0d1110df508fe4f5c95ed3368587d173baf8a984a485c356a9b, 0x6bdc3a182174eaa3898ed11ddf0ec29a2d76a61654ae2cc9517ae9ae501ad594, 0x13386962ca1fbe0b6164f27569d7dbaace4374ae8ae7b9b580cfc2b00998f5d3, 0x3683cbbeef404eb84edc299e6904f87ad8e276471ffc52d6594c5e5876efb978, 0x563b38ca12d5398186c8161a2c895e4da3dc69a59918bb4a534a75f1c8eb96c8, 0x88b852a4fbf41988c513d205f280dfa548e6da393fc192bf53ab6d46d36c66c, 0x6bae4000e7296ced437870ab62bb2358aa18827f69feecd56663d5d902457819, 0xf3ca5acc7285430864a833d54b4937a09d1c94c92b6ea3569f7379123b90888, 0x6fb7fb71ca9d808a0c5ab8af1e95b0f4bf5a56fab820860d38d3f8f50bf4b508]]
  cP := [0x5ec2b5b1b630204f30191be07e4cb05abc70e7ff1297af545d1c018b119480a2, 0x1abb6e87abae0266c6c7a98229f6fa57db0c0075dec713362bccfeba508a4c3c, 0xff203b434bf9317b22324a8976d3fc6de60e637ec7fb84936828ac552ef9216, 0x32da8ddf60a8020788f5c704e3e273f9b51de9ef6d22aceade68dd578be372e1, 0x5e1e1bdc42359c03f2ed69059679da640d48f387c1346201aeee6a0e75c89d02, 0xdba95ff916bcdd0da7aa468ffcce4ec21bc7c655635bd2276fa918f4f850f8d, 0x1bfee84356eaf4713259b02edd897714981dcd13b0ee54900ff5fb086edbd954, 0x146db0423ee24b40a7aba6cebf21c8ff31c9dbebdba91fd8a3e79505fe86b866, 0x45c4fbc0b18ce131c59dc4aeb54bb2dc05661ad079e312c71431bd050579ea5, 0x6fe1bd570fb3413c1d198e068925f32bbf9e6f2c736ddd668f09862f19306837, 0x55177123dcbecc74e33880f97999f557adf79e2446e58bf552a2059ca5810aeb, 0x2b3ceb305494c19e2e2e39a381a35e90eab7c78833dd37aa98997761cb1854c, 0x88ac34e2b12797a39a8526081e1644ee0c8a31df3114e772eae3526760c1b53, 0x21cbb8e719ed7a3a7035a0f5287eee64d28fc8ac57255dbcdd7e5340a55e6495, 0x60e50e44c42b6ef993017ec0bb9cd6a3a589dd6a6d8d84513a0690eed37c1b84, 0x24147a563c7ff3d14fe6e3faac5b9dac9a03d080cdf88e9f31cc8cfe3f364587, 0x1db19ae398ac8fb9376299b7f7b7bd2dd2f59e12d600e04bbd7b229424cba6a5, 0x19afb6e00cb56aec88a60e0f224748b0935298315e272dec1b91d28fd124f324, 0x2b4f9a43211e20c349fc552d8a21f9f4263c787637b65713ffe2da4ef4e1140f, 0x5eaee3d9325ee984433660f7430426dec4b1c80db21aad5e7067e4d6df6da16b, 0x2b1c672822040b783b5220d94eefc90a4a429267ad64c8e19ec1c89b7aa3cde4, 0x1e56c570da23a851061e4a4c42d3b98340f6a22544c6a8a232dbe67f4476416b, 0x4713ec45cc79dadd8e9f1d5faa5e4b038af5902e367021d29517eb812970a288, 0x57c9a5076ea606ee2023900f6270a1bedff99178d3b8077ebe689d2ea98b5c3c, 0x4204d72e0b3c7293baa39f493101a2e46e28251b7c54e8d9096e9c8afc9c9bf5, 0x6f9c89ba254a40cb04c3bea00a021643be2e43c0bc01b4aae1bf3dfd645f8c33, 0x62c2f11e3d0d82c3e6140e8e80ab9246c4ffae8833b101a4f714784e2aa4f613, 0x1c239ecd7cce3221391e294470e9b9cb709afb1fa1a67a66851bd684d7f036aa, 0x273a6176648f3d0f8d4d248caeb9a36dfad033fc4781f657a7a3319f078016af, 0x3313544f03a5fecfcb1dbe969af2083b76a6f2edeb3a116aa1e85ddbe7e05122, 0x4b1c9c8e570726f703c6cb2e7d8a9bdbe777176b92b625f4b0467dd079ff6357, 0x6a11900cab76389654bee14695e8fcd8a91185637116f979a912b3bbe1ca4830, 0x30fb59561939535d4cc88ffbecaafd2462edd74520d8a45ff96ac6ac316b6593, 0x286880464a740999a90740770bfd45842d02895eab5a5036645cbee73d1597b2, 0x12030204c7dfb356996113888c89ea07633dd2aa7e388d7c06d6c913447b1d7f, 0x6c23d8c8b3db10c074a5eaffc3892154ddc59dae3822e670598c5122ca8bcdaf, 0x3871bc861ef4ad8dab437c451c97722e5a5456f5f131749004df7350f957c31d, 0x60e28adc35dccba7d0126461d2a41480c8e51076b5647d6931322353485e1462, 0x92f7f12d623521e19bf92910e13c2928e35b4c8029a271a3f902b12a8bd04e5, 0x4920a6af3e78c9ab218b983b841ad0665669a426ed774a01713875a580ddb8b, 0x3feda23530cb8aa3e22495b0e92dd773150d8dcce346db47f9dc7cd556929118, 0x6bb1bd6bfd03de9690ad37a1ca92c0e948d312ca795619a7c7a05e53f2f639f1, 0x1ac6a70b63aecf066bb5c3bf365835242c664107416f9526162052120a926ec8, 0x5d79227d543066f57d292190ad0d686ec98aa6ab17d6347208bf2f357804931c, 0x5c93035a97b493a8fdce087343834a41ffbae034ab62ca0835efec737b488099, 0x4ece19e41203a7014e70d9e3c2ae8d6a6095186a5e4dcc7b008c739a6809183, 0x2d7bf4652fc58c213f1b42931b3ffed4f93a7602d9ae03874d7238f7d5a34e3e, 0x5285a9059d040d8c456e0669995fb10924752e02e3fddf559c62ca2d9e9386c2, 0x22607bf0fe3246b934eb81f66d49234db5b4100ff9b58fd7e8f19463cd3c95fd, 0x697f1f08ed15561510092cf68ad5d6bca7be4c682760d55a478c249ca640700f, 0x682193a14af2ecaac07b67938610eb59acaaa8bf9d5faebfb46155b57961681, 0x56c5cd690c2a2ee44997bba9790cf940cc06dfd7e007823416f670cb1aa007ac, 0x1eea8d4c1572a8320f5f6dcd30d346f941119d367f364287cecf19ad1bfecf28, 0x68896f099ff687b8d15c1be1ca91eacad76ee6d877af720e78fb8729f5c19d08, 0x2520945bf66d624fde39c8cb1183c306344c8ba8e54394064b699c812e1e5931, 0x31cd228051d8d3a978cc8b12eeb79075251cd3b171bb24e4d46a8497ff52a20d, 0x5de1dc5078a52370fdb92861f1a71d1ed68dd21d4c6da88208acc33320940b4c]
  cL := [
    [0x4a6cd02035b0667ad170b37e855c2d318406deeddec6e3258e81e08cf40e594e, 0x3b0c5b60c07494d5e61bc55e2bbe184061a0afa5ceea03593c78caaf74d6723b, 0x34ff35e2bbcc7f07b3a6e7524b5f51f42fc66a693f78dd98d932cc54c96dae3a, 0x48d62b38e6ca4617af18d7f1c2b945863d017b8e0f4b5984ad1cb696a512f132, 0x707515047d31c9e9a59784880de88890906b0591c01c5bd29bd97da0e53a77c2, 0x56c38891a5879d900b9e79dd919ffa92d493b32a1235840bb2ee24bda0662d84, 0x20715d888d433958c8b43d0eac9396fab7b589d3b02dc64d4192df78dfec853, 0x146e21cdf9a2ac26c78249d13bf29cc68a0a7f78f2d88b2df9f0bf7a1398f2b8, 0x4972f8b2afc75a3054d04a06a6f85240f7f07249ba40dd8f296d87032c250662, 0x4789a65c986c6c4c532220032059de14a4144b1f7b5ea27c6ec4738f3da94655, 0x56c81dd69b3152cbab9e2f2fb51285a15a4a827912cb785bf57ea497d4e9600d, 0x1187d3defc0473077795d35389c1f39c98380e631d8da7da38c3cf20684e5ff2, 0x999cc5e1f6b8fc38835aa6cb7ff57a7b55f2770a2a564bfb4382d06a590be27],
    [0x81a4546fbc4f6cbc8424843ebf39d84f7df27c1df088568bf130da9cc6005db, 0x4ea6001ef9e9b7625bbc1acb932a7e69d255e80e308f1657fd4dd655f8b92ccf, 0x69470e2d37cea63f565f5797c11ef44cfbd8fc73ab3e1cbaf118766dc55f209a, 0x6b5b79dc7af7b36a32e8cab6ad8f846fd379ea33794a17372eb310728d1120d9, 0x1b5c02d6bbe56cbc15b767d298898bc79c67e8c8f789fe74484840b41fb5068c, 0x4aa6c6d0dd5f82f2e939600c6dd01ef14e0afcc33192c619ec6f8e4738d29d4f, 0x4bb6cdd744346a37d697f9dbc7e961bb4d05248804078d47534f714ee5f007c1, 0x6f5bd64a19eecf66494b18c8f7b7a9723efcd250f13f8374ccf129ad46af386, 0x4f8af4e8a1b96cd6cbcd0daf94bd3c6a5e03104109d90f66ffccd13b5c49b9dd, 0x2f972e763043c7667bf060d9717cc465a0f82775354bfb85af0a3fd6f2811a35, 0x19268ebe6b37fac67765c96b2e6ee28bb76d16e402ccf43ef1b49d47df636526, 0x4894e3d8fbbfdd05de7f0e4299f7cff20144ea1d0b2becacd8f9057a6caeb3ae, 0x30a29a109e769046f0c319039f89c63dbf557428fe21d1ce05fcd279be63ae28],
    [0xec701aa57c2e0b03a25a08a099053757b4888fe07c5b97a60bd768926eb4acb, 0x77f78a749d1541aba367b30cf95afa89057def45f4824d4466478b4c9210921, 0x1deec57c519d6a1c7bcc86fb1fe7a107efc752d0d1064fc9abb92395f38b8b2, 0x348166880f7353ee7bdd1a26f8f42b61fb9e3ebdbad4c96f5e19aa61fef54ea3, 0x2b94078c1384475996450db7b88bf4364d0d74656f1ed0c990198ac2bfa71e2f, 0x3db41b4da6e094da23bf0c0a5cdebae55314a8a334b9ca25a31d1a97e14cb902, 0x18f1864d0ea900edac6bbd2221af81fe207630baad22ed90d067a096eb624dcc, 0xe6e79e0878ef80ad8a96bd14eac2beb233a6af8e59d68db3d25627a50aab53b, 0x2af640cdb66260332444e171a8ed8f7e1f90b4a86d2c3e194da1c5a09584fe6, 0x37d5c3b531c5c593171039692906ccf8907bc308a0f92011b78ef3c3cc3f992d, 0x26752143e237411ef84f24fd5d63d93cc01bf9e83d7b3a0f40b0a790f5848b84, 0xbff6755f2043f108f9695f826cdb403382acb964ad2a08c745f8e32bf6f5be6, 0x205bed4ef5deb13c1c211945f55a0a739ba11a1266325536dc5e3e3d9e271d2e]]
  m := [
    [0x6217dc5a0f85429f8dce7bb808267bb5bd02ed3d9d88753a3b13b13a3b13b13c, 0x4a867dda0877876545809d29bd0c9d27fef9e96fa4913b23edb6db6d12492493, 0x3dd414f92742ed7bd70dc88cd1efeaad81febddf77769776eeeeeeee66666667, 0x6caeccddf703a573b0063a878907ba84fe81c9c2cffe763f0fffffff10000001, 0x1b46fa31af7059b6a2a432d4b6f8e788c868db4bffff9d2cf0f0f0f0b4b4b4b5, 0x46d8580827a75ac891152076b08d923c24f3e43ab8e28d8d9c71c71bd5555556, 0x6dd3abfdf187ba0e815f38736770e79941dc14a486bb13c9286bca1a00000001, 0x1163a5e6130ad2cad47be0679b0b7a00cc8fa566d9995a99733333330ccccccd, 0xb0a7175a27085d61d427619257d20c38e120f9ec30c08c2f3cf3cf3b6db6db7, 0x6ea8ab5b04d08339482b9407ac1a7cbf444c4b1a22e72944dd1745d080000001, 0x64cea7c2c00361cf7a7514e599124c8a328ea4e137a587a61642c8582c8590b3, 0x6f1915afb28c42ba866cc45d093b19afc595bd2d8aa91829b555555460000001, 0x6aa770fa96ed0cdc062af9f2ea24419e803dd454ae12f879f5c28f5b3d70a3d8],
    [0x4a867dda0877876545809d29bd0c9d27fef9e96fa4913b23edb6db6d12492493, 0x3dd414f92742ed7bd70dc88cd1efeaad81febddf77769776eeeeeeee66666667, 0x6caeccddf703a573b0063a878907ba84fe81c9c2cffe763f0fffffff10000001, 0x1b46fa31af7059b6a2a432d4b6f8e788c868db4bffff9d2cf0f0f0f0b4b4b4b5, 0x46d8580827a75ac891152076b08d923c24f3e43ab8e28d8d9c71c71bd5555556, 0x6dd3abfdf187ba0e815f38736770e79941dc14a486bb13c9286bca1a00000001, 0x1163a5e6130ad2cad47be0679b0b7a00cc8fa566d9995a99733333330ccccccd, 0xb0a7175a27085d61d427619257d20c38e120f9ec30c08c2f3cf3cf3b6db6db7, 0x6ea8ab5b04d08339482b9407ac1a7cbf444c4b1a22e72944dd1745d080000001, 0x64cea7c2c00361cf7a7514e599124c8a328ea4e137a587a61642c8582c8590b3, 0x6f1915afb28c42ba866cc45d093b19afc595bd2d8aa91829b555555460000001, 0x6aa770fa96ed0cdc062af9f2ea24419e803dd454ae12f879f5c28f5b3d70a3d8, 0x310bee2d07c2a14fc6e73ddc04133ddade81769ecec43a9d1d89d89d1d89d89e],
    [0x3dd414f92742ed7bd70dc88cd1efeaad81febddf77769776eeeeeeee66666667, 0x6caeccddf703a573b0063a878907ba84fe81c9c2cffe763f0fffffff10000001, 0x1b46fa31af7059b6a2a432d4b6f8e788c868db4bffff9d2cf0f0f0f0b4b4b4b5, 0x46d8580827a75ac891152076b08d923c24f3e43ab8e28d8d9c71c71bd5555556, 0x6dd3abfdf187ba0e815f38736770e79941dc14a486bb13c9286bca1a00000001, 0x1163a5e6130ad2cad47be0679b0b7a00cc8fa566d9995a99733333330ccccccd, 0xb0a7175a27085d61d427619257d20c38e120f9ec30c08c2f3cf3cf3b6db6db7, 0x6ea8ab5b04d08339482b9407ac1a7cbf444c4b1a22e72944dd1745d080000001, 0x64cea7c2c00361cf7a7514e599124c8a328ea4e137a587a61642c8582c8590b3, 0x6f1915afb28c42ba866cc45d093b19afc595bd2d8aa91829b555555460000001, 0x6aa770fa96ed0cdc062af9f2ea24419e803dd454ae12f879f5c28f5b3d70a3d8, 0x310bee2d07c2a14fc6e73ddc04133ddade81769ecec43a9d1d89d89d1d89d89e, 0x896583f0c9068184fa5784c727dc426520e0c2625ecea5ebda12f6838e38e39],
    [0x6caeccddf703a573b0063a878907ba84fe81c9c2cffe763f0fffffff10000001, 0x1b46fa31af7059b6a2a432d4b6f8e788c868db4bffff9d2cf0f0f0f0b4b4b4b5, 0x46d8580827a75ac891152076b08d923c24f3e43ab8e28d8d9c71c71bd5555556, 0x6dd3abfdf187ba0e815f38736770e79941dc14a486bb13c9286bca1a00000001, 0x1163a5e6130ad2cad47be0679b0b7a00cc8fa566d9995a99733333330ccccccd, 0xb0a7175a27085d61d427619257d20c38e120f9ec30c08c2f3cf3cf3b6db6db7, 0x6ea8ab5b04d08339482b9407ac1a7cbf444c4b1a22e72944dd1745d080000001, 0x64cea7c2c00361cf7a7514e599124c8a328ea4e137a587a61642c8582c8590b3, 0x6f1915afb28c42ba866cc45d093b19afc595bd2d8aa91829b555555460000001, 0x6aa770fa96ed0cdc062af9f2ea24419e803dd454ae12f879f5c28f5b3d70a3d8, 0x310bee2d07c2a14fc6e73ddc04133ddade81769ecec43a9d1d89d89d1d89d89e, 0x896583f0c9068184fa5784c727dc426520e0c2625ecea5ebda12f6838e38e39, 0x5f3a1296990a8256bc5d3a98e3573a96a95bc6b95247cb9176db6db60924924a],
    [0x1b46fa31af7059b6a2a432d4b6f8e788c868db4bffff9d2cf0f0f0f0b4b4b4b5, 0x46d8580827a75ac891152076b08d923c24f3e43ab8e28d8d9c71c71bd5555556, 0x6dd3abfdf187ba0e815f38736770e79941dc14a486bb13c9286bca1a00000001, 0x1163a5e6130ad2cad47be0679b0b7a00cc8fa566d9995a99733333330ccccccd, 0xb0a7175a27085d61d427619257d20c38e120f9ec30c08c2f3cf3cf3b6db6db7, 0x6ea8ab5b04d08339482b9407ac1a7cbf444c4b1a22e72944dd1745d080000001, 0x64cea7c2c00361cf7a7514e599124c8a328ea4e137a587a61642c8582c8590b3, 0x6f1915afb28c42ba866cc45d093b19afc595bd2d8aa91829b555555460000001, 0x6aa770fa96ed0cdc062af9f2ea24419e803dd454ae12f879f5c28f5b3d70a3d8, 0x310bee2d07c2a14fc6e73ddc04133ddade81769ecec43a9d1d89d89d1d89d89e, 0x896583f0c9068184fa5784c727dc426520e0c2625ecea5ebda12f6838e38e39, 0x5f3a1296990a8256bc5d3a98e3573a96a95bc6b95247cb9176db6db60924924a, 0x6beeeb3bc5a44881038e2168963594284523521472c0aded69ee5845b08d3dcc],
    [0x46d8580827a75ac891152076b08d923c24f3e43ab8e28d8d9c71c71bd5555556, 0x6dd3abfdf187ba0e815f38736770e79941dc14a486bb13c9286bca1a00000001, 0x1163a5e6130ad2cad47be0679b0b7a00cc8fa566d9995a99733333330ccccccd, 0xb0a7175a27085d61d427619257d20c38e120f9ec30c08c2f3cf3cf3b6db6db7, 0x6ea8ab5b04d08339482b9407ac1a7cbf444c4b1a22e72944dd1745d080000001, 0x64cea7c2c00361cf7a7514e599124c8a328ea4e137a587a61642c8582c8590b3, 0x6f1915afb28c42ba866cc45d093b19afc595bd2d8aa91829b555555460000001, 0x6aa770fa96ed0cdc062af9f2ea24419e803dd454ae12f879f5c28f5b3d70a3d8, 0x310bee2d07c2a14fc6e73ddc04133ddade81769ecec43a9d1d89d89d1d89d89e, 0x896583f0c9068184fa5784c727dc426520e0c2625ecea5ebda12f6838e38e39, 0x5f3a1296990a8256bc5d3a98e3573a96a95bc6b95247cb9176db6db60924924a, 0x6beeeb3bc5a44881038e2168963594284523521472c0aded69ee5845b08d3dcc, 0x58e0de26287035620523d04a6dc8e1596ade30f13bba79baf7777776b3333334],
    [0x6dd3abfdf187ba0e815f38736770e79941dc14a486bb13c9286bca1a00000001, 0x1163a5e6130ad2cad47be0679b0b7a00cc8fa566d9995a99733333330ccccccd, 0xb0a7175a27085d61d427619257d20c38e120f9ec30c08c2f3cf3cf3b6db6db7, 0x6ea8ab5b04d08339482b9407ac1a7cbf444c4b1a22e72944dd1745d080000001, 0x64cea7c2c00361cf7a7514e599124c8a328ea4e137a587a61642c8582c8590b3, 0x6f1915afb28c42ba866cc45d093b19afc595bd2d8aa91829b555555460000001, 0x6aa770fa96ed0cdc062af9f2ea24419e803dd454ae12f879f5c28f5b3d70a3d8, 0x310bee2d07c2a14fc6e73ddc04133ddade81769ecec43a9d1d89d89d1d89d89e, 0x896583f0c9068184fa5784c727dc426520e0c2625ecea5ebda12f6838e38e39, 0x5f3a1296990a8256bc5d3a98e3573a96a95bc6b95247cb9176db6db60924924a, 0x6beeeb3bc5a44881038e2168963594284523521472c0aded69ee5845b08d3dcc, 0x58e0de26287035620523d04a6dc8e1596ade30f13bba79baf7777776b3333334, 0x21a817cdd2467f35fe5b1dafc0bb5fbf7b689af89ce6bfdead6b5ad66b5ad6b6],
    [0x1163a5e6130ad2cad47be0679b0b7a00cc8fa566d9995a99733333330ccccccd, 0xb0a7175a27085d61d427619257d20c38e120f9ec30c08c2f3cf3cf3b6db6db7, 0x6ea8ab5b04d08339482b9407ac1a7cbf444c4b1a22e72944dd1745d080000001, 0x64cea7c2c00361cf7a7514e599124c8a328ea4e137a587a61642c8582c8590b3, 0x6f1915afb28c42ba866cc45d093b19afc595bd2d8aa91829b555555460000001, 0x6aa770fa96ed0cdc062af9f2ea24419e803dd454ae12f879f5c28f5b3d70a3d8, 0x310bee2d07c2a14fc6e73ddc04133ddade81769ecec43a9d1d89d89d1d89d89e, 0x896583f0c9068184fa5784c727dc426520e0c2625ecea5ebda12f6838e38e39, 0x5f3a1296990a8256bc5d3a98e3573a96a95bc6b95247cb9176db6db60924924a, 0x6beeeb3bc5a44881038e2168963594284523521472c0aded69ee5845b08d3dcc, 0x58e0de26287035620523d04a6dc8e1596ade30f13bba79baf7777776b3333334, 0x21a817cdd2467f35fe5b1dafc0bb5fbf7b689af89ce6bfdead6b5ad66b5ad6b6, 0x704e3a189050915df1a00947c954c945291fb6e2e7fe691f07ffffff08000001],
    [0xb0a7175a27085d61d427619257d20c38e120f9ec30c08c2f3cf3cf3b6db6db7, 0x6ea8ab5b04d08339482b9407ac1a7cbf444c4b1a22e72944dd1745d080000001, 0x64cea7c2c00361cf7a7514e599124c8a328ea4e137a587a61642c8582c8590b3, 0x6f1915afb28c42ba866cc45d093b19afc595bd2d8aa91829b555555460000001, 0x6aa770fa96ed0cdc062af9f2ea24419e803dd454ae12f879f5c28f5b3d70a3d8, 0x310bee2d07c2a14fc6e73ddc04133ddade81769ecec43a9d1d89d89d1d89d89e, 0x896583f0c9068184fa5784c727dc426520e0c2625ecea5ebda12f6838e38e39, 0x5f3a1296990a8256bc5d3a98e3573a96a95bc6b95247cb9176db6db60924924a, 0x6beeeb3bc5a44881038e2168963594284523521472c0aded69ee5845b08d3dcc, 0x58e0de26287035620523d04a6dc8e1596ade30f13bba79baf7777776b3333334, 0x21a817cdd2467f35fe5b1dafc0bb5fbf7b689af89ce6bfdead6b5ad66b5ad6b6, 0x704e3a189050915df1a00947c954c945291fb6e2e7fe691f07ffffff08000001, 0x706a54adbbbf813e4130555d209cf08149721367c1eee4d83e0f83e000000001],
    [0x6ea8ab5b04d08339482b9407ac1a7cbf444c4b1a22e72944dd1745d080000001, 0x64cea7c2c00361cf7a7514e599124c8a328ea4e137a587a61642c8582c8590b3, 0x6f1915afb28c42ba866cc45d093b19afc595bd2d8aa91829b555555460000001, 0x6aa770fa96ed0cdc062af9f2ea24419e803dd454ae12f879f5c28f5b3d70a3d8, 0x310bee2d07c2a14fc6e73ddc04133ddade81769ecec43a9d1d89d89d1d89d89e, 0x896583f0c9068184fa5784c727dc426520e0c2625ecea5ebda12f6838e38e39, 0x5f3a1296990a8256bc5d3a98e3573a96a95bc6b95247cb9176db6db60924924a, 0x6beeeb3bc5a44881038e2168963594284523521472c0aded69ee5845b08d3dcc, 0x58e0de26287035620523d04a6dc8e1596ade30f13bba79baf7777776b3333334, 0x21a817cdd2467f35fe5b1dafc0bb5fbf7b689af89ce6bfdead6b5ad66b5ad6b6, 0x704e3a189050915df1a00947c954c945291fb6e2e7fe691f07ffffff08000001, 0x706a54adbbbf813e4130555d209cf08149721367c1eee4d83e0f83e000000001, 0x479a50c26c86eb7f6aef056e604d5fc70e133fa77ffefc95f8787877da5a5a5b],
    [0x64cea7c2c00361cf7a7514e599124c8a328ea4e137a587a61642c8582c8590b3, 0x6f1915afb28c42ba866cc45d093b19afc595bd2d8aa91829b555555460000001, 0x6aa770fa96ed0cdc062af9f2ea24419e803dd454ae12f879f5c28f5b3d70a3d8, 0x310bee2d07c2a14fc6e73ddc04133ddade81769ecec43a9d1d89d89d1d89d89e, 0x896583f0c9068184fa5784c727dc426520e0c2625ecea5ebda12f6838e38e39, 0x5f3a1296990a8256bc5d3a98e3573a96a95bc6b95247cb9176db6db60924924a, 0x6beeeb3bc5a44881038e2168963594284523521472c0aded69ee5845b08d3dcc, 0x58e0de26287035620523d04a6dc8e1596ade30f13bba79baf7777776b3333334, 0x21a817cdd2467f35fe5b1dafc0bb5fbf7b689af89ce6bfdead6b5ad66b5ad6b6, 0x704e3a189050915df1a00947c954c945291fb6e2e7fe691f07ffffff08000001, 0x706a54adbbbf813e4130555d209cf08149721367c1eee4d83e0f83e000000001, 0x479a50c26c86eb7f6aef056e604d5fc70e133fa77ffefc95f8787877da5a5a5b, 0x4c2e7545473b9b7896b0fbad82ac2edeede305610e9fd60df8af8af807507508],
    [0x6f1915afb28c42ba866cc45d093b19afc595bd2d8aa91829b555555460000001, 0x6aa770fa96ed0cdc062af9f2ea24419e803dd454ae12f879f5c28f5b3d70a3d8, 0x310bee2d07c2a14fc6e73ddc04133ddade81769ecec43a9d1d89d89d1d89d89e, 0x896583f0c9068184fa5784c727dc426520e0c2625ecea5ebda12f6838e38e39, 0x5f3a1296990a8256bc5d3a98e3573a96a95bc6b95247cb9176db6db60924924a, 0x6beeeb3bc5a44881038e2168963594284523521472c0aded69ee5845b08d3dcc, 0x58e0de26287035620523d04a6dc8e1596ade30f13bba79baf7777776b3333334, 0x21a817cdd2467f35fe5b1dafc0bb5fbf7b689af89ce6bfdead6b5ad66b5ad6b6, 0x704e3a189050915df1a00947c954c945291fb6e2e7fe691f07ffffff08000001, 0x706a54adbbbf813e4130555d209cf08149721367c1eee4d83e0f83e000000001, 0x479a50c26c86eb7f6aef056e604d5fc70e133fa77ffefc95f8787877da5a5a5b, 0x4c2e7545473b9b7896b0fbad82ac2edeede305610e9fd60df8af8af807507508, 0x236c2c0413d3ad64488a903b5846c91e1279f21d5c7146c6ce38e38deaaaaaab],
    [0x6aa770fa96ed0cdc062af9f2ea24419e803dd454ae12f879f5c28f5b3d70a3d8, 0x310bee2d07c2a14fc6e73ddc04133ddade81769ecec43a9d1d89d89d1d89d89e, 0x896583f0c9068184fa5784c727dc426520e0c2625ecea5ebda12f6838e38e39, 0x5f3a1296990a8256bc5d3a98e3573a96a95bc6b95247cb9176db6db60924924a, 0x6beeeb3bc5a44881038e2168963594284523521472c0aded69ee5845b08d3dcc, 0x58e0de26287035620523d04a6dc8e1596ade30f13bba79baf7777776b3333334, 0x21a817cdd2467f35fe5b1dafc0bb5fbf7b689af89ce6bfdead6b5ad66b5ad6b6, 0x704e3a189050915df1a00947c954c945291fb6e2e7fe691f07ffffff08000001, 0x706a54adbbbf813e4130555d209cf08149721367c1eee4d83e0f83e000000001, 0x479a50c26c86eb7f6aef056e604d5fc70e133fa77ffefc95f8787877da5a5a5b, 0x4c2e7545473b9b7896b0fbad82ac2edeede305610e9fd60df8af8af807507508, 0x236c2c0413d3ad64488a903b5846c91e1279f21d5c7146c6ce38e38deaaaaaab, 0x12cc97ac9ef6f1b8ae5c6838a79db453e410ea29ffffbbe42983759ef914c1bb]]
  p := [
    [0x6217dc5a0f85429f8dce7bb808267bb5bd02ed3d9d88753a3b13b13a3b13b13c, 0x5f2ada66600e08821d7a8f6df901049b79ff6a1a7302a37fe310e02fdc077e91, 0x13fd818d846bc0bbbaa97b72324e2644bbcbf9fc938650c0f5618a0f45dbaa8, 0x2886582437a0f1294d882abb160ab029097ca1107fc0d1b10d0159dbde664ea3, 0x28572c84bd93ca12cf396dbce6f762ae9f2b8318cd2b8665bcc3119801f235aa, 0xbd51d08f8a6a80e2dd3f4522004c483505ce39ceec26b0633827160258235a8, 0x2ecac3bce8b2fb89fab672ddb6d74e8106634bd79b394e2e4edc11d77a0fc219, 0x2903eaaaac65b789d8e31e264de17562810df4103f96438657677c148f48f361, 0x569c6c838262838a6d2878d196e80b5ef23bc000414b132c20fbd5b3ed95f071, 0x1bb34965957187e45ddbe2ff970601700ae188cad58ceb5b87a50ac41345c49b, 0x1e1618af7ec239aef88d95ed84fcdcd606883c32f0a426dd53989c40474db248, 0x3e6a5b2e89c2deb783f7f5d74d07eaa3eb731abc4cf9780bd1b37b5190b7a2c3, 0x19dd9406ae0525d26e3d769c9b61d530ba413a4cafafd5fe2f25127a9e25bb54],
    [0x4a867dda0877876545809d29bd0c9d27fef9e96fa4913b23edb6db6d12492493, 0x330c598c1e303895de52d13b8e253320b587690ffa68682ccbc6bdc91c91149e, 0x69a99e14f06ca09948473c02fa51761fc6a7772973fccac0b520bcd330983b1, 0x12853be7bf5c736044fd72898c728a382f186c9cb03737591421262d2a77d79a, 0x329243257e991abc155f812ce33d90090b7eb811cf7e0d6cdd5c6af5be254629, 0x2def037e6985783d636e79f47c876d5eb560eb16212116d24284c56e113d9f7b, 0x37a28f80ecdfcb614a5f207eb7fe0f5b88e44ed7c16b85e2b2f3124c20a4ce1a, 0x188d7e29f3b25b2167829d303aa2943c0f788fd4d5df7c1ca63533311e3f3589, 0x3e2b92c5615b744f82bbba15eba4527faa17707ac24fbf90c3d23eb3adff006b, 0x70b469de3cad30d2c9efb5e739b4ea5187adfb0658e9000bb11045f2b4d7546b, 0x12da3555d6430ba95b980fd8ac0131b359252da8644240ccb1081f3a0d81afb2, 0x4714e8f184f1dd93f7526f39b9c2a45ebdff674e47ed1c63d1cbb028ed83e591, 0x3bbfa4a297098b372076776a9676c419c042a0c0baa03287c79d69737a168256],
    [0x3dd414f92742ed7bd70dc88cd1efeaad81febddf77769776eeeeeeee66666667, 0x69a99e14f06ca09948473c02fa51761fc6a7772973fccac0b520bcd330983b1, 0x4f13563c77f82a306ce8cce18e9b6c1210aa4b266e5f4d906ba68259c2d1c39, 0xe22cfd82dba3ece26c1547047736c004480fb0d77274c1bce05964429e8adb, 0x3870674a38cb928c043274969bde15811873c23a1f92627c65c02e82fb3b752a, 0x34fdae1050ac5125eaa1993e8d997520e837f15af9fa74cfd7b375d7f603dcef, 0x1bd45f1333709fb55662f19b5662b0d8439e114e4844f9d074deede022d9e149, 0x2f7dddf4b99f10705bc9672d15451af91c3936cff71130f50eabb767e02a1018, 0xa151a40028b9cc3f60838ea23f921e63d88c0d2c5aee51adbe30a9e3c37d985, 0x3a1d9083f875b0502556089d3c41169d3c05b58251acbd1f1d2155854a11f800, 0x4c130448eddcb1af401b5c4b742d70fa8466d18d6ad56274fe85db3326e61d53, 0x43ebd731df7d6b9ac46eaf9db19b3931a65f4f652e1a314c70e9fb005c009e65, 0x40cb502126d20cace055d161f610568ec0160eee19da237d74543c9e0d89fa7b],
    [0x6caeccddf703a573b0063a878907ba84fe81c9c2cffe763f0fffffff10000001, 0x12853be7bf5c736044fd72898c728a382f186c9cb03737591421262d2a77d79a, 0xe22cfd82dba3ece26c1547047736c004480fb0d77274c1bce05964429e8adb, 0x3aac9a7eb09d635e9bd067bc27f1400911f2f6c9a016b24d96c086d611ebccf0, 0x4fda26593cd41fba1b87b958e66d9188180b1bef236f6d466db9d678e185bcab, 0xfce4a21bf4144aa59a065310c9b91cc0df8b3edb6f055b8f4fb6393f8b049d8, 0x3933beb303c3be847c6abd036f98265de7d1198a2d5f6b4698ccc65c935f0c4b, 0x67dc84aab59e8fd167b1df69dc6e48501dc438b5d4e6e4eb6eb85019aa9ba722, 0x3c47b2eb565c06180fdc3e7647cf35729749dbddb97457c3a6a54cc7e9516b85, 0x58a4172ba3e1b9fa88fd68c1619c71ace155d031dc5f779ca1a899f95939aa95, 0x18a22b5cf3eed2146ef293d1862fe9f8afcacfb9de0980d6c767a61329606a0c, 0x52f556f559e7755274a308bd40871a13a1f7d9aef37126eddff882c51f5368e, 0xa3b9195c059c6c243a91279316b6d367c09134ada431813e50aee00c6d16d5],
    [0x1b46fa31af7059b6a2a432d4b6f8e788c868db4bffff9d2cf0f0f0f0b4b4b4b5, 0x329243257e991abc155f812ce33d90090b7eb811cf7e0d6cdd5c6af5be254629, 0x3870674a38cb928c043274969bde15811873c23a1f92627c65c02e82fb3b752a, 0x4fda26593cd41fba1b87b958e66d9188180b1bef236f6d466db9d678e185bcab, 0x136cf1cea5361609eaa4967069bdf8446fbdb3b1433cbf37e04aaa240beed26e, 0x22c50a0f5b5907e3d686bbc0b7ab0d1f164eea4805be7b4b31eb43c163e5bad8, 0x40f86ac44445f22a1dda3a55c3e672125c01fec362f2f527e42a5c930c009635, 0x4a691ce12b85e218d9bdbefdf900d2c888091aedbe567c061d0ad4819d036973, 0x5aeb2962ef1388d9a1328da61fadd2caa2ea08dc098e24a659f8f1b764205b7d, 0x13909a89b949dd36e301770fe76a7b70a1bc35803d5e6db459b67020a20a3b5d, 0xe8f84541fc487170d27d0749b7696c8e2c01a8ef85cadf2f161c412e426e1ba, 0x4ddee78323ee1fc489da04ab54391198b500081763c903b93a03c5620f7a465b, 0x5476923b62ab40cc51c7825ac8a3675ebbe5af9c4865c1fbb3b37756705762bb],
    [0x46d8580827a75ac891152076b08d923c24f3e43ab8e28d8d9c71c71bd5555556, 0x2def037e6985783d636e79f47c876d5eb560eb16212116d24284c56e113d9f7b, 0x34fdae1050ac5125eaa1993e8d997520e837f15af9fa74cfd7b375d7f603dcef, 0xfce4a21bf4144aa59a065310c9b91cc0df8b3edb6f055b8f4fb6393f8b049d8, 0x22c50a0f5b5907e3d686bbc0b7ab0d1f164eea4805be7b4b31eb43c163e5bad8, 0x129777e687e9a2e9395cbe6b6bb19ed6634bf55b3e52d1e75387cee716d38c2a, 0x2d748ebe47342f836ad2ce5921a928c84e5c2f6029af3ec6b88ca8a4078ebb15, 0xe88486e9f35ac849774837b17f83148b5970f108c91035de8e7a3f4acb3c5cd, 0x2bfcef9f835e2238e9519d81ff79b81335f5dfa4ebc4505be44baf419588e5be, 0x480742ed32d0ab534670d89ad681b00b9fb2cc16e1b06a3aa80761724e107978, 0x66c299214828f22c596c87d98c3e6eb655dc0a65d3672bef01da4ed35a519776, 0x6954fb60c1ec45d0ba23947b33791d792810f28767e9d35c3ae93eb756adad93, 0x6f0b2efb06e69f9cf02adfbe090a1e92f21358c3435ce871b5d31bc491046f55],
    [0x6dd3abfdf187ba0e815f38736770e79941dc14a486bb13c9286bca1a00000001, 0x37a28f80ecdfcb614a5f207eb7fe0f5b88e44ed7c16b85e2b2f3124c20a4ce1a, 0x1bd45f1333709fb55662f19b5662b0d8439e114e4844f9d074deede022d9e149, 0x3933beb303c3be847c6abd036f98265de7d1198a2d5f6b4698ccc65c935f0c4b, 0x40f86ac44445f22a1dda3a55c3e672125c01fec362f2f527e42a5c930c009635, 0x2d748ebe47342f836ad2ce5921a928c84e5c2f6029af3ec6b88ca8a4078ebb15, 0x45759bee679e38a1f192b0dfed70743dc89367c96f757f88b9732e9ef34afb5b, 0x6969807fb5878af322ba4137005b8b2a67b95c26a972820ed2e02f6c42a1edd4, 0x722d0137ee1e06ca615894f6179399f4c882319218b5374cbd84fa3c8712dc20, 0x378ecddf68cf4dd3ce1e5834e1880759f53f5a01c5e514e22e17a2f14adb4869, 0x1c8f20dbdd5358a3c6f94e5632001bf9813c061d16eb6f5404c52b99bcafdb4b, 0x1816fde90618b417a2ac03b57a210e93b69f86a7b30d28ea38caa36e762debaf, 0x54db7c879d34742156912ec7f556b0441f8d6a48d62d6a741314cad5a5ce0c12],
    [0x1163a5e6130ad2cad47be0679b0b7a00cc8fa566d9995a99733333330ccccccd, 0x188d7e29f3b25b2167829d303aa2943c0f788fd4d5df7c1ca63533311e3f3589, 0x2f7dddf4b99f10705bc9672d15451af91c3936cff71130f50eabb767e02a1018, 0x67dc84aab59e8fd167b1df69dc6e48501dc438b5d4e6e4eb6eb85019aa9ba722, 0x4a691ce12b85e218d9bdbefdf900d2c888091aedbe567c061d0ad4819d036973, 0xe88486e9f35ac849774837b17f83148b5970f108c91035de8e7a3f4acb3c5cd, 0x6969807fb5878af322ba4137005b8b2a67b95c26a972820ed2e02f6c42a1edd4, 0x399328914aa5715e2b216d4bed6e6dd0a9445fb03bd431f04239b5d617a1b14b, 0x381cb76e5c95a9a70a39c5585f974358628fb2200b55505e3cd32cb35a4249e0, 0x435344bcd423fa9ea88cfe74c3bc2a11b35d04877270ffd452fa1b5fe1cdfc1c, 0x5cefee361a245c5bd5acabf53e13d469db0d4bd89703192e9e6b478d2baebe6c, 0x34b269ec0a4f2e447ae68cf021905b4531f758622f786edd4618d138c83d3c33, 0x4c2e3efe79157938e9ac3dec783d9c74ff75a054caad7829e6500051da4b7f3a],
    [0xb0a7175a27085d61d427619257d20c38e120f9ec30c08c2f3cf3cf3b6db6db7, 0x3e2b92c5615b744f82bbba15eba4527faa17707ac24fbf90c3d23eb3adff006b, 0xa151a40028b9cc3f60838ea23f921e63d88c0d2c5aee51adbe30a9e3c37d985, 0x3c47b2eb565c06180fdc3e7647cf35729749dbddb97457c3a6a54cc7e9516b85, 0x5aeb2962ef1388d9a1328da61fadd2caa2ea08dc098e24a659f8f1b764205b7d, 0x2bfcef9f835e2238e9519d81ff79b81335f5dfa4ebc4505be44baf419588e5be, 0x722d0137ee1e06ca615894f6179399f4c882319218b5374cbd84fa3c8712dc20, 0x381cb76e5c95a9a70a39c5585f974358628fb2200b55505e3cd32cb35a4249e0, 0x18061a0e3017a265521e55c75bdc92edd38a81a0df681f0c8a28a6b61edb0d93, 0x47bde46b92e250c21e84ec928ea82ebf4ec67673e78a91693c91e00f88553516, 0x3ac3eb65f50b27e985c2f1bac8519cb1d855ce2bfa86251e6939903139d0cf34, 0x3029483f405a6eeb843d5c5563f59f81c8786c4e9d3f96d3a7a507abda4576d7, 0x8ed8dfc3e1b3b2efac1bb5a56a4931b50823b87720d3f427228e6cb0faf994e],
    [0x6ea8ab5b04d08339482b9407ac1a7cbf444c4b1a22e72944dd1745d080000001, 0x70b469de3cad30d2c9efb5e739b4ea5187adfb0658e9000bb11045f2b4d7546b, 0x3a1d9083f875b0502556089d3c41169d3c05b58251acbd1f1d2155854a11f800, 0x58a4172ba3e1b9fa88fd68c1619c71ace155d031dc5f779ca1a899f95939aa95, 0x13909a89b949dd36e301770fe76a7b70a1bc35803d5e6db459b67020a20a3b5d, 0x480742ed32d0ab534670d89ad681b00b9fb2cc16e1b06a3aa80761724e107978, 0x378ecddf68cf4dd3ce1e5834e1880759f53f5a01c5e514e22e17a2f14adb4869, 0x435344bcd423fa9ea88cfe74c3bc2a11b35d04877270ffd452fa1b5fe1cdfc1c, 0x47bde46b92e250c21e84ec928ea82ebf4ec67673e78a91693c91e00f88553516, 0x1f7dfc38d5b7135d825e313e2287883b608d382190bbdf5db81b517a58b93eb2, 0x223591257c80e5f13f3e9968acec2efa82bfe860190cdc56d52ee81184c4c2fb, 0x477bc10793b44f009dc5529a97f2145ac1856fa2c0c76a769410d9b26a458ef6, 0x507a94861ffc8a01b0f91f4fd05b1477d244ec9721b20c4c315901e1e7bba0ce],
    [0x64cea7c2c00361cf7a7514e599124c8a328ea4e137a587a61642c8582c8590b3, 0x12da3555d6430ba95b980fd8ac0131b359252da8644240ccb1081f3a0d81afb2, 0x4c130448eddcb1af401b5c4b742d70fa8466d18d6ad56274fe85db3326e61d53, 0x18a22b5cf3eed2146ef293d1862fe9f8afcacfb9de0980d6c767a61329606a0c, 0xe8f84541fc487170d27d0749b7696c8e2c01a8ef85cadf2f161c412e426e1ba, 0x66c299214828f22c596c87d98c3e6eb655dc0a65d3672bef01da4ed35a519776, 0x1c8f20dbdd5358a3c6f94e5632001bf9813c061d16eb6f5404c52b99bcafdb4b, 0x5cefee361a245c5bd5acabf53e13d469db0d4bd89703192e9e6b478d2baebe6c, 0x3ac3eb65f50b27e985c2f1bac8519cb1d855ce2bfa86251e6939903139d0cf34, 0x223591257c80e5f13f3e9968acec2efa82bfe860190cdc56d52ee81184c4c2fb, 0x26391c0eb42db7a5c381c7ec8fd26af210e2d1da5faf4855b11160dd2eba0c1f, 0x3e4e8c8fa02b8efff11f49d0f08a4155e96fb52b73f66f582bac4472d6bdeb7e, 0x13631d54713d315828622f06ec1bbceb5880b8d2b0c54c69ec0ca02714a51cee],
    [0x6f1915afb28c42ba866cc45d093b19afc595bd2d8aa91829b555555460000001, 0x4714e8f184f1dd93f7526f39b9c2a45ebdff674e47ed1c63d1cbb028ed83e591, 0x43ebd731df7d6b9ac46eaf9db19b3931a65f4f652e1a314c70e9fb005c009e65, 0x52f556f559e7755274a308bd40871a13a1f7d9aef37126eddff882c51f5368e, 0x4ddee78323ee1fc489da04ab54391198b500081763c903b93a03c5620f7a465b, 0x6954fb60c1ec45d0ba23947b33791d792810f28767e9d35c3ae93eb756adad93, 0x1816fde90618b417a2ac03b57a210e93b69f86a7b30d28ea38caa36e762debaf, 0x34b269ec0a4f2e447ae68cf021905b4531f758622f786edd4618d138c83d3c33, 0x3029483f405a6eeb843d5c5563f59f81c8786c4e9d3f96d3a7a507abda4576d7, 0x477bc10793b44f009dc5529a97f2145ac1856fa2c0c76a769410d9b26a458ef6, 0x3e4e8c8fa02b8efff11f49d0f08a4155e96fb52b73f66f582bac4472d6bdeb7e, 0x3d98972dcb9cfc37a730b003d61d6789303bd2df755058dcbb80e8e8a7dd13e1, 0x60339a7d82e45555de5d18fb32518dccbc85e378d2bf2cf0999f0b429b6835f0],
    [0x6aa770fa96ed0cdc062af9f2ea24419e803dd454ae12f879f5c28f5b3d70a3d8, 0x3bbfa4a297098b372076776a9676c419c042a0c0baa03287c79d69737a168256, 0x40cb502126d20cace055d161f610568ec0160eee19da237d74543c9e0d89fa7b, 0xa3b9195c059c6c243a91279316b6d367c09134ada431813e50aee00c6d16d5, 0x5476923b62ab40cc51c7825ac8a3675ebbe5af9c4865c1fbb3b37756705762bb, 0x6f0b2efb06e69f9cf02adfbe090a1e92f21358c3435ce871b5d31bc491046f55, 0x54db7c879d34742156912ec7f556b0441f8d6a48d62d6a741314cad5a5ce0c12, 0x4c2e3efe79157938e9ac3dec783d9c74ff75a054caad7829e6500051da4b7f3a, 0x8ed8dfc3e1b3b2efac1bb5a56a4931b50823b87720d3f427228e6cb0faf994e, 0x507a94861ffc8a01b0f91f4fd05b1477d244ec9721b20c4c315901e1e7bba0ce, 0x13631d54713d315828622f06ec1bbceb5880b8d2b0c54c69ec0ca02714a51cee, 0x60339a7d82e45555de5d18fb32518dccbc85e378d2bf2cf0999f0b429b6835f0, 0x391b78a0ab4305ca74ec9a3192e1241a969982be4b7bc8c07b37cefd118d8469]]
  s := [
    [0x6217dc5a0f85429f8dce7bb808267bb5bd02ed3d9d88753a3b13b13a3b13b13c, 0x6e7d602bc192f66854f6ea9e0abcf98822ca5c7b6b37f3ab405a1f8b062c5f16, 0xa432f2133dd09aaff0fd1bf662bfe3d5fb3d257c45901f1088b2d26bd49b344, 0x6a947b0b74ef4de9472445f8a42dfd34d3a458b5de79365514cceb34df864f, 0x59b3ba1586e0ae806a2e3ae15848348e10ef13a0d503f28715a78c9967634484, 0x52f2150227a831b34fa80369a5266274aa5519d1570fc7ab846ee850468ed458, 0x27ebfdbc2486a1acb6ef511adf60b2b5fc61ef4bfc07a5344cd6949b2a672f5e, 0x191a4428e0cf098f83b44924e00e5d8dbc42fe1b1b29c53286027049eb25e867, 0x349a75f1d1265d0e89805f1117fe9ef2e534cbfd0f71b1bbb657fad6ead43b49, 0x7032220a61b4e92bba11dd63283dfce22fb6df82854f47b6e9dd50f298cf3583, 0x53732634aeab8b36dbc59fbf880c97a332a34aef282126b7ea6b181c87beb66e, 0x19176f0d560b2aefc30b23e5acffd84e65cbbeb7f2431cf91a6752f861eb1b4a, 0x25db68bb2185cadd4a5f4e4a9801838fac84fd7b41c7673687ac8d70244bba46, 0x71879ac298f6dbe6f6146df4322ff0790b6ea387d224fe7837e7d68be2e84d2e, 0x686d5246725796b33c8d878222f191f0e55506ae26bb82e1e67482ab7fc47f0b, 0xd93d8c3abf81da16b02527bb18ddbd163ffb04d1aa5a71b88b46d6d8ee2bf61, 0x22b8fd682830d4d61c73021e4608ef600bdc5dadcea94dbf9bf5d6ff0d0c0488, 0x34b2d5549bac78a0dfad295345d86700bfc96197da9d3d653874fa46126425df, 0x2196e181c11460e6a48b9cce8e9ce84b9c5e1a5f944d2cad7a22a986a52ba776, 0x632cc19d2668c737e76ae2a7a2fba616648a037cc2ab26380c38a520a0b39a10, 0xdb29ff4dac9af7e4f0b037a8a908ba07d24027fca182255fec72faf4d86d682, 0x1134d9431304422cb326cc94929b4998cb90edf913baeb18dbf71aa78987ac70, 0x3d854bb4718f7664b26604dd5b26ae78dfbb1ddbe093c2f801eb9a24d3011f77, 0x40a3e2b23a83cdcc1c417b12ea197caaa2b41b540a443ef37c02795e97618758, 0x57e7061afb6efb7db1e2f496a285fe975c3f594c3bc76801429bfee494409020],
    [0x6217dc5a0f85429f8dce7bb808267bb5bd02ed3d9d88753a3b13b13a3b13b13c, 0x4b4791e3610e9518c53ed2f437586631f41db59845181f55a8bd181bfae7f2cb, 0x17ef625f8bc4a197c2e6218d451a7f92352e0ca81ee8f5c19df7c2cba6efd26b, 0x71ef7e3cb6863e514aea2dde0abe93484488473df1e0e81b07c98589e6b8ad39, 0x131c3f4affbb86f5065ccd39b84458c5eddf556d5734688cb73003eabd6d0d5f, 0x4d6789622724933550608101e9f64c26c3151af279b8e83ce4f4c77b98bd2408, 0x48bdb039a891158a7a1427b07acfd878c2bc38e73913e4ccbfaf38f089540dd4, 0x17f266439927426c2a8a68b27935314eef4ba43ec7ea41dd3fa7aab5742935ad, 0x401781f42c933ec706f2dea5f5ea6593f8a1c3770e2f2380c9189b28bfb6855b, 0x4cf536cd2acad077f00649013b7f4c3589308718e02d5bf4e57deacf606b6c65, 0x2ee1a3d9b2429db02c584780842b8c936359390b98f5cc288b311074a58b33cf, 0x700149700ffed16969b7893825dc34b1130040a67ae4dd3738eb00c1e5e39a0a, 0x291c98236741e1d3f29fb34425ac4c26f7421f9300411bce4699cc437ae0541a, 0x32a6a56b21a1ac0077d03c537016810d9acf56307af98cecbdbafc20ba79bb2e, 0xe2bb8c43001edb4fb8034fa2e5ab41837e2b9c2b8583c8ff336fc3cd17408be, 0x24760c98b67c7b29b9fad2ba42045da4364ef791e486ad55c10219cec5751e31, 0x6f097542a61f307e205c424134aff39ab7a7cbb3fff766a7e5c9fb4b0ce1aa96, 0x439b7905ef2e5e0aec0c3c983ae054f64a0c8b8885b878fab2a5896f59848f9b, 0x6999746fbcd02f883a22c87036ef66613eb38656ff18ba7bd0e3960e338af6f5, 0x3ac692270fc060d04ae1574239942fc66c983d7ef7dd304d3a07728665f520f4, 0x6ec0ffdbd1c5805b5f051c92de6e88e6435b2431f03234627c6a5f6a7e8ea4b9, 0x42f158835b66c927ddd5f66dcec411b2f60b705e914a03f608d35587cc67e818, 0x6252625bcbcfa0a784a2a1f1612a6aaa7ac13fe00d2164c9a4da593bc7b6c878, 0x59da04b052680e93251581279f00b4b4b4d2d1b6442feb1f11b851675d8da01b, 0x2b1d4964160ba47b89eafe262a1d35e7076fadf2d319e4b9e8971397c3a75ec6],
    [0x6217dc5a0f85429f8dce7bb808267bb5bd02ed3d9d88753a3b13b13a3b13b13c, 0x36df58bc58e129b3616ba199b1db1bb7db840ebe849bfd5e4460594c5a0eac55, 0x36bc75da1f1badaadcc7eff39773ae425824eda5a819c41acb467443b08fe74f, 0x5ed9742a78f26cacdbbf22c9db98eb51766502bc945d20e14e4bcd307c48b196, 0x5a48fa157394edd5e125d74a05e0cd76956f674e8a19b0fcd85e15069c0c6898, 0x69a38ca015bd8e42ea2bd8d812de5a463f36a0c3b57562a20c32ad9a48ccdf33, 0x7030ae656cc428d6626f2312833300dbe41f144d12243d99ff20d3861cf012e9, 0x5dd3891b5366774e85edc61b0bb9763d6111c21ae586420a1ad9de4ca8e08741, 0x59b16d452736e55bcd54f9a3e4c721e712db18ea4d4966e38f45e2b2fa7783f8, 0x5a79f9a9bfb3604350ec9befe3e82d1f19414c4020357e4381e5f7f8371ad315, 0x2852c40b1d75556b1f82bea01185c703bbf496a03a20a0d881b1f5804b694c20, 0x3f076ba8d66dbafbc77581c973051ae09aafd7cfeb49438e37fe4d8eace14c5c, 0x1fa3a450ba9f052d17801d3f5deb7471455474dd87719bdd06f395ab764719b, 0x57a282ad3732b88f46a217e6fb50b5646c35c22eeaf147518811bafa68ac978f, 0x18e236182e0a9caccac757a96bc68fe47315136a3c648710c09b948fc33ed304, 0x41f95b9a550ad62b2e5be9ac1aac993dca53e64ce8ff0ff29f82f01524b2be2f, 0xc2302842febd35fdea8f99f81e1dd5604833681b6e5212584615dbbc20fb3a2, 0x372437468085f1deabeff7f0bb3fba3b8ed3bc5a081024c9cede491326ab379e, 0x22d135d0bba8948df46a2fac95720764437b7cc21594e508d6f15aa9ddb514d3, 0x3f89b6d29914733a3e3fcbd9b468117454c59d5763fdee3fde48927760e9780f, 0x1da47d2f0a8370945e5b64a5ccf35e2724ef5e36bea29bbf6b5d389f931b93d2, 0x5586929baa35fc33ce325a68de1805f093cd5b9f40781309426890a23b6263fb, 0x2c3910c46156cfe9a941619edce7e17939ba16f3d0f5312be9c2822951759f96, 0x2835ea131fc430e664cd48857d7e8debcb979bf5e9aeca5f7818c1bb858ddeb3, 0x5873edfdfe4a3690809163b32660bd2fbf71386bda5f0bfa50459377c4c5875c],
    [0x6217dc5a0f85429f8dce7bb808267bb5bd02ed3d9d88753a3b13b13a3b13b13c, 0x1aaa95e61d62a7a450150b9c41b4a3bdf5c1e23a8f2ae9f889e33906c7134f18, 0x6a1d464180fe1bf1992bbd9ca711f5d4d9b69fd86e37abb46d560d42df5e4179, 0x3c6f59b2786d2878966a3ae651381c94ed28d430ceebfc0cfd388ab543b5bbb2, 0x400b68a52a06b15de37f15f3d7381adf6afbeb6a44076eef3a6fdb95f2f46c5e, 0x165e5904db83155c4841f8c237f05dac998c033f41044cc2499a0b4c13c6fe89, 0x6b825f379b39aa0dead103c235d40045a15fdb68597022b062d543706ae99a4d, 0x3420bba7898bebe3a023cd4663c14559590c8c73549fba7b0ff735734cf3142b, 0x913ce69260884d39cd3cec6ffa061361c03c58af57390f96466f856920d3e58, 0x3584a981ab2bed9098b02385f64f3b31494c932093e9799ec1bcce18ee54cc10, 0x69ff01ba21fb6db1c22169c868dfed2aaae234fe2931b2770d073384c2075da7, 0x3e7b354f5a9fcfa599fb037eed8783754937c792a13efb809eca1521ccb4fd97, 0x2fd684e77fa61d26886d4f1a4f0e5159204d0a47d3f238a78ab273e9adfe6da1, 0x5ec88dbb543b27cb40283503507388b737402efc30efc8c4e5e24604e2497451, 0x59b69441a6dff1e751773946d03aa7d60d7d5eddb8642d480ce26df69f8322f8, 0x42a0f945cd6ccf459058d9177b8a8da98f63d83f19d7041be28bc031d4fe4baa, 0x1b535b055bcc94e54bfc61ff68845b87ab80cd86c28609de67a7fb3a456e1d37, 0x562375f585a08d0bd41e8d6f11c361e3c26fe5dd9785d2260c81931962f13e16, 0x6b8158f6402021efcce4057a28029ecbd5d386c96e61ff83667eba07802d40ce, 0x32a7dbd173f441f1cf05acef360abe080cf4a4bb0e0406a7b3e1df12e334d2e4, 0x165fb803347cc1875ca80dfd6c70809927279f16e33b94ba71499ddeac5ea891, 0x610304c18804fca64520741687cd6125648cf1666cf2354d4910cb0b1456f85a, 0x640b22862a37988ab48d34e56cbe187a25b4fea0108373ee3625ee8c51da9f9f, 0x49ac4c187d975551fb70a8d2121d264e09c72bd692e0447d2dc1301731d606f3, 0x488758033d2e3304dc9f2ec7917daa1de47e42917164cc222f8d15f8deb53f91],
    [0x6217dc5a0f85429f8dce7bb808267bb5bd02ed3d9d88753a3b13b13a3b13b13c, 0x37a0da5f3407650550c89b98301943589ab4df3c45a39f19f33c56ede4a3ddd9, 0x1ee56bbba4d580e3bcb699fe8f011355da27a73753d55237264e8d841de4de5f, 0x8d156ce97aee4942def829b23fb5c99be85db8d8a455d710a9f4afcf60eb0a3, 0x17ee7b3bbae786be26fda0dc556ea2662fcbb2845d8c85de2f6e89b20c353ba2, 0x7020d17afc78ac5033921ec972f8af47c871e0c908a7f45cbbda89a9a0b0f7c, 0x66f531e9b380f206304676afba0df1516ed8700f5e5ac7de51816371c09e8b8a, 0x2c10de15286cda9f00a0a5b996842f55c272149eb1af85829042675ac5694bcf, 0x5ea48fb86951ebfe32de0f54ada3ad8d2f1cb73642eadb9dc3768f13e7409446, 0x4206824d19e3072a154794e37137efca233e3cae671447fd3c40072f2e37a934, 0x661700a6f3ef9dca39400838ab7d81f2bc9aaf7d3dcc08217b06cf7a80745781, 0x5706d1bf44cb4a27d61319515facf228f6767a8715b65a15e723199a91f4da35, 0x4d18bf24befd054528e6a395f276312189d2fb4946b3db652f63d11cb2bc791d, 0x9c3431f790c3fd5c9fae5a22d25ec88f25b88c2ae66b2f0cdd7b86e68cdb692, 0x2cfa847acaeadf9b3bd692eeb1bad52565013756111c17ec0608a55a9137aab1, 0x30a3b9d36ebef0b2ae37f280a82872efadf4df556582c7bb5d00fe91adbbcd73, 0x2f1ac34955c8ea56974f62f98de97c7d40873a3a35d76966f5a58418611bc7e, 0x50711811fbdd8ede78a7b3cd33ccb128137b9120370338b9ec3049a4cbe5fe01, 0x57690bca76567c92300ffd6e39c14d964a2fe0b7a06c9780b1d2d02cc4f75eb8, 0x3a93d0fabafbe71ff9a9c1437c9958337e20b7015361dcc78dc8ca174abb6c06, 0x2c62b7ddaadb03254ad52c3b719cb01ed62f6b78f7e11e9f31562ccf0b0b73f0, 0xca58f0e018321afd3e63ae3d13310cfd00df83f8974a28ab53c7a5ba8cbaf66, 0x52fc9178ce7743e1fe7adab0fc541d2ee1676d7ddd23332b237c15040b7600a4, 0x6f0586e225ea2b9fcb602b671b8afea5662e64c2d44aecaed997a610b3ebc491, 0x4468afd2b7327abb27c2702c87dfe8582cbce685fc6693baf2562c7d8af1e843],
    [0x6217dc5a0f85429f8dce7bb808267bb5bd02ed3d9d88753a3b13b13a3b13b13c, 0x36100028e98deaca67cffd31d2b659778cd06e3e07ecaa5cf02e1de0d25e4969, 0x3a64ec31bc2b5f497d2f6134fa2b7f6a83518886d2348b17562ac9617019b0b4, 0x40f08eab85981f5d164a65edaae1a6eb560811066a284292a6db78f9902e3aef, 0x4bfdbe58b5b31e76ec192bbb538445580d1cc62f6f2794bdc4d6d5700cb87da6, 0x36ebea6902211d85e7d3eacbb8ca0dc78835592b43b547067f930f87bb55cd7, 0x5613bdcab4aa12c716128b5a9ef22ea385e6265536b94818bf88042441ca9ad3, 0x3441af870afb972591ff4d900ded94466a3cc83a0650d1708f19973aee6f0f9a, 0x6a164a3464e25eb38141bfb8dfdd26ff8b7896a14087c6cb48448f50ee7b3b34, 0x5aab30159d200f553149c98e6c4d93ceaf7536699da27a1666ef95b0dd8457c6, 0x6e0f9fa02d0cb4d322dd0ac5725de686a8da152d57fbd6ee3ac210d901f02f17, 0xf37cf1b21d60f732ca3c3fdae44f92a1ed629bcb64d6e40023987d1acd2651, 0x35cd1065356ebcaf4e4098fd74aa1a4b3460274db1034d14193df1faa8a05e13, 0x1de4d4e1763cd6e7e90c77e95a3bf3ebf6487297fda2921bf6b9dc755e7ee2db, 0x2795263dd4a18a693255ae5cfe917d60b3f0b69e5c9ad7850990346819db780e, 0x38117fd86754061f56297a8e1fed01ea5a5540ea98355f5c1ec556c384502bd4, 0x7506b4f559fb7e384b9d965445d8ea3e59806e95c889396552008946e114426, 0x5231cb858869b92492d272b716a3edb3290b255e8ad927ee3020d0e911f405cc, 0x59a00f452d1fb4161cf958ae8f0f009b007322fbcfff2b613399b6ec7bb3b5e0, 0x357b2ef4c138b9a0beef421c0cd706dd7730ccfdc7a6f6b2023f06f6b200ad01, 0xfff3b5ca3b10c1d9bbe85076f35ee9462172da874a087d55684c97b27031caa, 0x12aab5653afb11a644ed0087b496dfa38d12e051b51dbb4600af1271d971f1d0, 0x1dec7a17b92cc0289414adada219c9589953f34aaddd5f08fa6e6ea588bbbb1e, 0x4428241ac21f40ba78205c73e6e1dc382e83188002d1bd141f4d672d3cd48218, 0xb1c1a3de9f5e2e9fa547a463ca66e26e2aa1fb7488cab73553bdc1fb6d38222],
    [0x6217dc5a0f85429f8dce7bb808267bb5bd02ed3d9d88753a3b13b13a3b13b13c, 0x38992cae8e996b5bd35b155f08287a0b8454137bd1bc46a75c8934363e9ad1e8, 0x8574c6b2964f902c870e9fe9f8500508b1173d5bdd044282e42cc74bc79ba0d, 0x4290c981d662b40c548e21fc2d3e376afd00e4363d0c49cf8dce76a397508b44, 0x7e183d61646b0ae03b4a4ce7e4515b6f42d0dd87c04b2dc1fce71a242c855e9, 0x54e40e7eeb7bedff26b44da85e7a8c44c4c86283a2df149014ded5e437b8aaf1, 0x2104edcae4e4af70848dd2cac96a28977c60b9121f9a72f6ee070df48e94157b, 0x94abc4b8aeb547e3caff8a82214c263dc5f47c90814bc5ec8c2703042894e4a, 0x7747351b13849a756ab262f4614c037c9d6ff97e998a1aedf7f9a2d8d8dbfdb, 0x42cb42dc26f862c4762e1685642ab154a04cd6638932d60f17298aa5c8e0adc8, 0x59ff8e1bb83680f4977f7f45a7d32252a8dc08ffa9ee3f2428ec4094fe765edb, 0xc1cd9424d32d0bce04f11f63f3bf69297c55116933ad56bfdf9b39890d82815, 0x3287b9128908ccbd5c046c068a32aba282b9b9cd801d371eb4a4531d4e26e4eb, 0x1d806fd3ef97a6154c1f1ec794676e31be629342394d12c02b11b3d08bb8cc42, 0x5575bcbd54f4a3c70f42d8b674ef2fb43f6cbcadf0ea968c92f8bf9f3b3ce476, 0x34fbeaa907cd9150b4f59957077014f483be76e96012fa56c1f8d7d1e0380eff, 0x8499e4e79d919a8924b57b047683f7a7918bf22b6dcbb11dd98d6cca292671f, 0x1ef2bad832261aaccc3ed0ab05564958e8165cafdfbccbb48375d015e15a0d31, 0x4df93487c8bfd1e7211fd2587849627f676bdaac87f1296d121250288be6a050, 0x508c1c7b190e524071360866b59a94575787386ec30e07d6b261ad32dc36144e, 0x393fd90604284c7404c3e28ddcad2e9fb45edff587ac1563c4dc334fa94d37ce, 0x4116d8711090b435af303dfb6d2c77f5258f585fc00ebeff8e026a2a2366a747, 0x2fec1de3f8bd176d9ff883b1aff7e6871fa43cbda98674c975b1b04ff449d319, 0x18a833e0f73a0ce26407ce7bd8cc85ed12392964f0900eedb4a3e0a8e0674728, 0x71bf742de081f1d0156a5e00cf36082427e335f8fa69102f1e3eed7b617a1ee4],
    [0x6217dc5a0f85429f8dce7bb808267bb5bd02ed3d9d88753a3b13b13a3b13b13c, 0xcd42ae7c04574b11d011b1c0a155bd9842961168b4c03cf5a7671eb3d2d9b06, 0x5998d250bd92256430e5834772f6cb8f8447b956c543c87e684ed7e27aa92e3a, 0x668eeaf66bb01d1c36919e280c24b77e68c214f8c67cc1840aafe0b8f854683e, 0x42e21a4c043a7d47dcb63bb3e7ce3a3d957243bc96887e6a50ca9510242f5310, 0x3297155368ab8d453a73ebab928a2e7cf3c9b5b4266bc36a595fd237c946e1e9, 0x3efcd3e12e8165a871d892d79ca7a53b8be0cff014de8ed4f6704ffadc8aa846, 0x409b727a42cd923b8e3a0a9bc223f469237dc9161d7d8449ab95cc1c65b61eb4, 0x58ce36c861e980fa23ab51efab04e586831587a1014a9da158c287791aa934ee, 0xd8918e2e246d462c6119be4bebf6933b137536256e297e73ebeaa9d04fc1aaf, 0x17ef7192f48c233e656c395475dd705b03d03b5af144420cc06daec3ce950461, 0x37c8c8ea0b0b5c1bc0426aea324962bf2da90b3fc5f2c520d43029cc98bf8a9c, 0x183afcb813ae0f5ba55ff9e14c1d70d61c03bf2762224c66330322472490a9d4, 0x49ec98962e70622b4cd53c41a4811ffd28a54dc1459c5f0d7c3c15bf77228370, 0x1533c0addab745a4d678cd7df5359dc79b0cdce5a0467e37ece4de7e75a971f7, 0x3f1252b1ba44f47ff17b86b08b2accda1dba38e6c032c49452b9a7d2fe9514b8, 0x1343f77d7eb63718728592685f21965568adfe012b5d75527235d954c5ba1532, 0x31dec6b65438a39960090e42b8bd34ba0f757af7622b55c491a3044f22af0ad2, 0x656eb59bbd2b1b422d6bf4cb43440e67efc4c989fe91744c27f3185cbd9ea4b, 0x8fad13693b0b71f75ee27205471268ed60638504409ead2ab5e8e10c3b9cf1f, 0x1f147ea0ff6b83ceef444f92da72c1ae72a14765e2763958fb31f40992d2b619, 0x71f11e0ee31cfabfd2d641c6822c7070d0aab6b152a46ebc7371d6b1b7bc02a0, 0x368cb682acf61fd8e44cd315ac56ce522ea06e8b41c4213f063b8228270bf20e, 0x25a23692cffb112642da554cec710870916d60fee8d9287f2d9130eb7fe8e10a, 0x36da29e2acd6eb1c512989427848120917b2e824e79066e8caaa477a08c705b8],
    [0x6217dc5a0f85429f8dce7bb808267bb5bd02ed3d9d88753a3b13b13a3b13b13c, 0x499fa72b644f52193cdf9991333b10e1bd353575ba3d2fe2ace4cab9180a858d, 0x1578ff2e9e8aa306e81397ab1c7b5f472d8d2a5d86577c2ad4909003e7368f4d, 0x45972dad206907c1c001dd241bdcebad286efc7b74d34a1ae1301fa113384bf1, 0x1df40a7dd14714d3dab2d72bf7cbeca74175e23c18fca61afca3bd00357b714a, 0x11d455e71337fb5bad14b00988f3e81efe9dd76d3983c162e3326905db45fc5, 0x6b0f5f779ea0280dc9c23bf7781315649e63c6de95421ba2703cc4359ae03e3a, 0x166ae886ad444a83a071ef7a3ac8812d84804b6b77b9cee9cba03f483ad8e261, 0x31546bebff9009c2f444cb7dc5697450e1f27a82edc850091c1fe0e5d36a77e7, 0x89e9ca962e94a678c7a34807d4e42f4649e7fdde663ba8e7428584bd7779305, 0x604047ad6f4055ddf84dfab984f95123b9dfb9844d876ff3f3ecdc64594c1f77, 0x490f54f9249de8470c0db309bb4215620051177f6c6df8f0517004311e0b76db, 0x320f6f3b22d1e905380bc02f2e54f948312295673da29a0bc74a0da9083fb165, 0x5cc894b0283ce2dc4f71b5ea43ef6e9605ea673dee03e6a118d0db0cd754ef32, 0x17f2bdb0158d0599fbf8b2d87104df3e4a196319a1453b9539c4766141ff4523, 0x2e4f22e3d248313bf8567ab0349d5736f0792fab09b453bc2dad80ee644c24c1, 0x2dedb2fa04a5cda222543c755c391b7bec689189abd1b4b1191b0cf3f59f8544, 0x68a6fc8b470c9c42e733433d2b9e8cbd5d1e3ded1370abc8594fac6255e94d2, 0x5dfda270ca2cbf0a2e96caf5b2a296d9289f1a8f6e355335bc29a8b40fa419f1, 0x54f122932bd13967bd667bf1c80815b5662047f1c4f1fa0c739fbc32d79f3d68, 0x712f1c33ff7d05b149a0da57ed0af4cc519e86101abcfd6b8ac61c2b332b9141, 0x35fe81227cf722c4cca4fc53ee67adb042d9011622cd1fa09139c865be7669f3, 0x1e04d9734b0ba6cfb96ed625d222b9e090e0f8ddaabada9f9ca30f3d8aaca120, 0x139dd67677d14c643ca3e5eb34aaaeddb08f4aa2143dd2262b0211def01f8c55, 0x5c00d897bdcc87c977d7625a0208c48829bcecfd3c30fa571f051a2ec48ae7f9],
    [0x6217dc5a0f85429f8dce7bb808267bb5bd02ed3d9d88753a3b13b13a3b13b13c, 0x46c6963f8faffe6af036976a342fd268eb980518d56faabd09913aea76997903, 0x556a0ffab405f5d08a17987908e0586d8da57f750999e2aac40bd0676c4854f1, 0x5b19231a6d5529f4baa74f7ae4d1e866dfe0780b847ff825b692b14a762b8a21, 0x31955883e1feb0928b51048dfe798572095cfada36234a41662fd19ba8a7b5ee, 0x4febc44f7867a11d55b6bffcda13181dec7b27603fe0193376168b340fe8ec0c, 0x543ad2a5e858fdb1e186aa3cd7981520a89afbfca080030c36539b608147351b, 0x3d5567ded61965ec3e8794f731201f4e3c6353d47a5c13f6b9413a6bfe717d6d, 0x5ac2aacb3cf55fec054b6256aaeb5c24fff354ba3f563d167fab87ee418f6c27, 0x73a923b4b0de84f3b309ec2bfc24ff28d0c678c6d1deef3307476edabba99b5c, 0x2e1ebd224994833092fbb9054c61e6b4df772b71e508a44e76e0cf8f86e56754, 0x38227a313e4ff0a0ab0143929b899e0968e5fc9c053bfcedcb6af5df2d86a270, 0x2cd7932a0307c551ac681f4b758d42a82f396459f6c1bf54e4357db850de8188, 0x566992d44e08a244853cc4da74fab152fd17939280bd1c575c1396b9bfca9a9b, 0x4f8b49d4974c653992ec51abf6924233c864a31529edc84ce68f37bdafb070e9, 0x5434a7e15ae315c0abe010a862fc8884e31f3f46e02bc5392a78c488b8eed50c, 0x164cf4b4413ee9915fc15e4ba6da0a60c14bd7725694af3d9f1cff1dce0df16, 0x3825256e7d6c7fa513b8d19672b41dfcc7137e67e6dde7ea03812cfd796d7299, 0xe23e6049e70b20e26592c71ea7213fa1af05f613087abeec7e350870d7da1b9, 0x528d02ea073302e1abf98fdd85bee8659a83c129166ee073552c30efe9eca4de, 0x57dcc46057bcf4a6d4bfbd083d62cf0cf9844432b1ebfba292b05264ae09893a, 0x6797d5dd75a09b77df84fe07c9ba100642c662d2cad4101043a0587e6c42279f, 0x230329f537b9b9858da35c4f45727766279145ddb5498ea8bf8f1740bc0873a0, 0x6d774f3f66fdc9782eeaa5bbd806326be753539bce03c113d19f9243c9136e59, 0x1ef6dc32620b0e9b3617bc9f060df4928aba9d19241ac7d112327e4461d06dfb],
    [0x6217dc5a0f85429f8dce7bb808267bb5bd02ed3d9d88753a3b13b13a3b13b13c, 0x386331d63cbc7868aa03cd8b8f0f338da1ea9b24b0deeef47c2109fbc40ad62e, 0x3e7062744745f65eec1b26b6ef973996fcfe65c38baa244584b3500c7602c12e, 0x1d1aea9ce58c0879e6f9cf716fcf0d94d5649541ee124793cf2bdfd356fdba68, 0x1063eb0870753e08cf58b5de34e09297ab3fb82b6061a5e8890aaa010998597e, 0x52738830123a01a230d2c4e9eecb8d95825c614821542d93e784c97db55f335, 0x6248535efbede6054d7073eea9427c760f13b4f22fd5c2793861163dd00dbd6a, 0x6ee9ccb962fda747a9b9af3268eb3194b2f8378f80e22695d5b067f8aeacc73d, 0x26141305ee3deb155a5b44b241dff233f0c45c815ef2172a481499272dd00cda, 0x13c9659d80d664f7f75d86c2371063381f6d36da97b732e492eac85cc336514c, 0x369ba5bfae60d9d9c3e06c4b38ad6be63874c3f0d24254b92a7368ffe152f491, 0x98824807e5e6d160ba7c820acadb6e7184e96b5e8e706c9e8cc536a28122175, 0x21b120ddb1446c0e5ec501be96508d7f3a693df76eabd3a88bf706c82442d4fc, 0x47950faf002b9d7a8f18cdd335d0dee84719f1139046b22b9cf9a450b447e73b, 0x599b5ad17c8968398813ec0ce46a75e76a537f30e530f06f6a5af2a54710b962, 0x1d1f4253d743875373e595b52ee7273399de477ba5a2d44334ccd2bb51a5d2ed, 0x44c53a5e6869f4100c5c5a7723cf85b7d696a4ee7f647040f5b67515ff9e8a32, 0x506f262775a669e6427246769d97a2807d91d9444f838a798239fb7d430a642d, 0x3168df48ab39dc0879fced28e21e94711aa671a49957ede5a4c16b72e8098b54, 0x35fcaf351242e4737fd2afa99b44abb6115f3dbfa535093e8a581f0cbc976b17, 0x14134da603bc1aa863da5c20a40da53868403367bd64b5d0663b760f4d2509e6, 0x66120d1bb18a77b07295819a1c2246cde4f35960fcd6ba75311c1b746c898a44, 0x6118931b8e6b5f5f44f8308e5c6f90332c30eb416ed6c518d998c5347115c023, 0x6666bb6c3798e31ca71431c18d25f5baf3abaeb5df6ec179fd0ed8ad192a7ee2, 0x42d3421ab218881b7b40a8be8ff5eaab92ab62f4a7e3bfcb1143406f0cf987c3],
    [0x6217dc5a0f85429f8dce7bb808267bb5bd02ed3d9d88753a3b13b13a3b13b13c, 0xdbf1726e2ed62fe3f6e7ce0971453b3888993f2150683dd73e5beb16cfd12a2, 0x23e8cbe6be9e0e422e05d9eb0c29e12d76cc4272aa16f9d0de205ff96132fda7, 0x128bd4c5b16eb70edff144da4aaeaf2f343f903ba7cd21fa5d5f3169ba24c9af, 0x5f9c758929de3fcf82bcb9fabad7515065393bedb00fe2bfe2a7f27a591f5a89, 0x721b2a873ec9e30cca4765277d8e4d62db50b7df7d096f32baa6cca73bfc3b05, 0x4aa2a68a30d821ace2f9967ff12db5b04b143a9da5b01a108dbaf9298f9bf8cc, 0x5a56821e2a9b1fb7865f360c715b8daf8eea9466fb27d8017696f19582b27a8e, 0x43f6f163672c9569ab395a1543b5482217d74c1d210ffd6058cd4dff141dc9d3, 0x33a83474bc1fe8d7a2e16c09d3eae970161a90ebf3b632f0e2eb99dbfbb89338, 0x493bd0011a52e3e454b317538c25a0580b9029e671ff87ca683eb43fd0374615, 0x3429598848e2bca1091296d65a75786e592353ebccd2263b81e707075f74396e, 0x69be6b51fd1a7b5e289a0ce1cbf568a0f5e323617cbdd63765562de25279f596, 0x2c901e8bcaff2fbc0374f8e2cdd02e51fdbeafca3cc91947419c9b4e85fc0a48, 0x7217241979525b218c43a48885d0e40f6931b7cbb1ad93f0a626ac9aabdfd0a8, 0x635e2dc6dd2abdfc0982c0736758d218e9a354d36deb559be85e9a36baec25f, 0x15958a680bff0b36f4fe6d17877cfb78157b5b0ec90a6b3fddb7169c7045cda, 0x2903afa8c3c17d60776925a0e90f211b0bd6b2a2f14cc6b86701b7cf0c7f135d, 0x1f63d84034374ae2e9ff61d81a04e3738bb4830b676bdcd620febea676fc4c1a, 0x40ed3d0eee1c3c9a3a3ee4d17c37521f6216bc2e71b8f6e5f6be2c41db740021, 0x54fd72d009b4a476503350f7d5cb522d6c296eb0b6ab62034c5b121a60a2fc64, 0x181dde775476cb41a33d4e7cd53f16394260c347ba5c9e0d29962678baf95d95, 0x14e9c52cf0c4784d3c6944612b6851b6137d676f0e44923de06fdaab5e387f8e, 0x6f3c872206a2039ca1c3a125d1a9224e3ef4c53d235da667c8d950781a038ce, 0x6960872a5d129c0aa18781b361e3a6beb16820ff7ab5d7aa4f4937b5a4d2649],
    [0x6217dc5a0f85429f8dce7bb808267bb5bd02ed3d9d88753a3b13b13a3b13b13c, 0x3b1ebd5b32e31af35a76621dc6a43dd9f7be79394f2ad5a89eec95c67be55573, 0x19a181578ad8319ab2483bb9b07f829ebb330d6db2677398c1774fa785c0123a, 0x6c2d235543c4edfc7f5f05bfc9d1ebf2ddd82f6b9f9c14dea4270f8b9d84c8f6, 0x661193717c6ee60a81d74b557819fb1dfb2526fdf1ff3cf5481b58c9020a5a8e, 0x595210d13970f3a591aeba6de70d4b33e22a8386899dc59e90cbb7541b2ff99e, 0x3b08621e8d576c2c151901be1b4ae4f94a13d3b58afd3985acdb15cf91f50935, 0x3611098c7e6d45f036f6dd73ea556e560529a55fd69420a5ece36d315043627c, 0x33b277c732e4b2a8e74c12e9bebd0852dd0f478feef4892c266f8a5b51766ec, 0x2e5ec771531069d80c48cc2ba3af4ddafcf1c6285b1ce4df2b519e9b415e35f9, 0xaa6f2e449e9d8aa91823d216624f37ea7a0e033086f886475d7a628b93404ab, 0x54ea45c4f1241c8639b72be46670f9815ac580529cbc8e7845af22cb9b1409fb, 0x17c6ac63fa21365c24c0a5ba558acb279dce2cb5799bd80be4d78706b17bbbb4, 0x2590d4fa131ff5d0a4a9fcf8709603cc9cad9206fd45230265a83102601ce4c6, 0x2b190c228d11d60877ac5d26f64b1c27ca716a78fc2894a9603468d3f4d14c90, 0x1e645c2c1e63169936a5076bf5eeeda467e3b86780ef1351a9968689edc12f38, 0x62448d914ae5d6b9bcea62d8e7d91a984599d4dacf30d233303807f81bbbf091, 0x64d72976e1054d0c0abae5281629a93837c4872be852f4fba1ce1af585e45a9d, 0x528bc0a65e834878e27911b3a541ab71cfe436ec83dd31c903bcd6efe72741c2, 0x41637c98435f73428b9937a95518d34051854982e5e096e3808afeb0a985cf16, 0x420ec4203144a094bf6f78275cc7222dde7fa976f0d6ae915c9a38ca68af4b01, 0x6fe60e84f986168d5752ceb7d4b9ba975e38e9ca95e05f8f85012df504586946, 0x557990be4283a6f9b7c8612829701d913e97ff988de629c9f64d56d42903b9c8, 0xd6de60ae06c85dad2dd52841d33175f13c9e1b559b8b7cfd3f62abeac297f81, 0x1b3a6334e43a27e0edbdda623c21ab0c8246e28f68f1a6f9fb90b658158aebc7],
    [0x6217dc5a0f85429f8dce7bb808267bb5bd02ed3d9d88753a3b13b13a3b13b13c, 0x13bb6e4d51dc49337e4e7d75e3549ba79bb885047106e398ccaff1ca301fed04, 0x3896436d3f1f8d1828aecac8141e9686399127c1c418f6ce6e48838520136172, 0x5683e0435d59d37cd08c6c3b1fbda2bf99a799377a0d331194794ed287c16500, 0xa3587bb1f95d43c25d8731f522ab8574acbab6945293e9560600a3928725914, 0x52dd5eb112d2bfe654894cbd8779634a8c5f2a1b520163e2f2b9f49a9891a750, 0x33f0a4a7b6c13039f6b68a8d1380b1daedf3fa6e78c80c28bbbf9a1e64721384, 0x6335ce4c8d81719ec712b5d07d8e46c77ea57e300b7b25610ed65d10aaa3ab18, 0x11ad3e63021c0071a8cba351f7992d4c20f985316a0cd6aca82fb8f8a2398d2b, 0x1c2a7620c312570c337a4658a84da9cc64a1f193fca04e2199f3fb3019b80021, 0x244fac4e088956366b239d15861c45833b75de33785050734be0b355cdbb3d4a, 0x28ddbb09151d002c17640acb0eed5fd3309fbc6de67e6491aee4bd040efb2942, 0x555703c7a91bd725441ad0c22fd0efcb34a4dd938429d0c6e19dd86171664a22, 0x5c78a388dca38805c392cb048e5146d71aafe01e35b63be9eb781d02120a279, 0x72f011ea0a6c124ac96f3640d603567b223ced4933c492aac29938ce6908acc6, 0x180dda174693bcc409104c865738d5e7f2b6a6cb2f6e662cbd48b2b6bf40cfbe, 0x35599bee27d3c229d54230eac1f759b6c7d73eb75b2672ef20ef99d439b69bdb, 0x5ea81971b0a342b4fa5205d8fa5b3d5baeed4e2f3e46da711dd84459ca0db4e8, 0x1511c15a625932952c96b5ff395e0a987e03c6b22b68e42d564a5c71aaed8d2e, 0x3f39d2ce052035282f6864747bc97bf912439b129c6ff67a074697d8f65e4528, 0x437e811af7a2cbff3a402968d16e0d035c7e09aa90a1de2ab3778d43d218ca5a, 0x5f7289d0c1442c2da04371652e9373806069f5b8867b2f237d996f6dfb8edd91, 0x564f28c958be10489ba3b329aac6c7e5c3bfa57d7e9e6ae01cbb8f3459ef5f34, 0xc1e3d121b9bc1d8fd270a784df1ad762456b2931b0bcfdbcb90a5d9cf42a361, 0x179f5b43d80501b80ae5a6baa0c100eb4df13c134c3fcae1d2f12b5905abc099],
    [0x6217dc5a0f85429f8dce7bb808267bb5bd02ed3d9d88753a3b13b13a3b13b13c, 0x47d4447099dd66b09c4412cfcc9ab74e7adc9bd570085e3a1590a95c1108b95f, 0x704fff4df93c0f8653ad3f1c4754ff2d9116b004764b0dfa217bc901277f1a12, 0x60e2cd9e889a224b2140ae7a213fb992a1a0f7fe7f51027514480939fe75822b, 0x2cc3a29089e8d61a17fa35b71df497ec95dffd8125e7ed8c0bc5db426f7861b8, 0x53f086a48f6ad40847d538faade48a07477e0e12ad889f320299ee6264a49261, 0x5876ac54c2e00bf51f2c7d7ae7ed09ea6b442d598569da5849316046cb3e6c4e, 0x12d0e35c6c22bebf8ace4f9b47d1ebdc7842c9a45b0fe66a25100e9c2856d37d, 0x23ce8ffb6df7d99ac1b92b17de7a6ff77b0d3617e45f0fd1db815cc20cc05a9, 0x519faa9485b95a788de97a0815b3cc81d9a42e480444b1342e246059355feef3, 0x6bc93c5edad62f03b1e15639c5091a32adeadb61bf5ea19645959243a1e3610c, 0x1fe81ea9768f25548e5ac7456565a9b541058cf087e000ce3d8e3369bc489bc5, 0x6d5495b5afb7bf3109b9e917693938f3e263b83cabc9d9ed15884ae6527829c2, 0x4df1c3d66e87ffbdc4cb2d5414d5fcdc6fb1cf1f74a101d351e4965426d87967, 0xd979165a834f2fca64630da6f24a5f07bb8013ee91fcfd6c1b6da1607af7876, 0x4509146034d653b470a38af9c5151837fdf52bb15147eeb843a242fc2c27a871, 0x2f59f179fb14cbb99e0728ccf1f4c22d6314601cb197cbf8e817a35f099e6be3, 0x2c1020d320293add2b69aeaf4e02d1e0f3983f3920b29e5d3ef1c084b52f2a01, 0x1c55543826f1246ba36a0a8242fbe6ef89d290fda639ed9eba5ea4ed2f88f31e, 0x476bd54ffa374fd2f8e8c5e37dce6e430eeec8145aef142ccad15525b753c5aa, 0x7354e0b267a558f114328810bc4006d4e774d53e3d57778211d8efc460955645, 0x63d9c3ff24213e31eec9cf0008b9a7dcb644140476b75f3497887cb004bfba1b, 0x626fa4d4a4b7c09d2a878f0566609e0a15bf1986160f39658dc8d0ea315810a8, 0x573ac220a480fa0cd23649c36579a8e0e9ba2623180f06f63e2e8bcf736604db, 0x1c189ba575afc70b8d3a499d32119591c1986a26e7ffad3886e21f806b34a556],
    [0x6217dc5a0f85429f8dce7bb808267bb5bd02ed3d9d88753a3b13b13a3b13b13c, 0x4f1f80d295fb4360e3edc8f54566309e9ce9344477e4bd8dca40189419e7be45, 0x1bec805900600f71a0dc4379473c67e2986c0b9aca2402312927dbdbb5bc5bc8, 0x16d9d7d79578c719662c8cbd8e0b1bcafefbb2579f66c806337ca343590a83bc, 0x35bf893232d7a6eb3f94b8b9f37589ecf03d2d86e7b68e34ca024a7a80b9e931, 0x5b254d1f7085e62f8f742cd527e8c56542a69e085e40beed00fc791233f4bf53, 0x6bafe1d1e4899c787436301411e66d571934c3f55aa37d1e44406d291478a331, 0x709e7c7d0807debcf4b730e0e494e8935e396aec19fe625fede36b888e308c54, 0x634e35d8d9d96ba8e6a703d264d22a1947c4efe5ae4b545dcb2886f219e54aad, 0x696a1b2c42b0fe3903b6178c35995afa8e9a9146dcbeaef5552cde52651288f2, 0x767bbb033c6366415a41c9d0f79b3972a5d7b75ee8271b55ff14ce74efe6818, 0xe8fda83032ac3d8a991f56ac0535b36b68d1b64366a7507ca415cb317c74f8c, 0x37e29aea275be1c3a889b445a32b61a2515214764a575695464672460d9c455, 0x2ea508aad54746b966c4a641ef206c7f354116559f93a5bcea54ccd4149c8314, 0x12e27922e16587ee44b0f268d83aabaca108a4f7ab2533d7a157df8bbd18c8c8, 0x6154421b008e98bf8df9dd0eb23f078bff5650eefdf267e8e4edde77d123c6f9, 0x213ddea8172cf22fed998f4bff81e58c4c3ca722a1aea39606be1a7bd854b9da, 0x4b341a8b0dec0f15db01d3e2fea1fb5f6238b703e20701c822ce7ac6fcd6be98, 0xaf2ec70fbc33ec7d2a4c336f7d80d69bb363b22259d7c343bc5c8d062f5854e, 0x650d423e92158ab108baec3d9380a192851e1911288cd4ac5c79b20c0c3f880d, 0x1912cbedc50a81a4f282bc45055eacb31a562a0e7689d6abbb0ef35bdec687cc, 0x3803695078494b96ea59d2f2c199ecdd30e0a16b476dd276285d9feb8e306cfd, 0xc7ccd6e31b50f7e1020892ba87a50a45f0284954d80832cbce5c08f1a3751b2, 0x360bb376393b3ece20ad37bb90e980d8e2bb7fc267ef93a9ab4f01f443e74268, 0x59eb4960f291ce587beba4b55ad901140f8d1ddd90c2075cdb2e7a62f240805f],
    [0x6217dc5a0f85429f8dce7bb808267bb5bd02ed3d9d88753a3b13b13a3b13b13c, 0x30825456d86c3870928532dd4c5f9426726e06597e9a69aa3f6f969966cdbfb1, 0x49976a6c865fb53fb8ab6f6c8bf7321b1a18d0e08f24901bffc087f22b0cba67, 0xc2bb3aa95e83ba4a48138f97b0e44163cb7da99d3cf29d0d9d4480c2372117c, 0x33993470f01d2bd8b52043702142ed766c402173d1252006868c56bb85c8ab55, 0x8709f4bea8fa40c4dd09a0a4f99d26c2eee68ab79e0146466e0d0e0eb0b997, 0x55f788d045530441c3333f3c496e655f8eec51dec151a239c112a914cbf5edd4, 0x679fabfceffee23d85a2f510adfd478aeedd5f88a80ec60ef9956b4a287b6bf2, 0x4dc36939097adfa8eb20e18de9aaed183683739c7c82dcb4b6d0a3dcbaac2463, 0x245f7e0be145d5405912f8782c47eedd7bc47ef44d5f39996f4da9e2fc11ebde, 0x20acd72bbc608f5e969ef8f0ffa98201e32c94a5381c9027f36a22b2a83f23f, 0x49c992f8d966b86eddabe15ae73865872369b095f4bbf4ab896b2efc43dd60a8, 0xc81c727af81914a57dafacf319f0655b6538f5401fc929294f0507ecb87d71b, 0x47f060191778e9e80ad5fa5b5e674b4ec46ae6371ce4f8cd182647a3db242787, 0x59ca0fda21ac4b2657ce373538969e1c52bbe57dbddff1cbe2883e93a1ee586e, 0x927054b1ae12d2280d7d0b1e9184d3d0f0f8b3728f2ba83a893ce9fd5fea878, 0x3013ca5cd0facc35db4eaa0de82e3d73ee5e70ec88519e59a4ea0e3adf28b853, 0xa6b1acd169494635e8e8b666affcb80108696e3152e890d01f7606b9cd1014f, 0x5d38bb165918510c2c58e4ddc7ba4094f965763cc7bfec0b511a4ac5530ed8f0, 0x8c65cba44ccb44b6c89fe72decabe77b78768d9bb36393d95a6184ae645d915, 0x6bad8a7c91cd7e44210b38a45d29594b820ff8c27c01e8c6209c03938752a737, 0x1f95a84fa01f48dff12b748ab86a9fe0d85e7db8848a7a79241df917bbb2c371, 0x1c603b8b46c0e5fd333497a48f7ff8e1ec917f683fed8ef6b8627f2cc75bcb6, 0x5b7d44669e0dda07c49e192b50b863b5607eefc9202fda9b0316ace50068005, 0x3bca6632c23e0f868848eddf4bfa3779dcdd320eacf3b5d9930ab997b665bf66],
    [0x6217dc5a0f85429f8dce7bb808267bb5bd02ed3d9d88753a3b13b13a3b13b13c, 0xf03e4187b236c2849573354d480b252480fdbbb774d0f64e3bd4a23c8a7c194, 0x411d539490839dbe57a53b22c174da78ec619313cd11c2b97f0df5b31d05d5c7, 0xb78ff0d3f7c8ea12c71634c70a56b2b39096a2aa63433d5c3032400d5b5c9d, 0x51b0c1d47495d6e534fae656ddee233b4fc5e00809560a46baa9c1be53f48a1a, 0x250e25a09f45b66f88372c38ab5be0abd7d962fccb96116c0ed6d6f4ecd954ea, 0x351574295d0a81cc04a48dc03c564ed03215aed3700c715dd774ff1e16eff9d, 0x232905386977188bb8ae33832fe7e0f2aa605da3965c0ec4e8e74e511bfd2bc1, 0x5e627358c6c57183af829295214ae584a6e05915864168965edf98708103f0b2, 0x6741c4625c950c46768f5b08e5e92185948f86418d38b3cf5ecae372d88137ea, 0x1a4483b6419bafcb64cbd9dc6059bf4aa43101896e41c71b72ae9fa36595913c, 0x537109b57416b952285c664ed2b2a8f1fe79566c3aa598e8df90495415715907, 0x1355b308ef6ed148428511a416c51afb4cd9567e1d692fb8a4cf26b07a557bae, 0x46d0939ee953dfe9a4005abf37e2f77df772bb7020fd626b849b05ea6499ca9d, 0x25b57f3cd086b5c642072b7687855f9d6450e9695b319760322ee5f23f512a97, 0x18a73d2989d8419805851fa3f55274a5cac3bd272bb81ffcfa023568547e8fcc, 0x2511203d107aabbf3e94b7541d2998628ea77c2241c4273150ebe5f6e7e517f5, 0x19dc4197ce647d5ede82bbcf7721d6f4560af704f0f1b960e5bc1d010fcf86c3, 0x400f0e667754a634287e865f6c44fb0bd2dec6cf5ebad72d486c52d857543383, 0x41f67ac2a0d661bc4053309a22a5a77d442338b83411784339b7c32de74b9a88, 0x474b128b10d32b4b66c05b4b4cf2794d2932f0d277900c0432bc152bc603863c, 0xdc3a06cc2e8d821914cf5729894c8deba16f5ccf6e133b31ceb4ea698b35ad5, 0x307c6e08c405920077396a92745c32054e1b349253ee7923d4d99eb73c97d5bd, 0x2009eccc74ad5585c29e4a546d4c9aa7e06f41f2bc29c63d82cc339160739bc7, 0x3179e4ac9ee48329e194bc0eb710f6b73e83bb337fdd4f8bf815ed9a8d1807c8],
    [0x6217dc5a0f85429f8dce7bb808267bb5bd02ed3d9d88753a3b13b13a3b13b13c, 0x5a755525dfa6d680c9cb6cbc99226e6a4f23eb06e56a024d414347f34d451167, 0x483dcec5543c03edf73b74483f54f852757503d3f3d9082463f726039c1c1ffb, 0x5271794315b1fe58268d4e3aea3632ef155f4e1c5e72d892c399b9c8612c98e6, 0xad89949be2001e40f7f12d5c76501a1b1bdac9b04b3d65c519f78956ebecb69, 0x59922b87cb1e0fbcf1afa8092f881e46114a38cda4094b12abb7441f52e983eb, 0x1f8e6fadb8ee9a639c4879d585b4aa894ab47126b59ce1b90913d08405845a9d, 0x6f5889acacaa88335142b6d8c38cc9ff24c93174753d4b9c3b3687a368fba54b, 0x1158d27f7ad35ce02de78e22b212847847b287b35729efb265875d11bf65fc44, 0x708aeaa95b38dd3105eb183e43b615c36c931a8c7117343607449e624b6bfbf8, 0x14a12383ba90f87e3758c7c9f2f4d6e804c70f94258e11ff66914c17f03fde01, 0x5594754734f57935faef5239a4e3b3b2c73ac0369f0c42de18655264ca682ff9, 0x4f2f7f54831025c8a39367648dc8bdc68cedc4078611079f5b963df341c79fd7, 0x2aca6894734afda6c9841d7c0da1b7894caa7caaa3c7910b27047096e7130cce, 0x31d23c569b1ce0756eb02c4b52a41b5ed1bdb3dcd730be5078104b28e2892fa7, 0x62a7b9825c40d5d662f2d8c607df1c3d2df536d32c5753c79a9671f03fe10419, 0x671a7d24a6b6748c3505300f537476169dba3a2303dc0edd21303d5d8388c10b, 0x55af58fce07be6d6ff15cd04a059d713aae78a985b1638bb78b319d190dacea9, 0x2025fe8164bdb47cf7108c071481f127c4ca9932d43262e23f24734f61adb741, 0x420241a2876848c9ff4763148558538a66f7924c25a460b440edf24fe768947e, 0x1c88a95d141f5a83b32d1abbeab129ff0253e2cfba61098b5f8de68bd47b7e2c, 0x563efccb9bcdfc97f4aab00051f6e80e770aa5b31464417571026da11045b93b, 0x1568aa67f4086b14cf1d4fa757c276208584fad90937239a12ec270f43821928, 0x5cca9bd12ba54ef2396b0b69c53f5a54783300ea802025b49bf7654237cf051a, 0x10e71810b8e9413e857490e860012efd00cae258f335ea2e88ac065f59aa7c9a],
    [0x6217dc5a0f85429f8dce7bb808267bb5bd02ed3d9d88753a3b13b13a3b13b13c, 0x59ec2aea0ac5ec8292eb9ba59d1b68e1bc25a1eeb2d97861dd16f09f7675cca4, 0x1534e5c3be3dad8addbc2826cf74ce993694460931a85875eb3ab65271f6e03c, 0x49529674c5087774325d9e71a42cf7b761f5067fd6322c1417854f7c74aa4521, 0x58803ecfe4cc5983dc18c74378c9251c3ea53f91e2a2b361b7117df200c88602, 0x5aaa9fb97c4fea99b74d7b0ddbbd7169ad0ab04470485be65fc0815a6193697f, 0x28df7513220d57e2204d530be4b2e3ce186a89ef886bd6da6a101359ceb00b0e, 0x5614c04d7df8033a29e820b8ecef0ad8db28fcfd829c1dd9cfbaf2d5a4e1163d, 0x5e1b6010ea834c98cb5d7e68565e1f6f7dd52e887f4d24df1a25f114a657538f, 0x6c2287783757666e8faa79ac7a8fab68b4936672d37714e8ad277950e340e69a, 0x5aa275a098db354a2f86b96b939afb4360fdc3fe2a75520a7ab76b2668467491, 0x581d9dcaf3037f0b4f028c9f5bbbee58afe0f28354b22b6fbc84e50336ec1efd, 0x14955457d8514077f77689ad32a17f18561a96419fb744c4a7ea0d1070c4a400, 0x15d8722d2b22f83d8effca879e2096759bb2cb05f82a3972f431c9c86a93a693, 0x42a6cb844339316ab5578510379e1621b5235d7ad0697d649a7ebf8b3db21a67, 0x527a1c4cefb344dea9d296b4e4c1b448637020498ce8c2fae1cd81b2a3c447c4, 0x5c2bcf557b33f0685340e3b61d714cfb87d10da93937c582e092cf9fcf39850b, 0x3f65f377ad2284b2f645cdbae851dd6184a34c22731c8759801a12213247e98b, 0x69194551b671003769cc75a31d6776535e5f06e4c6377a8a309715539f4388c, 0xf110e67ca4ccde30ae0493361040f45eef80e5f48118ede6094d17ad69b82f4, 0x1b48ded1bf9733dfb33abbaf18acb7113206e0039eb74975e87c678904a1bd58, 0x3d11f2511a6606186c141a26150ba96f01e1361f2640e5786bfa217a92161c2, 0x3b7708917a32e61dd02b7a934aac0c1080c469e986a961ebdfeb1d9d00673caf, 0x1a5edd73903025b761994de97f4bb2b7cc52cbd7d7180059e3f2fbae6cfd0e84, 0x27f2259d91827c3d237d5184075f937abd58bba0b32e9ef3846f2b301f2a94ba],
    [0x6217dc5a0f85429f8dce7bb808267bb5bd02ed3d9d88753a3b13b13a3b13b13c, 0x1736cf5b03ab86542cf299589535d63d97d8078615cdc502aac75c170da24118, 0x412e4eedc4b69b65d33973b620af3098192f318ac270520cede5ab7df2d0c2c2, 0x6b6530c57eb44b7fabfc2976397deb4ef5f9bdd362f5e34d14b7edf2e68f52d1, 0x44f5a585c6b1705f8205bfb66268e88982cff0bf8f19758d03becaa99cbb686a, 0x21f710c84227bfc2bd9cffd7b7a7ff1fc3df099bd4d734db6be8ca0da6bc0a37, 0x9a408e9d19c49beb837723c789d6a507c94ef527c8b745cb79b3dec530c5aef, 0x261d2af05143e31904f8e158f729fce51e640c356b36d5f4d3a372d8efaae096, 0x1eb00a02432e106e8a93eb0d0bb55c7e39bcf64b6454f1aaa301ca1401137924, 0x5054802d34e1aa76e9508549e69fe0a7f8954a8bc98a0424a876cd64a660348c, 0x548ca055684a18f1a9fa43ac8bd04acc137d44ca6d373b814eef1472d204896, 0x2c2e4363ed7e44eaad5e18b7e9a85900383e1333ef2957baa4eafe443c08445b, 0x21c180f9f9b72b8ec66f5fd42626fa6c076a23d0869256074a83685d8e16c2a1, 0x1bffa18ad82079a4c9f6f9263908dc543b92b6ee5c08b83f923370016ddd4488, 0x73477c20a7b194162529da01c15315ae2389ad638c0ceb17ce9c4566ff185512, 0x6a33cc98b63f76d1301db6647c88998e611c5ba45e527ee386af6a2b32f4dc21, 0x40c8499508e2bea176a936b9546bf9b12978da4fe4822a4971c361c000c47734, 0x6e437be2a945f83ccd1313fdc0e8838d19cea413c942fde63c5d53bb6d5182b9, 0x96b0e38b6bf25612e074e3d37b086a171ab5682c16e797aa3b4c492337d0b70, 0x4254434a984db1b34fea099151b570f199c627d3cca3cef0cd68de0a6f3946ee, 0x2842154dd867dbdb8357822a4f7427be311c9456e345394af70c61b8e54d5e65, 0x49bb2b1d94c93a4b1d98f4ec263c3745349798629afff7f3a0122f651e0fa7fb, 0x354be46f57be56c410af4ad0b059aa6399cf3277d6915b33508970959c5140cc, 0x2863af77d011da8b252af448771c213c648a039575ebd15d577c86b677f2a6f, 0x261bfb666757933b2e73bed7ff951406c1d26612a522b3324566657e1c3766d6],
    [0x6217dc5a0f85429f8dce7bb808267bb5bd02ed3d9d88753a3b13b13a3b13b13c, 0x19546d7c11e86f2785abe61b6e657a3249a089b4bbbccc61312534d56783f707, 0x597fd12af990810b0bb0ae51da7088c7b9e3e47827da62f8bb6df763011a29e7, 0x6efab5b4be968fa2920e616c5db91d318d2ed074ea44581e21da3a9fa2c6f16b, 0x1e060eed80171e833f308f99fb654e1b7b8ff9019290c59c2d6d316c495eea6b, 0x7025eb59c87596ce61d87336d5c28077ba8bd180588dd4ade766f1dec55e1fed, 0x724709d2294540a2c9189f547aa089dc28f66cdb2291fcd921dbc8d336b45015, 0x3f25fcee7124b4ba6e0ae26809ae5cf719011fda57e8188828b1a64b63aaae21, 0x1894a27f2e7f9ab201430e7bc416fc18807fee2abcc45747c32e35c019881883, 0x521a245b54272c9d339c3b8d81e8424cd322dc8c3692c6bc67b330a7d12213c9, 0x2ab8aa1e6106230490dd37a60c930455e3269ceb3a6e38d46e568c96fa637d4b, 0x66f997ff7e93b36187ceea15ea392766bbd7dea27d97bfaee721e59182ad0ce3, 0x2afb20149519f53ecdc7abb1721229c837b9d9a09eddb9b7d6247a5591897596, 0x289fa1cb2438b9a3d66337e7ecaae7a4a984893abc5efa5f4dabc2af7ecaed2d, 0x44536cbcadae8a7c5db6122466b4ca7e26fee47487b6c657e0fb0d4d0aa0a770, 0x1b24f466df6cdbbffd75c88e4879932ad9e181fc6afbd5da7dd725b9b35b928f, 0x51bea75d770c79369731ba2d6de53f03a41b49f133044d36a68fc65a6b14a0e9, 0x65ddddbdfaef138d4134248b8ff85579d29d54185b982bc85f8490e0364d12d0, 0x535783203cf29ff16801bf691df10f620e52d15bab990706c4b08c0cd1abab43, 0x3966bdcb2fd7a00889c2e28cc7e8b25fc250c18d65b2fe6c338422355f3dc591, 0x64d9ac001d9902b8d3a849d088daaee8219cf7714a29544842bd19c298892e24, 0x23e247fca3cb2e35f5e370a529fbbfbefe4ec67560c1376edca4557c1af17f2f, 0x6f168b85ac5e6090e16bbe90d629791c3414f42b1fdd2f0e7404fed980f899a6, 0x49c4664b699ed964020b2f8ca03c4e3d53b3e32bf8572333da37c8947febffd8, 0x1d8f97ee510c0e0ac9ddc947be072c57dd6a079e14a1dd1e3e6a1a5b0c7203b6],
    [0x6217dc5a0f85429f8dce7bb808267bb5bd02ed3d9d88753a3b13b13a3b13b13c, 0x50f218f30809687199d7285a09ac04dd1797bf0c196fbb4d29e1451511bc1858, 0x49b3bcd2726bfd5150021e2cfd76054cb7e10e83a45c5287da23fd3057407e84, 0x2f27decfacd4a79ba19f772b0893d47602087c5d1e82bcbe137fad6e308630c7, 0x23be053950e15bb9fb1ba900ef6f542b690e0c454ed5ea22e4935dd3db9f8469, 0x7c2d5835793eba9054f0e4806af08c523e0c634ad24b5f856580273e1ad8af2, 0x1564f7b522dd883490bee5c021c720fe156ad885f964ae7f86c35e4fee805ead, 0x70ecb28d2c2872bccd9d48481b1581638191632ff8785f838168e46045319fd9, 0x1ce1d4948f457b9ad4cd658c9312173a14a16e3403265271b089e51b3233156d, 0x1e42025b3082738f1f06f18f6c8dcc82e4c3b721811d1eef1ad72d4625c9787, 0x1ac4ca8cb0ef545034659829683932a39910ab8913ae2e9f989081fff78aee6d, 0x2f73cca6ace2fc80abfad913c8018e758ad363fc4f337b969a1af2edd0288f50, 0x69ebb9b2777350d8051674759a676a6bd6294cf623f74387bde2c331bd5e0e1a, 0x21ea851a5a9631693ebf140329ded53be7c51011acd0efb74547fdd4809015a2, 0x587ec9d843e26fa140033c0402fb86b4401e2fbc3e497f26f3c06ec9e9535dad, 0x5e381cecb627de35b1dfc8cb2bb0aba541da2182932de1523205e74db53e13d2, 0x6da4fa30f3bff1f7209b54d3e81bc9f86779023a57d0a199ca85b90627efa1ce, 0xe48adcfa8d6bf2f40966b6e2b0ae4b2e6f1dbd58f42ff45f77a12d1fd2b82cc, 0x5076d9a5d3b07a59cdbb16591c57d4aa94ae2fd62678875c67c954bad3e8d48d, 0x65ed9b7a1822c41a9009da4077517f442c4fc15a2e947037e09c662d3bdcb6d9, 0x3ef472e1c4e8c4d7709cf0337d3d53bda7b55205cb77126af778019d8baa9c09, 0x611df62aac43dcff5655ba93aef5ea366b6984440e4ac879a35ad0331c74ff17, 0x5bcf3da46f728bb398dd468eba59e2b8d61ac2a18569e9eb378aa886ed71d75c, 0x4f00c7995719f7cfb6263dfd69ce67f96713463ee6dcb6a28a2e8aec3d8eacb2, 0x3be5afaabff4b1eca329fd078c9f16081136ef1b9eacdbae70f9a54ff366bec],
    [0x6217dc5a0f85429f8dce7bb808267bb5bd02ed3d9d88753a3b13b13a3b13b13c, 0x59a6b7fe7de653833adb7b72571f27585b4576c6c4d752299f238768f5c54994, 0x3fb5b6ff60169cd8e47e9d877c166ce330cef0eb120a13607f841b90e5d8614b, 0x15db08a77cc1949d586d1056275dd47ee9b4cbdae3441d62182a64a3ada64397, 0x1daf0b7d2d2454e9430b289c9b920e666d0e13084da27ef08aaf20b1b5f25a3, 0x38706a496a2f94c7d28e2f9a02c6b6107f44b1dc443f1419a198dc2f8106821b, 0x59b5abd6da7d4990edd66c0304946e805c401215e90fd4a56ef0e1612de22e29, 0x10b2483e7c5f945fe18a9bba393b91cd048ad7f199f4c7169d5f989dc3bdfeca, 0x3cb248357d2473df7497c7181e445009ab1be51c0403861a10f0a6f8bca5ff56, 0x3ea0f5a76614feac01407ad291c8ebb036f4eb5b308364dbf83f857d0c805d22, 0x3d929ec30c41856b0958cb0fbf3b82579200e9bb40943cad44f3bfe0929f8496, 0x51f47b7c5f89c283aaf94cf93b0cb41e5b8baba00c618ba4ce7b1c463ea6ba45, 0x3fe88f187b0d110f2a3d416eddc37e325f9fa1ef83cfc79dd9bcfa0fb144bcfa, 0x1dbcddda69f0c6cd13463f1788c2c2be059e17665d62cd091be85fbb843d02a4, 0x583b3ad6843c9eccd2e8e7ea142d44c6cce53140c9090cdcbd9b592ffabbe436, 0x29c48b8715e2fba071a4668216a66c4030063ca6134d6ccdbc653e01fc746ec5, 0x20d230727eb5424043aefc072a140ae5ec4f18f6cd4323a4af57f6cb0516f890, 0x1439fff972b9a7eb89e08ea16783fba9ab47216ed0242bc24bde26f467f5d14c, 0x4dd13a8eae6087ba06e48d7df54349d574038aa73bcfd8bc0fc5aa3ec018703a, 0x14dccae24eea46c56020d78b5f2497f22c0af2f1649e33a78d318d83363d288, 0x714b483db426996cd1a4c926fea4cd80b0632e3cb379fb1ba09342d8562e2cc, 0x507ec5304607ace976f094ac2007eeda3222dd33eac4fffd86cbdbde2e65839c, 0x687429a5c835154bec0d43399ee1027e0f795704e71371adf2e7f872e2b54055, 0x41fcf92ed143ee82770bbf6bee221fd23b2a6de309daac5a60df5d73d3673dcc, 0x61573d20388e040416ef8b2c22bd535e6f146c75c8e25402763abafb8bf256a6],
    [0x6217dc5a0f85429f8dce7bb808267bb5bd02ed3d9d88753a3b13b13a3b13b13c, 0x4b1c06cb82d4c8014f2ebf3a02063c5dec58de914ff5ab17f80ae36205629320, 0x56b6e4573d9d8b7da629c990c2286886d89648c750441e65bcba0f918762ff52, 0x9c1eae30d3e9ac9444c3ac1426d055da8b1553f3bff578c39c01dc308a706e5, 0x20ff2ff818f15e6feffd0fa1d3d42562cc24387f5984ed83420bfabc5fa9b812, 0x735db4fe8022449743e49ab0c0a39ea7c7a6993d4034c73c186aa4795b73c355, 0x4fe02a5f70bbb7eaa9428f73203a617088f455209e52badd587570e99044c975, 0x6a95274f2c3c2f8b671b29837061678899da5b9fe6ae7068ad63aea872b36366, 0x36c5ec1bd7cf16384554b5b4e886d7dfc386d1a7ee00356e02e666da0a2de9f1, 0x32a5f9dc6950e72bc28bfc1e6b14251ad740d262f79032ceb2f0e45150b67f4f, 0x4369514bad9e12c307ddd1cbf918fb64b835f9092d4e807702be83b21e2bc5ab, 0x69d7fb3454de2e967a06dbe359c512dd1cb5e64b9ef46eb105dae4f0ac75455b, 0x5e097dd96424284ec68eb7447d6ad7662e65b4daea0931c947f7e997974c7712, 0x1707b9a26e48c25c01d98a9941d43155f6c98b6dc3f6aec362d01900336ed76c, 0x29664a92004c23bb74220cb6899e2804696630d2c244ef2708c45cb5b0a7a74f, 0xa00ce328784f818faa90e580ea4f13298258e07caa9e9acab7556970e865bcc, 0x2cf888a723a6ff667e8254c34b00195d867b4fd51304af2bc5d34c6c8fb57ef1, 0x3dece8a73ded11f15df2757575e7b940b81ab4218a5f1f35dea9e176f121ac80, 0x61a0dff41d295f893c95fedad783a4fe80459aaa40e5e10df56cbbeeeccf841a, 0xafc454747c54bbdc480ca21ee25f63aaccf4f23e3c0f418469911a26a11661d, 0x7100b3463741fd3ab4c515220316441f3befd79dc0d7b1eaa641810670fcba06, 0x95bec294f5c47d03aec8c9c413ec7c701e2679f2feb3cff766bff34c27a812a, 0x51ce11a6e94af46ff1c30e350a30eef38cd49cc99e08d87127380bbac5e215ca, 0xa5319bec446fd2ecf76f805c77b5ecfb1aacc5272031a80ead6bb49c364bb60, 0x1fb60c9011dce0c756db4958b986715621616b14199d7a36e3dd97496faa8079],
    [0x6217dc5a0f85429f8dce7bb808267bb5bd02ed3d9d88753a3b13b13a3b13b13c, 0x460b9532d33104cd4eed19db36531fb6897bfb258ea3d4355339f33d82d25f7a, 0x26884378cd00817ae5fb028e79d4b78c9769d44dbb746d5752a57c00da2dbcd0, 0x6b505f00efa282e6d20def0e71d25bb612c9b0334e47ec45ee02f077e679d4a4, 0x44660219c6455ab340198053beb615193ad23b5bdf931ca3d8d9eac602249457, 0x1bb543057b69d873f75d0dddd7657c50b7be82ad5de9b578ee4f3abed1b3454a, 0x49040afe08f5aa266e32b22268c6c378ea31370eb19531e3fa36bceeee9983ca, 0x4a3ceaaa71cd2458fbbb26fc721db5e99d037bb1d58ff49050b9d46de15bf35c, 0x1c83c1089fe5ca8f2247b79d3fb02f564753b53b038576d3ff4cb5511b5055a, 0x36a1d5d0bb4074a5d377a8be086b9c316a010c3022dec6a667ccc96c40f5cced, 0x3b301c5efc7aae73cc590fc6f1538a769a7d159ed716a7f815137f8fb8e504d9, 0x343784ba07977421c3e1b6a9e7a968ec7768a5270baf55c79e17c053c53dac1e, 0x6b7c5f9025a80547114518ad4242391119c24e8b9ffda4d812532ee19d6a7a3e, 0x17bef44e374b7bbf144fbcfa33298578b8e019496593bb3e9e5fe635d4d4c01a, 0x5d5822b044526ed7171bb6ef509a04ef2de6cec97cec49fdcf15230f6f2832e1, 0x450ccaa2a90013063a8d1984be63ea1bcf263b7a9a0ad6e4391437c244f58763, 0x56ce0758a76c59fee474924192112f8f05cb57ad427effa9144eb3d6be5380d0, 0x59c45905c20045694e69fdc1e81f6039155535d4870dbf877665b22da053b36d, 0x6345bdbdfe5ac7b52b2ae182d7335ba84919b79eba5c7477e2cb29bd382e10ef, 0x35d2ca4296155534f502afe4c556fac244fdaf4a3f2de22695ebc6a6e22a246d, 0x3897e78c1a073c918c0c6c8a7984328cde125335851f3ceebeaa760bfc0f2b40, 0x8724bf2d81eda56c14363ef946178fea22919c758e9733c61ed03a6bb823dd9, 0x8eedec4c450510eec859af28471ebf49a536ae44be357f2fc101643344c5204, 0x35f8bb9684b08de8e6899ec56799638ba5a069809b6ed8b437a215dd73329cab, 0x25c2c04974e49c27fe0cc1c3267faf48740f9fd1ebce4848f6b133a949d8f30],
    [0x6217dc5a0f85429f8dce7bb808267bb5bd02ed3d9d88753a3b13b13a3b13b13c, 0x57003f1b61596f43e28cefb3075d7aa8bed56bb4c0d5523fd7332d096c54748, 0x575b21fe3852949bba35050fc17ce7c85a12731d26d8aec134cc260163279c29, 0x4bf0e7f7d0d96f4e60ec9a23a0f7629137f3db8768fc9aee9ddc4b0bdf73ec6a, 0x6fc6e74e626565df7fc72a87f9a4fc25e59633658b5abec33c9343ca240805b6, 0x7717e711a64a0d72fe96d65bafb1aa056bb10928043a62cb61b07a56b66bfb0, 0x5b5af397c5b90d82c62618467b7226e2e8654ca2c20d937e05832c660c48ed14, 0x58916b6ae9382154b7fbc612d2d8858fde9d759cd40097f9f80f6e858fb2b1e, 0x5d59b13aac7dcfb59471cad398a445aac8ec2bbc8595e2669ddd09c429552c99, 0xae571c8ff4f5b9f54f9ff2b37c7a09842e198c0e2b900d701abc7e93304dd7f, 0x42d07f3d6e05e86fa6591952066eb431c13a6bc844613712c5426aa58ef1b6cb, 0x1d05e2c498bc3daaa6a57a54b5ce47b72753c526cc569f053941a93764e0c595, 0x482045f6227035f9d247cdbe735701d1e0ad21cb67af3b55288b18992cb9738e, 0x444d9c84e6dbec0b2cf1483547875f5cb1583986ee18155c37b92f26e8a505, 0x1d2c7526c2ffb304895f35d586605744c4efd75c300321b2972c3510718c3fbd, 0x5c87e18968616502ed2086001d28305338bd88bcac8a3e6fd5cbda99c1f9660f, 0xdf3a76e2447f2aeb599c3909926d43f85ad88b8a397a1c296df6b652aea0464, 0x54630e0666c0f4c668c0cc7d0c1d5d2ff1aa15425582c5e643cd15c357e0e9d1, 0x12ae0e89b32fe33e782770de9d61394d8f5ce2cb7fd9c59757b0324587523614, 0x41c14f7c72e6709d414b3eff64527f657731c971d042f23a78e36475c8dfb62, 0x3ccf5ee51f5fb3a6d8b26edd237da8bb85f9a697ede34ecd2eeb08b63c937810, 0x369bb3934c5add87726d16e8129d2d48d9922cdaba026707931aee1d1a75c137, 0x30dd153980b8ea386b3f4ebc201b5c670703c4a43fa8e1dacf23ef867574f8b6, 0x26d9c75e590cfccf34d5e2c417fb45e9efcb1670fdfc5f6c729b3309fc3a46bd, 0x5f851cc8df4a40926315f6ad3c1d67eb875422ad365eb60e724acb95a19f929f],
    [0x6217dc5a0f85429f8dce7bb808267bb5bd02ed3d9d88753a3b13b13a3b13b13c, 0x1df38443ee36f2d0f5af263d6aba49aa9f36a7dd7ccbc273d9a33d5d6fcfc28a, 0x4b1df4b310ff10a15b5d1fffe2e0a9b6afa617b68b7fdb6a6fc7db502a1c7d99, 0x123f7882c50c328527d38505f85fadb800c186d0fefb333fc6dce57b91bbdc68, 0x6e1968eb7ce66d56e3056d671613596dc5661bd7d1806df72a7e1da1d6aaba11, 0x5d6be21af7a6cff9b2b01db39d97c87f0b8d761432efa01d7fb84fbe63596a4, 0x5a288380c26e04a21ae5c53b44234c08565e7a1abdafd0502bac0a8672263e86, 0x2b9800dcf12364b63fc13c43425829b72c3a635888c90330439bb22c7388f9f8, 0x591d046c0dd3a993b94a8800221f78b72a64b7c478cccf3e575179992d12f7ec, 0x1b7e78eca529422d8b0c55f0e375f9e234fa13a0b7176738050d81ae6f99cd0b, 0x36798841d32cffefc9bfbeeb3dfe544841235b4ad3d138917df6105c8805fcb3, 0x4435f0b4427fc88fdd60d20593684b970c60905ef5818c12207591df582d9b68, 0x3fe46bfba610ae31eee7be75b18fec399d44e9bf40f2fadf00f6d521dc736ca6, 0x420ebd44ebd58e8598c4754e88952640174e14c891f09e8671bc8c99bd9d8cd3, 0x424894e8a496877a5ef0039c1999c0bb41f3abaa984a512a83c91914c9117c06, 0x62d0c0435f3d852cc68943ad767bc29ecc02af2319b27900f9a2dc995ed2bb20, 0x5c50c3350c50bba5258e4a881f611d537fac5337c27500c9af42a3b9dbd19dc0, 0x4eabfc4fde049f2c58237688d2d5aef0306dac1bcafc2b58a1fe8e3f5b144ed1, 0x2f76d0dfe3381440738b8e6b416cd49b2bd2592ea6cf55a5bc4ba6cf7b96986b, 0x599194db8937b2e504629ba9c0efc4c5a7b7e9f19d35a440d7bb745a62eea27f, 0x352cf45c8f509e9290339656b001d7defb1faf90e6de8424fa069a19874d1ed2, 0x5a41a1a9312d816483230c0e4ad9da77eab83ef6744c829306a72164ffa0285d, 0x56bb9a9867b021abda0d6c92d25ae5f003416419926182e2eb7c85c59cb02e92, 0x3f54f40d602a806f86ba8c4f0768d8c32a1b05f350f20f3ad6065d0810f22d17, 0x64d5eaafe53d14297dfd16d735fa809e0355775c93b58ce626edaf5feb1ca6e3],
    [0x6217dc5a0f85429f8dce7bb808267bb5bd02ed3d9d88753a3b13b13a3b13b13c, 0x546ffb33b2c539d00d5af83ac4645439d95224a72dce47ca8497df22311213aa, 0x3a0471fd8b96d9f180e2412d7685178b81f7d68cd3337d322c2ce653ccdcbab9, 0x134824e67ed81bcaf077841d06ec59188373fcc9379c525751b55da54a25dc2d, 0x14cbd03b4acd5e695c0a2951c300a992707b2efea3d5ed4ec6419db0f8aa0c8e, 0x1c0c62cf35714ba4c7de0f92ff2e33a3015893d1f5e5e4c12213f5774b1c6df1, 0x5a8a370f19bdf066bf1ad4e66a56ed90472a991797f389970d25d5ad01ba6858, 0x4d6acc47aa93555ba458261b2214bad8fd8f1c237086efe4fb7ab42ed06c79c6, 0x2f9b1d1b7f492efb1ea52265fa67a600ed97833a39bf9280bcac5137b78bc0a9, 0x3591386b0f3b45fc5b8d8c265008807e2ec470a970401fd13e3a5687bca16049, 0x46156ebce2ece7db03934399eac4ab64e9abd0e8979989a3914e69b07d9e85c7, 0xcaf1a42c2288ddab4034ffdbc9eb96f1f4db588891586fa2efe660481b99184, 0x687b7b737e3bd31c5c6813906f6b471594e0c127d563009486d9035e5c4ceed3, 0x1f29a5f98bc9dc4f21e6300b0ddcaa8d02d7e2ad92ce17419d76b4c63efde104, 0x3c0f10ecf1ae2411b16c92f13421184069a81173cf3f2a344c2b4d420794d2f2, 0x6d9cf01df912c6d6fb4ab46112c7c2f69dbc273f8e65c1ab1c76cab4a50b3b9, 0x3d383d7830fdcd64e07a4713de4612c77e6e490a80cc8a70e19cd797158933d6, 0x1ea5f55f1a2476ffbbf9fb531d3f9415126a12b12b158ebf1241ade45c0e6726, 0x30db5c13ee78b39b1c3c55d1a2f72c296497af3ae632faa8231b083eb13ec7cb, 0x745f08cb72b6df5da41160eff34a19bfa90edf5a67bf3bc931327866b9c9b6, 0xd417a78f2ace232e49cce92dde5d84794412b036feaed6f9af5cf273b5169be, 0xd0a57f13f2fc6d26b49fd00a05f12f9bb4f4bf4c06437817d2e6b514ff5fdbb, 0x4aa127fc572af94eab12c4e415c1007e166373ef5a4c143d72819b2a7d466fab, 0x38be53633f77a0f8b99a740e7ecb07bff7294d683bf9dcfe5bd2a204c61f06, 0xaaf29fc8b9ab094937350d5629f5d0aed364f3da21572f06f52821799976bb],
    [0x6217dc5a0f85429f8dce7bb808267bb5bd02ed3d9d88753a3b13b13a3b13b13c, 0x59fc97d2030ce7981b4fe11690b4806caf616843c2b7e00408a348f1d3152b96, 0x22a3b7ffff3d557b3dfcd11193d0c079e5c29e10ae2d24f170d8e441e0d308d, 0x4cd28a881855ee402ee0aee01df50c05c4aa6ac7252f6301890655ccc9b4c78c, 0x550c22c4d7387ec84e1349b7532eaf3175d8e472655326478d065e3c7742a1e9, 0xb52e34b8e20362c1da6cd60e74056c31fc3162045dbb4d67ea90752327751c1, 0x635aee865bf826f9f5ea6cd26b31e5080dc330e0a7df708b5b1e40d35a31243f, 0x2576dc63c684f4cfd84769cc4bbefebbf4ede16586b2881738d342f6ddc21d76, 0x3f7cdeb6e8740b3bd31e0574e32b75054ce509f47d5951e9bfd6c913d9e8a399, 0x2cf12db0aab7447780228ac57c0ebecb327f5734cab8beee69f8b59dd348d0ff, 0x6364b2babda0599cf3d54108dcfedb67845cd3ae4f988670ab058895eac15b90, 0x47b878536176bd782980cbdf76fed6a85012f05652bb594420d954133ec9725f, 0x5ef5345cf570534ebf482c8f54b8bb8f6b6cfce6be890468b2fa4ebba89a92da, 0x3dbc715a3362674d5912930cc44b4289c474f85b1e245f7b4c304c196bdfcd94, 0x26e61549805f2c3d5230fd6b0329c3ab3abadf9ec2f96b69bd766a5aa9164df4, 0x5c370d511de711e7d367aeed831209d40cba9f87bf30793101526aa0f87917a6, 0x546b281eea8501ce328f651c919cb6ac23de7db5ec3eb10240fe4b1656107130, 0x93829a245cb961a498def134e955fa69aa86f07c01ce2e92dd4bde674bb7f7e, 0x5384b3eb64c346a6ce1ef9d69ed3e09c193ff7ff5da3ed3c680c31a9628319, 0x6f564e19b773e75c4a6094565192079cb99f8d2f816e9e12f27d05d13be0bb20, 0x1fc84c7aac68cdd6ee33ed15a4efa29b5904b6aedce14767eb5c00efc02a78dc, 0x6c63614b361218aef4e8a63526ff862c9f25c591877b91e58334c23c608d63ec, 0x5ce3e08d834a28a494d051fea585105f987a348d2a3b80de4f7ce539fb5e8187, 0x45292f989dc04d498b489d0999ca513e3b7185e18da5cb5d3e1981a03afae626, 0x56d2a8138a2338a843e557accfd05c5f811e0cbf4fa26be2a40e8a090f68ff8b],
    [0x6217dc5a0f85429f8dce7bb808267bb5bd02ed3d9d88753a3b13b13a3b13b13c, 0x66770805f4dd221527e13454022d79c314d4f9a93ea07083674f61c34c1809ea, 0x5c97960d52814a8b23686d0058b9237660d804a4223ad1e69994c5463eaeeb03, 0x358ea23c4efe1e8b348021655b6c3d078453a62becd5c67bf41caf0d8ff2eae8, 0x39bfa465ac35148e1a69e40e0d6b77b32ea4a33ee6af9abc1e63898abbe6e09c, 0x26847763294fc4751e2a1d908a3d2305d92e743761264f4c86af4b14a6a2a669, 0x3f331373a30deed6e408cf74426f33613b717c7f47b5387ceb43723bb9d78d4a, 0xde53f3b2f448f07d08bc057beb134b3183dc8a83954bae071eb1ea4f8f6f229, 0x592b7938d43b8661950922380b535915230b582575afbca61e43abbca0f981ab, 0x4d374a1f10ea6813900246b90a10862da353a41b4ded2bc1ba7b13b58fedd01c, 0x5935ad25df2b0f43b889e7982a495a56f3e88b0eab320aefd4f8dd7984c1fc68, 0x4909d340554a15be60bc2f198f779fc18078b49a243724577753cf984c64765, 0x4a56b5ff99f7ed3b77e8ebf143d22ec2a32e567a9861ef1b45227a46b5e544f, 0x4a6db75a4ec41b208e5d12b1038c321cabaa4f975ecc606eeb6d30f60b6a9907, 0x73ae2799e62662f76a814519e88b1eb475b4f2ce9cdce4eca1bb8ba703683457, 0x176538904a5507fec4ca6be086ba65a3c69fab91a3cccd451fd550e86907863e, 0x47cf943a98f3d64814d9c156c44c4c8a2aa9f0c51afb1bf5f2213226da88b16e, 0x47dc9dd561ff859290f5171afd7e44cceb1949fc37495c54f3292c880decd31f, 0x1f519e78bb1e6aa1d9e331ba093c8e1151d89260bad47e2bc43e584af3b199d8, 0x29fe863468066bca41ea8342e50d87a1f10099d73c639f8f3887f84b6e99e9d5, 0x378e9f7e1581d8dcfc249be777ebbab87a69ce2e67d1b9b8a3c4009e3925b8a2, 0x144402d4c91e4c422719ce85c2dcf02143d8a7921660dadb8b3bd8e05791b04, 0x6d6959a7eed63c3fa852692ad20c073fd0ef03330a0ceab4adaa463cad363e0, 0x73d36de490476e3e86a7c3d972bd27dd38219ff7904954b1beb07b8cff981678, 0x3f1472cec85e1c870dbf9343e60751b5cdfd7dc9f7db6f7bede041e7f8847553],
    [0x6217dc5a0f85429f8dce7bb808267bb5bd02ed3d9d88753a3b13b13a3b13b13c, 0x5903d59cf301269f0ea1b121d14b8fa7ff35d132a46a7f19713238129cf3f0b2, 0x6f06256cd326786816859ed560b8fd5b104793f148a6a1e69d621446ca5a07ca, 0x372d55a03738d586f9cfb4eb59c0253ec49959849d74ffd3483f15121aa51b35, 0x49a8f0d5a9eb27eb295726ff9f9a143ed26c34f0936071ea94f59a1746525f7e, 0x563c08002b4b4bff99acfbbfc70822456ad29e4c0b41ee996a6c7a84196b5a80, 0x694592a15383127b19d10b3679eb18033eeca4fc2e8a177d59ee26814035e85, 0x687ca4dbc1b9f8fde6b95d383e5d831a73b89ae99e1ca7ef441287533d6f5f70, 0x69bd5f37d1bb9e15138f1b71599b21f5ae620117ff71c85895ab4949d0612f9d, 0x59663db6ecb2446e3f20f02cab5ad5fd11f78fbd04b3a6014988a8ee82d1e91c, 0x61c4def106cea6ad5d1c291e9a2260802209974702a9ba14fe28fa4581f26e81, 0x30560f74e9f79806d578444cdf3e83424f55e9f5f9cf75e2f1e45efe5acf8242, 0x1834d6cd17d41b73ccc53507ccc7e9060a9b239d40935ad054ebba1f8ce3ec3a, 0xa9f70976081dad91c1b8a4a69b8a299eaf59598ca8ff36a721d17af93f06677, 0x6af96798b91bab2f0c30f204ed22fc3e8e6263afe3f576cb5f8729ff1bf2c73d, 0x7053f79f223d621f7a0c8112eb536df7144aa39657b2a5e315b848a4c689e4af, 0x408d22e07b5e4b255a178b84331981541667c58b9c6ecaca57f2a03fecc78101, 0x69e12897994e0587d3a298222704358ce452f8d4fe33809cc896c672f25c0f2a, 0x32c9eca38c4b3c676dd947e88e8ba781b22d3eaf25dfa9ec83796b3c1265f677, 0x139116eac1a4b401399ecbad2cdd909c1e317cfebeb08c3c124e663ea8467cc6, 0x23b9f6d061fabafde1b58df6cf9b1ffad3719a0bff028953e5d7add8570b9718, 0x6c619b306e06d86178f832ceb352e0f3bb91bd7af9ceb19a196f02f3086c4d47, 0x2386dbe64a159f3248a6e789df59f799113ab87c5e507ae3321f787da7fb005, 0x68fe632e06223834b5758b7ad5181e4056c012173f0a273250dac30ef9efa961, 0x64a627f590b93f85db19644b05b5243c6f40e4dc0b32c40b57bb21192de33535],
    [0x6217dc5a0f85429f8dce7bb808267bb5bd02ed3d9d88753a3b13b13a3b13b13c, 0x91efa6e80de0df98233d9d62e156dabe19033d82bc617ba13d349f7b34333bf, 0x3871f922cab8c244423a9c5795df894740d3b6447393e55bd8c50d75f5a92a8d, 0x37f3439b799ef6cec5cb0fb9f5582fb20f8901cbe757b69b0b75557750d55e26, 0x3281f63f5a6e9e51cd8257f0d19c32ca669a56b38d2c435e0f547f7d564b7120, 0x144c5cebbe1606cfb2ac4fcc9144ef7d472e828711deee868d84acec9b87104f, 0x30163c7b9cef9ef713dfeae3478563728c9e6d270b29ef6f546d1299c26f0d3a, 0x21188234bd311d6df4eff4fb0a336e0e9741e45da4199acfa0c0ff9356ce8434, 0x738b548173bd3c7b4e349c804db45adae3e1374164ec3da58e47d731e988dc7e, 0x63a865ec2a98a3cbe745059fc1de416e0270871dd916710a177dacee9ba51fbe, 0x19735e3b6cb8812b6f81c99068010bceb0801cd56da3661132f3ad06f316e421, 0x698bf73695846e899ab854d42345cc7d159848320afd1c3676a009b2d1376d58, 0x6c9bef4ff92c85c95458938a16d7ee840120c6c409acfcca621c35575bec2ea, 0x47d3a57e3e792821025353cc91347df898d5b91e9bf44bda6e8a90d1257f2597, 0x63b50a4295026ee1cc4e3f8c60f8ed1dcb6e3d9a5435b53535c8b29e2580dc34, 0x2602c90678278e79ec4e678e085e6c5a798754e9219c0faad6d6195d7058c25d, 0x4aa7c94a4af5bae97d55ec547dac659a58652f5921d0718197f1eaac56e344c3, 0x4fe90ae4fb56a5ae05e83c4ca145ae4ef0dac0c5fb61e1501888623133a98736, 0x552349cee8495e5259f9402171be2f3face67f748f9a74d9799523fb2c268348, 0x1aad3a76051e4ffaba6b9ce5a9d019064cbe21494efbeaa9cb57ee6d961925c4, 0x10a49b024593b082163367e5393d356cb21823a462f2ca5cee6ef2ed8e44e884, 0x2af944748eef17b733c45d4694ff47033f7f9a4ecccd442cdf74e8b6024ce405, 0x72a005503c5fe9016b88a38d8fe41475ee47576b44b0a3b3b496bea6c13b2f40, 0x3a4c06c8bd299b6fbf7177c9fe39b91c0f1d768ff7df529dfba4d8a135be1c3b, 0x66128a2a4cd534f28ed5ff3073c618e10db79596b1783a2c06189d1234aef848],
    [0x6217dc5a0f85429f8dce7bb808267bb5bd02ed3d9d88753a3b13b13a3b13b13c, 0x21094eecab6d15c629ab601fb019ccc3b8951d4abb51397718012b95cd76a719, 0x6955e98c396829cdfe4ef6b6a9f724f47460659982fc0757e07834523da1715c, 0x6ba0605618bd0f1588ab6431bea7c9dd4bce540af552ec22b0789ed3dc27f873, 0x1995f21c7f1dd22625f951c3f1e90ebf026ccf3c24e15aa607fd2a4bf887a9c, 0x399fc5b5bd0c4560156a5290be8981ad1c8edf732b0fea471987a531d01b1ac0, 0x1680d7b2f47383a54caee48ed51142e7f37e3fa263ed28bb73a96d8ec37ffe71, 0x1506fd7e07d735eb50a92f6b5cf6c78cb7ae8bccea97c21b340b483b9fa61228, 0x5efb9b1173d50aac4c38508975e006a469eb9d853499dfa9e25c4e1f65dc56fc, 0x348d8eb763834f76da2cac6ff00cbea2148cf416ab232f7b21eeddf3a944f4fc, 0x110d7a9b86130031f031709d3c7303114d9833783000b1cb0f8e7e8a570a8ceb, 0x7082152f8f111fc4b99d85434d85c1280a771133714ed7af157de9d3ba9c0b51, 0x466db5b687d6e58e1a38471c37d2d2aae6b608683e7f2bfeadf43d5ee6f8b348, 0x4456d02c75a24645f361150cd601764e81d2f6610c9f2e88a3ea8a27ac2c6f07, 0x493b11e76398409534716e9f3ef6513ed0931b0a8cfb1d12321546cc8ff84724, 0x4ad97f14c8db72995709b4e1814dd509032a4ec0641bf9253c92b7b724afab8e, 0x52527cd2640603f4e8d0a96cabc7620f8ba338d4ac7566d52d2f1691f111ce50, 0x21be957aca3ad0ffb93dc3af3862619ad1562de336081b814dedc203a3d0d45f, 0x58d57e775e040bc1b49960a38b9d17c632f3910245a0d2b9be22cc8c150a5ffa, 0x7166fed0bb24cb2b1bcd713906c642b7ebd6af0afcb9fe65bf1452b47bb49467, 0x4cead0e27ddd4e0ec3453dc0a6c60d530cd0cd64ba81666e49a60946321f1763, 0xab3bc2bc491c7d21e2023a19c545662e899a13b189f505854a3eacd4e5bf8a3, 0x24ed344b256020777b491e6de46ee06b3f55f1d4a54d8e9805037503df659b37, 0x4f927edcc13f2a6684ed37932be249d9221ed4946a9219c0bf246114f59a8f36, 0x27254616088e75f0e2ab54042681cc48610941fd66977a80f6043f49e37f2870],
    [0x6217dc5a0f85429f8dce7bb808267bb5bd02ed3d9d88753a3b13b13a3b13b13c, 0x46590377537afd84b793daee1d2cf336953ea66211911a3eeb36d08169688c9b, 0x4b47b943a974d4587ccfd47755ea6c20037d5d3b05d57a752e051e748c21510a, 0x57d046d66175a739a6daa792d50de223b80835800973b09a5ca1b0eac2f7d4d3, 0x12c40cf648291378517bc0bc1d6b872bce25a6b977b4a75cad932e3084c9da07, 0x342a05ba04df43e45d1bc63fae1ade2cd3de9e0f0758d91e899c3b84c0c62cc5, 0x49b193b3f74ced54fdcb53abc3a83be27d8cddee219f263e79bae0952f6e6253, 0x41dd27a46f1db0dfe848466c9af53a1330a6526865fd97e5cd1ebf1dedd0cde7, 0x447e2505fc5410cce8782c8534e04d0e40b2acc0956460546b54d80544bc8f91, 0x4b16fc569101b0083910ead3514c36613ece80b76423403d11b403843eed3c, 0x858a0daa7d263edbf357f3feb782c7e4321aaf8eff661b0c51999151fbc0c48, 0x180d1ee164a33027a04c0d55d3f1a471acbc787713dfae15f5865345bc8ccf0f, 0x8551e0c1935b50c96291d4bfc2e86d0571ef709118e130b432f1e91b0bc7a9d, 0x13ff241ef46da9e679f60f44147cd4a804e98b785ccce235c2f84f2fd8de3448, 0x271d01c8f1e3a48d5ff8bf99e8ee71d4a757fdbef56b894a574f35051c878f14, 0x1b6c7aa2610ed64b556650c2afb5ec5574e06d73d63cf82d26101a18389b6f94, 0x14c6d10da9b914020b8c977a9c8d3582ebd128c699ecd44e7ba0116643e78198, 0x3a4a0e192b460d2d581a0f2578e75253ab4a213eebd99659326e569a7ca70479, 0x5f9f5d4317b5e8f4076f6c1130d16391216c5d17d546a47c3c2fb4b13ca48b65, 0x530570d1252b45be2a2f7962d5dff8cb07e062de6c6621ac199995b957910386, 0x7e3c714bc9f6895111ce1ec864a4dd8f33b44de69a9d7e2d2419ce4cfe5f07a, 0x3d238b6b3c1c8406770ac5cc3077977d9ff41ad80eeb6c9497571b87e901bc60, 0x131c71c34b654ea385e5e7070e340784fbca4c35c618ccb9f13930f7bb31f0e, 0x24c140a43c3f24cb2fff8af3f7febb26a071899eb6feceaa8db119196023319c, 0x49f0e688c23b94027e0f400adcc20540a007b22f8b330dafe65f1de40d0b201d],
    [0x6217dc5a0f85429f8dce7bb808267bb5bd02ed3d9d88753a3b13b13a3b13b13c, 0x42a0492832553342b283d5631ba2620c785a70f22da1697c706ea4336cdeab7e, 0x581f1532e9a9ad2ff4cf74cf2d0eaac65d9a6b1d59bceb4aaa69af397ba53b5f, 0x73c26a39c6d6761f3bd71e0508f111ac17058452a0dbfd28e04a96a481c33e7d, 0x53a241faba86e42eb4760513cb140497245654c9e48c10735251eb7270f6cd09, 0x6e0991db7d0258de424b06ca46aeed379c419ae7b467e5794464e53aeba325a, 0x6f24c2294d20af6bdbbd7428aa43e81e9b60162491a77f6191d63d8c140b2039, 0x5cba956e6882e423fc1fcab0bf920b89eb0f4a255cdf2e0cf96bdc3b3c1f7255, 0x2e97013b3efdde986b530f495855c314bd21f20355e8927470d6a5b112625d87, 0x2c2231770bc463eeedddf9f9d5523e495723d2df86a04d9ae6f6adfb09db7a3b, 0x50ee60e23e27ca6676d095245fe5c0701fc0544de53d9251332c941c348425c1, 0x20c690b6664377e16893e3c3b8e76530cbb1c76ba600b8984f3e88ecc141ee9f, 0x5ccb110bdc937d2977bbfefca9a6436f1265bd2d36ad7183120c5918fe9ef47c, 0x440e68e28554a8f8f491b524b2d805ad0b18de061289f25dfffb6b58fb272173, 0x53ddacef9611b8a56fcc78521f9c3dfe41d8e30d1d4278713ce8129194672186, 0x54464f90a1bce0c51ff113964554c10dacc10b1c91dbf5826027a7e9162d871a, 0x4f081abfbe072858362fd1d7cb04d96e8e49cfc89bd6184df2ce77f2b86903f0, 0x7253d4958ec50e873487771de721d19c58ef96e9e925999672668788fd06563a, 0x48526b0961b9c09182c7480507919604d7789e54fb97d55e1e0bc110a4c0be7b, 0x6cecaa0ab6043ad5d8db022fd437d7cc52d8abd17e1e78a26689a4f9dd4a7d84, 0x4359f78efae5658c54114c79a10150e1ccb0786ca70bf02edbefb1395de5ad74, 0x47e9c7e031100893407fcedae81ac0fad7121e4c58320fa1ef97594ff76fcc75, 0x4030c16de79f047917b8c604bfcfc08b9dd982ba19f1920e7137d26a0ea07bc5, 0x30f9c50e6da03fa1d1d0e2b2f9e36deddc28416c2e7f74e511167e03258e1ada, 0x69f40461fbca9d45178ccefa1c3843646dcbb7a6837b679430c6b5090d42d5eb],
    [0x6217dc5a0f85429f8dce7bb808267bb5bd02ed3d9d88753a3b13b13a3b13b13c, 0x58ee4933f03f97cf9f13beec6f9ff872870af9b3cd353e3f7c5b147ca8efa697, 0x411bfb2bc2db83ebf87331a494ea6ba24d40ad30a400cf0fe54885c4aea9d296, 0x1ca26c3c09031a2228313ef9a6f65bb665ed6d30ab694e8136228370e2166365, 0x12131635940fd7d6c54e63214cf07f155839dbaec2a49fac945c5222b9e6e3d8, 0x689a01a6280978ee789e24a4a1971ef406af8c9ce4f13037bb5b132e8653a905, 0x1c327c00e7b63fd9bf5c1ac1d17bcad633bc10fe498b57fb988023c024bffc55, 0x255f9a8413915fd96526bfcca40290deaa2b84d319b0f94a08e7a4d66dbf8173, 0x654f437eaa745e15156d0d316f239971286d8f7d5048e14f99f95db80d5e9744, 0x21d4e13c2666177128f576e612cef19452ec830ed50707d77c167ef1f83b88a8, 0x3f739e1529f68d465dd94a3212170ea76798b2e0c18d70d58dd1277f6438730c, 0x9e66049735f47f78921310ba7e7e559418dfa6f76a24eafd3aa6edbdab4af23, 0x4f22950a055e425b02e435d93936ed86577b5b2d4e0a7e5e5118e939317de5da, 0x5bff2565bab693dab96174d49c409c607f1f16bdf052b9d646b8c68aec3e5f82, 0x1541c97dcf2208f99706dedaf3f3a44245dee2e6e2b137bf0e4db8cc6397551c, 0x733b7bb146ced9b9fd783d0115c5cc59c434d7a100b35fd26df4daaf6c21765c, 0x6f08fa155cc41a6d9533030d2dcdca32dfdf62a26919db14c87f0ac5b05a6b85, 0x39b8845bb502fa57d316bdf32ec9076313151090e2a1f19c9f19de2e014926db, 0x1bc5477c8ce9fb0787c308a83b920fdf4b85d909c9653328b63ebc1228454efc, 0x74860783237cacd809ad8bc983866db4326cff11e965afa904304302b7d33cf, 0x283c8d79bde30569221e3f75d91906547f25dca507230cb8f25364118b5788df, 0x281f4c41acba4321bd6844970dedf0ab31b030f97aaf802d4b497f11741280a0, 0x3d7f36e1c2afa8fabbf35ff7a0a3789658fff00e71898d2a9fd2e64472e97d75, 0xd2ec86bcd38549c3c80d6e4833a8d2d4d3ab2ff4cc7e2eaa005a65ac1ee9dc4, 0x642a1ff35242943ff912d0c56ed4a95eaba14a6ec9b33d441fc1a898b860c534],
    [0x6217dc5a0f85429f8dce7bb808267bb5bd02ed3d9d88753a3b13b13a3b13b13c, 0xd995d5c21d5e989b396ac19d454feca7848a011f3c4678374ec5620394f46a0, 0x530430fa75c295d909d3019bb00a0f95e6d9bbd4056c09c9f2e88f666b474736, 0x1fb5709bf374fd8f9948d15a3735c7555f94b96395ca86121a5615cc22f6455, 0x111ff810d14bab93a6c8c15aa6b99239bd45597066ea3bb0d1d4e7061449b2b5, 0xf4c5fe1e2d6bee9b01646686ca5e534e63da159cf50af8099f1b06b0e21e20b, 0x2e3687c40286898c723abe2425b5d6816e0cf13925b797fa7180631677126044, 0x382d9b541e0d38a6783ddfd1784c120187bc6a76fc2e93256db0c7710437f4, 0x3fad1f1f43cfde6a49f997db12e06e10709d04c0e203a7430d3bfc67d5b31113, 0x639de8cf1592f74acee64fb9e95b72d1d15b3d1994e67f8ff7643419f0d31826, 0x12582b03db30be827b7cb568cea5b6640299e5c4fe5bc441a0aa63d636aff3de, 0x560c096eab32ad7fd63cc92ffba89c48859e7415403ff9a0372eaf3b7bd631f9, 0x1c973d06a3aafbef69f4fbbd7ea19dded30ae5feac5b233f58b45101bb70a53, 0x44893a9b5fdc18b42cc91dcdae290e6cf6259962140290f11dbf2ae397814eb2, 0x1224b5b471955c689424a0d29cb6264dcd618c0cd99cfd4f64089b1cbfa81492, 0x63aa8c2c048714d29f416fdf83671f37df833c36647960ed1cfc83189238044e, 0x43f4bbec8ab2093adcf0f2bfbb1bdc3752933e51b5e6937ff0da2dfd8c84b712, 0x6d239b91c2fffb60b6f7dd6570bffaed13a9f477c3fb2c97247a017eca40b636, 0x627afc001dc90d6a93248ff1d5bada6885f7a32a7c2d9585bc960af9599aefea, 0x52f01a3dbda46b495407deadf4a16f4f5c7f25df9e0acddbf620ec99d98d98ee, 0x44583b39b82066cae4e7b7c828b61f275171f8ae5808a2e58d8ca572d16606fa, 0x3f190402e90b151992094f095d42e42f83727ae89aff48b2cb0fbdb01889d26b, 0x5ce94b908d7f2b06d8e88f25ce69c90ddface0f1affffdf350594cca91c75227, 0x325920a672785d50b065c5990e66b3318f2919454fe34c2a754fb00b4fd78d6b, 0x5cf97b5668825d3dc067bade953a9f280c9bdb7077c81e1103eaa109299848a3],
    [0x6217dc5a0f85429f8dce7bb808267bb5bd02ed3d9d88753a3b13b13a3b13b13c, 0x471673e01eb724f29b70ce261b1a0a6f7abdd964af0b7e433da720a49bacc6cb, 0x5740ea66d7f75d76a12ec6a61246f90b728c0dd937327dbd2c48d901f8235d3a, 0xe9f2291e3f88db43f1a0ec066727e48d1b1232ecda1fe159f2dbe4694c19a22, 0x1a2be6ca057dc95b2a2499e4672721e9b64b5b98ca9d9349b9d01c24d41a61fe, 0x5d344439c60343969fd86fcba8cdabf2b1f4c4bb4292e6f8fd7ef359518c148e, 0x3c5765800f14d133c83dabb9a703b7f43a7f0c52d1a58a4eefacbf4d9744af52, 0x371291ff5983cfe2354ad17372ecdce8609acac86d1f7df47965ddf9d83a8f95, 0x5ea435ac5b3c204d57a7cb776faf15315c6322fd581303ed2b700a76a646ba90, 0xc5d492045cd72fb81ff95bb45d3305144149e586c499b9ec64bcf736d7f9c05, 0x5840468604840b810cfb2bbefa773fa23bcab6f2668053bc328fcc11ca705e75, 0x309605648e42cb1d5a71ec2d7e10f065e3e622acab324a9113b01988a880527f, 0x2ea7f2122fbe2afca1f9af9eeac9925e385f580c107fe97003cb8a9dd5b3373, 0x4f64bc40954dd9ca04ba0a4041796a1973017ad9309ce61eaa26b768a87bb11f, 0x7239cc30c126ab4877ee990ef35d0f6ead4f9adc70d7749077e09fedb54ebf8d, 0x6f2e4d8f02eb1488f8491edb1bd1371f5a6d352b7b3364de755312f06cc202d7, 0x6937fe82eb85d063915df186bacd8d222ed4a5519bd16ee40f665444814af54, 0x7336e69efdb7de3903a75b46ee1fd2734a2ee3b591546368269e6be3108ff440, 0x6dcf9ede0a64b944e8c6441a31b53521ee60c2b177aa67b272ccc474019157fa, 0x2457e91cf0f339eababccfd432f7d6185384a1b01cf5b7140a6198add1ca3e22, 0x6e2a6db8017313490c09aa8c1b8f668ffa36759311bd054e9b3f945570e177b3, 0x42f503808a8127b07f21752f3f3a31fd04a13474c235370022d81b5d055abda, 0x6cbf64001b6aa1d201a5eb08745394680ba1550eb1554755ec6658651dd3d5e6, 0x351b152b79135342e7e3c3d767f2320d07732400a3f158214eb57bfc2a5db636, 0x626a38a486baab24f3f48fd74950c49d3ec4c760df009c4fa1a277fa1bda8252],
    [0x6217dc5a0f85429f8dce7bb808267bb5bd02ed3d9d88753a3b13b13a3b13b13c, 0x1cf37ab7f53c22512b20150b74d4942f6144abfa35bfc9234f91a60bdcdd779a, 0x49ed4b0ab8925f81ab5132d8476f556bb5f3362defd171d1868657d4187a3eb2, 0x4071335db20223a60d902d2be7b0cc864542366d3471a78bdf1bec7c1c07bdf8, 0x5b38facb97d890be3b1f2aa52e89a291e689e636f00f8428f7cde02241e7ebe8, 0x6c208c89a4e6a02b4f85af32bf9c20a40a20156e62311d3da4a560682d8a0ce0, 0x6a0d4bbea6e835c044e988675c11ae0a2897c849ea2b25b9be6a0d72469e61b4, 0x63be18d1f6629b2b6b18ba6b6ccae64d97fb3686acba2f7f617c103513ca2d82, 0x1012a7242709cc62af2ada5b2a8d0b233412228865e715de5058afe1a8f53fd3, 0x6e50b532f21eefee561c54bd8d9a01ded37e2bef6d3c393243dc469f816afa55, 0x6af236c16041d68af8c5cd7cb06695631cade3e5babeea5aa17fdccde1b64192, 0x6d2f1f3adcb2c8b20993b9e0c9fe37f113ad87fb3917cbbb7cb3006f188e1a96, 0x5460dc282cba51b88a7cf38575dc1a8ff67c0b4aa13d16e01be4d986f71bc1b5, 0x136324660c71ee598e079dc014b8d73bad013cd9c9950f1f69510b0a4412a252, 0x597715dae1b68ca3acc7b2f3fcd66e7901b67d99577dbfd96845f52646dccd3, 0x37a7866da9e42fae7ceba77c9413a9a985d95911978f1cbb0fb79e0095b81ee2, 0x3430babad39f5cbb0427adcc5ee0e6ca970ca79eed25f422b53c9b86a5aaa9dc, 0x4647976ecb59ed276f2d4f10cb49c4c7802be121018a33f0d4256dfdc19ba912, 0x32cb20a32e460d047f9c6842ed5a32c651b906f51839eb2a5c56a27f9bef59e3, 0x1406bee65e1a97454c55702888bcc6618e86058b078d0a7f8cc0d48db172690b, 0x1cdabf1c52500e28b9ab512b5269ba2e8ee97a8abfe429c96d7b484d99db381f, 0xa56919ffeb1796562c0e8d07f1f8caddf478b789ad8dd241e2c0f318a77b5fe, 0x581601947d3a5189d2999bd15027c610b401f988d60e71b1ab68c04ec626e1a8, 0x3825a6f9155be39aff235b5a23082c2e6e06b487133fe45bab624d68a217379, 0x16106233bb1ef91bc0af601c2b7bb98e4977bfd42bf046e607bd3c5b38508b52],
    [0x6217dc5a0f85429f8dce7bb808267bb5bd02ed3d9d88753a3b13b13a3b13b13c, 0x6f741c4e46d0b32dadcda9d71f657dc6b199c3b6b79d0db7dc6f625fc9de5336, 0xefcc7d1c267c0776a4b10009757232d7bd4b82a3bb78cdd098a3490b9ad9de9, 0x45d26578c0d58bb2fd85cd69657c5d20cf03aea93872c84e3acaec3c27475e77, 0x37ec83935175b27172286f999f8acd1c9a843bdcdc0ec8b2a9c2c26be2d5cec2, 0x14076a6e70dad0b0cbe859c63b58f893253e1bf9a30301e00a57dcbb4167ee3e, 0x2c62ed4c74bd36bb342b731c0972f9b6e7f95c9de5b6753c141dba9c5e5312f6, 0x1ecd85ecdcc37d4ceafce65cfdc925f7a998dff60c9ed54227dd23d7e78c4fdc, 0x10fdaac50e7841cb308ed58f6f64f653556652fb396899446072ac914105527f, 0x58bb271826defc75bdd5fccfacbcf5f893fe8835f94c072467a04e25035f2297, 0x31e8676e7a343ac933ea64aa04dc82106ef33258d232925b559ac17cd132fc2c, 0x228e9ef8978984cc8d230f32b094f445ed585ec9285915ab09890cae2fea89a9, 0x2981370b52015f31a7e5aca46cd005a702282c4bf3a413916a3a269bcc4830c0, 0x1ac51e365a00777d27ca9c40bdbdca878ce573dad6fc81798af532092cec5e29, 0x1ffab4d0d488583c6c5eaa1126db08f38a4febf7e484f2b5ab8ff000610d54f6, 0x41fed69dad5f0b2d110a03e9820b4dd800273a9200066a2cc75276039951fa36, 0x6673da428dd84728d3ec1657ec1a1056c619bed71108750ca27befa1990fc7f9, 0x1a9039c075e2e4e8b695429f0f711c3ad47ae6e3c53252f9b4f6908fa8659a83, 0x29ed065da5ab4dcef154bb4cc21238e1d7fa43fc6cc77b8eed966ff78f788d1d, 0xadaed01171b1bd3ea84fe9ab82fec50575a3a6a7865abc1118b9eab2a655677, 0x40f9f5c0046d43df6d7493e607dfb84a63a2e1a81d8d705d1a9f4ba1a09e2def, 0x1445003fcf6d32332ce551073058aed7793687f2c61edbd2fbe6afeea56d6a0b, 0x1dd7b7258f29b61934a55d9ed9147e25f18a21a762294524e39e5139fb20b1d9, 0x22fb12bf8b1cd67251784a61a485aacc08a0ec1b69212bda1c11d3ac264e5286, 0x1d19506959d7ec4f78724b718f4fcb8be50051d0d66058637ef92cb2018e4e1f],
    [0x6217dc5a0f85429f8dce7bb808267bb5bd02ed3d9d88753a3b13b13a3b13b13c, 0x44937e1b59b81e84bdfe3742e541202317cda35045ed7f591d98d0250e903081, 0x7193f9530b4418ca6cfb2f931e31bd26d6d28fef109cbb5c2b93c36bde71ca2, 0x17ddbd9c8768a19cce36e6efa7ca21614081ce7b0d5d3d3f74a90a12e3977807, 0x25e46963dabc4384e57701bd9467dc24d12db4343fff037123f30eb74ea15ce5, 0x26efbb7a8fb8bc6844c9bb56e8744b02e905e603e356f68ce587875522d050a4, 0x18da71ca441bc2f4fe1d15f591fac740365d3886fad14b516cc2d963dbeafb19, 0x4eacaa621b529f3c692ef083a835d38ddd56b79603a0c0385212f0e2892c77fc, 0x3a8d5735e5cc36dda31b1fe38ec20e9a22de89169b7b9b7eec4cd70e54b2f712, 0x3c113a5c7e381dd61697c16de3ea16a7f69b703b8355a65ae99de1dc76918248, 0x52e5e31403cdb5ff3124e6284922ee982c345248d35eea43308e1964a3145b4b, 0x1ce2e758d4a54bb0f096809601aea2cde9d2a51fedd7dec5e7d5ecdeb417572, 0x4ad1936f8d5b45c2fe97db95c3eb79b34ca5327cf2917a1d32ab6a2d2c151508, 0x7285f9d521e5762ea206c160660f9e299fae991ecdd302e1820fb06fc3fa6750, 0x567e190583d3dd35276f1f75b84d3fc465bf298a014b9c7497f63b8c8cb5518d, 0x3ba27b622894809cbb0f7144f60f0e72db83d176a2fff9faf248eaeebc38421e, 0xb060f353c42f4b6e25c50f5a652e83dfdd24da6696eec406eefa136a3429115, 0x6913b90ea6102a563bff37123af8ed1de7a14e5b3849672b58f06f84aa2eea98, 0x6b0d6c705f31646842dd16ff171bbc02ac6351588ae3c8c02b3c739b2bafd921, 0x6de54d8f45eb7e0aaea346bfcd517e297b2f62fcd2ddc80ebedfda8a0ab510f6, 0x382f294097cd6781fbc06608fbafd0661c84dc4565697217015dc18fd54af374, 0x557a83f7c01361f1f13e20222bbd2dd73eb4ffacdbc7b62c7bf1cc20f5cee45d, 0x466f0e2be3bc99685fb1d4e705915500a27317d8801c19ea48ee1c82edf4530d, 0x480a359636ae1444c1825a6e5e87524e0abe4620ccbcaea1bc56dca1d2404052, 0x15d1cb313e1c86f79ebe6f970141cd9369513ee9658fd8a81b86db7de86e5f8c],
    [0x6217dc5a0f85429f8dce7bb808267bb5bd02ed3d9d88753a3b13b13a3b13b13c, 0xc75796b3d387da0267502e98b43b40fe2233716165f39201197fd9de3c5413a, 0x11970e38456b54b225c51e21bda3daf16170d7b707fc75f1c5960f85a5ab5e53, 0xcfed8bfba2d8aaf02b52abcdc24b137789c2b7e33a1a7b98795ea1f2d0cd08b, 0x50e1e54139ff4c8e067031e91dd154d75f28ac230d985eec2032574c436e86d2, 0x53c72404b6d35ae17dc1b0475a8d289bc245d7420c6b5691b50d102991debe55, 0x252ff0dbd7937d702268f0cedf0a9b2e35d91656cae051c09f89a3ef59311ffe, 0xa7c46860eb560d070c0a078eb6a72330070e64070137fba67ef0e57ace1936f, 0xe98c9832ed8d8bd45f07bfb21ee8becb140887de05a082e48a743527e3673df, 0x413d8b973a02ce9fe5330eb112b3c57fe8aad6610035fd64937f58bc4eab3f7c, 0x1ae9db1179978fec7fd662406811b1446bb890e33313a7fd53da834dc5e1b91b, 0x53405e06d3da5acee58f3bec2eab88a607a77c4e48b4b433898c045badc4140f, 0x3edff34ad72c79bcb83821b3aa98a086385417be7579395322528dc2ff9b6bbc, 0x6b5e9a4f23230b59a589515c136c1f8bbfd44623748f6f00a8b49811ffaf357f, 0xb5641a24370d874ca08d3160f639253f78b892d4aa26d3b4969fb187f53bfd6, 0x4897b038a6e6e19fa4543ee376aa125e06a61da68d02e8a4e7b2f4570a954e71, 0x5c6cc381e320b71b66ab7ad6ced9f3baa3a7b2f3bfb1571aa7361ca74a3ccdee, 0x6684cb397f3e1a32212331d231d8be83496c8aab3a18f2b9d9f6f016145f1c34, 0x5649892edc9bf41ed98cb828bbc4a5adb63b2b8a99022d090c3bb9dda42c19f0, 0x19a904e88adac45a9e42b3e50a2428bbbee60f486625e53fec329bdfe4a5a1d8, 0x45cfff4d88fc2711b92bc7a15ec686e7ec7a73a695cfb91bd6d5c3ca14a6ddca, 0x5fe8c61c4b8248ff934ff9eb81a34f1b3b9163ea54db0781ad000781c785bcec, 0x5f938b5deced5888f254187b9a8fe3db8243619c67c1102faf6bab345b0f2aea, 0x20d6d5cf7001cc720e29646f93aeb1dc7f353a23df71505d627c1e211f60357a, 0x73ac45e0b7790f40b4a89b5921c248132abdefb283725d6321122985b235f413],
    [0x6217dc5a0f85429f8dce7bb808267bb5bd02ed3d9d88753a3b13b13a3b13b13c, 0x5bee55ff211b6847406c451bb4c0c929e9970b34d80518f33820caccabcabf45, 0x12c675c3a065a6787e9f6d8fb5f4b8b5ec5badaa5a6e5c8a2806bc300fa763b4, 0x67e804119df42d0e9441eb779e5e07205d6d1efeb6839dc9255de766922d688b, 0x640fa5a262d2590562c2f55cefa784ce54cfceef2db5a9db02283ecf4212240c, 0x173425ca118f97a1858401381331e5a5bb3f52577677b3b13790b2ca5301c3ae, 0x2c43bedccec6e127a7117c277040e15bf42f7107fe2d114f455a9563623f5341, 0x5e1549cd29f41719fa0c0b01873f017e28011942801e8a5f7143b37bea0f477e, 0x380e0a7feff75023163e5cb0a532a817253a02b0567dc5a5c072d8b35c36f200, 0x9385faac7d1a4e1f4a8108754c281bdda85011d7ee62956433118853c7806e7, 0xee8f3bdad0eccdedfe66d4e9e23a7f00fd9ce47475b69989de8831d0b120ad3, 0xb73343371d004f5a42ecea91a3393d7cb81e3605298af3290b04ad492b9583a, 0x42fdb52b786833e561bc3bd07c8048cd3d6128e0be0041d39e27156fbee785ae, 0xdea96248491cf553bcbfdba17be5b9a668da927458760a2a73a4ff24790201c, 0x3950c9c9a4d0061dee4187c979b07e89f53107861c191707523eb64543783fba, 0x469441e9112634ffbfca2f9ed47b545d1e0898a770f6e92418b643791ca52ad7, 0x120f0709606ea1b4fd0b65ecc85c98f43e1d0ed5bf923adcae06d905e521596f, 0x5d7a87368d1e7e9c1cc68d29d38eaf175b7ec1ae77d9792bf3257a48a448a07f, 0x6b0e7318542a22770515c28d284a7550237949faf8b57e8f02fba9ff3d3a731f, 0x29385955f266737395f3b8aaf4e295ad333ee98118122984a9c176147de7efd7, 0x2bc517c6a14fe97c13c83ff85989464c45fbc1d5694a179dff09430ac13f3756, 0x70a2894528ada08062267cf46ec4306a782a86e19b564a779e4081c7a9ecfc0f, 0x52469f009b4902675eaf0597d1e5ee0c5a8f72a7edc0f9f000e50c9627e6eddd, 0x2cdebc9ea22f6e27e1484b2f591eab46a0c289e46b4542f2b2d7b57243d092e8, 0x32b33b3878932d3be8b8f736c6521dfbe320bca0881d6855489fc73cc64edfc1],
    [0x6217dc5a0f85429f8dce7bb808267bb5bd02ed3d9d88753a3b13b13a3b13b13c, 0x72d16bd1185137cb304716b0f13376f69b7075e9fbe4b07ff380d5966b4bd51d, 0x71ee56a3db05a763b465ec2e99f3111d905652ccb1e47eaf9c245cc1e34c063e, 0x490615c99d7594cbf4b2eef3faf1022c47904d97efa9fc8690b67d317164bea2, 0x3490c06209b5b09c0d331ccce53ea219c831d8af40d5979be0c6cc95abead615, 0x61eab17ac04c0d3651f60792b6984764c13a341afc87af4ee0f18bccbed87167, 0x638b29190c5671181a1d87569cad68a8610ea207496faccfc1b84f1eedd38985, 0x6833f65eea6313db22a05723c9768a8a3c0056f9373c64222b867c9175b05c5a, 0xb831576732c93af7756f9c89508be182e0efc170fc51be9f602c7e01a504b23, 0x2167a43f541fa2a57b6e736da988edd9775933a75bd2f48261240d72b261b20, 0x4d380c807a8dceb395a74a852dc31d1b91dc905841f7c230ed6bdfe0cd84b07e, 0x390a5dc0dc3eee1d3719642c83ae061318daf3b4d30775829bfb11ad91d47cec, 0x6cad11057aad2231c165a4dfd97ac310e1b914b36acd9bd30ad63c7c02659dc, 0x75f2ce06bcb67576b3d09f8362366d0cbf45cd46daa4b21114e9257322a1fdc, 0x585d7ff4f44baf0652e45fb49b71446dcf47c2bb5ab296036a4850f97c1944c3, 0x350cd43f84597c2982bc58c4e9bc58bb5ce0cf7583f7829344471cb3183824f, 0x1263ab9b0ddb277bd668589723a1a9d0e3059dbebe09f7d8a6d5226010a061df, 0x47721f21963b0cdc2f6f5e53eea1d75ff55af60cab6f5251f7cc7ab4845d7065, 0x3dc70a9ad6edc1636704bf13008bccdecf9c3addad72ffab2a0d74fca0a54259, 0x1d5015e17356d971ca26199cbd742b6d8fdf702cef1f359e727f5764ffb37afa, 0x4d4c4d753b890753b7521ea52c60dfb2773b16f76d5e43dd5c91ba9628fb8e2e, 0x1b118c066fb0f82eee971c2da979e9dbb7f3185a740482088a48fc260d61c73a, 0x23311b1c10eebcc889415465c1859ecf9d69eed36b8b69a46b82f8280bd791e8, 0x37099532aacd49e754e007fdcc33031d7a5d6effb0666fb3a7511a21e789802a, 0x21e83de0f571509bccd455f00f9020365887f24e079af011490ffeeeb7b47994],
    [0x6217dc5a0f85429f8dce7bb808267bb5bd02ed3d9d88753a3b13b13a3b13b13c, 0x31d78ce95a937706149101db5e56dc75110dd474588ddfd76fd6b8863a33a9b9, 0x5d1ab5d5a42daf771854bcf3262180564e8d69babc4d206eb4ef7d11236309f, 0x10602c222bdf089a920adf33cd060133a27462b9663b2dd657f5f8cc9e61b0b6, 0x67c81bbdfd254dde4840e0555f25c061421db09d96c579f554fba6d77eef4d, 0x7003d2d15b4d28bf5477f17bea6bac0d5c5240811be7ccb109601b9445e6b7ca, 0x59281bdb2b3a3e6787045825e4628d44cd4c833eb0072be8d2f4c2beb9095fe1, 0x37e5fc9b2dfb0b86e4fa2fd84b6c8b1f86335a76ea5d5e5bb1e43adf262da1d9, 0x6bc40b82ae7527add619152eead0085d249589d05c2cab5e029478245d6d353c, 0x722dc522ef17460d6be38183909e77214dd4d3a981853c6a8dd21ec4ac898718, 0x1cfdfd06df2bb1a9afd99807ed5ab07cf31011adf7d3294b20b20d7fdb4d8be7, 0x56c4a667eee79fed3b2e0fcd1e5952312327ef3d3cfc50dbfd63ce7a5b93ddbc, 0x394f316b6cd51fdeddb2a7902260706a325690f45378ced5b3c3f3d944eae13b, 0x2ab49d9621fa232d083a9b21bf22287a6a5757da2361ab43c3a0c66c7ff8b9e, 0x59e17633da865f4376eac700c0f2ddec35686d2cbc7ab0e023545d1b4d2756d6, 0x3ad97a5e128d5e7c02ab0cec5ec9e8056038ace8247235b87365cb6b5e2d71cd, 0x487643939beccb6561b4fab10a3e0d580abe1ea889cbd738a8f57d247b1aadf9, 0x58787d9a26d32ad54bd2feb0c2bf427d11b39841614b7fbe96a7743939d13702, 0x3f5fc460a62b4b5842dc65d7bc83b1d9c01c1ef429e3d0fd30eadeff4603178c, 0x21d5b02dd513907b0c7ca052957fd75ae38513aedb59b4acee7048fdd1e482bb, 0x4beb3f632c46e1e586fd3539c9963fa19012c2a835285a6ffa3c7ce4e66722fe, 0x261e7070bd07d9f42f59b93210d33280d941106682474a084aac7d3d551bf3c0, 0xe25772ca88ca4c4797f2a79f6242b191970dfd4c88631ad10225af20a99dc2, 0x410ba675f449f206ee7be9024583add7d9dbb4850a4e16aec426d8fa3ee5ec46, 0x59578d8164ed2b42e1cf6382c05a23aa75380aaa42f30be58467c9b0c45c5aff],
    [0x6217dc5a0f85429f8dce7bb808267bb5bd02ed3d9d88753a3b13b13a3b13b13c, 0x2ca2ee9b1ec2739f6f62b3ea7db4b207b1fa09c013accc6750fb26fb104f9cd6, 0xc7747d81c64e959baca6143f635f093fe56fcc2890c28071e88355539bb0aba, 0x5b0f613799602ece6f1c86ac59ba72e652b08dbac82786069eebbdf85e62fe3d, 0x45ae362abab6fe515592f0230e1890300b73d0e117ad4ce210015fa6ccf1f18d, 0x6ff289649605dc49b0da2a3b47414d3faca38c1a79f1ba58a96614efff18b3ce, 0xdc48d4f7485688758d0cc447204a5c7944ae5d44382b97c43f46a892564dc18, 0x177c8a574c993cf8d2478b35a5e7af8168bd5293a64de9a514d940e7abc70ce9, 0x39776f73c7eedf6f4ca532a141e382b0fde003127aa79a7649747be6b766d5ae, 0x5fdfb6e40ba192e8d2067d323b8d094795cfd8debca6b5a5c53289e131306d10, 0x3af0e13475f94bb593155eba5eed8b1437868b0f4160e454e7b5ab543dc3ebda, 0x3d1ffb5b34aa65227507520b449e5084a646fb5bb503be96de1e40370481e6c9, 0x611487b07e6277faca89171950794ef7f6422520019effe0d50d60285c010381, 0x844f120753150bb537b3e72571e9bf9db661faabcbb571b13403119b9ffde38, 0x29bf647e37c34fcec47eb8b4e1d6918c9decc29baccf2833b1991cc04faaec6f, 0x3fb2f98d545de9640dca1b598599570f830a3b665925f0445b5b36d80f039d26, 0x224797b39fe594a376c48319868ed41f8e391fdb5f614a7097151247a627656b, 0x685e6f1e1e14f02466f4ef1d436b5f2a60015c3e86121aa3a922e6ef90173c76, 0x57cb12b2beb84ec246426adb9ce522a725b5bf9df2aac0c7dd7c970cd46281b6, 0x3bb57c1541f64f8627685b1c456a606502b5a24e2353760d18fde256d5ea8551, 0x21bec0aa834caac7ccb2adb371fc497c737adf25918e26364fcda20ce6415b2d, 0x6eea295444bb36917e3cc9713cda9df4fe223c717d6e2260c02524813f087ce3, 0x4e64d7c70f3ffcf5ea4e88da8118dad8c0ff93ab0b53e13328f5e29849bb31f6, 0x38cdf075586755752c17c7e0d6db7938445606d0c3731079474db437b323b646, 0x12c961b7866fb9f26a0219151ee89d52d525f7a00ac3d6ff519ade59dfcd3fa9],
    [0x6217dc5a0f85429f8dce7bb808267bb5bd02ed3d9d88753a3b13b13a3b13b13c, 0x30cf20b67a069bf0db862277e0e620d2aad868e30529d36f56dc6412c0da0a67, 0x62841c455b158dbe4b0f05eac5d04866e52096cd46b98325842d4944385b3e7a, 0x5c68b6c290c14cdb0389fe62d706437e5c5c5127260c3e2d869870039e533c4e, 0x3a342d0349d37aec3273cdcb933b2d085933c3c95537934009e360559bc8c699, 0x1349a83ce542272883a24dfec2cdc4a35011eede03f44314fa8bac55e0f9bcda, 0x5e62e3f47ef46908b100874945a0fbd4ec6c7fd7fc5464b8a29767c3459dafc5, 0x354d5d496077cf05623c837d6e510e5e655fe73951caafcb4f0f0c05289277d2, 0x4f892aab67b66187cf77db014452f67e492012f563e3e305f70b981cf26ee4c7, 0x19fb8d4bbf3767e6499c91270ec2f2dfc2d60a0f119a2ce0303aab21e21d2d50, 0x199b03d8e49861310b69f830d4d0f5f29b201610957aef96e43a9b95244e93c9, 0x1c74401048d3c4965e748702683e2d062915d18a9d92cdbcee5104acdffb5cfc, 0x6fc2f5cc684a995a7c7a7fc7d085fae35ea3da8f6d5f5ba2e1651fd202e63168, 0x58ad0831a51c7b5f81060298d5d9d5b46f06c9c06fdf9cab494b26bcd39b456f, 0x6166c81e23137c393cd8247bb5489ca29e01516a8a6f1db92538b066d4bb7370, 0x379a0e3e41dd5cbc040dd4be6aef0f4289a550b90dd8eac4d539848e4fe62d02, 0x718254126407914cd4d9ed542936f1cc6581f1bb707fcb5805cddcab4d1bad2b, 0x1adcd5fad934886ca6004b7b5fceb2c9f7afd844a0735cae64577689ac4f34ce, 0x45fa05749fe46fa34627517ae9cc8e2463c7bb9d8ce1b6334aedd79cd0aae139, 0x4fdafa072d86d5d5e8da7e99d6b4c89e2c52e8553261b876480774e26e97d536, 0x3286681d59c5e1ea768d2bc17cebed80e52134794623ba5c878e55abec17f215, 0x27b9029e920c1b67cdb5bed2cd5f51da8f2fb04378245c1be93b2944f089a7a1, 0x5feec1284c3b64dfa1b6640d1e81485bbb85e3b01428742306c7d89a8694877d, 0x36f62bd3fdd1b0152af03c8b750c09d0ce21bb50ad34d7ff40d04399ae3002f2, 0xfa8e5aa5bc84b0554e6e31f5165197d7884ad33f764f84a67e9c4d16388ea0d],
    [0x6217dc5a0f85429f8dce7bb808267bb5bd02ed3d9d88753a3b13b13a3b13b13c, 0x51a69fb66ce754a63c5bdb44cbe9067b91cadb6dc17db0e3a8845895c3786bc7, 0x52465f901a0b97ede8226911128f23a6544dde2c5d00a265b17b00ccd888f6eb, 0x3014f946a0ada79f7de8ef9ebcc0adeadbd590c11cfa504bbd3744f02fb303f4, 0x1961a8bc9ee021e95e267bde9e351910b43439293a29db9740dc79b033364d12, 0x2eac98e9c67bd4f957f558b794f0e8c9877bb3019bfa0debc32f17016a6422c2, 0x1b58837fe328b7bca8e2e2c10dd1cfadac87101ef951d20b1c0b639faf522dfe, 0x546f9f399a7206e4e19e7817c5b0a6e0aab9b5ab6dbc1fd6d0fa9aeead9850bd, 0x361182858652b217ca9164eb2c5191ca6300ef934ac9ddc179e718bc9389ef3b, 0x67649016bbbdc118ee37e00f491de0abd062d44a6e967f67358e5eec26ca4be5, 0xfe7222639004338b1ecc6369025c4ea330d4d0fa96bc1cac94cdbaa409d9c79, 0x31cc64fa3bafb73a40399710a2309e616f776332bcb23b7d76808ba10db53813, 0x4a1d9785a2e7286a2e77d865aa0e003edc591d3b9680662ce74d3962c7c18551, 0x3f35dfb3b60b3035afe877b717798aedd9ce690daf7a0d0cff5f2ff5e32efafe, 0x59b47cda8677dfcb700a1c8d6f0ca70bbf799a81c738f971d4c029cd24f10ad4, 0x3c3bd120fd252c1e56fd80da677333e1feec502f14674590fe7ddebeb20c65b9, 0x50d975c396383081e12efa392d07842efef98c95693553ceb8b32ef185cae3d9, 0x6c016e11a4eea5b2672dfde7de712eacd0eb0a4c2990d876277775c12095f110, 0x29029a525eb1441ce285fa20724263b79e90f316d72b02cea47e60b9da1b7ff8, 0x5dcce8488fa93504ad62c618d505d96e96b399fd4d81411358c60ecc4a26a29b, 0x1d113cd6ce93b723be16c6c635b3d17161a3ec4a0084e3f2d85ce639940ac91f, 0x63b07395b537bb3d2f52df0f5540649ac035a3de20551d739555672ff58d6674, 0x6518d6c0a688c1406c09d0f6738f600b883f074d764752c602b43b1244cd2f5b, 0x4c4837435bf4cc45a277201fdce3162cf6a53ea3bfe6d1c6d347b63597c3b022, 0x18583aeab7c08ff9719bc75f6f01a6eb78ff7af02d2c8f8b778ba952a65dceda],
    [0x6217dc5a0f85429f8dce7bb808267bb5bd02ed3d9d88753a3b13b13a3b13b13c, 0x21c2d26fc4aac0a859c199d2c966617a7b319e1cd91641f4adb5ea7cd342c527, 0x30daa60a7bd97c282ff0f197847e3dcc1104509724b30c972a1e0dd1f3805197, 0xc4b5bf8899525a3bd75c50cbda0941d45e9399fe4ba071bfd968ab8fc6aa9a6, 0xdb9d774a2f7b5219ebb34c77f7b134f3c4e7131967dea90b4d9c33168e172b6, 0xbf9e259b6e8facc7ccb64993a89e4939b0e223b73cd83bf7d3324eedb1b5fd0, 0x2eda5e7d6c34e5d46a5c64afc2e604ccb52c6c280c9f88b6203bbd202a12e6c6, 0xd16bf2a92b25bd310cd6cad3ac6c5ff748962ab75a4135a0c8826fbc7e6752a, 0x5f3932021753c947eaeba2200247e684d647f85560b2263c124d6cab78112565, 0x5ff1eeb7bfda13d40af9f1658a1f022c95dd15674969f2e7abb7fc4129174470, 0x1d70b31e993455a33d01836b07302027942e35f558cd013c7b3b81d585762434, 0x5ae8c94f2862098216ac1b0f8f17474213920b59af9a5399f98f65d76a4f334c, 0x1512a1c2910febbdee777a7af1386842c2890929a74d3355a0b776cbc54e0af7, 0x614e88b060b0b38f814ac251dfb789733813784ec85eb2039dfcb2461e70a083, 0x657a8f737513a9c2080ed3e4b17e24503439cb6d69d974a4c9a6ee16eacc668f, 0x6c9c7a064947a14610f5481809d268ddb5249f3ee6311864de0e7ae1c5b1ffa3, 0x71d6af0026b0eec4700b72e68699329d11aa3264fa519eaa757e08ac559dc289, 0x275330d7a691b217ff765d1eae058a71c10e2ea14a3027072a1706b77bc36755, 0x71279fc137fd4ec672fd4ec8f27ef12c64eac74aeebdc73c8f6908ead0e37d3d, 0x4358b7bd2a41df17cd5798468c83cac5b91cbe93bc28c57a96a0b758f2ef0ccf, 0x84f41145b13435e64cfe73071b3f6023725ed916ff45be49f043dc526b7cefc, 0x603bd237d1f84ccc8c7ebfbae2a565cd023b381136aeb1483446bb40503ba49e, 0x1c0c9b18cd3738609848b709e676653d8db9c0e5c21659af23c9cd0334412e47, 0xc5895c204c850e69f5930e58e363082ab65dd85d4589b18932a4070196b1721, 0x370d5c7f089a977fe18be7728230d20ffeef8eaa7a2cab8b5d29ecad7da5d190],
    [0x6217dc5a0f85429f8dce7bb808267bb5bd02ed3d9d88753a3b13b13a3b13b13c, 0x3ea9218e7d84c2c2580f87cb8b07f989a71c63eb059a0befe6d82715e9ea465e, 0x1b565fff7c5b211c4ac8e5016d81d4d50da3e00962e783ccf71a06c1b313181a, 0x30fecbb41b67532f17fcacf2cb3f3bb46c6509d64f233566fd2cfaa2ec909c97, 0xdfb6594218940f7d8bace9730db3b679f0a4437373fd2924e4f51bfe5a9e57b, 0x2dc9e9cdfb47ea9ec364eee1d8a8623aaaeebc188273b5d177968c3985756ba3, 0x5a10378a9a302bff2e90c6a96575686f02d6aa17b54bb5f4c2034d937dd6e1a7, 0x6e0b8b85fa5feb1d1fadd1729bf7ccbb13a1d5121c440b98d49ab71337162f3e, 0xe4dcc51315b618db68519839291c57d80f6b28ef7ec71e46bf06ba8edcacca, 0x6cfe7f7c348864a1025713155a95ce3c84b193cf03e482b7a4cd277047d00ca2, 0xe6583b77345a87da64361df56fc9566a3f749d2ee6de2f9d9bb6cc9b90e4ee5, 0x32110c4cb4516738fddc18042ee81bb4d51abc27564b375d4931ddc89ac397a6, 0x1e5efaa11817ac01a0cc2def31255572af451e4ae51ee157fc0fe5dbcead9b3e, 0x6a73e955d5ffa2c91cf2e002dda8f6eaac2ec5a6abb269e95237643aef7ab730, 0x211fadc4d0d64cbfd02445be091703a46f3cd63e513d6cf40c28bc17813c137a, 0x46f9534f7c229e9318e75f63ec17704428268453c3d957be34020159be4e83d3, 0x6fdbd5ccc25abbe71b48d94cf3d7750bec09b0888724165bea7a8d60e3f30832, 0x7298ed801fe9dcd499656826697436807f98e70ab8c28253766b1aeb9e538d7, 0x5794f28e5fd61a9cbfc0f056fe83f225b6f6602d7eee8bbe9d63a5ba4accd275, 0x4e35e59ab562d7033909aad1a1bbbf32ad19ff67e4190220484d049843e4e103, 0xb32d5f4c9d79a52aa8dc8a3446ec7ae073daffe6ffc342c6aa15cbb31799ebe, 0x57c1a52495cbfd4d331b929ae799d4c451ec16bc636c15763e6ab8f1086ec50a, 0x60ed4fc6c04c6a2e5d3e4e77439b66b96d5fe14309a06e64f8cec09424233985, 0x1be5639a87ea0857718826ffa7046d9a4c682315d2d37adb7d08d32c747ea66c, 0x53412ec8f150f9181120473d1bba36409d519d4cadb57b13980226d592cb3797],
    [0x6217dc5a0f85429f8dce7bb808267bb5bd02ed3d9d88753a3b13b13a3b13b13c, 0x505822fc0b2881146ab7a178352e1548b3c9a0e06909301a00f8c91141332d3a, 0x28bfcee5ba65ee61cfd2528b141a041fc95710b7064d785e22e6158a3a6a0564, 0xef96deeaa00ae3317ed5a4eec98be375eb47dad652cf1c1948479d124b8793f, 0x1fbadd05416da7b8342a03475513796915cbea13ee76fe2c0ecc1a66324c4cd6, 0x6241cd8356080681f1920563d93204b29c2abf11eb95605446c0e4fbb6eb03fa, 0x692cf88f67f72bd536c4b43139e2fb4f7b00e8e339fe8d91f1f1b13687996918, 0xda972773ac6be054bb2590718c9194bf9570bbe2d0daf32160e17691198a619, 0x1563ac6b5b710669e23d049d2e7641038be99b65c75338695fb466d6ed34b706, 0x1211d4f62f2fa003f1bd2899c9b5a4f71129530c28d466c1553af40056a7febd, 0x2d00feb6a175b1a5775b3706637905d53805788fb82073d5af9c1ffaa8e7719e, 0x2031fd36ca667efa45c08c1de5139d420436d8bb32fcedc039075607f0e331a3, 0x37dd4de86616463b193f1f12d56bb2b692db103f96d4c1f05f58335253cfe56c, 0x8b9ce2fcb67bd198db6dbb886d6200b7fa6b84044f2defd05426f644fd7619f, 0x924b2342c0655dbf8e18d59f5672dba44b1da785d862b42356e01e16d273ce6, 0x19a86365b403cd6ef55257e6bb96b4f389d52beb450ce5363049f3bf4b7ce63, 0x63f4dbc7a348c6cdaa3535833a9561385acc1a6901093363437201bda72cf8be, 0x270e6d42038d405819b5cb22d7b06b07745a2ce61edd5939712dc2546736c318, 0x234c94cc972f1499db8b27cb0b5944063dca64825347706dc629048b5e30a45e, 0x6f5b2df22186a54ea5dd6f6d1dfc7fc2d9563c2552d7843fbe1aefb6a0d58b9b, 0x640aee2ece7f995549a9f141dfc4c489d44f77158039f27beb1670c360619f3d, 0x2f50bc69b8907355d5ced7c65e67a5c7f7841ba4689d59ec25137bf8b86f37b7, 0x51483a67fce80a0894a0068e4056e6fe749f0ec7ff9eac95b2fc5c9a79ffd553, 0x4afee0d21e406ecce0ed7b0e45420a9163b489d8cebb04d2c9dde4977b224c6e, 0x34797800fc3daaac74b86ac5f5281d899dcac9628c96e53a998f10d407227ae7],
    [0x6217dc5a0f85429f8dce7bb808267bb5bd02ed3d9d88753a3b13b13a3b13b13c, 0x373d23b67c88cedc7b360cda4918c2673a26045cb0336a288bc071e19fa1e27f, 0x6b0829fe6c9421fb3fedcf51c5845669bfabe939ddf4fdba0fb9c9dda31efd77, 0x313d78d304f9c2e5e5f002e4e2e46d81ef69fe7bab06329bf74fef66e569722e, 0x24b869674efa016305301a51608565d053a7878202ed313e6797610fb6d8330c, 0x3fd78edff0e2c6d9fe6477c0815e51bae190ed3bb28ef355a775d01850a7d12e, 0x719e6488caad86eeab26647f9cc580ea669101c57774f6a6b5436e478581cf9e, 0x104775ab612d000943078939b509503fa4a7d938aea2e8f8718aaeb16456e3b4, 0x1e0b1bf3348c5c3c83b7b0925e8d1a4790c44cce7cfdde2429512dfc8745904f, 0x3401920c483cf9d291eb5391fa30f27cde3e38505f9b7715c456c8467fe6ede0, 0x352001538ae967fdb22596ade6930d91d56094170f531ebaf72daefff6e85a08, 0x214200274c4cde5a1f86d7fc6627013a3426821cddd896549674b9a309a957a2, 0x26f0b52bd776b5898be6016a6f1c83876e81e0f40dd26166cf2a4cbeb3f8820b, 0x72099a096f0abf3c547ac8fc0fc1134ede64d75c56e8ac51b043a7adf8fcab85, 0x20a598bfca2edda47b53093d75affcd0e0a8eafb76bd7178b7dcbf03e84303e5, 0x623f5ec6c6433e7b99a3e0dfdfd6d351f6f32c8cc4786fe51e86c195e819ea26, 0x72bcad71e4d46014da625f7f99865f4a4df53dbf75a6f547c6179490e7efcf19, 0x2fbb309ef6da52e12032c1570e942251f202a576ccb0d249a838df53831cbd24, 0x2217b1b2ca7ed19ff8f09b1f48de72a9fe09756dc0328baf007a4bbb941e9616, 0x5d4b10c70bba11c1ab8440657f71af695fd068e373d0b6a992c1d4bcee85d812, 0x6a7eeb777794c4db25cc9c34a367a031674106e426615fd18fc7f490f371c73c, 0x3f383e7a9f6b0a818982e0d5380438a18f40918f81688cf90167d9a26ef034f7, 0x1908fb1fd934558f9081b1838ed81b8a1069c352eea3b566d4ad874684a21ad2, 0x46b3dbc7d304fefd3d5af7c99659f864e925184c5f6184f88deef181219ddb86, 0x53231e022da8b672b8cfe6c505f9fd52c307bc98c22506ba86e61e8e27947b70],
    [0x6217dc5a0f85429f8dce7bb808267bb5bd02ed3d9d88753a3b13b13a3b13b13c, 0x635e01e24f38a542a457f69225e7bc493073af618ffb9dda35971ca82ebd72ca, 0x384e826236779684a3a02f52f3dcfdc92ed84b89814c05c407544d0405a1213b, 0x2f0f8ef8e6334a3672d62ef2a7046e3b72661da586cffa7955f97ed9d3a90, 0x4423009514f21f6b5616307b55abdb3b6324f3a0198b0adf77a319add2b48e6a, 0x5203309a6aeff7c2f8e10d5a3e7380ae695d579a6f3e6ecb3141fc5377ffb88c, 0xa5ebe8b1575ed62622bc47dcdc17657db57cb236dcc87a1f39b9f9255fe4e0a, 0x559a77685fe0f0776a4218305d93e688320ba5fd1a6c69dd063ccac50dd199e, 0x2f05355d1bcc61fef2f1f24ea926add6a58e8350f653471e0638f61e4955b81a, 0x5ea1fc4edbbfb8da3d70d6d324d62d88b1846d15d5b02a50bfe878f01ea8737c, 0x460e82171e0314a3a3c5c008431d90a1dd3a41a26b8a1732aa31ffa22ef9b485, 0x43fb9e1abb0507f82def631486eaf5ed0ea9f4cc16a9056c2cf48629d7626040, 0x8b3e14c9575b1cfcba0daa17c6a12e746c2207160075498a1fb3f96062ea1a9, 0x5d43c7185dbef5e2a5de156fb6203bc370fd7e19450a66928c412544297b2278, 0x638b268db84d0d22d8b013b909db46a725d33260a275cbc5f28c6d8166bdbc20, 0x3e4caba077cf26b4ee82ac5ee488e5acaf34fb4f6e8eb1cea00a0acb10b15bb8, 0x628a1ac11d91a2864b6afaecaf37b13bffdb78cde8f882a7c79c55d594b9332e, 0x57145048ad22b83b402de38701d53a601bb7737a64945fcdab4a60fc9c5f5ab2, 0x22182ba277772a620e53de112afcd2cd19eed1d238e5b6f2df2e1ea7e3584b91, 0x8f7dde7896c20ee1aeb828a2f9eb6d1bf0f9387aa40765f6f983db9bc1af87, 0x58d5473424d00c3e9cb18d033b652cc0ab1d6bddc0d883190721f6f804c46de1, 0x35822eb115a3cbbf1fb29d92df7bce520976ddc6a04fdb8ba1bfc17ecf4ea4b6, 0x45b0066c7c4596ef125f1718f4070bb933b9ee67ca3c9a35d99296079372c575, 0x4d4afbd34db8c23d0ade23ae829d46c77870b524bd396d89e5d3892b91da1889, 0x1eabd90e8a47dc225b3c5a0ff2678d52af6ee71b45edbe89277ffd6401fc9eb8],
    [0x6217dc5a0f85429f8dce7bb808267bb5bd02ed3d9d88753a3b13b13a3b13b13c, 0x1c27a211271ac6edac7157ccf9dbb6f7f15d9b40, 0x246f433764d9b9a8fa281f50e6e88bc2f936dceccd5ceb431fc7ae617efbd999, 0x117095ce01e4fe90cf90d81191a10664f3cd726670, 0x4b033008a274f6b63f438b735734a39943bdc0902cc3162d8d927fe894740baf, 0x112469e9503dfbbfd95e6feda754a948945c81a53e0, 0x4aa74e6d0891cd1c43dc2f8922debb1394253f529c4bf35dea0da15b0c4047f, 0x241b41bf12aaf2b5cb28db2074ac1f5c947ed076099e99645b56c7187c7746d9, 0x2832b4135362335dfd27a02aad3970a6ec080a77a3569a014c6bc92a557ee8d, 0x4cb4579d0a36288c2997d91805eb4f83c07d5259e7cbff9072d1ac496734b7f8, 0x3157adbc4b1f4c2b9e4c2a789e225d881eb286a248bc934fdd0cbccf84e705d2, 0x41ca3cfb0ed4658f7dbae5a2bc85ad6b6f400c21d269a7eae272f9c99da86858, 0x4ffce6e0f82ea9648c3a842175dee7273716cc1fe3ca89686aa2fddc097ff00a, 0x7d1a8573afb87c9cbc015e5fa84e0fc78ea91f37cec243a72e516977cb67e63, 0x3986cd19d8d92d1ca6a5e2c504c46fa2c8cc0c2e8db1a1eacf19c62a40037be2, 0x4384f4e772f93538adc1d862af59be3f4795bea4b7207177bfb8dcabb5acf876, 0x60de066cd0e24ad9c9005fffff6c2c47310998e2cd87d035502346f8c0100154, 0x624d1f111ca4a42f0ef95ab75970a304704f539b0974ae6816f59e8dc5c79261, 0x16d37b691a8c090f58c4572d2bc9187bf7e14e3c36fb6f361bbeab741e6daf7, 0x5c73c5566820445e99706b1e29df9c36be2f5b1e65b28c998f4d60738e50bf04, 0x6906c5d628d8526bc6f4b80ff577d550ea5e2e84f307883ff75888c48bb11fff, 0x1b9db60afff2799263ba3b891ac05ac6255ff55c377c27cc5218cfc48aaf2ea7, 0x2ae2c77f20d00782395ca591de5cdeca91ecd842d7c43d332bdeed8ffdab15b4, 0x4689108806722cfc4dea98030600e0109f3b961c299a2065900fa55a4d9e0f8e, 0x4fa7bb9bfbc74ef090138f1291918754baad5c442cda671dd26fd29852f1bd4e],
    [0x6217dc5a0f85429f8dce7bb808267bb5bd02ed3d9d88753a3b13b13a3b13b13c, 0x52ce52f2424bebc5db7275bc992a75baa9877526b6dae8e5fd04a43f8ada559b, 0x6d4dc9a62e8d2cfaee785df8f32391299819343d57b7955f28507a5faefb897b, 0x6780f1b76577a2532fc861, 0x6d1be8c6bdc166da8a90cb52dbe39e2321a36d2ffe026646613d7ad183006c40, 0x1b46fa31af7059b6a2a432d4b6f8e788c868db4c065aade6347a3303d11b9388, 0x954e9cda11239a3887b8aa7162cbaffa2e080eac99bd4dadce079d7ac857276, 0x2e3a4f16397dbb127cbaa6fcb4be14841b0d535060fd14311c3d6e272cc2b6c4, 0x3c8daf42fd47d87af8733ecbb30e906cc2ab2e0a4eaf29484e1eb7e64560fbc9, 0x59c7722f14adef7582232c1d5286f6362badcfdbe5239976674b1d7c5ba6e62b, 0x6c801c4f976cbc235ab54247f644dfdaceab0bbc7a1612840aaea571c58a5db5, 0x1a435015c4e33d2ffd8ba3c28d9affbae8cae38b86dfbc1865d3d41662462ecb, 0x10dc80ae819cc0ad3d6a6869c58deba83331e3e7b0bb39a98d474981c54d7c09, 0x197a8fad00b4e6157e995f4db8f95f4d207872d0d5cd0086d02d02cff4bf4bf5, 0x6152f9dd228274609c9dc3cb1106aeecd213644693aa84cf00bd612a91211212, 0x455e3a008baa03f4b9a1828197e9f497fdc443dce1ae916e88dfc6df6309db49, 0x1fdcaf3de3328744f2fea63c3a204c4a1f2495338c92a8e2c8687b524b514231, 0x2d1192d5bdec8cc0823ac03aa42e5869b54788d223169d78f485a5c90fe16efb, 0x58e5202b3159d3873e1a41fed27ad2fe296367a2198b0536359a1cb27b57635e, 0x2e1337a43707f5e6e09b5d026347af3d0a4a1a543868f54018affb576a682949, 0x471df307dc9826b8133fe67c9b17705fb0fbf411b17edd950c51f30e93f691d7, 0x5d510746de40a472fc2ff048b0ddd0000b495400afdf890979afd26beb42e960, 0x54c30121d5fe9bda2afdd27cde08d5a3cce68be88cae64ba3acf6b83ddb219a, 0x35d9f22709b883fd093dd687431d33787d48f32423771d1ed85a01e7b74354da, 0x1bb3f0ead32b9bee2da61ac980a82f9e0041deb94459de13acad1939adb00b4a],
    [0x6217dc5a0f85429f8dce7bb808267bb5bd02ed3d9d88753a3b13b13a3b13b13c, 0x423ea8c1cea32304af8ec496e0eec495546c5db892483491b6db6db649249260, 0x3eeeb9eb511afade0d2e078f55afa127769a25d5be2afebda0ea0ea05f15f083, 0x507, 0x3bab434cafc5c43f83c72f3150407a7b36655fb63fff27d24f0f0f0e8b4b3800, 0x2218b8be1b4c70244b4d3f89e4b7216afa83121effff84782d2d2d2ce1e21557, 0x21bcd7228169468a4fe608f99ef07cafea66be64bca134ed7ad92a014b4ae959, 0x3bb90b8a6d4170e3697d10fa2784acca78d005defd4d4d5a503542bb7b7c01d0, 0x3945a08fc77412fb227a70801088ae50c1a83087fe1270064ca71e74946f59a7, 0x352b8e2fc42b5c1b57036ea1856153adc06473a4fc25be677b301ecb92497f31, 0x4f0dd9ca93e250bf005e82e9f2a69a56d16a79375acbea60901c1e75a6f4b53e, 0x53d4457171dd160d8b8f2c5323ab8304701affadcff570cd7b9b3d81e9bd42f0, 0x6cae4a79bc414d4355b9f1127a657c8e4ef96502f9f8ca904c0fd7214c21d4c3, 0x4a867dda0877876545809d29bd0c9d27fef9e96fa4913b23edb6db6d12492493, 0x3dd414f92742ed7bd70dc88cd1efeaad81febddf77769776eeeeeeee66666667, 0x6caeccddf703a573b0063a878907ba84fe81c9c2cffe763f0fffffff10000001, 0x1b46fa31af7059b6a2a432d4b6f8e788c868db4bffff9d2cf0f0f0f0b4b4b4b5, 0x46d8580827a75ac891152076b08d923c24f3e43ab8e28d8d9c71c71bd5555556, 0x6dd3abfdf187ba0e815f38736770e79941dc14a486bb13c9286bca1a00000001, 0x1163a5e6130ad2cad47be0679b0b7a00cc8fa566d9995a99733333330ccccccd, 0xb0a7175a27085d61d427619257d20c38e120f9ec30c08c2f3cf3cf3b6db6db7, 0x6ea8ab5b04d08339482b9407ac1a7cbf444c4b1a22e72944dd1745d080000001, 0x64cea7c2c00361cf7a7514e599124c8a328ea4e137a587a61642c8582c8590b3, 0x6f1915afb28c42ba866cc45d093b19afc595bd2d8aa91829b555555460000001, 0x6aa770fa96ed0cdc062af9f2ea24419e803dd454ae12f879f5c28f5b3d70a3d8]]

/-- the inverse of the matrix (not in the code) -/
def mInv13 : List (List Nat) := [
    [0x13fbe125d9650, 0x73eda753299d7d483339d80809a1d80553bda402fffe5bfeffe42a4e8b480ec1, 0x1139052e9e9d460, 0x73eda753299d7d483339d80809a1d80553bda402fffe5bfef9b88b70ab8153d1, 0x1819caa9d35eab7c, 0x73eda753299d7d483339d80809a1d80553bda402fffe5bfebfbb38e4cc58e161, 0x7a5601badb95b150, 0x73eda753299d7d483339d80809a1d80553bda402fffe5bfe583997394091cb01, 0xa4c7700b5c0318a0, 0x73eda753299d7d483339d80809a1d80553bda402fffe5bfe8ed1847da986ec81, 0x33ab7b2a59905140, 0x73eda753299d7d483339d80809a1d80553bda402fffe5bfef1e881508a7b8cc1, 0x1bceca32b81d430],
    [0x73eda753299d7d483339d80809a1d80553bda402fffe5bfeffe42a4e8b480ec1, 0x26f7f709ce51c00, 0x73eda753299d7d483339d80809a1d80553bda402fffe5bfee7c7d0b570f2d591, 0x8dd5941683a5c800, 0x73eda753299d7d483339d80809a1d80553bda402fffe5bfcddb763a048f37bb1, 0x5b54435b20faf5a00, 0x73eda753299d7d483339d80809a1d80553bda402fffe5bf41abd72277177cee1, 0xefadba3f1178de000, 0x73eda753299d7d483339d80809a1d80553bda402fffe5bf0410fca9dacd05781, 0xa2641560873348800, 0x73eda753299d7d483339d80809a1d80553bda402fffe5bfa5b97ef30f408b341, 0x144acae6bdb47d000, 0x73eda753299d7d483339d80809a1d80553bda402fffe5bfed7e483bfb18706c1],
    [0x1139052e9e9d460, 0x73eda753299d7d483339d80809a1d80553bda402fffe5bfee7c7d0b570f2d591, 0xf1c9a472c9e43e40, 0x73eda753299d7d483339d80809a1d80553bda402fffe5bf9731fd478e250f101, 0x157188d09335359988, 0x73eda753299d7d483339d80809a1d80553bda402fffe5bc57b219449f8cd9761, 0x6e1137d796761172e0, 0x73eda753299d7d483339d80809a1d80553bda402fffe5b6754102415f1838401, 0x959c622a505328b4c0, 0x73eda753299d7d483339d80809a1d80553bda402fffe5b97d4458fbdaceb2741, 0x2f455fa9a8a2cee780, 0x73eda753299d7d483339d80809a1d80553bda402fffe5bf210965a67b2fdf201, 0x199ab07620f415fa0],
    [0x73eda753299d7d483339d80809a1d80553bda402fffe5bfef9b88b70ab8153d1, 0x8dd5941683a5c800, 0x73eda753299d7d483339d80809a1d80553bda402fffe5bf9731fd478e250f101, 0x20b7b028fba1813000, 0x73eda753299d7d483339d80809a1d80553bda402fffe5b803ec0846b53b21971, 0x154da7b61d1f1c26c00, 0x73eda753299d7d483339d80809a1d80553bda402fffe59714466c17998147c81, 0x386b3e03e3ad94f4000, 0x73eda753299d7d483339d80809a1d80553bda402fffe5882e03b627ed73cadc1, 0x268460e90e25d7ff000, 0x73eda753299d7d483339d80809a1d80553bda402fffe5ae42e9e765875c34601, 0x4d8138bf865879e000, 0x73eda753299d7d483339d80809a1d80553bda402fffe5bf565fdd3b2a477c241],
    [0x1819caa9d35eab7c, 0x73eda753299d7d483339d80809a1d80553bda402fffe5bfcddb763a048f37bb1, 0x157188d09335359988, 0x73eda753299d7d483339d80809a1d80553bda402fffe5b803ec0846b53b21971, 0x1ec4e8fb488faee8f7d, 0x73eda753299d7d483339d80809a1d80553bda402fffe56d0240c6e4c19fafb39, 0x9f6174409cbdec3909c, 0x73eda753299d7d483339d80809a1d80553bda402fffe4e370e021cca01b5c661, 0xda4aa73ab2cc88c0af8, 0x73eda753299d7d483339d80809a1d80553bda402fffe528e6c0e933ff9ab6621, 0x456a641b490aede7a70, 0x73eda753299d7d483339d80809a1d80553bda402fffe5ace36d6b241f97f9621, 0x25ce688e6ca8687324],
    [0x73eda753299d7d483339d80809a1d80553bda402fffe5bfebfbb38e4cc58e161, 0x5b54435b20faf5a00, 0x73eda753299d7d483339d80809a1d80553bda402fffe5bc57b219449f8cd9761, 0x154da7b61d1f1c26c00, 0x73eda753299d7d483339d80809a1d80553bda402fffe56d0240c6e4c19fafb39, 0xdff89b0988eb3f0bf00, 0x73eda753299d7d483339d80809a1d80553bda402fffe410ac10ba940c3583c79, 0x255ace95ae57059ad000, 0x73eda753299d7d483339d80809a1d80553bda402fffe36f4a63af681f0e769c1, 0x19aa9093c4f4fb75ec00, 0x73eda753299d7d483339d80809a1d80553bda402fffe502f0c01cf886f2e17c1, 0x33ee591508d70c03800, 0x73eda753299d7d483339d80809a1d80553bda402fffe5b97cfa36027bee2e9e1],
    [0x7a5601badb95b150, 0x73eda753299d7d483339d80809a1d80553bda402fffe5bf41abd72277177cee1, 0x6e1137d796761172e0, 0x73eda753299d7d483339d80809a1d80553bda402fffe59714466c17998147c81, 0x9f6174409cbdec3909c, 0x73eda753299d7d483339d80809a1d80553bda402fffe410ac10ba940c3583c79, 0x33fdcec3f5d31202be90, 0x73eda753299d7d483339d80809a1d80553bda402fffe13d3d8ff17be9fedfa01, 0x47aada49ca31b4bc90a0, 0x73eda753299d7d483339d80809a1d80553bda402fffe2a4487e1b26458cb86c1, 0x16ea644af469c63ab040, 0x73eda753299d7d483339d80809a1d80553bda402fffe55b1299ee232720af901, 0xc8a525e177e22a55b0],
    [0x73eda753299d7d483339d80809a1d80553bda402fffe5bfe583997394091cb01, 0xefadba3f1178de000, 0x73eda753299d7d483339d80809a1d80553bda402fffe5b6754102415f1838401, 0x386b3e03e3ad94f4000, 0x73eda753299d7d483339d80809a1d80553bda402fffe4e370e021cca01b5c661, 0x255ace95ae57059ad000, 0x73eda753299d7d483339d80809a1d80553bda402fffe13d3d8ff17be9fedfa01, 0x645315ed2857c7a30000, 0x73eda753299d7d483339d80809a1d80553bda402fffdf83b3c322a73237a3201, 0x45501a2ee22d834e4000, 0x73eda753299d7d483339d80809a1d80553bda402fffe3c04843601896b90d801, 0x8ce98d6a7acb4308000, 0x73eda753299d7d483339d80809a1d80553bda402fffe5ae666089e2eec212fa1],
    [0xa4c7700b5c0318a0, 0x73eda753299d7d483339d80809a1d80553bda402fffe5bf0410fca9dacd05781, 0x959c622a505328b4c0, 0x73eda753299d7d483339d80809a1d80553bda402fffe5882e03b627ed73cadc1, 0xda4aa73ab2cc88c0af8, 0x73eda753299d7d483339d80809a1d80553bda402fffe36f4a63af681f0e769c1, 0x47aada49ca31b4bc90a0, 0x73eda753299d7d483339d80809a1d80553bda402fffdf83b3c322a73237a3201, 0x6355adfe9a24a34bd940, 0x73eda753299d7d483339d80809a1d80553bda402fffe16e6591943533ab46501, 0x1fe9fa81d844d39e6a80, 0x73eda753299d7d483339d80809a1d80553bda402fffe53329acf8dfc36fc8c21, 0x11899f761d013ded060],
    [0x73eda753299d7d483339d80809a1d80553bda402fffe5bfe8ed1847da986ec81, 0xa2641560873348800, 0x73eda753299d7d483339d80809a1d80553bda402fffe5b97d4458fbdaceb2741, 0x268460e90e25d7ff000, 0x73eda753299d7d483339d80809a1d80553bda402fffe528e6c0e933ff9ab6621, 0x19aa9093c4f4fb75ec00, 0x73eda753299d7d483339d80809a1d80553bda402fffe2a4487e1b26458cb86c1, 0x45501a2ee22d834e4000, 0x73eda753299d7d483339d80809a1d80553bda402fffe16e6591943533ab46501, 0x301dc01ea533d8b17000, 0x73eda753299d7d483339d80809a1d80553bda402fffe45bfca434911645b0d21, 0x623a82bfba822db6000, 0x73eda753299d7d483339d80809a1d80553bda402fffe5b3b063ee8617c47f081],
    [0x33ab7b2a59905140, 0x73eda753299d7d483339d80809a1d80553bda402fffe5bfa5b97ef30f408b341, 0x2f455fa9a8a2cee780, 0x73eda753299d7d483339d80809a1d80553bda402fffe5ae42e9e765875c34601, 0x456a641b490aede7a70, 0x73eda753299d7d483339d80809a1d80553bda402fffe502f0c01cf886f2e17c1, 0x16ea644af469c63ab040, 0x73eda753299d7d483339d80809a1d80553bda402fffe3c04843601896b90d801, 0x1fe9fa81d844d39e6a80, 0x73eda753299d7d483339d80809a1d80553bda402fffe45bfca434911645b0d21, 0xa4bccb46e0ca51fe900, 0x73eda753299d7d483339d80809a1d80553bda402fffe5926f3faaf2f3b25ac01, 0x5adc85be261ed0aec0],
    [0x73eda753299d7d483339d80809a1d80553bda402fffe5bfef1e881508a7b8cc1, 0x144acae6bdb47d000, 0x73eda753299d7d483339d80809a1d80553bda402fffe5bf210965a67b2fdf201, 0x4d8138bf865879e000, 0x73eda753299d7d483339d80809a1d80553bda402fffe5ace36d6b241f97f9621, 0x33ee591508d70c03800, 0x73eda753299d7d483339d80809a1d80553bda402fffe55b1299ee232720af901, 0x8ce98d6a7acb4308000, 0x73eda753299d7d483339d80809a1d80553bda402fffe53329acf8dfc36fc8c21, 0x623a82bfba822db6000, 0x73eda753299d7d483339d80809a1d80553bda402fffe5926f3faaf2f3b25ac01, 0xc9457fa9a364fec000, 0x73eda753299d7d483339d80809a1d80553bda402fffe5be5dc4846d515d46d81],
    [0x1bceca32b81d430, 0x73eda753299d7d483339d80809a1d80553bda402fffe5bfed7e483bfb18706c1, 0x199ab07620f415fa0, 0x73eda753299d7d483339d80809a1d80553bda402fffe5bf565fdd3b2a477c241, 0x25ce688e6ca8687324, 0x73eda753299d7d483339d80809a1d80553bda402fffe5b97cfa36027bee2e9e1, 0xc8a525e177e22a55b0, 0x73eda753299d7d483339d80809a1d80553bda402fffe5ae666089e2eec212fa1, 0x11899f761d013ded060, 0x73eda753299d7d483339d80809a1d80553bda402fffe5b3b063ee8617c47f081, 0x5adc85be261ed0aec0, 0x73eda753299d7d483339d80809a1d80553bda402fffe5be5dc4846d515d46d81, 0x32476f7253d457250]]

/-- the tables have the sizes that the code reads and load without a panic -/
theorem sized13 : (opt13.sized 12 4 57 && opt13.below blsMod) = true := by decide +kernel

theorem ok13 : opt13.check blsMod 12 4 57 (opt13.plainC blsMod 12 (opt13.plainM 12)) (opt13.plainM 12) = true := by decide +kernel

theorem inv13 : invOk blsMod mInv13 12 opt13.m = true := by decide +kernel

end Verif.Poseidon.Bls
